import Verif.Lemmas.FloatAngle
import Mathlib.Analysis.Matrix.Normed

/-! # The entries after one rotation, and the norm of matrices -/

namespace DF

open Spec Matrix

variable {p : Nat} {R : Rounding p} {ε N : ℝ}

/-! ## entries -/

theorem near_mul (hu : unit p ≤ ε) (hε : ε ≤ 1 / 2 ^ 40) {a Y y : ℝ} {k : ℝ} (hk : k ≤ 10) (ha : |a| ≤ N)
    (hy : |y| ≤ 1) (hY : |Y - y| ≤ k * ε) : |R.fl (a * Y) - a * y| ≤ (k + 2) * ε * N := by
  have hu0 := unit_pos (p := p)
  have hN : 0 ≤ N := (abs_nonneg a).trans ha
  have hε' : ε ≤ 1 / 100 := hε.trans (by norm_num)
  have hε0 : 0 ≤ ε := hu0.le.trans hu
  have h1 := R.error (a * Y)
  have h2 : |a * Y - a * y| ≤ N * (k * ε) := by
    rw [← mul_sub, abs_mul]; exact mul_le_mul ha hY (abs_nonneg _) hN
  have h3 : |Y| ≤ 2 := by
    have := abs_add_le (Y - y) y
    rw [sub_add_cancel] at this
    nlinarith
  have h4 : |a * Y| ≤ N * 2 := by rw [abs_mul]; exact mul_le_mul ha h3 (abs_nonneg _) hN
  have h5 : unit p * |a * Y| ≤ ε * (N * 2) := mul_le_mul hu h4 (abs_nonneg _) hε0
  have h6 := abs_add_le (R.fl (a * Y) - a * Y) (a * Y - a * y)
  rw [sub_add_sub_cancel] at h6
  nlinarith

theorem near_sq (hu : unit p ≤ ε) (hε : ε ≤ 1 / 2 ^ 40) {X Y x y : ℝ} (hx : |x| ≤ 1) (hy : |y| ≤ 1)
    (hX : |X - x| ≤ ε) (hY : |Y - y| ≤ ε) : |R.fl (X * Y) - x * y| ≤ 4 * ε := by
  have hu0 := unit_pos (p := p)
  have hε' : ε ≤ 1 / 100 := hε.trans (by norm_num)
  have hX' : |X| ≤ 1 + 1 / 100 := by
    have := abs_add_le (X - x) x
    rw [sub_add_cancel] at this
    linarith
  have hε0 : 0 ≤ ε := hu0.le.trans hu
  have hY' : |Y| ≤ 1 + 1 / 100 := by
    have := abs_add_le (Y - y) y
    rw [sub_add_cancel] at this
    linarith
  have h1 := R.error (X * Y)
  have h2 : |X * Y - X * y| ≤ (1 + 1 / 100) * ε := by
    rw [← mul_sub, abs_mul]; exact mul_le_mul hX' hY (abs_nonneg _) (by norm_num)
  have h3 : |X * y - x * y| ≤ ε := by
    rw [← sub_mul, abs_mul]
    have := mul_le_mul hX hy (abs_nonneg _) (le_trans (abs_nonneg _) hX)
    linarith
  have h4 : |X * Y| ≤ (1 + 1 / 100) * (1 + 1 / 100) := by
    rw [abs_mul]; exact mul_le_mul hX' hY' (abs_nonneg _) (by norm_num)
  have h5 : unit p * |X * Y| ≤ ε * ((1 + 1 / 100) * (1 + 1 / 100)) := mul_le_mul hu h4 (abs_nonneg _) hε0
  have h6 := abs_add_le (R.fl (X * Y) - X * Y) (X * Y - X * y)
  rw [sub_add_sub_cancel] at h6
  have h7 := abs_add_le (R.fl (X * Y) - X * y) (X * y - x * y)
  rw [sub_add_sub_cancel] at h7
  linarith

theorem near_add (hu : unit p ≤ ε) (hε : ε ≤ 1 / 2 ^ 40) {X Y x y a b M M' : ℝ} (hN : 0 ≤ N) (hab : a + b ≤ 100) (hM : 1 ≤ M + M')
    (hX : |X - x| ≤ a * ε * N) (hY : |Y - y| ≤ b * ε * N) (hx : |x| ≤ M * N) (hy : |y| ≤ M' * N) :
    |R.fl (X + Y) - (x + y)| ≤ (a + b + 2 * (M + M')) * ε * N := by
  have hu0 := unit_pos (p := p)
  have hε0 : 0 ≤ ε := hu0.le.trans hu
  have h1 := R.error (X + Y)
  have h2 : |X + Y - (x + y)| ≤ (a + b) * ε * N := by
    have := abs_add_le (X - x) (Y - y)
    rw [show X - x + (Y - y) = X + Y - (x + y) by ring] at this
    linarith
  have h3 : (a + b) * ε ≤ 1 := by nlinarith
  have h4 : |X + Y| ≤ 2 * (M + M') * N := by
    have h5 := abs_add_le (X + Y - (x + y)) (x + y)
    rw [sub_add_cancel] at h5
    have h6 := abs_add_le x y
    have h7 := mul_le_mul_of_nonneg_right h3 hN
    have h8 := mul_le_mul_of_nonneg_right hM hN
    linarith
  have h5 : unit p * |X + Y| ≤ ε * (2 * (M + M') * N) := mul_le_mul hu h4 (abs_nonneg _) hε0
  have h6 := abs_add_le (R.fl (X + Y) - (X + Y)) (X + Y - (x + y))
  rw [sub_add_sub_cancel] at h6
  linarith

theorem near_sub (hu : unit p ≤ ε) (hε : ε ≤ 1 / 2 ^ 40) {X Y x y a b M M' : ℝ} (hN : 0 ≤ N) (hab : a + b ≤ 100) (hM : 1 ≤ M + M')
    (hX : |X - x| ≤ a * ε * N) (hY : |Y - y| ≤ b * ε * N) (hx : |x| ≤ M * N) (hy : |y| ≤ M' * N) :
    |R.fl (X - Y) - (x - y)| ≤ (a + b + 2 * (M + M')) * ε * N := by
  have := near_add (R := R) hu hε (X := X) (x := x) (Y := -Y) (y := -y) hN hab hM hX
    (by rw [show -Y - -y = -(Y - y) by ring, abs_neg]; exact hY) hx (by rw [abs_neg]; exact hy)
  rwa [← sub_eq_add_neg, ← sub_eq_add_neg] at this

theorem mul_le_one {a y : ℝ} (ha : |a| ≤ N) (hy : |y| ≤ 1) : |a * y| ≤ 1 * N := by
  rw [abs_mul, one_mul]
  have := mul_le_mul ha hy (abs_nonneg _) ((abs_nonneg a).trans ha)
  linarith

/-- The pair of numbers of a row. -/
theorem pair_near (hu : unit p ≤ ε) (hε : ε ≤ 1 / 2 ^ 40) {a b s c : Dbl R} {s0 c0 : ℝ} (ha : |a.val| ≤ N) (hb : |b.val| ≤ N)
    (hs : |s0| ≤ 1) (hc : |c0| ≤ 1) (hS : |s.val - s0| ≤ ε) (hC : |c.val - c0| ≤ ε) :
    |(a * c - b * s).val - (a.val * c0 - b.val * s0)| ≤ 10 * ε * N ∧
    |(a * s + b * c).val - (a.val * s0 + b.val * c0)| ≤ 10 * ε * N := by
  have hN : 0 ≤ N := (abs_nonneg _).trans ha
  have h1 := near_mul (R := R) hu hε (k := 1) (by norm_num) ha hc (by rw [one_mul]; exact hC)
  have h2 := near_mul (R := R) hu hε (k := 1) (by norm_num) hb hs (by rw [one_mul]; exact hS)
  have h3 := near_mul (R := R) hu hε (k := 1) (by norm_num) ha hs (by rw [one_mul]; exact hS)
  have h4 := near_mul (R := R) hu hε (k := 1) (by norm_num) hb hc (by rw [one_mul]; exact hC)
  constructor
  · refine (near_sub (R := R) hu hε hN (by norm_num) (by norm_num) h1 h2 (mul_le_one ha hc) (mul_le_one hb hs)).trans (le_of_eq ?_)
    ring
  · refine (near_add (R := R) hu hε hN (by norm_num) (by norm_num) h3 h4 (mul_le_one ha hs) (mul_le_one hb hc)).trans (le_of_eq ?_)
    ring

/-- The factors in the other order, as for the vectors. -/
theorem pair_near' (hu : unit p ≤ ε) (hε : ε ≤ 1 / 2 ^ 40) {a b s c : Dbl R} {s0 c0 : ℝ} (ha : |a.val| ≤ N) (hb : |b.val| ≤ N)
    (hs : |s0| ≤ 1) (hc : |c0| ≤ 1) (hS : |s.val - s0| ≤ ε) (hC : |c.val - c0| ≤ ε) :
    |(c * a - s * b).val - (c0 * a.val - s0 * b.val)| ≤ 10 * ε * N ∧
    |(s * a + c * b).val - (s0 * a.val + c0 * b.val)| ≤ 10 * ε * N := by
  have hc' : ∀ x y : Dbl R, x * y = y * x := fun x y => Dbl.ext (by rw [Dbl.val_mul, Dbl.val_mul, mul_comm])
  have := pair_near hu hε ha hb hs hc hS hC
  rwa [hc' a c, hc' b s, hc' a s, hc' b c, mul_comm a.val c0, mul_comm b.val s0, mul_comm a.val s0, mul_comm b.val c0] at this

/-- The two entries of the diagonal. -/
theorem diag_near (hu : unit p ≤ ε) (hε : ε ≤ 1 / 2 ^ 40) {a b r s c : Dbl R} {s0 c0 : ℝ} (ha : |a.val| ≤ N) (hb : |b.val| ≤ N)
    (hr : |r.val| ≤ N) (hs : |s0| ≤ 1) (hc : |c0| ≤ 1) (hS : |s.val - s0| ≤ ε) (hC : |c.val - c0| ≤ ε) :
    |(a * (c * c) + b * (s * s) - (r * (s * c) + r * (s * c))).val -
      (a.val * (c0 * c0) + b.val * (s0 * s0) - (r.val * (s0 * c0) + r.val * (s0 * c0)))| ≤ 40 * ε * N ∧
    |(a * (s * s) + b * (c * c) + (r * (s * c) + r * (s * c))).val -
      (a.val * (s0 * s0) + b.val * (c0 * c0) + (r.val * (s0 * c0) + r.val * (s0 * c0)))| ≤ 40 * ε * N := by
  have hN : 0 ≤ N := (abs_nonneg _).trans ha
  have cc : |c0 * c0| ≤ 1 := by rw [abs_mul]; nlinarith [abs_nonneg c0]
  have ss : |s0 * s0| ≤ 1 := by rw [abs_mul]; nlinarith [abs_nonneg s0]
  have sc : |s0 * c0| ≤ 1 := by rw [abs_mul]; nlinarith [abs_nonneg c0, abs_nonneg s0]
  have qc := near_sq (R := R) hu hε hc hc hC hC
  have qs := near_sq (R := R) hu hε hs hs hS hS
  have qx := near_sq (R := R) hu hε hs hc hS hC
  have m1 := near_mul (R := R) hu hε (by norm_num) ha cc qc
  have m2 := near_mul (R := R) hu hε (by norm_num) hb ss qs
  have m3 := near_mul (R := R) hu hε (by norm_num) ha ss qs
  have m4 := near_mul (R := R) hu hε (by norm_num) hb cc qc
  have m5 := near_mul (R := R) hu hε (by norm_num) hr sc qx
  have a1 := near_add (R := R) hu hε hN (by norm_num) (by norm_num) m1 m2 (mul_le_one ha cc) (mul_le_one hb ss)
  have a2 := near_add (R := R) hu hε hN (by norm_num) (by norm_num) m3 m4 (mul_le_one ha ss) (mul_le_one hb cc)
  have a3 := near_add (R := R) hu hε hN (by norm_num) (by norm_num) m5 m5 (mul_le_one hr sc) (mul_le_one hr sc)
  have b1 : |a.val * (c0 * c0) + b.val * (s0 * s0)| ≤ 2 * N := by
    have := abs_add_le (a.val * (c0 * c0)) (b.val * (s0 * s0))
    linarith [mul_le_one ha cc, mul_le_one hb ss]
  have b2 : |a.val * (s0 * s0) + b.val * (c0 * c0)| ≤ 2 * N := by
    have := abs_add_le (a.val * (s0 * s0)) (b.val * (c0 * c0))
    linarith [mul_le_one ha ss, mul_le_one hb cc]
  have b3 : |r.val * (s0 * c0) + r.val * (s0 * c0)| ≤ 2 * N := by
    have := abs_add_le (r.val * (s0 * c0)) (r.val * (s0 * c0))
    linarith [mul_le_one hr sc]
  constructor
  · refine (near_sub (R := R) hu hε hN (by norm_num) (by norm_num) a1 a3 b1 b3).trans (le_of_eq ?_)
    ring
  · refine (near_add (R := R) hu hε hN (by norm_num) (by norm_num) a2 a3 b2 b3).trans (le_of_eq ?_)
    ring

/-- The sum of squares of a rotated pair, relative to itself. -/
theorem pair_sq (hu : unit p ≤ ε) (hε : ε ≤ 1 / 2 ^ 40) {a b s c : Dbl R} {s0 c0 : ℝ} (hsc : s0 ^ 2 + c0 ^ 2 = 1)
    (hS : |s.val - s0| ≤ ε) (hC : |c.val - c0| ≤ ε) :
    |(a * c - b * s).val ^ 2 + (a * s + b * c).val ^ 2 - (a.val ^ 2 + b.val ^ 2)| ≤ 50 * ε * (a.val ^ 2 + b.val ^ 2) := by
  have hε0 : 0 ≤ ε := (unit_pos (p := p)).le.trans hu
  set H := a.val ^ 2 + b.val ^ 2 with hH
  have hH0 : 0 ≤ H := by positivity
  set N := Real.sqrt H with hN
  have hNN : N * N = H := Real.mul_self_sqrt hH0
  have hN0 : 0 ≤ N := Real.sqrt_nonneg _
  have ha : |a.val| ≤ N := Real.abs_le_sqrt (by nlinarith [sq_nonneg b.val])
  have hb : |b.val| ≤ N := Real.abs_le_sqrt (by nlinarith [sq_nonneg a.val])
  have hs : |s0| ≤ 1 := by rw [← sq_le_one_iff_abs_le_one]; nlinarith [sq_nonneg c0]
  have hc : |c0| ≤ 1 := by rw [← sq_le_one_iff_abs_le_one]; nlinarith [sq_nonneg s0]
  obtain ⟨h1, h2⟩ := pair_near hu hε ha hb hs hc hS hC
  generalize (a * c - b * s).val = X at h1
  generalize (a * s + b * c).val = Y at h2
  have hx : (a.val * c0 - b.val * s0) ^ 2 + (a.val * s0 + b.val * c0) ^ 2 = H := by
    rw [hH]; linear_combination (a.val ^ 2 + b.val ^ 2) * hsc
  have hx1 : |a.val * c0 - b.val * s0| ≤ N := Real.abs_le_sqrt (by nlinarith [sq_nonneg (a.val * s0 + b.val * c0)])
  have hy1 : |a.val * s0 + b.val * c0| ≤ N := Real.abs_le_sqrt (by nlinarith [sq_nonneg (a.val * c0 - b.val * s0)])
  generalize a.val * c0 - b.val * s0 = x at h1 hx hx1
  generalize a.val * s0 + b.val * c0 = y at h2 hx hy1
  have key : ∀ {X x : ℝ}, |X - x| ≤ 10 * ε * N → |x| ≤ N → |X ^ 2 - x ^ 2| ≤ 25 * ε * H := by
    intro X x hX hx
    rw [show X ^ 2 - x ^ 2 = (X - x) * ((X - x) + 2 * x) by ring, abs_mul]
    have h3 : |(X - x) + 2 * x| ≤ 5 / 2 * N := by
      have := abs_add_le (X - x) (2 * x)
      rw [abs_mul, abs_of_pos (by norm_num : (0 : ℝ) < 2)] at this
      have hε' : 10 * ε ≤ 1 / 2 := by linarith
      nlinarith
    calc _ ≤ (10 * ε * N) * (5 / 2 * N) := mul_le_mul hX h3 (abs_nonneg _) (by positivity)
      _ = 25 * ε * (N * N) := by ring
      _ = _ := by rw [hNN]
  have k1 := key h1 hx1
  have k2 := key h2 hy1
  have := abs_add_le (X ^ 2 - x ^ 2) (Y ^ 2 - y ^ 2)
  rw [show X ^ 2 + Y ^ 2 - H = X ^ 2 - x ^ 2 + (Y ^ 2 - y ^ 2) by rw [← hx]; ring]
  linarith

/-! ## the norm -/

section norm

variable {n : Nat}

attribute [local instance] Matrix.frobeniusNormedAddCommGroup

theorem frob_eq_norm (A : Matrix (Fin n) (Fin n) ℝ) : frob A = ‖A‖ := by
  rw [frobenius_norm_def, frob, Real.sqrt_eq_rpow]
  simp

theorem frob_add_le (A B : Matrix (Fin n) (Fin n) ℝ) : frob (A + B) ≤ frob A + frob B := by
  simp only [frob_eq_norm]
  exact norm_add_le _ _

theorem frob_mul_le (A B : Matrix (Fin n) (Fin n) ℝ) : frob (A * B) ≤ frob A * frob B := by
  simp only [frob_eq_norm]
  exact frobenius_norm_mul _ _

theorem frob_transpose (A : Matrix (Fin n) (Fin n) ℝ) : frob Aᵀ = frob A := by
  simp only [frob_eq_norm]
  exact frobenius_norm_transpose _

theorem frob_neg (A : Matrix (Fin n) (Fin n) ℝ) : frob (-A) = frob A := by
  simp only [frob_eq_norm]
  exact norm_neg _

end norm

variable {n : Nat}

theorem frob_nonneg (A : Matrix (Fin n) (Fin n) ℝ) : 0 ≤ frob A := Real.sqrt_nonneg _

theorem frob_sq (A : Matrix (Fin n) (Fin n) ℝ) : frob A ^ 2 = ∑ i, ∑ j, A i j ^ 2 :=
  Real.sq_sqrt (Finset.sum_nonneg fun _ _ => Finset.sum_nonneg fun _ _ => sq_nonneg _)

theorem frob_sq_trace (A : Matrix (Fin n) (Fin n) ℝ) : frob A ^ 2 = (Aᵀ * A).trace := by
  rw [frob_sq, Finset.sum_comm]
  simp only [Matrix.trace, Matrix.diag, Matrix.mul_apply, Matrix.transpose_apply, pow_two]

theorem frob_rot_left {Q A : Matrix (Fin n) (Fin n) ℝ} (hQ : Q * Qᵀ = 1) : frob (Q * A) = frob A := by
  have hQ' : Qᵀ * Q = 1 := mul_eq_one_comm.1 hQ
  refine (sq_eq_sq₀ (frob_nonneg _) (frob_nonneg _)).1 ?_
  rw [frob_sq_trace, frob_sq_trace, Matrix.transpose_mul, Matrix.mul_assoc, ← Matrix.mul_assoc Qᵀ, hQ', Matrix.one_mul]

theorem frob_rot_right {Q A : Matrix (Fin n) (Fin n) ℝ} (hQ : Q * Qᵀ = 1) : frob (A * Qᵀ) = frob A := by
  rw [← frob_transpose, Matrix.transpose_mul, Matrix.transpose_transpose, frob_rot_left hQ, frob_transpose]

theorem frob_le {A : Matrix (Fin n) (Fin n) ℝ} {b : ℝ} (hb : 0 ≤ b) (h : ∀ i j, |A i j| ≤ b) : frob A ≤ n * b := by
  refine Real.sqrt_le_iff.2 ⟨by positivity, ?_⟩
  calc ∑ i, ∑ j, A i j ^ 2 ≤ ∑ _i : Fin n, ∑ _j : Fin n, b ^ 2 :=
        Finset.sum_le_sum fun i _ => Finset.sum_le_sum fun j _ => by
          rw [← sq_abs]; exact pow_le_pow_left₀ (abs_nonneg _) (h i j) 2
    _ = (n * b) ^ 2 := by simp; ring

theorem entry_le (A : Matrix (Fin n) (Fin n) ℝ) (i j : Fin n) : |A i j| ≤ frob A := by
  refine Real.abs_le_sqrt ?_
  exact (Finset.single_le_sum (f := fun j => A i j ^ 2) (fun _ _ => sq_nonneg _) (Finset.mem_univ j)).trans
    (Finset.single_le_sum (f := fun i => ∑ j, A i j ^ 2) (fun _ _ => Finset.sum_nonneg fun _ _ => sq_nonneg _) (Finset.mem_univ i))

/-- The norm of an orthogonal matrix. -/
theorem frob_orth {Q : Matrix (Fin n) (Fin n) ℝ} (hQ : Q * Qᵀ = 1) : frob Q ^ 2 = n := by
  rw [frob_sq_trace, mul_eq_one_comm.1 hQ, Matrix.trace_one, Fintype.card_fin]

/-- One rotation with rounding, seen from exact rotations. -/
theorem near_step {A a V Q J a' V' : Matrix (Fin n) (Fin n) ℝ} {g κ m : ℝ} (hκ : 0 ≤ κ) (hm : 0 ≤ m) (hn : (n : ℝ) ≤ m ^ 2)
    (hQ : Q * Qᵀ = 1) (hJ : J * Jᵀ = 1) (hV : frob (V - Q) ≤ g * m) (ha : frob (a - Q * A * Qᵀ) ≤ g * frob A)
    (hV' : frob (V' - J * V) ≤ κ * frob V) (ha' : frob (a' - J * a * Jᵀ) ≤ κ * frob a) :
    (J * Q) * (J * Q)ᵀ = 1 ∧ frob (V' - J * Q) ≤ ((1 + g) * (1 + κ) - 1) * m ∧
      frob (a' - (J * Q) * A * (J * Q)ᵀ) ≤ ((1 + g) * (1 + κ) - 1) * frob A := by
  refine ⟨?_, ?_, ?_⟩
  · rw [Matrix.transpose_mul, Matrix.mul_assoc, ← Matrix.mul_assoc Q, hQ, Matrix.one_mul, hJ]
  · have h1 := frob_add_le (V' - J * V) (J * (V - Q))
    rw [Matrix.mul_sub, sub_add_sub_cancel, ← Matrix.mul_sub, frob_rot_left hJ] at h1
    have h2 := frob_add_le (V - Q) Q
    rw [sub_add_cancel] at h2
    have h3 : frob Q ≤ m := by
      refine (sq_le_sq₀ (frob_nonneg _) hm).1 ?_
      rw [frob_orth hQ]; exact hn
    nlinarith [mul_le_mul_of_nonneg_left h2 hκ, mul_le_mul_of_nonneg_left h3 hκ, mul_le_mul_of_nonneg_left hV hκ]
  · have h1 := frob_add_le (a' - J * a * Jᵀ) (J * (a - Q * A * Qᵀ) * Jᵀ)
    have e : J * (a - Q * A * Qᵀ) * Jᵀ = J * a * Jᵀ - (J * Q) * A * (J * Q)ᵀ := by
      rw [Matrix.transpose_mul, Matrix.mul_sub, Matrix.sub_mul]
      simp only [Matrix.mul_assoc]
    rw [frob_rot_right hJ, frob_rot_left hJ, e, sub_add_sub_cancel] at h1
    have h2 := frob_add_le (a - Q * A * Qᵀ) (Q * A * Qᵀ)
    rw [sub_add_cancel, frob_rot_right hQ, frob_rot_left hQ] at h2
    nlinarith [mul_le_mul_of_nonneg_left h2 hκ, mul_le_mul_of_nonneg_left ha hκ]

end DF
