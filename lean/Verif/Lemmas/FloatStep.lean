import Verif.Lemmas.FloatRotate

/-! # One rotation on the arrays of the Jacobi iteration, in rounded arithmetic -/

namespace DF

open Spec Matrix

variable {p : Nat} {R : Rounding p} {ε : ℝ}

/-- The matrix of the numbers in `a`. -/
def cm3 (a : List (Dbl R)) : Matrix (Fin 3) (Fin 3) ℝ := colMatrix3 (a.map Dbl.val)

/-- The matrix of the numbers in `a`. -/
def cm2 (a : List (Dbl R)) : Matrix (Fin 2) (Fin 2) ℝ := colMatrix2 (a.map Dbl.val)

/-- The matrix of the numbers in `v`. -/
def fm (n : Nat) (v : List (Dbl R)) : Matrix (Fin n) (Fin n) ℝ := fullMatrix n (v.map Dbl.val)

/-- The squares off the diagonal. -/
def off3 (a : List (Dbl R)) : ℝ := num (a.map Dbl.val) 1 ^ 2 + num (a.map Dbl.val) 3 ^ 2 + num (a.map Dbl.val) 4 ^ 2

theorem cm3_near {x0 x1 x2 x3 x4 x5 y0 y1 y2 y3 y4 y5 b : ℝ} (h0 : |x0 - y0| ≤ b) (h1 : |x1 - y1| ≤ b)
    (h2 : |x2 - y2| ≤ b) (h3 : |x3 - y3| ≤ b) (h4 : |x4 - y4| ≤ b) (h5 : |x5 - y5| ≤ b) (i j : Fin 3) :
    |(colMatrix3 [x0, x1, x2, x3, x4, x5] - colMatrix3 [y0, y1, y2, y3, y4, y5]) i j| ≤ b := by
  rw [Matrix.sub_apply]
  fin_cases i <;> fin_cases j
  · exact h0
  · exact h1
  · exact h3
  · exact h1
  · exact h2
  · exact h4
  · exact h3
  · exact h4
  · exact h5

theorem fm3_near {x0 x1 x2 x3 x4 x5 x6 x7 x8 y0 y1 y2 y3 y4 y5 y6 y7 y8 b : ℝ} (h0 : |x0 - y0| ≤ b) (h1 : |x1 - y1| ≤ b)
    (h2 : |x2 - y2| ≤ b) (h3 : |x3 - y3| ≤ b) (h4 : |x4 - y4| ≤ b) (h5 : |x5 - y5| ≤ b) (h6 : |x6 - y6| ≤ b)
    (h7 : |x7 - y7| ≤ b) (h8 : |x8 - y8| ≤ b) (i j : Fin 3) :
    |(fullMatrix 3 [x0, x1, x2, x3, x4, x5, x6, x7, x8] - fullMatrix 3 [y0, y1, y2, y3, y4, y5, y6, y7, y8]) i j| ≤ b := by
  have e : ∀ M N : Matrix (Fin 3) (Fin 3) ℝ, (M - N) i j = M i j - N i j := fun M N => Matrix.sub_apply M N i j
  rw [e]
  fin_cases i <;> fin_cases j
  · exact h0
  · exact h1
  · exact h2
  · exact h3
  · exact h4
  · exact h5
  · exact h6
  · exact h7
  · exact h8

/-- What one rotation does. -/
structure RotF (ε x : ℝ) (a v a' v' : List (Dbl R)) : Prop where
  la : a'.length = 6
  lv : v'.length = 9
  rot : ∃ J : Matrix (Fin 3) (Fin 3) ℝ, J * Jᵀ = 1 ∧ frob (cm3 a' - J * cm3 a * Jᵀ) ≤ 120 * ε * frob (cm3 a) ∧
    frob (fm 3 v' - J * fm 3 v) ≤ 120 * ε * frob (fm 3 v)
  off : |off3 a' - (off3 a - x ^ 2)| ≤ 50 * ε * (off3 a - x ^ 2)

/-- The size of the entry that should vanish. -/
theorem zero_near {a b r s0 c0 N : ℝ} (hε0 : 0 ≤ ε) (ha : |a| ≤ N) (hb : |b| ≤ N) (hr : |r| ≤ N)
    (hz : |(a - b) * (s0 * c0) + r * (c0 ^ 2 - s0 ^ 2)| ≤ 4 * ε * (|a| + |b| + 2 * |r|)) :
    |0 - ((a - b) * (s0 * c0) + r * (c0 ^ 2 - s0 ^ 2))| ≤ 40 * ε * N := by
  rw [zero_sub, abs_neg]
  refine hz.trans ?_
  have hN : 0 ≤ N := (abs_nonneg a).trans ha
  have : 4 * ε * (|a| + |b| + 2 * |r|) ≤ 4 * ε * (4 * N) := mul_le_mul_of_nonneg_left (by linarith) (by linarith)
  nlinarith [mul_nonneg hε0 hN]

section rots

variable (hu : unit p ≤ ε) (hε : ε ≤ 1 / 2 ^ 40) {a0 a1 a2 a3 a4 a5 v0 v1 v2 v3 v4 v5 v6 v7 v8 s c : Dbl R} {s0 c0 : ℝ}
  (hsc : s0 ^ 2 + c0 ^ 2 = 1) (hS : |s.val - s0| ≤ ε) (hC : |c.val - c0| ≤ ε)

include hu hε hsc hS hC

theorem rotF12 (hz : |(a0.val - a2.val) * (s0 * c0) + a1.val * (c0 ^ 2 - s0 ^ 2)| ≤
      4 * ε * (|a0.val| + |a2.val| + 2 * |a1.val|)) :
    RotF ε a1.val [a0, a1, a2, a3, a4, a5] [v0, v1, v2, v3, v4, v5, v6, v7, v8]
      [a0 * (c * c) + a2 * (s * s) - (a1 * (s * c) + a1 * (s * c)), 0,
          a0 * (s * s) + a2 * (c * c) + (a1 * (s * c) + a1 * (s * c)), a3 * c - a4 * s, a3 * s + a4 * c, a5]
      [c * v0 - s * v3, c * v1 - s * v4, c * v2 - s * v5, s * v0 + c * v3, s * v1 + c * v4, s * v2 + c * v5,
          v6, v7, v8] := by
  have hε0 : 0 ≤ ε := (unit_pos (p := p)).le.trans hu
  have hs : |s0| ≤ 1 := by rw [← sq_le_one_iff_abs_le_one]; nlinarith [sq_nonneg c0]
  have hc : |c0| ≤ 1 := by rw [← sq_le_one_iff_abs_le_one]; nlinarith [sq_nonneg s0]
  have eA := entry_le (cm3 [a0, a1, a2, a3, a4, a5])
  have eV := entry_le (fm 3 [v0, v1, v2, v3, v4, v5, v6, v7, v8])
  have nA := frob_nonneg (cm3 [a0, a1, a2, a3, a4, a5])
  have nV := frob_nonneg (fm 3 [v0, v1, v2, v3, v4, v5, v6, v7, v8])
  generalize hN : frob (cm3 [a0, a1, a2, a3, a4, a5]) = N at *
  generalize hM : frob (fm 3 [v0, v1, v2, v3, v4, v5, v6, v7, v8]) = M at *
  have x0 : |a0.val| ≤ N := eA 0 0
  have x1 : |a1.val| ≤ N := eA 0 1
  have x2 : |a2.val| ≤ N := eA 1 1
  have x3 : |a3.val| ≤ N := eA 0 2
  have x4 : |a4.val| ≤ N := eA 1 2
  have y0 : |v0.val| ≤ M := eV 0 0
  have y1 : |v1.val| ≤ M := eV 0 1
  have y2 : |v2.val| ≤ M := eV 0 2
  have y3 : |v3.val| ≤ M := eV 1 0
  have y4 : |v4.val| ≤ M := eV 1 1
  have y5 : |v5.val| ≤ M := eV 1 2
  have bN : 10 * ε * N ≤ 40 * ε * N := by nlinarith [mul_nonneg hε0 nA]
  have bM : 10 * ε * M ≤ 40 * ε * M := by nlinarith [mul_nonneg hε0 nV]
  have z40 : ∀ x : ℝ, |x - x| ≤ 40 * ε * N := fun x => by simp; positivity
  have z40' : ∀ x : ℝ, |x - x| ≤ 40 * ε * M := fun x => by simp; positivity
  obtain ⟨d1, d2⟩ := diag_near hu hε x0 x2 x1 hs hc hS hC
  obtain ⟨r1, r2⟩ := pair_near hu hε x3 x4 hs hc hS hC
  obtain ⟨w0, w3⟩ := pair_near' hu hε y0 y3 hs hc hS hC
  obtain ⟨w1, w4⟩ := pair_near' hu hε y1 y4 hs hc hS hC
  obtain ⟨w2, w5⟩ := pair_near' hu hε y2 y5 hs hc hS hC
  refine ⟨rfl, rfl, ⟨!![c0, -s0, 0; s0, c0, 0; 0, 0, 1], ?_, ?_, ?_⟩, ?_⟩
  · ext i j
    fin_cases i <;> fin_cases j <;>
      simp [Matrix.mul_apply, Fin.sum_univ_three] <;> first | ring1 | linear_combination hsc
  · have e : !![c0, -s0, 0; s0, c0, 0; 0, 0, 1] * cm3 [a0, a1, a2, a3, a4, a5] * !![c0, -s0, 0; s0, c0, 0; 0, 0, 1]ᵀ =
        colMatrix3 [a0.val * (c0 * c0) + a2.val * (s0 * s0) - (a1.val * (s0 * c0) + a1.val * (s0 * c0)),
          (a0.val - a2.val) * (s0 * c0) + a1.val * (c0 ^ 2 - s0 ^ 2),
          a0.val * (s0 * s0) + a2.val * (c0 * c0) + (a1.val * (s0 * c0) + a1.val * (s0 * c0)),
          a3.val * c0 - a4.val * s0, a3.val * s0 + a4.val * c0, a5.val] := by
      ext i j
      fin_cases i <;> fin_cases j <;>
        simp [Matrix.mul_apply, Fin.sum_univ_three, cm3, colMatrix3, num] <;> ring1
    rw [e, hN, show 120 * ε * N = (3 : ℕ) * (40 * ε * N) by push_cast; ring]
    exact frob_le (by positivity) (cm3_near d1 (zero_near hε0 x0 x2 x1 hz) d2 (r1.trans bN) (r2.trans bN) (z40 _))
  · have e : !![c0, -s0, 0; s0, c0, 0; 0, 0, 1] * fm 3 [v0, v1, v2, v3, v4, v5, v6, v7, v8] =
        fullMatrix 3 [c0 * v0.val - s0 * v3.val, c0 * v1.val - s0 * v4.val, c0 * v2.val - s0 * v5.val,
          s0 * v0.val + c0 * v3.val, s0 * v1.val + c0 * v4.val, s0 * v2.val + c0 * v5.val, v6.val, v7.val, v8.val] := by
      ext i j
      fin_cases i <;> fin_cases j <;>
        simp [Matrix.mul_apply, Fin.sum_univ_three, fm, fullMatrix, num] <;> ring1
    rw [e, hM, show 120 * ε * M = (3 : ℕ) * (40 * ε * M) by push_cast; ring]
    exact frob_le (by positivity) (fm3_near (w0.trans bM) (w1.trans bM) (w2.trans bM) (w3.trans bM) (w4.trans bM)
      (w5.trans bM) (z40' _) (z40' _) (z40' _))
  · have := pair_sq hu hε (a := a3) (b := a4) hsc hS hC
    show |(0 : ℝ) ^ 2 + (a3 * c - a4 * s).val ^ 2 + (a3 * s + a4 * c).val ^ 2 -
      (a1.val ^ 2 + a3.val ^ 2 + a4.val ^ 2 - a1.val ^ 2)| ≤ 50 * ε * (a1.val ^ 2 + a3.val ^ 2 + a4.val ^ 2 - a1.val ^ 2)
    rw [show a1.val ^ 2 + a3.val ^ 2 + a4.val ^ 2 - a1.val ^ 2 = a3.val ^ 2 + a4.val ^ 2 by ring,
      show (0 : ℝ) ^ 2 + (a3 * c - a4 * s).val ^ 2 + (a3 * s + a4 * c).val ^ 2 =
        (a3 * c - a4 * s).val ^ 2 + (a3 * s + a4 * c).val ^ 2 by ring]
    exact this

theorem rotF13 (hz : |(a0.val - a5.val) * (s0 * c0) + a3.val * (c0 ^ 2 - s0 ^ 2)| ≤
      4 * ε * (|a0.val| + |a5.val| + 2 * |a3.val|)) :
    RotF ε a3.val [a0, a1, a2, a3, a4, a5] [v0, v1, v2, v3, v4, v5, v6, v7, v8]
      [a0 * (c * c) + a5 * (s * s) - (a3 * (s * c) + a3 * (s * c)), a1 * c - a4 * s, a2, 0, a1 * s + a4 * c,
          a0 * (s * s) + a5 * (c * c) + (a3 * (s * c) + a3 * (s * c))]
      [c * v0 - s * v6, c * v1 - s * v7, c * v2 - s * v8, v3, v4, v5, s * v0 + c * v6, s * v1 + c * v7,
          s * v2 + c * v8] := by
  have hε0 : 0 ≤ ε := (unit_pos (p := p)).le.trans hu
  have hs : |s0| ≤ 1 := by rw [← sq_le_one_iff_abs_le_one]; nlinarith [sq_nonneg c0]
  have hc : |c0| ≤ 1 := by rw [← sq_le_one_iff_abs_le_one]; nlinarith [sq_nonneg s0]
  have eA := entry_le (cm3 [a0, a1, a2, a3, a4, a5])
  have eV := entry_le (fm 3 [v0, v1, v2, v3, v4, v5, v6, v7, v8])
  have nA := frob_nonneg (cm3 [a0, a1, a2, a3, a4, a5])
  have nV := frob_nonneg (fm 3 [v0, v1, v2, v3, v4, v5, v6, v7, v8])
  generalize hN : frob (cm3 [a0, a1, a2, a3, a4, a5]) = N at *
  generalize hM : frob (fm 3 [v0, v1, v2, v3, v4, v5, v6, v7, v8]) = M at *
  have x0 : |a0.val| ≤ N := eA 0 0
  have x1 : |a1.val| ≤ N := eA 0 1
  have x5 : |a5.val| ≤ N := eA 2 2
  have x3 : |a3.val| ≤ N := eA 0 2
  have x4 : |a4.val| ≤ N := eA 1 2
  have y0 : |v0.val| ≤ M := eV 0 0
  have y1 : |v1.val| ≤ M := eV 0 1
  have y2 : |v2.val| ≤ M := eV 0 2
  have y6 : |v6.val| ≤ M := eV 2 0
  have y7 : |v7.val| ≤ M := eV 2 1
  have y8 : |v8.val| ≤ M := eV 2 2
  have bN : 10 * ε * N ≤ 40 * ε * N := by nlinarith [mul_nonneg hε0 nA]
  have bM : 10 * ε * M ≤ 40 * ε * M := by nlinarith [mul_nonneg hε0 nV]
  have z40 : ∀ x : ℝ, |x - x| ≤ 40 * ε * N := fun x => by simp; positivity
  have z40' : ∀ x : ℝ, |x - x| ≤ 40 * ε * M := fun x => by simp; positivity
  obtain ⟨d1, d2⟩ := diag_near hu hε x0 x5 x3 hs hc hS hC
  obtain ⟨r1, r2⟩ := pair_near hu hε x1 x4 hs hc hS hC
  obtain ⟨w0, w3⟩ := pair_near' hu hε y0 y6 hs hc hS hC
  obtain ⟨w1, w4⟩ := pair_near' hu hε y1 y7 hs hc hS hC
  obtain ⟨w2, w5⟩ := pair_near' hu hε y2 y8 hs hc hS hC
  refine ⟨rfl, rfl, ⟨!![c0, 0, -s0; 0, 1, 0; s0, 0, c0], ?_, ?_, ?_⟩, ?_⟩
  · ext i j
    fin_cases i <;> fin_cases j <;>
      simp [Matrix.mul_apply, Fin.sum_univ_three] <;> first | ring1 | linear_combination hsc
  · have e : !![c0, 0, -s0; 0, 1, 0; s0, 0, c0] * cm3 [a0, a1, a2, a3, a4, a5] * !![c0, 0, -s0; 0, 1, 0; s0, 0, c0]ᵀ =
        colMatrix3 [a0.val * (c0 * c0) + a5.val * (s0 * s0) - (a3.val * (s0 * c0) + a3.val * (s0 * c0)),
          a1.val * c0 - a4.val * s0, a2.val,
          (a0.val - a5.val) * (s0 * c0) + a3.val * (c0 ^ 2 - s0 ^ 2), a1.val * s0 + a4.val * c0,
          a0.val * (s0 * s0) + a5.val * (c0 * c0) + (a3.val * (s0 * c0) + a3.val * (s0 * c0))] := by
      ext i j
      fin_cases i <;> fin_cases j <;>
        simp [Matrix.mul_apply, Fin.sum_univ_three, cm3, colMatrix3, num] <;> ring1
    rw [e, hN, show 120 * ε * N = (3 : ℕ) * (40 * ε * N) by push_cast; ring]
    exact frob_le (by positivity) (cm3_near d1 (r1.trans bN) (z40 _) (zero_near hε0 x0 x5 x3 hz) (r2.trans bN) d2)
  · have e : !![c0, 0, -s0; 0, 1, 0; s0, 0, c0] * fm 3 [v0, v1, v2, v3, v4, v5, v6, v7, v8] =
        fullMatrix 3 [c0 * v0.val - s0 * v6.val, c0 * v1.val - s0 * v7.val, c0 * v2.val - s0 * v8.val, v3.val, v4.val, v5.val,
          s0 * v0.val + c0 * v6.val, s0 * v1.val + c0 * v7.val, s0 * v2.val + c0 * v8.val] := by
      ext i j
      fin_cases i <;> fin_cases j <;>
        simp [Matrix.mul_apply, Fin.sum_univ_three, fm, fullMatrix, num] <;> ring1
    rw [e, hM, show 120 * ε * M = (3 : ℕ) * (40 * ε * M) by push_cast; ring]
    exact frob_le (by positivity) (fm3_near (w0.trans bM) (w1.trans bM) (w2.trans bM) (z40' _) (z40' _) (z40' _)
      (w3.trans bM) (w4.trans bM) (w5.trans bM))
  · have := pair_sq hu hε (a := a1) (b := a4) hsc hS hC
    show |(a1 * c - a4 * s).val ^ 2 + (0 : ℝ) ^ 2 + (a1 * s + a4 * c).val ^ 2 -
      (a1.val ^ 2 + a3.val ^ 2 + a4.val ^ 2 - a3.val ^ 2)| ≤ 50 * ε * (a1.val ^ 2 + a3.val ^ 2 + a4.val ^ 2 - a3.val ^ 2)
    rw [show a1.val ^ 2 + a3.val ^ 2 + a4.val ^ 2 - a3.val ^ 2 = a1.val ^ 2 + a4.val ^ 2 by ring,
      show (a1 * c - a4 * s).val ^ 2 + (0 : ℝ) ^ 2 + (a1 * s + a4 * c).val ^ 2 =
        (a1 * c - a4 * s).val ^ 2 + (a1 * s + a4 * c).val ^ 2 by ring]
    exact this

theorem rotF23 (hz : |(a2.val - a5.val) * (s0 * c0) + a4.val * (c0 ^ 2 - s0 ^ 2)| ≤
      4 * ε * (|a2.val| + |a5.val| + 2 * |a4.val|)) :
    RotF ε a4.val [a0, a1, a2, a3, a4, a5] [v0, v1, v2, v3, v4, v5, v6, v7, v8]
      [a0, a1 * c - a3 * s, a2 * (c * c) + a5 * (s * s) - (a4 * (s * c) + a4 * (s * c)), a1 * s + a3 * c, 0,
          a2 * (s * s) + a5 * (c * c) + (a4 * (s * c) + a4 * (s * c))]
      [v0, v1, v2, c * v3 - s * v6, c * v4 - s * v7, c * v5 - s * v8, s * v3 + c * v6, s * v4 + c * v7,
          s * v5 + c * v8] := by
  have hε0 : 0 ≤ ε := (unit_pos (p := p)).le.trans hu
  have hs : |s0| ≤ 1 := by rw [← sq_le_one_iff_abs_le_one]; nlinarith [sq_nonneg c0]
  have hc : |c0| ≤ 1 := by rw [← sq_le_one_iff_abs_le_one]; nlinarith [sq_nonneg s0]
  have eA := entry_le (cm3 [a0, a1, a2, a3, a4, a5])
  have eV := entry_le (fm 3 [v0, v1, v2, v3, v4, v5, v6, v7, v8])
  have nA := frob_nonneg (cm3 [a0, a1, a2, a3, a4, a5])
  have nV := frob_nonneg (fm 3 [v0, v1, v2, v3, v4, v5, v6, v7, v8])
  generalize hN : frob (cm3 [a0, a1, a2, a3, a4, a5]) = N at *
  generalize hM : frob (fm 3 [v0, v1, v2, v3, v4, v5, v6, v7, v8]) = M at *
  have x2 : |a2.val| ≤ N := eA 1 1
  have x1 : |a1.val| ≤ N := eA 0 1
  have x5 : |a5.val| ≤ N := eA 2 2
  have x3 : |a3.val| ≤ N := eA 0 2
  have x4 : |a4.val| ≤ N := eA 1 2
  have y3 : |v3.val| ≤ M := eV 1 0
  have y4 : |v4.val| ≤ M := eV 1 1
  have y5 : |v5.val| ≤ M := eV 1 2
  have y6 : |v6.val| ≤ M := eV 2 0
  have y7 : |v7.val| ≤ M := eV 2 1
  have y8 : |v8.val| ≤ M := eV 2 2
  have bN : 10 * ε * N ≤ 40 * ε * N := by nlinarith [mul_nonneg hε0 nA]
  have bM : 10 * ε * M ≤ 40 * ε * M := by nlinarith [mul_nonneg hε0 nV]
  have z40 : ∀ x : ℝ, |x - x| ≤ 40 * ε * N := fun x => by simp; positivity
  have z40' : ∀ x : ℝ, |x - x| ≤ 40 * ε * M := fun x => by simp; positivity
  obtain ⟨d1, d2⟩ := diag_near hu hε x2 x5 x4 hs hc hS hC
  obtain ⟨r1, r2⟩ := pair_near hu hε x1 x3 hs hc hS hC
  obtain ⟨w0, w3⟩ := pair_near' hu hε y3 y6 hs hc hS hC
  obtain ⟨w1, w4⟩ := pair_near' hu hε y4 y7 hs hc hS hC
  obtain ⟨w2, w5⟩ := pair_near' hu hε y5 y8 hs hc hS hC
  refine ⟨rfl, rfl, ⟨!![1, 0, 0; 0, c0, -s0; 0, s0, c0], ?_, ?_, ?_⟩, ?_⟩
  · ext i j
    fin_cases i <;> fin_cases j <;>
      simp [Matrix.mul_apply, Fin.sum_univ_three] <;> first | ring1 | linear_combination hsc
  · have e : !![1, 0, 0; 0, c0, -s0; 0, s0, c0] * cm3 [a0, a1, a2, a3, a4, a5] * !![1, 0, 0; 0, c0, -s0; 0, s0, c0]ᵀ =
        colMatrix3 [a0.val, a1.val * c0 - a3.val * s0,
          a2.val * (c0 * c0) + a5.val * (s0 * s0) - (a4.val * (s0 * c0) + a4.val * (s0 * c0)),
          a1.val * s0 + a3.val * c0, (a2.val - a5.val) * (s0 * c0) + a4.val * (c0 ^ 2 - s0 ^ 2),
          a2.val * (s0 * s0) + a5.val * (c0 * c0) + (a4.val * (s0 * c0) + a4.val * (s0 * c0))] := by
      ext i j
      fin_cases i <;> fin_cases j <;>
        simp [Matrix.mul_apply, Fin.sum_univ_three, cm3, colMatrix3, num] <;> ring1
    rw [e, hN, show 120 * ε * N = (3 : ℕ) * (40 * ε * N) by push_cast; ring]
    exact frob_le (by positivity) (cm3_near (z40 _) (r1.trans bN) d1 (r2.trans bN) (zero_near hε0 x2 x5 x4 hz) d2)
  · have e : !![1, 0, 0; 0, c0, -s0; 0, s0, c0] * fm 3 [v0, v1, v2, v3, v4, v5, v6, v7, v8] =
        fullMatrix 3 [v0.val, v1.val, v2.val, c0 * v3.val - s0 * v6.val, c0 * v4.val - s0 * v7.val, c0 * v5.val - s0 * v8.val,
          s0 * v3.val + c0 * v6.val, s0 * v4.val + c0 * v7.val, s0 * v5.val + c0 * v8.val] := by
      ext i j
      fin_cases i <;> fin_cases j <;>
        simp [Matrix.mul_apply, Fin.sum_univ_three, fm, fullMatrix, num] <;> ring1
    rw [e, hM, show 120 * ε * M = (3 : ℕ) * (40 * ε * M) by push_cast; ring]
    exact frob_le (by positivity) (fm3_near (z40' _) (z40' _) (z40' _) (w0.trans bM) (w1.trans bM) (w2.trans bM)
      (w3.trans bM) (w4.trans bM) (w5.trans bM))
  · have := pair_sq hu hε (a := a1) (b := a3) hsc hS hC
    show |(a1 * c - a3 * s).val ^ 2 + (a1 * s + a3 * c).val ^ 2 + (0 : ℝ) ^ 2 -
      (a1.val ^ 2 + a3.val ^ 2 + a4.val ^ 2 - a4.val ^ 2)| ≤ 50 * ε * (a1.val ^ 2 + a3.val ^ 2 + a4.val ^ 2 - a4.val ^ 2)
    rw [show a1.val ^ 2 + a3.val ^ 2 + a4.val ^ 2 - a4.val ^ 2 = a1.val ^ 2 + a3.val ^ 2 by ring,
      show (a1 * c - a3 * s).val ^ 2 + (a1 * s + a3 * c).val ^ 2 + (0 : ℝ) ^ 2 =
        (a1 * c - a3 * s).val ^ 2 + (a1 * s + a3 * c).val ^ 2 by ring]
    exact this

/-- Dimension 2: the rotation of the identity. -/
theorem rotF2 (hz : |(a0.val - a2.val) * (s0 * c0) + a1.val * (c0 ^ 2 - s0 ^ 2)| ≤
      4 * ε * (|a0.val| + |a2.val| + 2 * |a1.val|)) :
    ∃ J : Matrix (Fin 2) (Fin 2) ℝ, J * Jᵀ = 1 ∧
      frob (cm2 [a0 * (c * c) + a2 * (s * s) - (a1 * (s * c) + a1 * (s * c)), 0,
          a0 * (s * s) + a2 * (c * c) + (a1 * (s * c) + a1 * (s * c))] - J * cm2 [a0, a1, a2] * Jᵀ) ≤
        120 * ε * frob (cm2 [a0, a1, a2]) ∧
      frob (fm 2 [c * v0 - s * v2, c * v1 - s * v3, s * v0 + c * v2, s * v1 + c * v3] - J * fm 2 [v0, v1, v2, v3]) ≤
        120 * ε * frob (fm 2 [v0, v1, v2, v3]) := by
  have hε0 : 0 ≤ ε := (unit_pos (p := p)).le.trans hu
  have hs : |s0| ≤ 1 := by rw [← sq_le_one_iff_abs_le_one]; nlinarith [sq_nonneg c0]
  have hc : |c0| ≤ 1 := by rw [← sq_le_one_iff_abs_le_one]; nlinarith [sq_nonneg s0]
  have eA := entry_le (cm2 [a0, a1, a2])
  have eV := entry_le (fm 2 [v0, v1, v2, v3])
  have nA := frob_nonneg (cm2 [a0, a1, a2])
  have nV := frob_nonneg (fm 2 [v0, v1, v2, v3])
  generalize hN : frob (cm2 [a0, a1, a2]) = N at *
  generalize hM : frob (fm 2 [v0, v1, v2, v3]) = M at *
  have x0 : |a0.val| ≤ N := eA 0 0
  have x1 : |a1.val| ≤ N := eA 0 1
  have x2 : |a2.val| ≤ N := eA 1 1
  have y0 : |v0.val| ≤ M := eV 0 0
  have y1 : |v1.val| ≤ M := eV 0 1
  have y2 : |v2.val| ≤ M := eV 1 0
  have y3 : |v3.val| ≤ M := eV 1 1
  have bM : 10 * ε * M ≤ 40 * ε * M := by nlinarith [mul_nonneg hε0 nV]
  obtain ⟨d1, d2⟩ := diag_near hu hε x0 x2 x1 hs hc hS hC
  obtain ⟨w0, w2⟩ := pair_near' hu hε y0 y2 hs hc hS hC
  obtain ⟨w1, w3⟩ := pair_near' hu hε y1 y3 hs hc hS hC
  have hz' := zero_near hε0 x0 x2 x1 hz
  refine ⟨!![c0, -s0; s0, c0], ?_, ?_, ?_⟩
  · ext i j
    fin_cases i <;> fin_cases j <;>
      simp [Matrix.mul_apply, Fin.sum_univ_two] <;> first | ring1 | linear_combination hsc
  · have e : !![c0, -s0; s0, c0] * cm2 [a0, a1, a2] * !![c0, -s0; s0, c0]ᵀ =
        colMatrix2 [a0.val * (c0 * c0) + a2.val * (s0 * s0) - (a1.val * (s0 * c0) + a1.val * (s0 * c0)),
          (a0.val - a2.val) * (s0 * c0) + a1.val * (c0 ^ 2 - s0 ^ 2),
          a0.val * (s0 * s0) + a2.val * (c0 * c0) + (a1.val * (s0 * c0) + a1.val * (s0 * c0))] := by
      ext i j
      fin_cases i <;> fin_cases j <;>
        simp [Matrix.mul_apply, Fin.sum_univ_two, cm2, colMatrix2, num] <;> ring1
    rw [e]
    refine (frob_le (b := 40 * ε * N) (by positivity) fun i j => ?_).trans (by
      push_cast; nlinarith [mul_nonneg hε0 nA])
    rw [Matrix.sub_apply]
    fin_cases i <;> fin_cases j
    · exact d1
    · exact hz'
    · exact hz'
    · exact d2
  · have e : !![c0, -s0; s0, c0] * fm 2 [v0, v1, v2, v3] =
        fullMatrix 2 [c0 * v0.val - s0 * v2.val, c0 * v1.val - s0 * v3.val, s0 * v0.val + c0 * v2.val,
          s0 * v1.val + c0 * v3.val] := by
      ext i j
      fin_cases i <;> fin_cases j <;>
        simp [Matrix.mul_apply, Fin.sum_univ_two, fm, fullMatrix, num] <;> ring1
    rw [e]
    refine (frob_le (b := 40 * ε * M) (by positivity) fun i j => ?_).trans (by
      push_cast; nlinarith [mul_nonneg hε0 nV])
    have e : ∀ M N : Matrix (Fin 2) (Fin 2) ℝ, (M - N) i j = M i j - N i j := fun M N => Matrix.sub_apply M N i j
    rw [e]
    fin_cases i <;> fin_cases j
    · exact w0.trans bM
    · exact w1.trans bM
    · exact w2.trans bM
    · exact w3.trans bM

end rots

end DF
