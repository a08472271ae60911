import Verif.Lemmas.FloatOps
import Mathlib.Tactic.NormNum

/-!
# Spacing of the machine numbers, products, whole numbers
-/

namespace DF

open Spec

variable {p : Nat} {R : Rounding p}

theorem Representable.multiple {y : ℝ} (h : Representable p y) {e : ℤ} (hy : (2 : ℝ) ^ p * (2 : ℝ) ^ (e - 1) < |y|) :
    ∃ k : ℤ, y = k * (2 : ℝ) ^ e := by
  obtain ⟨m, f, hm, rfl⟩ := h
  have hf : (0 : ℝ) < (2 : ℝ) ^ f := zpow_pos (by norm_num) _
  have hmr : |(m : ℝ)| ≤ 2 ^ p := by exact_mod_cast Int.cast_le (R := ℝ) |>.2 hm
  rw [abs_mul, abs_of_pos hf] at hy
  have h1 : (2 : ℝ) ^ p * (2 : ℝ) ^ (e - 1) < (2 : ℝ) ^ p * (2 : ℝ) ^ f :=
    lt_of_lt_of_le hy (mul_le_mul_of_nonneg_right hmr hf.le)
  have h2 : (2 : ℝ) ^ (e - 1) < (2 : ℝ) ^ f := lt_of_mul_lt_mul_left h1 (by positivity)
  have h3 : e - 1 < f := (zpow_lt_zpow_iff_right₀ (by norm_num)).1 h2
  obtain ⟨d, hd⟩ := Int.le.dest (show e ≤ f by omega)
  refine ⟨m * 2 ^ d, ?_⟩
  rw [← hd, zpow_add₀ (by norm_num), zpow_natCast]
  push_cast
  ring

namespace Rounding

/-- The rounded value, from a number that is close enough. -/
theorem eq_of_close (R : Rounding p) {x : ℝ} {k e : ℤ} (h1 : 2 ^ p ≤ 2 * (k - 1)) (h2 : k ≤ 2 ^ p)
    (h3 : |(k : ℝ) * (2 : ℝ) ^ e - x| < (2 : ℝ) ^ (e - 1)) : R.fl x = k * (2 : ℝ) ^ e := by
  have he : (0 : ℝ) < (2 : ℝ) ^ e := zpow_pos (by norm_num) _
  have he1 : (2 : ℝ) ^ (e - 1) = (2 : ℝ) ^ e / 2 := by rw [zpow_sub₀ (by norm_num), zpow_one]
  have hk0 : 0 ≤ k := by
    have : (0 : ℤ) < 2 ^ p := by positivity
    omega
  have hrep : Representable p ((k : ℝ) * (2 : ℝ) ^ e) := ⟨k, e, by rwa [abs_of_nonneg hk0], rfl⟩
  have hn := lt_of_le_of_lt (R.near x _ hrep) h3
  rw [he1] at h3 hn
  have h1' : (2 : ℝ) ^ p ≤ 2 * ((k : ℝ) - 1) := by exact_mod_cast Int.cast_le (R := ℝ) |>.2 h1
  rw [abs_lt] at h3 hn
  have hz : ((k : ℝ) - 1) * (2 : ℝ) ^ e < R.fl x := by nlinarith
  obtain ⟨k', hk'⟩ := (R.rep x).multiple (e := e) (by
    refine lt_of_lt_of_le (lt_of_le_of_lt ?_ hz) (le_abs_self _)
    rw [he1]
    nlinarith)
  have ha : ((k : ℝ) - 1) * (2 : ℝ) ^ e < k' * (2 : ℝ) ^ e := by rw [← hk']; exact hz
  have hb : (k' : ℝ) * (2 : ℝ) ^ e < ((k : ℝ) + 1) * (2 : ℝ) ^ e := by rw [← hk']; nlinarith
  have ha' := lt_of_mul_lt_mul_right ha he.le
  have hb' := lt_of_mul_lt_mul_right hb he.le
  have : k' = k := by
    have a1 : k - 1 < k' := by exact_mod_cast ha'
    have a2 : k' < k + 1 := by exact_mod_cast hb'
    omega
  rw [hk', this]

theorem pow_rep {L : ℤ} : Representable p ((2 : ℝ) ^ L) := ⟨1, L, by simp [one_le_pow₀], by simp⟩

theorem neg_rep {x : ℝ} (h : Representable p x) : Representable p (-x) := by
  obtain ⟨m, e, hm, rfl⟩ := h
  exact ⟨-m, e, by simpa using hm, by push_cast; ring⟩

theorem error_lt (R : Rounding p) {x : ℝ} (hx : x ≠ 0) : |R.fl x - x| < unit p * |x| := by
  have h0 := abs_pos.2 hx
  have h1 := Int.zpow_log_le_self (b := 2) (by norm_num) h0
  push_cast at h1
  rcases h1.lt_or_eq with h1 | h1
  · refine lt_of_le_of_lt (R.near x _ (nearest_rep x)) ?_
    have h3 : (0 : ℝ) < (2 : ℝ) ^ expo p x := zpow_pos (by norm_num) _
    have h := abs_sub_round (x / (2 : ℝ) ^ expo p x)
    have h4 : |nearest p x - x| = |x / (2 : ℝ) ^ expo p x - round (x / (2 : ℝ) ^ expo p x)| * (2 : ℝ) ^ expo p x := by
      rw [← abs_of_pos h3, ← abs_mul, abs_of_pos h3, sub_mul, div_mul_cancel₀ _ h3.ne', abs_sub_comm]
      rfl
    rw [h4]
    have h5 : (2 : ℝ) ^ expo p x = 2 * unit p * (2 : ℝ) ^ (Int.log 2 |x|) := by
      unfold expo
      rw [unit_eq, show Int.log 2 |x| + 1 - (p : ℤ) = 1 + (-(p : ℤ)) + Int.log 2 |x| by ring, zpow_add₀ (by norm_num),
        zpow_add₀ (by norm_num), zpow_one]
    have h6 := unit_pos (p := p)
    calc _ ≤ 1 / 2 * (2 : ℝ) ^ expo p x := mul_le_mul_of_nonneg_right h h3.le
      _ = unit p * (2 : ℝ) ^ (Int.log 2 |x|) := by rw [h5]; ring
      _ < _ := mul_lt_mul_of_pos_left h1 h6
  · have hr : Representable p x := by
      rcases abs_choice x with h | h
      · rw [← h, ← h1]; exact pow_rep
      · rw [← neg_neg x, ← h, ← h1]; exact neg_rep pow_rep
    rw [R.exact hr, sub_self, abs_zero]
    exact mul_pos unit_pos h0

theorem pos (R : Rounding p) {x : ℝ} (h : 0 < x) : 0 < R.fl x := by
  have h1 := R.error_lt h.ne'
  rw [abs_of_pos h, abs_lt] at h1
  have := unit_le_one (p := p)
  nlinarith

/-- Numbers below `1 + 2^-p` are rounded to at most 1. -/
theorem le_one (R : Rounding p) (hp : 1 ≤ p) {y : ℝ} (h : y < 1 + unit p) : R.fl y ≤ 1 := by
  rcases le_or_gt y 1 with h1 | h1
  · have := R.mono h1
    rwa [R.exact one_rep] at this
  · by_contra hc
    rw [not_le] at hc
    have hu := unit_pos (p := p)
    obtain ⟨k, hk⟩ := (R.rep y).multiple (e := 1 - (p : ℤ)) (by
      rw [show 1 - (p : ℤ) - 1 = -(p : ℤ) by ring, zpow_neg, zpow_natCast, mul_inv_cancel₀ (by positivity)]
      exact lt_of_lt_of_le hc (le_abs_self _))
    have hs : (2 : ℝ) ^ (1 - (p : ℤ)) = 2 * unit p := by
      rw [unit_eq, sub_eq_add_neg, zpow_add₀ (by norm_num), zpow_one]
    have hq : (2 : ℝ) ^ (p - 1) * (2 * unit p) = 1 := by
      have : (2 : ℝ) ^ p = 2 ^ (p - 1) * 2 := by rw [← pow_succ]; congr 1; omega
      rw [← mul_assoc, ← this, unit, inv_pow, mul_inv_cancel₀ (by positivity)]
    rw [hs] at hk
    have h2 : (2 : ℝ) ^ (p - 1) * (2 * unit p) < k * (2 * unit p) := by rw [hq, ← hk]; exact hc
    have h3 := lt_of_mul_lt_mul_right h2 (by linarith)
    have h4 : (2 : ℤ) ^ (p - 1) + 1 ≤ k := by
      have : (2 : ℤ) ^ (p - 1) < k := by exact_mod_cast h3
      omega
    have h5 : (2 : ℝ) ^ (p - 1) + 1 ≤ k := by exact_mod_cast Int.cast_le (R := ℝ) |>.2 h4
    have h6 : 1 + 2 * unit p ≤ R.fl y := by rw [hk]; nlinarith
    have h7 := R.near y 1 one_rep
    rw [abs_of_pos (by linarith), abs_of_neg (by linarith)] at h7
    linarith

/-- Numbers above `1 - 2^-p` are rounded to at least `1 - 2^-p`. -/
theorem ge_one_sub (R : Rounding p) {y : ℝ} (h : 1 - unit p ≤ y) : 1 - unit p ≤ R.fl y := by
  have hr : Representable p (1 - unit p) := by
    refine ⟨2 ^ p - 1, -(p : ℤ), ?_, ?_⟩
    · have : (1 : ℤ) ≤ 2 ^ p := one_le_pow₀ (by norm_num)
      rw [abs_of_nonneg (by omega)]
      omega
    · push_cast
      rw [zpow_neg, zpow_natCast, sub_mul, mul_inv_cancel₀ (by positivity), unit, inv_pow]
      ring
  have := R.mono h
  rwa [R.exact hr] at this

end Rounding

/-! ### Products -/

theorem mul_error {x e y f : ℝ} {m k : Nat} (hx : |x - e| ≤ growth p m * |e|) (hy : |y - f| ≤ growth p k * |f|) :
    |x * y - e * f| ≤ growth p (m + k) * |e * f| := by
  have h1 := abs_of_error hx le_rfl
  rw [show x * y - e * f = x * (y - f) + (x - e) * f by ring]
  refine (abs_add_le _ _).trans ?_
  rw [abs_mul, abs_mul, abs_mul, growth_add]
  have hg := growth_nonneg (p := p) m
  have hk := growth_nonneg (p := p) k
  have h2 : |x| * |y - f| ≤ (1 + growth p m) * |e| * (growth p k * |f|) :=
    mul_le_mul h1 hy (abs_nonneg _) (mul_nonneg (by linarith) (abs_nonneg _))
  have h3 : |x - e| * |f| ≤ growth p m * |e| * |f| := mul_le_mul_of_nonneg_right hx (abs_nonneg _)
  nlinarith

theorem round_error (x : ℝ) : |R.fl x - x| ≤ growth p 1 * |x| := by rw [growth_one]; exact R.error x

theorem fl_rel {x e : ℝ} {m : Nat} (h : |x - e| ≤ growth p m * |e|) : |R.fl x - e| ≤ growth p (m + 1) * |e| :=
  fl_error h le_rfl

theorem fl_mul_error {x e y f : ℝ} {m k : Nat} (hx : |x - e| ≤ growth p m * |e|) (hy : |y - f| ≤ growth p k * |f|) :
    |R.fl (x * y) - e * f| ≤ growth p (m + k + 1) * |e * f| := fl_rel (mul_error hx hy)

theorem self_error (x : ℝ) : |x - x| ≤ growth p 0 * |x| := by simp [growth_zero]

theorem add_error {x e y f A B : ℝ} {m : Nat} (hx : |x - e| ≤ growth p m * A) (hy : |y - f| ≤ growth p m * B)
    (he : |e| ≤ A) (hf : |f| ≤ B) : |R.fl (x + y) - (e + f)| ≤ growth p (m + 1) * (A + B) := by
  refine fl_error ?_ ((abs_add_le _ _).trans (add_le_add he hf))
  rw [show x + y - (e + f) = (x - e) + (y - f) by ring, mul_add]
  exact (abs_add_le _ _).trans (add_le_add hx hy)

theorem sub_error {x e y f A B : ℝ} {m : Nat} (hx : |x - e| ≤ growth p m * A) (hy : |y - f| ≤ growth p m * B)
    (he : |e| ≤ A) (hf : |f| ≤ B) : |R.fl (x - y) - (e - f)| ≤ growth p (m + 1) * (A + B) := by
  rw [sub_eq_add_neg, sub_eq_add_neg e]
  refine add_error hx ?_ he (by rwa [abs_neg])
  rw [show -y - -f = -(y - f) by ring, abs_neg]
  exact hy

theorem weaken {x e A : ℝ} {m k : Nat} (h : |x - e| ≤ growth p m * A) (hA : 0 ≤ A) (hmk : m ≤ k) :
    |x - e| ≤ growth p k * A := h.trans (mul_le_mul_of_nonneg_right (growth_mono hmk) hA)

theorem prod_error {u v : List (Dbl R)} (h : u.length = v.length) :
    |((List.zipWith (· * ·) u v).foldl (· + ·) 0).val - dotL (vals u) (vals v)| ≤
      growth p (u.length + 1) * dotL (absVals u) (absVals v) := by
  have h1 : (List.zipWith (· * ·) u v).length = u.length := by simp [h]
  have := (sum_terms_error (R := R) (m := 1) (l := List.zipWith (· * ·) u v)
    (e := List.zipWith (· * ·) (vals u) (vals v)) (A := List.zipWith (· * ·) (absVals u) (absVals v))
    (by simp [vals]) (by simp [absVals]) (fun i hi h2 h3 => by
      simp only [List.getElem_zipWith, vals, absVals, List.getElem_map, Dbl.val_mul, ← abs_mul]
      exact ⟨round_error _, le_rfl⟩)).1
  rw [h1] at this
  exact this

/-! ### Sums of non-negative numbers -/

theorem fold_ge : ∀ (l : List (Dbl R)) (acc : Dbl R), 0 ≤ acc.val → (∀ x ∈ l, 0 ≤ x.val) →
    acc.val ≤ (l.foldl (· + ·) acc).val ∧ ∀ x ∈ l, x.val ≤ (l.foldl (· + ·) acc).val
  | [], acc, _, _ => by simp
  | y :: l, acc, ha, hl => by
    have hy := hl y (by simp)
    have h1 : acc.val ≤ (acc + y).val := by
      have := R.mono (show acc.val ≤ acc.val + y.val by linarith)
      rwa [R.exact acc.rep] at this
    have h2 : y.val ≤ (acc + y).val := by
      have := R.mono (show y.val ≤ acc.val + y.val by linarith)
      rwa [R.exact y.rep] at this
    obtain ⟨h3, h4⟩ := fold_ge l (acc + y) (ha.trans h1) (fun x hx => hl x (by simp [hx]))
    refine ⟨h1.trans h3, fun x hx => ?_⟩
    rcases List.mem_cons.1 hx with rfl | hx
    · exact h2.trans h3
    · exact h4 x hx

/-! ### Whole numbers -/

theorem fold_whole : ∀ (l : List (Dbl R)) (acc : Dbl R), Whole acc → (∀ x ∈ l, Whole x) →
    |acc.val| + (absVals l).sum ≤ 2 ^ p → (l.foldl (· + ·) acc).val = acc.val + (vals l).sum
  | [], acc, _, _, _ => by simp [vals]
  | y :: l, acc, ⟨a, ha⟩, hl, hb => by
    obtain ⟨b, hb'⟩ := hl y (by simp)
    have h0 := absVals_nonneg l
    simp only [absVals, vals, List.map_cons, List.sum_cons] at hb h0 ⊢
    have h1 := abs_add_le acc.val y.val
    have h2 : (acc + y).val = acc.val + y.val := by
      rw [Dbl.val_add, R.exact]
      refine ⟨a + b, 0, ?_, by rw [ha, hb']; push_cast; simp⟩
      have : |((a + b : ℤ) : ℝ)| ≤ 2 ^ p := by push_cast; rw [← ha, ← hb']; linarith
      exact_mod_cast this
    rw [List.foldl_cons, fold_whole l (acc + y) ⟨a + b, by rw [h2, ha, hb']; push_cast; rfl⟩
      (fun x hx => hl x (by simp [hx])) (by rw [h2]; simp only [absVals]; linarith), h2]
    simp only [vals]
    ring

theorem whole_rep {m : ℤ} (h : |(m : ℝ)| ≤ 2 ^ p) : Representable p (m : ℝ) := ⟨m, 0, by exact_mod_cast h, by simp⟩

theorem dot_whole : ∀ {u v : List (Dbl R)}, u.length = v.length → (∀ x ∈ u, Whole x) →
    (∀ x ∈ v, Whole x) → dotL (absVals u) (absVals v) ≤ 2 ^ p →
    ((List.zipWith (· * ·) u v).foldl (· + ·) 0).val = dotL (vals u) (vals v) := by
  intro u v h hu hv hb
  have key : ∀ (u v : List (Dbl R)), u.length = v.length → (∀ x ∈ u, Whole x) →
      (∀ x ∈ v, Whole x) → dotL (absVals u) (absVals v) ≤ 2 ^ p →
      vals (List.zipWith (· * ·) u v) = List.zipWith (· * ·) (vals u) (vals v) ∧
      (∀ x ∈ List.zipWith (· * ·) u v, Whole x) ∧
      absVals (List.zipWith (· * ·) u v) = List.zipWith (· * ·) (absVals u) (absVals v) ∧
      0 ≤ dotL (absVals u) (absVals v) := by
    intro u
    induction u with
    | nil => intro v h; simp [vals, absVals, dotL]
    | cons x u ih =>
      intro v h hu hv hb
      cases v with
      | nil => simp at h
      | cons y v =>
        obtain ⟨a, ha⟩ := hu x (by simp)
        obtain ⟨b, hb'⟩ := hv y (by simp)
        simp only [dotL, absVals, List.map_cons, List.zipWith_cons_cons, List.sum_cons] at hb
        have hnn : 0 ≤ (List.zipWith (· * ·) (absVals u) (absVals v)).sum := by
          apply List.sum_nonneg
          intro z hz
          obtain ⟨i, hi, rfl⟩ := List.mem_iff_getElem.1 hz
          simp only [List.getElem_zipWith, absVals, List.getElem_map]
          positivity
        have hxy : 0 ≤ |x.val| * |y.val| := by positivity
        simp only [absVals] at hnn
        obtain ⟨i1, i2, i3, i4⟩ := ih v (by simpa using h) (fun z hz => hu z (by simp [hz])) (fun z hz => hv z (by simp [hz]))
          (by simp only [dotL, absVals]; linarith)
        have hm : (x * y).val = x.val * y.val := by
          rw [Dbl.val_mul, R.exact]
          rw [ha, hb', ← Int.cast_mul]
          apply whole_rep
          rw [Int.cast_mul, ← ha, ← hb', abs_mul]
          linarith
        simp only [vals, absVals, dotL, List.zipWith_cons_cons, List.map_cons, List.sum_cons, hm, abs_mul] at i1 i3 i4 ⊢
        refine ⟨by rw [i1], ?_, by rw [i3], by linarith⟩
        intro z hz
        rcases List.mem_cons.1 hz with rfl | hz
        · exact ⟨a * b, by rw [hm, ha, hb']; push_cast; rfl⟩
        · exact i2 z hz
  obtain ⟨k1, k2, k3, _⟩ := key u v h hu hv hb
  have := fold_whole (R := R) _ 0 ⟨0, by simp [Dbl.val_zero]⟩ k2 (by rw [k3]; simpa [Dbl.val_zero, dotL] using hb)
  rw [this, k1]
  simp [Dbl.val_zero, dotL]

/-! ### Size of the bounds -/

/-- `n` roundings: at most `2 n` units, as long as `n` units make at most one half. -/
theorem growth_le {n : Nat} (h : (n : ℝ) * unit p ≤ 1 / 2) : growth p n ≤ 2 * n * unit p := by
  have hu := unit_pos (p := p)
  have key : ∀ k : Nat, (k : ℝ) ≤ n → growth p k ≤ k * unit p + 2 * (k * unit p) ^ 2 := by
    intro k
    induction k with
    | zero => intro _; simp [growth_zero]
    | succ k ih =>
      intro hk
      push_cast at hk
      have := ih (by linarith)
      rw [growth_succ]
      have hku : (k : ℝ) * unit p ≤ 1 / 2 := le_trans (mul_le_mul_of_nonneg_right (by linarith) hu.le) h
      have hk0 : (0 : ℝ) ≤ k := by positivity
      have h3 : 0 ≤ (k : ℝ) * unit p := mul_nonneg hk0 hu.le
      push_cast
      have h4 : growth p k * (1 + unit p) ≤ (k * unit p + 2 * (k * unit p) ^ 2) * (1 + unit p) :=
        mul_le_mul_of_nonneg_right this (by linarith)
      have h5 : ((k : ℝ) * unit p) ^ 2 ≤ 1 / 2 * (k * unit p) := by nlinarith
      nlinarith [mul_nonneg h3 hu.le, mul_nonneg hu.le hu.le, mul_le_mul_of_nonneg_right h5 hu.le]
  have h1 := key n le_rfl
  have h2 : 0 ≤ (n : ℝ) * unit p := mul_nonneg (by positivity) hu.le
  nlinarith

end DF
