import Verif.Lemmas.FloatMore
import Verif.Props.Stats
import Verif.Props.Algebra
import Verif.Model.Geo
import Mathlib.LinearAlgebra.Matrix.Permanent

/-!
# Properties in rounded arithmetic (C86-C90)

The numbers are `Dbl R`: `p` binary digits, each operation rounded to nearest in any way `R`. The theorems hold for every
`p` and every `R`; `double` is `p = 53`. There is no overflow and no underflow in this model (see Verif/Model/Float.lean).
-/

namespace DF

open Spec

variable {p : Nat} {R : Rounding p}

/-- Rounding to nearest with 53 digits exists: the theorems below speak of something. -/
noncomputable example : Rounding 53 := Rounding.halfUp 53 (by decide)

/-- A whole number as a machine number. -/
noncomputable def dbl (R : Rounding p) (m : ℤ) : Dbl R := Dbl.round R m

theorem dbl_val {m : ℤ} (h : |(m : ℝ)| ≤ 2 ^ p) : (dbl R m).val = m := R.exact (whole_rep h)

theorem dbl_mono {m n : ℤ} (hm : |(m : ℝ)| ≤ 2 ^ p) (hn : |(n : ℝ)| ≤ 2 ^ p) (h : m ≤ n) : dbl R m ≤ dbl R n := by
  show (dbl R m).val ≤ (dbl R n).val
  rw [dbl_val hm, dbl_val hn]
  exact_mod_cast h

theorem dbl_strictMono {m n : ℤ} (hm : |(m : ℝ)| ≤ 2 ^ p) (hn : |(n : ℝ)| ≤ 2 ^ p) (h : m < n) : dbl R m < dbl R n := by
  show (dbl R m).val < (dbl R n).val
  rw [dbl_val hm, dbl_val hn]
  exact_mod_cast h

theorem dbl_zero : dbl R 0 = 0 := Dbl.val_injective (by rw [dbl_val (by simp), Dbl.val_zero, Int.cast_zero])

theorem dbl_one : dbl R 1 = 1 := Dbl.val_injective (by rw [dbl_val (by simp [one_le_pow₀]), Dbl.val_one, Int.cast_one])

theorem dbl_whole {R : Rounding 53} {m : ℤ} (h : |(m : ℝ)| ≤ 2 ^ 53) : Whole (dbl R m) := ⟨m, dbl_val h⟩

/-- A rounding to nearest that is symmetric around zero exists at every precision (used by C90_cross_antisymmetric). -/
theorem symmetricRounding_exists (hp : 1 ≤ p) : ∃ R : Rounding p, ∀ x, R.fl (-x) = -R.fl x := by
  let H := Rounding.halfUp p hp
  refine ⟨⟨fun x => if 0 ≤ x then H.fl x else -H.fl (-x), fun x => ?_, fun x y hy => ?_⟩, fun x => ?_⟩
  · split
    · exact H.rep x
    · exact Rounding.neg_rep (H.rep _)
  · split
    · exact H.near x y hy
    · have := H.near (-x) (-y) (Rounding.neg_rep hy)
      rw [show -H.fl (-x) - x = -(H.fl (-x) - -x) by ring, abs_neg]
      rwa [show -y - -x = -(y - x) by ring, abs_neg] at this
  · dsimp only
    rcases lt_trichotomy x 0 with h | h | h
    · rw [if_pos (by linarith), if_neg (by linarith), neg_neg]
    · subst h
      simp [H.exact Rounding.zero_rep]
    · rw [if_neg (by linarith), if_pos h.le, neg_neg]

/-! The Series of the examples, for any rounding with 53 digits. -/

section examples

variable (R : Rounding 53)

/-- Two items of three numbers. -/
noncomputable def exA : Serie (Dbl R) := ⟨[dbl R 1, dbl R (-2), dbl R 3, dbl R 4, dbl R 5, dbl R 6], 2, 3, 3⟩

/-- Two items of three numbers. -/
noncomputable def exB : Serie (Dbl R) := ⟨[dbl R 7, dbl R 8, dbl R (-9), dbl R 1, dbl R 0, dbl R 2], 2, 3, 3⟩

/-- Three numbers. -/
noncomputable def exC : Serie (Dbl R) := ⟨[dbl R 0, dbl R 49, dbl R 7], 3, 1, 3⟩

/-- Three numbers. -/
noncomputable def exD : Serie (Dbl R) := ⟨[dbl R 5, dbl R (-1), dbl R 2], 3, 1, 3⟩

/-- Every number of `exC` is between 0 and 49. -/
theorem exC_range : ∀ x ∈ (exC R).data, dbl R 0 ≤ x ∧ x ≤ dbl R 49 := by
  intro x hx
  simp only [exC, List.mem_cons, List.not_mem_nil, or_false] at hx
  rcases hx with rfl | rfl | rfl <;>
    exact ⟨dbl_mono (by norm_num) (by norm_num) (by norm_num), dbl_mono (by norm_num) (by norm_num) (by norm_num)⟩

/-- `exC` has two different numbers. -/
theorem exC_ne : ∃ x ∈ scalars (exC R), ∃ y ∈ scalars (exC R), x ≠ y :=
  ⟨dbl R 0, .head _, dbl R 49, .tail _ (.head _), (dbl_strictMono (by norm_num) (by norm_num) (by norm_num)).ne⟩

/-- Every item of `exA` has a number other than zero. -/
theorem exA_ne : ∀ v ∈ items (exA R), ∃ x ∈ v, x ≠ 0 := by
  show ∀ v ∈ [[dbl R 1, dbl R (-2), dbl R 3], [dbl R 4, dbl R 5, dbl R 6]], ∃ x ∈ v, x ≠ 0
  intro v hv
  have h : ∀ m : ℤ, |(m : ℝ)| ≤ 2 ^ 53 → 0 < m → dbl R m ≠ 0 := by
    intro m hm h0
    rw [← dbl_zero]
    exact (dbl_strictMono (by norm_num) hm h0).ne'
  simp only [List.mem_cons, List.not_mem_nil, or_false] at hv
  rcases hv with rfl | rfl
  · exact ⟨dbl R 1, by simp, h 1 (by norm_num) (by norm_num)⟩
  · exact ⟨dbl R 4, by simp, h 4 (by norm_num) (by norm_num)⟩

theorem exA_WF : WF (exA R) := of_decide_eq_true rfl

theorem exB_WF : WF (exB R) := of_decide_eq_true rfl

theorem exC_WF : WF (exC R) := of_decide_eq_true rfl

theorem exD_WF : WF (exD R) := of_decide_eq_true rfl

end examples

/-! ## C86: mean -/

theorem count_cast {s : Serie (Dbl R)} (h : WF s) (hp : 32 ≤ p) : ((s.count : Nat) : Dbl R).val = s.count := by
  refine Dbl.val_cast ?_
  have h1 := h.count_lt
  have : 2 ^ 32 ≤ 2 ^ p := Nat.pow_le_pow_right (by norm_num) hp
  omega

theorem mean_error {l : List (Dbl R)} {c : Dbl R} {n : Nat} (hc : c.val = n) (hl : l.length = n) :
    |((l.foldl (· + ·) 0) / c).val - average (vals l)| ≤ growth p (n + 1) * average (absVals l) := by
  have h1 := sum_error l
  have h2 := sum_abs_le l
  have hn : (0 : ℝ) ≤ n := by positivity
  rw [Dbl.val_div, hc]
  unfold average
  simp only [vals, absVals, List.length_map, hl] at h1 h2 ⊢
  refine fl_error (R := R) (m := n) ?_ ?_
  · rw [← sub_div, abs_div, abs_of_nonneg hn, ← mul_div_assoc]
    exact div_le_div_of_nonneg_right h1 hn
  · rw [abs_div, abs_of_nonneg hn]
    exact div_le_div_of_nonneg_right h2 hn

/-- C86: `mean` differs from the exact average, component by component, by at most the relative error of `count + 1`
roundings, relative to the average of the absolute values. -/
theorem C86_mean_error (hp : 32 ≤ p) {s : Serie (Dbl R)} (h : WF s) :
    ∃ t, mean s = .ok t ∧ ∀ j, j < s.itemSize → ∃ x, tupleAt t j = some x ∧
      |x.val - average (vals (component s j))| ≤ growth p (s.count + 1) * average (absVals (component s j)) := by
  have hc := count_cast h hp
  by_cases h1 : s.itemSize = 1
  · refine ⟨_, mean_scalar_run h h1, fun j hj => ?_⟩
    have : j = 0 := by omega
    subst this
    refine ⟨_, rfl, ?_⟩
    rw [component_scalar h h1]
    exact mean_error hc h.scalars_length
  · obtain ⟨b, h2, h3, h4⟩ := mean_items_run h h1
    exact ⟨_, h2, fun j hj => ⟨_, h4 j hj, mean_error hc (component_length h hj)⟩⟩

example (R : Rounding 53) := C86_mean_error (by decide) (exA_WF R)

/-- C86 for `double`, whatever the number of items: the error is at most `2^-20` times the average of the absolute
values. -/
theorem C86_mean_double {R : Rounding 53} {s : Serie (Dbl R)} (h : WF s) :
    ∃ t, mean s = .ok t ∧ ∀ j, j < s.itemSize → ∃ x, tupleAt t j = some x ∧
      |x.val - average (vals (component s j))| ≤ (1 / 2 ^ 20) * average (absVals (component s j)) := by
  obtain ⟨t, h1, h2⟩ := C86_mean_error (by norm_num) h
  refine ⟨t, h1, fun j hj => ?_⟩
  obtain ⟨x, h3, h4⟩ := h2 j hj
  refine ⟨x, h3, h4.trans (mul_le_mul_of_nonneg_right ?_ ?_)⟩
  · have hn : ((s.count + 1 : Nat) : ℝ) ≤ 2 ^ 32 := by
      have := h.count_lt
      exact_mod_cast this
    have hu : unit 53 = 1 / 2 ^ 53 := by unfold unit; norm_num
    have := growth_le (p := 53) (n := s.count + 1) (by rw [hu]; nlinarith)
    rw [hu] at this
    refine this.trans ?_
    linarith
  · exact div_nonneg (absVals_nonneg _) (by positivity)

example (R : Rounding 53) := C86_mean_double (exA_WF R)

/-- C86: for whole numbers whose absolute values have a sum of at most `2^p`, `mean` is the exact average, rounded once. -/
theorem C86_mean_whole (hp : 32 ≤ p) {s : Serie (Dbl R)} (h : WF s) :
    ∃ t, mean s = .ok t ∧ ∀ j, j < s.itemSize → (∀ x ∈ component s j, Whole x) → (absVals (component s j)).sum ≤ 2 ^ p →
      ∃ x, tupleAt t j = some x ∧ x.val = R.fl (average (vals (component s j))) := by
  have hc := count_cast h hp
  have key : ∀ l : List (Dbl R), l.length = s.count → (∀ x ∈ l, Whole x) → (absVals l).sum ≤ 2 ^ p →
      ((l.foldl (· + ·) 0) / ((s.count : Nat) : Dbl R)).val = R.fl (average (vals l)) := by
    intro l hl hw hb
    rw [Dbl.val_div, hc, fold_whole l 0 ⟨0, by simp [Dbl.val_zero]⟩ hw (by simpa [Dbl.val_zero] using hb), Dbl.val_zero,
      zero_add]
    simp [average, vals, hl]
  by_cases h1 : s.itemSize = 1
  · refine ⟨_, mean_scalar_run h h1, fun j hj hw hb => ?_⟩
    have : j = 0 := by omega
    subst this
    refine ⟨_, rfl, ?_⟩
    rw [component_scalar h h1] at hw hb ⊢
    exact key _ h.scalars_length hw hb
  · obtain ⟨b, h2, h3, h4⟩ := mean_items_run h h1
    exact ⟨_, h2, fun j hj hw hb => ⟨_, h4 j hj, key _ (component_length h hj) hw hb⟩⟩

example (R : Rounding 53) := C86_mean_whole (by decide) (exA_WF R)

/-- The hypotheses of C86 are met by two items `(1, 2)`, `(3, 5)`. -/
example : let s : Serie (Dbl (Rounding.halfUp 53 (by decide))) := ⟨[dbl _ 1, dbl _ 2, dbl _ 3, dbl _ 5], 2, 2, 3⟩
    WF s ∧ component s 1 = [dbl _ 2, dbl _ 5] ∧ (∀ x ∈ component s 1, Whole x) ∧
      (absVals (component s 1)).sum ≤ 2 ^ 53 := by
  have h2 : (dbl (Rounding.halfUp 53 (by decide)) 2).val = (2 : ℤ) := dbl_val (by norm_num)
  have h5 : (dbl (Rounding.halfUp 53 (by decide)) 5).val = (5 : ℤ) := dbl_val (by norm_num)
  refine ⟨⟨by simp, by simp, by simp, by simp⟩, rfl, ?_, ?_⟩
  · show ∀ x ∈ [dbl _ 2, dbl _ 5], Whole x
    intro x hx
    rcases List.mem_pair.1 hx with rfl | rfl
    · exact ⟨2, h2⟩
    · exact ⟨5, h5⟩
  · show |(dbl _ 2).val| + (|(dbl _ 5).val| + 0) ≤ 2 ^ 53
    rw [h2, h5]
    norm_num

/-- The average lies between the smallest and the largest number; this is violated by rounding. For every precision
`p ≥ 32` and every rounding, the mean of five copies of `2^p - 1` is `2^p - 2`. -/
theorem C86_mean_range_violated (hp : 32 ≤ p) : ∃ (s : Serie (Dbl R)) (c x : Dbl R), WF s ∧ s.itemSize = 1 ∧ s.count = 5 ∧
    (∀ y ∈ scalars s, y = c) ∧ c.val = 2 ^ p - 1 ∧ mean s = .ok (.number x) ∧ x.val = 2 ^ p - 2 := by
  obtain ⟨q, hq, hq2⟩ : ∃ q : ℤ, (2 : ℤ) ^ p = 8 * q ∧ 1 < q := by
    refine ⟨2 ^ (p - 3), ?_, one_lt_pow₀ (by norm_num) (by omega)⟩
    rw [show (8 : ℤ) = 2 ^ 3 by norm_num, ← pow_add]
    congr 1
    omega
  have hqr : (2 : ℝ) ^ p = 8 * q := by exact_mod_cast congrArg (Int.cast (R := ℝ)) hq
  have hc : (dbl R (8 * q - 1)).val = 8 * q - 1 := by
    rw [dbl_val]
    · push_cast; ring
    · have : (1 : ℝ) < q := by exact_mod_cast hq2
      rw [hqr]; push_cast
      rw [abs_of_pos (by linarith)]; linarith
  set c := dbl R (8 * q - 1) with hcd
  let s : Serie (Dbl R) := ⟨[c, c, c, c, c], 5, 1, 3⟩
  have hw : WF s := ⟨by simp [s], by simp [s], by simp [s], by simp [s]⟩
  have h5 : ((5 : Nat) : Dbl R).val = 5 := by
    have := Dbl.val_cast (R := R) (n := 5) (le_trans (by norm_num) (Nat.pow_le_pow_right (by norm_num) hp))
    simpa using this
  refine ⟨s, c, _, hw, rfl, rfl, by simp [s, scalars], by rw [hc, hqr], mean_scalar_run hw rfl, ?_⟩
  show R.fl ((0 + c + c + c + c + c).val / ((5 : Nat) : Dbl R).val) = _
  have e1 : (0 + c).val = 8 * q - 1 := by
    rw [Dbl.val_add, Dbl.val_zero, zero_add, R.exact c.rep, hc]
  have e2 : (0 + c + c).val = 16 * q - 2 := by
    rw [Dbl.val_add, e1, hc, R.exact]
    · ring
    · refine ⟨8 * q - 1, 1, ?_, ?_⟩
      · rw [hq, abs_of_pos (by omega)]; omega
      · push_cast; rw [zpow_one]; ring
  have e3 : (0 + c + c + c).val = 24 * q - 4 := by
    rw [Dbl.val_add, e2, hc, R.eq_of_close (k := 6 * q - 1) (e := 2)]
    · push_cast; norm_num; ring
    · rw [hq]; omega
    · rw [hq]; omega
    · push_cast; norm_num
      rw [show (6 * (q : ℝ) - 1) * 4 - (16 * q - 2 + (8 * q - 1)) = -1 by ring]; norm_num
  have e4 : (0 + c + c + c + c).val = 32 * q - 4 := by
    rw [Dbl.val_add, e3, hc, R.eq_of_close (k := 8 * q - 1) (e := 2)]
    · push_cast; norm_num; ring
    · rw [hq]; omega
    · rw [hq]; omega
    · push_cast; norm_num
      rw [show (8 * (q : ℝ) - 1) * 4 - (24 * q - 4 + (8 * q - 1)) = 1 by ring]; norm_num
  have e5 : (0 + c + c + c + c + c).val = 40 * q - 8 := by
    rw [Dbl.val_add, e4, hc, R.eq_of_close (k := 5 * q - 1) (e := 3)]
    · push_cast; norm_num; ring
    · rw [hq]; omega
    · rw [hq]; omega
    · push_cast; norm_num
      rw [show (5 * (q : ℝ) - 1) * 8 - (32 * q - 4 + (8 * q - 1)) = -3 by ring]; norm_num
  rw [e5, h5, R.eq_of_close (k := 8 * q - 2) (e := 0), hqr]
  · push_cast; norm_num
  · rw [hq]; omega
  · rw [hq]; omega
  · push_cast; norm_num
    rw [show 8 * (q : ℝ) - 2 - (40 * q - 8) / 5 = -(2 / 5) by ring]; norm_num

example (R : Rounding 53) := C86_mean_range_violated (R := R) (by decide)

/-! ## C87: dot, weightedSum, insar -/

theorem dot_run_raw {α : Type} [Zero α] [Add α] [Mul α] {a b : Serie α} (ha : WF a) (hb : WF b) (hs : SameShape a b)
    (h0 : 0 < a.count) : dot a b =
      .ok (ofItems 1 (List.zipWith (fun u v => [(List.zipWith (· * ·) u v).foldl (· + ·) 0]) (items a) (items b))) := by
  have := ha.pos
  exact mapArr_items2 (f := dotItem a.itemSize) ha hb hs.2 h0 (by omega) (by omega) (fun _ _ _ _ => rfl)
    (fun u v hu hv => dotItem_run hu (hv.trans hs.1.symm))

/-- C87: the error of `dot` is that of `itemSize + 1` roundings relative to the dot product of the absolute values. -/
theorem C87_dot_error {a b : Serie (Dbl R)} (ha : WF a) (hb : WF b) (hs : SameShape a b) (h0 : 0 < a.count) :
    ∃ r, dot a b = .ok r ∧ WF r ∧ r.itemSize = 1 ∧ ItemWise3 (fun u v w => ∃ x, w = [x] ∧
      |x.val - dotL (vals u) (vals v)| ≤ growth p (a.itemSize + 1) * dotL (absVals u) (absVals v)) a b r := by
  have := ha.pos
  have hf := ofItems_zip_facts ha hb hs.2 (k := 1) (g := fun u v => [(List.zipWith (· * ·) u v).foldl (· + ·) 0])
    (by omega) (by omega) (fun _ _ _ _ => rfl)
  refine ⟨_, dot_run_raw ha hb hs h0, hf.1, hf.2.1, ItemWise3_zip hs.2 hf.2.2.2 (fun u hu v hv => ⟨_, rfl, ?_⟩)⟩
  have h1 := ha.item_length hu
  have h2 := hb.item_length hv
  have := prod_error (R := R) (u := u) (v := v) (by rw [h1, h2, hs.1])
  rwa [h1] at this

example (R : Rounding 53) := C87_dot_error (exA_WF R) (exB_WF R) ⟨rfl, rfl⟩ (of_decide_eq_true rfl)

/-- C87: `dot` of whole numbers is exact as long as the dot product of the absolute values is at most `2^p`. -/
theorem C87_dot_whole {a b : Serie (Dbl R)} (ha : WF a) (hb : WF b) (hs : SameShape a b) (h0 : 0 < a.count) :
    ∃ r, dot a b = .ok r ∧ WF r ∧ r.itemSize = 1 ∧ ItemWise3 (fun u v w => ∃ x, w = [x] ∧
      ((∀ y ∈ u, Whole y) → (∀ y ∈ v, Whole y) → dotL (absVals u) (absVals v) ≤ 2 ^ p →
        x.val = dotL (vals u) (vals v))) a b r := by
  have := ha.pos
  have hf := ofItems_zip_facts ha hb hs.2 (k := 1) (g := fun u v => [(List.zipWith (· * ·) u v).foldl (· + ·) 0])
    (by omega) (by omega) (fun _ _ _ _ => rfl)
  refine ⟨_, dot_run_raw ha hb hs h0, hf.1, hf.2.1, ItemWise3_zip hs.2 hf.2.2.2 (fun u hu v hv => ⟨_, rfl, ?_⟩)⟩
  have h1 := ha.item_length hu
  have h2 := hb.item_length hv
  exact fun h3 h4 h5 => dot_whole (by rw [h1, h2, hs.1]) h3 h4 h5

example (R : Rounding 53) := C87_dot_whole (exA_WF R) (exB_WF R) ⟨rfl, rfl⟩ (of_decide_eq_true rfl)

/-- C87: `dot` does not depend on the order of its operands, bit for bit. -/
theorem C87_dot_symmetric {a b : Serie (Dbl R)} (ha : WF a) (hb : WF b) (hs : SameShape a b) (h0 : 0 < a.count) :
    dot a b = dot b a := by
  have hcomm : ∀ x y : Dbl R, x * y = y * x := fun x y => Dbl.ext (by rw [Dbl.val_mul, Dbl.val_mul, mul_comm])
  rw [dot_run_raw ha hb hs h0, dot_run_raw hb ha ⟨hs.1.symm, hs.2.symm⟩ (by rw [← hs.2]; exact h0)]
  congr 2
  rw [List.zipWith_comm]
  congr 1
  funext u v
  rw [List.zipWith_comm]
  simp only [hcomm]

example (R : Rounding 53) := C87_dot_symmetric (exA_WF R) (exB_WF R) ⟨rfl, rfl⟩ (of_decide_eq_true rfl)

/-- C87: `dot(a, a)` is never negative. -/
theorem C87_dot_self_nonneg {a : Serie (Dbl R)} (ha : WF a) (h0 : 0 < a.count) :
    ∃ r, dot a a = .ok r ∧ ItemWise (fun u w => ∃ x, w = [x] ∧ 0 ≤ x ∧ ∀ y ∈ u, y * y ≤ x) a r := by
  have := ha.pos
  have hf := ofItems_zip_facts ha ha rfl (k := 1) (g := fun u v => [(List.zipWith (· * ·) u v).foldl (· + ·) 0])
    (by omega) (by omega) (fun _ _ _ _ => rfl)
  refine ⟨_, dot_run_raw ha ha ⟨rfl, rfl⟩ h0, ?_⟩
  unfold ItemWise
  rw [hf.2.2.2, List.zipWith_self]
  refine forall₂_map (fun u _ => ⟨_, rfl, ?_⟩)
  have h1 := fold_ge (R := R) (List.zipWith (· * ·) u u) 0 le_rfl (fun x hx => by
    rw [List.zipWith_self, List.mem_map] at hx
    obtain ⟨y, _, rfl⟩ := hx
    exact R.nonneg (mul_self_nonneg y.val))
  refine ⟨h1.1, fun y hy => h1.2 _ ?_⟩
  rw [List.zipWith_self]
  exact List.mem_map.2 ⟨y, hy, rfl⟩

example (R : Rounding 53) := C87_dot_self_nonneg (exA_WF R) (of_decide_eq_true rfl)

/-- C87: the error of `insar` is that of 4 roundings. -/
theorem C87_insar_error {u : Serie (Dbl R)} (h : WF u) (h0 : 0 < u.count) (h3 : u.itemSize = 3) {los : List (Dbl R)}
    (hl : los.length = 3) : ∃ r, insar u los = .ok r ∧ WF r ∧ r.itemSize = 1 ∧ ItemWise (fun v w => ∃ x, w = [x] ∧
      |x.val - dotL (vals v) (vals los)| ≤ growth p 4 * dotL (absVals v) (absVals los)) u r := by
  have hf := ofItems_map_facts h (k := 1) (g := fun v => [(List.zipWith (· * ·) v los).foldl (· + ·) 0]) (by omega)
    (by omega) (fun _ _ => rfl)
  refine ⟨_, ?_, hf.1, hf.2.1, ItemWise_map hf.2.2.2 (fun v hv => ⟨_, rfl, ?_⟩)⟩
  · unfold insar dotArray
    rw [h.valid, if_neg (by simp [h3]), if_neg (by simp [hl]), Serie.value_eq h h0, Res.ok_bind, chunk_length (h.item_fits h0),
      if_neg (by simp [hl, h3])]
    exact mapArr_items h h0 (by omega) (by omega) (fun _ _ => rfl) (fun v hv i => dotItem_run hv (by omega))
  · have h1 := h.item_length hv
    have := prod_error (R := R) (u := v) (v := los) (by rw [h1, hl, h3])
    rwa [h1, h3] at this

example (R : Rounding 53) := C87_insar_error (exA_WF R) (of_decide_eq_true rfl) rfl (los := [dbl R 1, dbl R 0, dbl R 2]) rfl

/-- C87: the error of `weigthedSum` is that of one rounding more than there are Series. -/
theorem C87_weightedSum_error {series : List (Serie (Dbl R))} {weights : List (Dbl R)} {k n : Nat}
    (hne : series ≠ []) (hlen : series.length = weights.length)
    (hss : ∀ s ∈ series, WF s ∧ s.itemSize = k ∧ s.count = n) (h0 : 0 < n) :
    ∃ r, weightedSum series weights = .ok r ∧ WF r ∧ r.itemSize = k ∧ r.count = n ∧
      ∀ i j, i < n → j < k → ∃ xs x, series.map (fun s => cell s i j) = xs.map some ∧ cell r i j = some x ∧
        |x.val - dotL (vals xs) (vals weights)| ≤ growth p (series.length + 1) * dotL (absVals xs) (absVals weights) := by
  obtain ⟨r, h1, h2, h3, h4, h5⟩ := weightedSum_eq hne hlen hss h0
  refine ⟨r, h1, h2, h3, h4, fun i j hi hj => ?_⟩
  obtain ⟨xs, a, b⟩ := h5 i j hi hj
  refine ⟨xs, _, a, b, ?_⟩
  have hl : series.length = xs.length := by simpa using congrArg List.length a
  have := prod_error (R := R) (u := xs) (v := weights) (by omega)
  rwa [← hl] at this

example (R : Rounding 53) := C87_weightedSum_error (series := [exA R, exB R]) (weights := [dbl R 3, dbl R (-1)]) (k := 3) (n := 2)
  (by simp) rfl (List.forall_mem_cons.2 ⟨⟨exA_WF R, rfl, rfl⟩, List.forall_mem_singleton.2 ⟨exB_WF R, rfl, rfl⟩⟩) (of_decide_eq_true rfl)

/-! ## C88: covariance -/

theorem sum_zipWith_div (n : ℝ) (f : ℝ → ℝ → ℝ) : ∀ xs ys : List ℝ, (List.zipWith (fun u v => f u v / n) xs ys).sum =
    (List.zipWith f xs ys).sum / n
  | [], ys => by simp
  | x :: xs, [] => by simp
  | x :: xs, y :: ys => by simp only [List.zipWith_cons_cons, List.sum_cons, sum_zipWith_div n f xs ys]; ring

theorem average_cov (xs ys : List ℝ) (hxy : xs.length = ys.length) (hn : 0 < xs.length) (a b : ℝ) :
    (List.zipWith (fun u v => (u - a) * (v - b) / (xs.length : ℝ)) xs ys).sum =
      average (List.zipWith (fun u v => (u - average xs) * (v - average ys)) xs ys) +
        (average xs - a) * (average ys - b) := by
  have hn' : (xs.length : ℝ) ≠ 0 := by positivity
  have expand : ∀ (c d : ℝ) (xs ys : List ℝ), xs.length = ys.length →
      (List.zipWith (fun u v => (u - c) * (v - d)) xs ys).sum =
        (List.zipWith (· * ·) xs ys).sum - c * ys.sum - d * xs.sum + xs.length * (c * d) := by
    intro c d xs
    induction xs with
    | nil => intro ys h; cases ys <;> simp_all
    | cons x xs ih =>
      intro ys h
      cases ys with
      | nil => simp at h
      | cons y ys =>
        simp only [List.zipWith_cons_cons, List.sum_cons, List.length_cons, ih ys (by simpa using h)]
        push_cast
        ring
  rw [sum_zipWith_div _ (fun u v => (u - a) * (v - b)), expand _ _ _ _ hxy]
  unfold average
  rw [expand _ _ _ _ hxy]
  simp only [List.length_zipWith, ← hxy, min_self]
  field_simp
  ring

/-- C88: the covariance is computed with means `a`, `b` that are within the error of `mean`, and differs from the exact
covariance by at most the error of `count + 4` roundings on the products of deviations from `a` and `b`, plus the product
of the errors of the two means. -/
theorem C88_covariance_error (hp : 32 ≤ p) {x y : Serie (Dbl R)} (hx : WF x) (hy : WF y) (hc : x.count = y.count)
    (h1 : x.itemSize = 1) (h1' : y.itemSize = 1) (h0 : 0 < x.count) :
    ∃ (c : Dbl R) (a b : ℝ), covariance x y = .ok c ∧
      |a - average (vals (scalars x))| ≤ growth p (x.count + 1) * average (absVals (scalars x)) ∧
      |b - average (vals (scalars y))| ≤ growth p (x.count + 1) * average (absVals (scalars y)) ∧
      |c.val - average (List.zipWith (fun u v => (u - average (vals (scalars x))) * (v - average (vals (scalars y))))
          (vals (scalars x)) (vals (scalars y)))| ≤
        growth p (x.count + 4) * average (List.zipWith (fun u v => |u - a| * |v - b|) (vals (scalars x)) (vals (scalars y))) +
          |average (vals (scalars x)) - a| * |average (vals (scalars y)) - b| := by
  have hlx := hx.scalars_length
  have hly := hy.scalars_length
  have hmx := mean_scalar_run hx h1
  have hmy := mean_scalar_run hy h1'
  have hcx := count_cast hx hp
  have hcy := count_cast hy hp
  refine ⟨_, _, _, covariance_run hx hy hc h1 h1' hmx hmy, mean_error hcx hlx,
    by rw [hc]; exact mean_error hcy hly, ?_⟩
  generalize hA : (scalars x).foldl (· + ·) 0 / ((x.count : Nat) : Dbl R) = A
  generalize hB : (scalars y).foldl (· + ·) 0 / ((y.count : Nat) : Dbl R) = B
  have hav := average_cov (vals (scalars x)) (vals (scalars y)) (by simp [vals, hlx, hly, hc]) (by simp [vals, hlx, h0]) A.val B.val
  have hlen : (List.zipWith (fun u v => (u - A) * (v - B) / ((x.count : Nat) : Dbl R)) (scalars x) (scalars y)).length =
      x.count := by simp [hlx, hly, hc]
  have hn : (0 : ℝ) ≤ x.count := by positivity
  have herr := (sum_terms_error (R := R) (m := 4)
    (l := List.zipWith (fun u v => (u - A) * (v - B) / ((x.count : Nat) : Dbl R)) (scalars x) (scalars y))
    (e := List.zipWith (fun u v => (u - A.val) * (v - B.val) / (x.count : ℝ)) (vals (scalars x)) (vals (scalars y)))
    (A := List.zipWith (fun u v => |u - A.val| * |v - B.val| / (x.count : ℝ)) (vals (scalars x)) (vals (scalars y)))
    (by simp [vals]) (by simp [vals]) (fun i hi h2 h3 => by
      simp only [List.getElem_zipWith, vals, List.getElem_map, Dbl.val_div, Dbl.val_mul, Dbl.val_sub, hcx]
      have e : ∀ z w : ℝ, |z * w / (x.count : ℝ)| = |z| * |w| / (x.count : ℝ) := by
        intro z w; rw [abs_div, abs_mul, abs_of_nonneg hn]
      rw [← e]
      refine ⟨?_, le_rfl⟩
      have m1 := fl_mul_error (R := R) (round_error (R := R) ((scalars x)[i].val - A.val))
        (round_error (R := R) ((scalars y)[i].val - B.val))
      refine fl_rel (m := 3) ?_
      rw [← sub_div, abs_div, abs_div, ← mul_div_assoc]
      exact div_le_div_of_nonneg_right m1 (abs_nonneg _))).1
  rw [hlen] at herr
  have hs : (List.zipWith (fun u v => |u - A.val| * |v - B.val| / (x.count : ℝ)) (vals (scalars x)) (vals (scalars y))).sum =
      average (List.zipWith (fun u v => |u - A.val| * |v - B.val|) (vals (scalars x)) (vals (scalars y))) := by
    unfold average
    rw [List.length_zipWith]
    simp only [vals, List.length_map, hlx, hly, ← hc, min_self]
    exact sum_zipWith_div _ (fun u v => |u - A.val| * |v - B.val|) _ _
  have hlv : ((vals (scalars x)).length : ℝ) = x.count := by simp [vals, hlx]
  rw [hlv] at hav
  rw [hav, hs] at herr
  have h3 := abs_add_le (((List.zipWith (fun u v => (u - A) * (v - B) / ((x.count : Nat) : Dbl R)) (scalars x)
      (scalars y)).foldl (· + ·) 0).val - (average (List.zipWith (fun u v => (u - average (vals (scalars x))) *
      (v - average (vals (scalars y)))) (vals (scalars x)) (vals (scalars y))) +
      (average (vals (scalars x)) - A.val) * (average (vals (scalars y)) - B.val)))
    ((average (vals (scalars x)) - A.val) * (average (vals (scalars y)) - B.val))
  rw [abs_mul (average (vals (scalars x)) - A.val)] at h3
  refine le_trans (le_of_eq ?_) (h3.trans (add_le_add herr le_rfl))
  congr 1
  ring

example (R : Rounding 53) := C88_covariance_error (by decide) (exC_WF R) (exD_WF R) rfl rfl rfl (of_decide_eq_true rfl)

/-- C88: the covariance of a Serie with itself is not negative, whatever the roundings. -/
theorem C88_variance_nonneg (hp : 32 ≤ p) {x : Serie (Dbl R)} (hx : WF x) (h1 : x.itemSize = 1) :
    ∃ c : Dbl R, covariance x x = .ok c ∧ 0 ≤ c := by
  refine ⟨_, covariance_run hx hx rfl h1 h1 (mean_scalar_run hx h1) (mean_scalar_run hx h1), ?_⟩
  refine (fold_ge (R := R) _ 0 le_rfl (fun z hz => ?_)).1
  rw [List.zipWith_self, List.mem_map] at hz
  obtain ⟨y, _, rfl⟩ := hz
  rw [Dbl.val_div, count_cast hx hp]
  exact R.nonneg (div_nonneg (R.nonneg (mul_self_nonneg _)) (by positivity))

example (R : Rounding 53) := C88_variance_nonneg (by decide) (exC_WF R) rfl

/-- C88: the covariance does not depend on the order of the two Series, bit for bit. -/
theorem C88_covariance_symmetric {x y : Serie (Dbl R)} (hx : WF x) (hy : WF y) (hc : x.count = y.count)
    (h1 : x.itemSize = 1) (h1' : y.itemSize = 1) : covariance x y = covariance y x := by
  have hcomm : ∀ x y : Dbl R, x * y = y * x := fun x y => Dbl.ext (by rw [Dbl.val_mul, Dbl.val_mul, mul_comm])
  rw [covariance_run hx hy hc h1 h1' (mean_scalar_run hx h1) (mean_scalar_run hy h1'),
    covariance_run hy hx hc.symm h1' h1 (mean_scalar_run hy h1') (mean_scalar_run hx h1)]
  congr 2
  rw [List.zipWith_comm, hc]
  congr 1
  funext u v
  rw [hcomm]

example (R : Rounding 53) := C88_covariance_symmetric (exC_WF R) (exD_WF R) rfl rfl rfl

/-! ## C89: whole numbers -/

theorem sum_whole {x y : Dbl R} (hx : Whole x) (hy : Whole y) (h : |x.val + y.val| ≤ 2 ^ p) :
    (x + y).val = x.val + y.val := by
  obtain ⟨a, ha⟩ := hx
  obtain ⟨b, hb⟩ := hy
  rw [Dbl.val_add, R.exact]
  rw [ha, hb, ← Int.cast_add] at h ⊢
  exact whole_rep h

theorem diff_whole {x y : Dbl R} (hx : Whole x) (hy : Whole y) (h : |x.val - y.val| ≤ 2 ^ p) :
    (x - y).val = x.val - y.val := by
  obtain ⟨a, ha⟩ := hx
  obtain ⟨b, hb⟩ := hy
  rw [Dbl.val_sub, R.exact]
  rw [ha, hb, ← Int.cast_sub] at h ⊢
  exact whole_rep h

theorem prod_whole {x y : Dbl R} (hx : Whole x) (hy : Whole y) (h : |x.val * y.val| ≤ 2 ^ p) :
    (x * y).val = x.val * y.val := by
  obtain ⟨a, ha⟩ := hx
  obtain ⟨b, hb⟩ := hy
  rw [Dbl.val_mul, R.exact]
  rw [ha, hb, ← Int.cast_mul] at h ⊢
  exact whole_rep h

theorem Spec.Whole.add {x y : Dbl R} (hx : Whole x) (hy : Whole y) (h : |x.val + y.val| ≤ 2 ^ p) : Whole (x + y) := by
  have := sum_whole hx hy h
  obtain ⟨a, ha⟩ := hx
  obtain ⟨b, hb⟩ := hy
  exact ⟨a + b, by rw [this, ha, hb]; push_cast; rfl⟩

theorem Spec.Whole.sub {x y : Dbl R} (hx : Whole x) (hy : Whole y) (h : |x.val - y.val| ≤ 2 ^ p) : Whole (x - y) := by
  have := diff_whole hx hy h
  obtain ⟨a, ha⟩ := hx
  obtain ⟨b, hb⟩ := hy
  exact ⟨a - b, by rw [this, ha, hb]; push_cast; rfl⟩

theorem Spec.Whole.mul {x y : Dbl R} (hx : Whole x) (hy : Whole y) (h : |x.val * y.val| ≤ 2 ^ p) : Whole (x * y) := by
  have := prod_whole hx hy h
  obtain ⟨a, ha⟩ := hx
  obtain ⟨b, hb⟩ := hy
  exact ⟨a * b, by rw [this, ha, hb]; push_cast; rfl⟩

/-- C89: `add` and `sub` of whole numbers are exact where the result is at most `2^p` in absolute value. -/
theorem C89_add_sub_whole {a b : Serie (Dbl R)} (ha : WF a) (hb : WF b) (hs : SameShape a b) :
    (∃ r, add2 a b = .ok r ∧ WF r ∧ SameShape r a ∧ ∀ i j x y, cell a i j = some x → cell b i j = some y →
      ∃ z, cell r i j = some z ∧ (Whole x → Whole y → |x.val + y.val| ≤ 2 ^ p → z.val = x.val + y.val)) ∧
    (∃ r, sub2 a b = .ok r ∧ WF r ∧ SameShape r a ∧ ∀ i j x y, cell a i j = some x → cell b i j = some y →
      ∃ z, cell r i j = some z ∧ (Whole x → Whole y → |x.val - y.val| ≤ 2 ^ p → z.val = x.val - y.val)) := by
  obtain ⟨r, h1, h2, h3, h4⟩ := (C35_add ha hb).2 hs
  obtain ⟨t, k1, k2, k3, k4⟩ := (C35_sub ha hb).2 hs
  exact ⟨⟨r, h1, h2, h3, fun i j x y hx hy => ⟨_, h4 i j x y hx hy, sum_whole⟩⟩,
    ⟨t, k1, k2, k3, fun i j x y hx hy => ⟨_, k4 i j x y hx hy, diff_whole⟩⟩⟩

example (R : Rounding 53) := C89_add_sub_whole (exA_WF R) (exB_WF R) ⟨rfl, rfl⟩

/-- C89: adding and subtracting the same Serie gives the numbers back when all of them are whole and small enough. -/
theorem C89_add_sub_cancel {a b : Serie (Dbl R)} (ha : WF a) (hb : WF b) (hs : SameShape a b)
    (hw : ∀ i j x y, cell a i j = some x → cell b i j = some y → Whole x ∧ Whole y ∧ |x.val + y.val| ≤ 2 ^ p) :
    ∃ r t, add2 a b = .ok r ∧ sub2 r b = .ok t ∧ SameShape t a ∧ items t = items a := by
  obtain ⟨r, h1, h2, h3, h4⟩ := (C35_add ha hb).2 hs
  have hrb : SameShape r b := ⟨h3.1.trans hs.1, h3.2.trans hs.2⟩
  obtain ⟨t, k1, k2, k3, k4⟩ := (C35_sub h2 hb).2 hrb
  have hta : SameShape t a := ⟨k3.1.trans h3.1, k3.2.trans h3.2⟩
  refine ⟨r, t, h1, k1, hta, items_ext k2 ha hta (fun i j hi hj => ?_)⟩
  obtain ⟨x, hx⟩ := cell_total ha (i := i) (j := j) (by rw [← hta.2]; exact hi) (by rw [← hta.1]; exact hj)
  obtain ⟨y, hy⟩ := cell_total hb (i := i) (j := j) (by rw [← hs.2, ← hta.2]; exact hi) (by rw [← hs.1, ← hta.1]; exact hj)
  obtain ⟨wx, wy, hb'⟩ := hw i j x y hx hy
  rw [k4 i j _ y (h4 i j x y hx hy) hy, hx]
  congr 1
  apply Dbl.ext
  rw [Dbl.val_sub, sum_whole wx wy hb', add_sub_cancel_right, R.exact x.rep]

example (R : Rounding 53) := C89_add_sub_cancel (exC_WF R) (exD_WF R) ⟨rfl, rfl⟩ (by
  intro i j x y hx hy
  rcases i with _ | _ | _ | i
  case succ.succ.succ => cases hx
  all_goals
    rcases j with _ | j
    case succ => cases hx
    cases hx; cases hy
    refine ⟨dbl_whole (by norm_num), dbl_whole (by norm_num), ?_⟩
    rw [dbl_val (by norm_num), dbl_val (by norm_num)]
    norm_num)

/-- C89: without this restriction the law `sub(add(a, b), b) = a` is violated, whatever the precision and the rounding. -/
theorem C89_add_sub_cancel_violated (hp : 1 ≤ p) : ∃ a b r t : Serie (Dbl R), WF a ∧ WF b ∧ SameShape a b ∧
    add2 a b = .ok r ∧ sub2 r b = .ok t ∧ items t ≠ items a := by
  have hb : Representable p ((2 : ℝ) ^ ((p : ℤ) + 1)) := Rounding.pow_rep
  let b0 : Dbl R := ⟨_, hb⟩
  let a : Serie (Dbl R) := ⟨[1], 1, 1, 3⟩
  let b : Serie (Dbl R) := ⟨[b0], 1, 1, 3⟩
  have ha : WF a := ⟨by simp [a], by simp [a], by simp [a], by simp [a]⟩
  have hb : WF b := ⟨by simp [b], by simp [b], by simp [b], by simp [b]⟩
  have hpow : (2 : ℝ) ^ ((p : ℤ) + 1) = 2 ^ p * 2 := by rw [zpow_add₀ (by norm_num), zpow_natCast, zpow_one]
  have hsum : ((1 : Dbl R) + b0).val = b0.val := by
    rw [Dbl.val_add, Dbl.val_one]
    show R.fl (1 + (2 : ℝ) ^ ((p : ℤ) + 1)) = (2 : ℝ) ^ ((p : ℤ) + 1)
    have h1 := R.near (1 + (2 : ℝ) ^ ((p : ℤ) + 1)) _ (Rounding.pow_rep (L := (p : ℤ) + 1))
    rw [show (2 : ℝ) ^ ((p : ℤ) + 1) - (1 + (2 : ℝ) ^ ((p : ℤ) + 1)) = -1 by ring, abs_neg, abs_one, abs_le] at h1
    by_contra hne
    have hgt : (2 : ℝ) ^ ((p : ℤ) + 1) < R.fl (1 + (2 : ℝ) ^ ((p : ℤ) + 1)) :=
      lt_of_le_of_ne (by linarith) (Ne.symm hne)
    obtain ⟨k, hk⟩ := (R.rep (1 + (2 : ℝ) ^ ((p : ℤ) + 1))).multiple (e := 2) (by
      refine lt_of_lt_of_le ?_ (le_abs_self _)
      rw [show (2 : ℤ) - 1 = 1 by norm_num, zpow_one, ← hpow]
      exact hgt)
    have hq : (2 : ℝ) ^ p * 2 = ((2 ^ (p - 1) : ℤ) : ℝ) * (2 : ℝ) ^ (2 : ℤ) := by
      push_cast
      have : (2 : ℝ) ^ p = 2 ^ (p - 1) * 2 := by rw [← pow_succ]; congr 1; omega
      rw [this]; norm_num; ring
    rw [hk, hpow, hq] at hgt h1
    have h4 : (2 : ℝ) ^ (2 : ℤ) = 4 := by norm_num
    rw [h4] at hgt h1
    have l1 : ((2 ^ (p - 1) : ℤ) : ℝ) < k := by linarith
    have l2 : (2 ^ (p - 1) : ℤ) + 1 ≤ k := by
      have : (2 ^ (p - 1) : ℤ) < k := by exact_mod_cast l1
      omega
    have l3 : ((2 ^ (p - 1) : ℤ) : ℝ) + 1 ≤ k := by exact_mod_cast Int.cast_le (R := ℝ) |>.2 l2
    linarith [h1.2]
  obtain ⟨r, h1, h2, h3, h4⟩ := (C35_add ha hb).2 ⟨rfl, rfl⟩
  obtain ⟨t, k1, k2, k3, k4⟩ := (C35_sub h2 hb).2 h3
  refine ⟨a, b, r, t, ha, hb, ⟨rfl, rfl⟩, h1, k1, fun hit => ?_⟩
  have e1 : cell a 0 0 = some 1 := rfl
  have e2 : cell b 0 0 = some b0 := rfl
  have e3 := k4 0 0 _ _ (h4 0 0 _ _ e1 e2) e2
  have e4 : cell t 0 0 = cell a 0 0 := by unfold cell; rw [hit]
  rw [e3, e1, Option.some.injEq] at e4
  have e5 := congrArg Dbl.val e4
  rw [Dbl.val_sub, hsum, sub_self, R.exact Rounding.zero_rep, Dbl.val_one] at e5
  exact zero_ne_one e5

example (R : Rounding 53) := C89_add_sub_cancel_violated (R := R) (by decide)

/-- C89: `add` does not depend on the order of its operands, bit for bit. -/
theorem C89_add_commutative {a b : Serie (Dbl R)} (ha : WF a) (hb : WF b) (hs : SameShape a b) :
    ∃ r t, add2 a b = .ok r ∧ add2 b a = .ok t ∧ SameShape r t ∧ items r = items t := by
  obtain ⟨r, h1, h2, h3, h4⟩ := (C35_add ha hb).2 hs
  obtain ⟨t, k1, k2, k3, k4⟩ := (C35_add hb ha).2 ⟨hs.1.symm, hs.2.symm⟩
  have hrt : SameShape r t := ⟨h3.1.trans (hs.1.trans k3.1.symm), h3.2.trans (hs.2.trans k3.2.symm)⟩
  refine ⟨r, t, h1, k1, hrt, items_ext h2 k2 hrt (fun i j hi hj => ?_)⟩
  obtain ⟨x, hx⟩ := cell_total ha (i := i) (j := j) (by rw [← h3.2]; exact hi) (by rw [← h3.1]; exact hj)
  obtain ⟨y, hy⟩ := cell_total hb (i := i) (j := j) (by rw [← hs.2, ← h3.2]; exact hi) (by rw [← hs.1, ← h3.1]; exact hj)
  rw [h4 i j x y hx hy, k4 i j y x hy hx]
  congr 1
  apply Dbl.ext
  rw [Dbl.val_add, Dbl.val_add, add_comm]

example (R : Rounding 53) := C89_add_commutative (exA_WF R) (exB_WF R) ⟨rfl, rfl⟩

/-! ## C90: det, cross -/

theorem det2_error (a b c d : Dbl R) : |(a * d - b * c).val - (a.val * d.val - b.val * c.val)| ≤
    growth p 2 * (|a.val| * |d.val| + |b.val| * |c.val|) := by
  rw [Dbl.val_sub, Dbl.val_mul, Dbl.val_mul, ← abs_mul, ← abs_mul]
  exact sub_error (round_error _) (round_error _) le_rfl le_rfl

theorem mul3_error (a b c : Dbl R) : |(a * b * c).val - a.val * b.val * c.val| ≤ growth p 2 * (|a.val| * |b.val| * |c.val|) := by
  rw [Dbl.val_mul, Dbl.val_mul, ← abs_mul, ← abs_mul]
  exact fl_mul_error (m := 1) (k := 0) (round_error _) (self_error _)

open Equiv in
theorem permanent_fin_two (M : Matrix (Fin 2) (Fin 2) ℝ) : M.permanent = M 0 0 * M 1 1 + M 0 1 * M 1 0 := by
  have : (Finset.univ : Finset (Perm (Fin 2))) = {1, swap 0 1} := by decide
  rw [Matrix.permanent, this, Finset.sum_pair (by decide)]
  simp [Fin.prod_univ_two]
  ring

open Equiv in
theorem permanent_fin_three (M : Matrix (Fin 3) (Fin 3) ℝ) : M.permanent = M 0 0 * M 1 1 * M 2 2 + M 0 0 * M 1 2 * M 2 1 +
    M 0 1 * M 1 0 * M 2 2 + M 0 1 * M 1 2 * M 2 0 + M 0 2 * M 1 0 * M 2 1 + M 0 2 * M 1 1 * M 2 0 := by
  have : (Finset.univ : Finset (Perm (Fin 3))) =
      {1, swap 0 1, swap 0 2, swap 1 2, swap 0 1 * swap 1 2, swap 1 2 * swap 0 1} := by decide
  rw [Matrix.permanent, this, Finset.sum_insert (by decide), Finset.sum_insert (by decide), Finset.sum_insert (by decide),
    Finset.sum_insert (by decide), Finset.sum_insert (by decide), Finset.sum_singleton]
  simp only [Fin.prod_univ_three]
  have e : ∀ σ : Perm (Fin 3), ∀ a b c : Fin 3, σ 0 = a → σ 1 = b → σ 2 = c →
      M (σ 0) 0 * M (σ 1) 1 * M (σ 2) 2 = M a 0 * M b 1 * M c 2 := by rintro σ a b c rfl rfl rfl; rfl
  rw [e 1 0 1 2 (by decide) (by decide) (by decide), e (swap 0 1) 1 0 2 (by decide) (by decide) (by decide),
    e (swap 0 2) 2 1 0 (by decide) (by decide) (by decide), e (swap 1 2) 0 2 1 (by decide) (by decide) (by decide),
    e (swap 0 1 * swap 1 2) 1 2 0 (by decide) (by decide) (by decide),
    e (swap 1 2 * swap 0 1) 2 0 1 (by decide) (by decide) (by decide)]
  ring

/-- C90: the error of `det` on 2D matrices stored in full is that of 2 roundings, relative to the permanent of the
absolute values (the sum of the absolute values of the products in the expansion). -/
theorem C90_det2_error {s : Serie (Dbl R)} (h : WF s) (h0 : 0 < s.count) (hk : s.itemSize = 4) (hd : s.dimension = 2) :
    ∃ r, det s = .ok r ∧ WF r ∧ r.itemSize = 1 ∧ ItemWise (fun t u => ∃ x, u = [x] ∧
      |x.val - (fullMatrix 2 (vals t)).det| ≤ growth p 2 * (fullMatrix 2 (absVals t)).permanent) s r := by
  have hf := ofItems_map_facts h (k := 1) (g := fun t => [num t 0 * num t 3 - num t 1 * num t 2]) (by omega) (by omega)
    (fun v _ => rfl)
  refine ⟨_, det_run2 h h0 hk hd, hf.1, hf.2.1, ItemWise_map hf.2.2.2 (fun t ht => ⟨_, rfl, ?_⟩)⟩
  obtain ⟨a, b, c, d, rfl⟩ := len4 ((h.item_length ht).trans hk)
  rw [Matrix.det_fin_two, permanent_fin_two]
  exact det2_error a b c d

example (R : Rounding 53) := C90_det2_error (s := ⟨[dbl R 1, dbl R 2, dbl R 3, dbl R 5], 1, 4, 2⟩) (of_decide_eq_true rfl) (of_decide_eq_true rfl) rfl rfl

/-- C90: the error of `det` on 3D matrices stored in full is that of 7 roundings, relative to the permanent of the
absolute values. -/
theorem C90_det3_error {s : Serie (Dbl R)} (h : WF s) (h0 : 0 < s.count) (hk : s.itemSize = 9) (hd : s.dimension = 3) :
    ∃ r, det s = .ok r ∧ WF r ∧ r.itemSize = 1 ∧ ItemWise (fun t u => ∃ x, u = [x] ∧
      |x.val - (fullMatrix 3 (vals t)).det| ≤ growth p 7 * (fullMatrix 3 (absVals t)).permanent) s r := by
  have hf := ofItems_map_facts h (k := 1) (g := fun t => [num t 0 * num t 4 * num t 8 - num t 0 * num t 5 * num t 7 -
      num t 1 * num t 3 * num t 8 + num t 1 * num t 5 * num t 6 + num t 2 * num t 3 * num t 7 -
      num t 2 * num t 4 * num t 6]) (by omega) (by omega) (fun v _ => rfl)
  refine ⟨_, det_run3 h h0 hk hd, hf.1, hf.2.1, ItemWise_map hf.2.2.2 (fun t ht => ⟨_, rfl, ?_⟩)⟩
  obtain ⟨a, b, c, d, e, f, g, i, j, rfl⟩ := len9 ((h.item_length ht).trans hk)
  rw [Matrix.det_fin_three, permanent_fin_three]
  have nn : ∀ x y z : Dbl R, 0 ≤ |x.val| * |y.val| * |z.val| := fun x y z => by positivity
  have ab : ∀ x y z : Dbl R, |x.val * y.val * z.val| ≤ |x.val| * |y.val| * |z.val| := fun x y z => by
    rw [abs_mul, abs_mul]
  have w : ∀ (x y z : Dbl R) (k : Nat), 2 ≤ k → |(x * y * z).val - x.val * y.val * z.val| ≤
      growth p k * (|x.val| * |y.val| * |z.val|) := fun x y z k hk => weaken (mul3_error x y z) (nn x y z) hk
  have s1 := sub_error (R := R) (w a e j 2 le_rfl) (w a f i 2 le_rfl) (ab _ _ _) (ab _ _ _)
  have b1 := (abs_sub _ _).trans (add_le_add (ab a e j) (ab a f i))
  have s2 := sub_error (R := R) s1 (w b d j 3 (by norm_num)) b1 (ab _ _ _)
  have b2 := (abs_sub _ _).trans (add_le_add b1 (ab b d j))
  have s3 := add_error (R := R) s2 (w b f g 4 (by norm_num)) b2 (ab _ _ _)
  have b3 := (abs_add_le _ _).trans (add_le_add b2 (ab b f g))
  have s4 := add_error (R := R) s3 (w c d i 5 (by norm_num)) b3 (ab _ _ _)
  have b4 := (abs_add_le _ _).trans (add_le_add b3 (ab c d i))
  have s5 := sub_error (R := R) s4 (w c e g 6 (by norm_num)) b4 (ab _ _ _)
  exact s5

example (R : Rounding 53) := C90_det3_error (s := ⟨[dbl R 1, dbl R 2, dbl R 3, dbl R 5, 0, 1, 0, 1, 1], 1, 9, 3⟩) (of_decide_eq_true rfl)
  (of_decide_eq_true rfl) rfl rfl

/-- C90: `det` of whole numbers is exact when the products of two entries and the permanent of the absolute
values are at most `2^p`. -/
theorem C90_det_whole {s : Serie (Dbl R)} (h : WF s) (h0 : 0 < s.count) {n : Nat} (hn : n = 2 ∨ n = 3)
    (hk : s.itemSize = n * n) (hd : s.dimension = n) :
    ∃ r, det s = .ok r ∧ WF r ∧ r.itemSize = 1 ∧ ItemWise (fun t u => ∃ x, u = [x] ∧ ((∀ y ∈ t, Whole y) →
      (∀ y ∈ t, ∀ z ∈ t, |y.val * z.val| ≤ 2 ^ p) →
      (fullMatrix n (absVals t)).permanent ≤ 2 ^ p → x.val = (fullMatrix n (vals t)).det)) s r := by
  rcases hn with rfl | rfl
  · have hf := ofItems_map_facts h (k := 1) (g := fun t => [num t 0 * num t 3 - num t 1 * num t 2]) (by omega) (by omega)
      (fun v _ => rfl)
    refine ⟨_, det_run2 h h0 hk hd, hf.1, hf.2.1, ItemWise_map hf.2.2.2 (fun t ht => ⟨_, rfl, fun hw h2 hb => ?_⟩)⟩
    obtain ⟨a, b, c, d, rfl⟩ := len4 ((h.item_length ht).trans hk)
    rw [permanent_fin_two] at hb
    rw [Matrix.det_fin_two]
    change |a.val| * |d.val| + |b.val| * |c.val| ≤ 2 ^ p at hb
    show (a * d - b * c).val = a.val * d.val - b.val * c.val
    have wa := hw a (by simp)
    have wb := hw b (by simp)
    have wc := hw c (by simp)
    have wd := hw d (by simp)
    have p1 := h2 a (by simp) d (by simp)
    have p2 := h2 b (by simp) c (by simp)
    have e := abs_sub (a.val * d.val) (b.val * c.val)
    rw [abs_mul, abs_mul] at e
    rw [diff_whole (wa.mul wd p1) (wb.mul wc p2), prod_whole wa wd p1, prod_whole wb wc p2]
    rw [prod_whole wa wd p1, prod_whole wb wc p2]
    linarith
  · have hf := ofItems_map_facts h (k := 1) (g := fun t => [num t 0 * num t 4 * num t 8 - num t 0 * num t 5 * num t 7 -
      num t 1 * num t 3 * num t 8 + num t 1 * num t 5 * num t 6 + num t 2 * num t 3 * num t 7 -
      num t 2 * num t 4 * num t 6]) (by omega) (by omega) (fun v _ => rfl)
    refine ⟨_, det_run3 h h0 hk hd, hf.1, hf.2.1, ItemWise_map hf.2.2.2 (fun t ht => ⟨_, rfl, fun hw h2 hb => ?_⟩)⟩
    obtain ⟨a, b, c, d, e, f, g, i, j, rfl⟩ := len9 ((h.item_length ht).trans hk)
    rw [permanent_fin_three] at hb
    rw [Matrix.det_fin_three]
    change |a.val| * |e.val| * |j.val| + |a.val| * |f.val| * |i.val| + |b.val| * |d.val| * |j.val| +
      |b.val| * |f.val| * |g.val| + |c.val| * |d.val| * |i.val| + |c.val| * |e.val| * |g.val| ≤ 2 ^ p at hb
    show (a * e * j - a * f * i - b * d * j + b * f * g + c * d * i - c * e * g).val = a.val * e.val * j.val -
      a.val * f.val * i.val - b.val * d.val * j.val + b.val * f.val * g.val + c.val * d.val * i.val - c.val * e.val * g.val
    have nn : ∀ x y z : Dbl R, 0 ≤ |x.val| * |y.val| * |z.val| := fun x y z => by positivity
    have n1 := nn a e j
    have n2 := nn a f i
    have n3 := nn b d j
    have n4 := nn b f g
    have n5 := nn c d i
    have n6 := nn c e g
    have key : ∀ x y z : Dbl R, Whole x → Whole y → Whole z → |x.val * y.val| ≤ 2 ^ p →
        |x.val| * |y.val| * |z.val| ≤ 2 ^ p → (x * y * z).val = x.val * y.val * z.val ∧ Whole (x * y * z) := by
      intro x y z hx hy hz h1 h3
      have e1 := prod_whole hx hy h1
      have h4 : |(x * y).val * z.val| ≤ 2 ^ p := by rw [e1, abs_mul, abs_mul]; exact h3
      exact ⟨by rw [prod_whole (hx.mul hy h1) hz h4, e1], (hx.mul hy h1).mul hz h4⟩
    obtain ⟨t1, w1⟩ := key a e j (hw _ (by simp)) (hw _ (by simp)) (hw _ (by simp)) (h2 _ (by simp) _ (by simp)) (by linarith)
    obtain ⟨t2, w2⟩ := key a f i (hw _ (by simp)) (hw _ (by simp)) (hw _ (by simp)) (h2 _ (by simp) _ (by simp)) (by linarith)
    obtain ⟨t3, w3⟩ := key b d j (hw _ (by simp)) (hw _ (by simp)) (hw _ (by simp)) (h2 _ (by simp) _ (by simp)) (by linarith)
    obtain ⟨t4, w4⟩ := key b f g (hw _ (by simp)) (hw _ (by simp)) (hw _ (by simp)) (h2 _ (by simp) _ (by simp)) (by linarith)
    obtain ⟨t5, w5⟩ := key c d i (hw _ (by simp)) (hw _ (by simp)) (hw _ (by simp)) (h2 _ (by simp) _ (by simp)) (by linarith)
    obtain ⟨t6, w6⟩ := key c e g (hw _ (by simp)) (hw _ (by simp)) (hw _ (by simp)) (h2 _ (by simp) _ (by simp)) (by linarith)
    have ab : ∀ x y z : Dbl R, |x.val * y.val * z.val| ≤ |x.val| * |y.val| * |z.val| := fun x y z => by
      rw [abs_mul, abs_mul]
    have b1 := (abs_sub _ _).trans (add_le_add (ab a e j) (ab a f i))
    have b2 := (abs_sub _ _).trans (add_le_add b1 (ab b d j))
    have b3 := (abs_add_le _ _).trans (add_le_add b2 (ab b f g))
    have b4 := (abs_add_le _ _).trans (add_le_add b3 (ab c d i))
    have b5 := (abs_sub _ _).trans (add_le_add b4 (ab c e g))
    have c1 : |(a * e * j).val - (a * f * i).val| ≤ 2 ^ p := by rw [t1, t2]; linarith
    have v1 := diff_whole w1 w2 c1
    have c2 : |(a * e * j - a * f * i).val - (b * d * j).val| ≤ 2 ^ p := by rw [v1, t1, t2, t3]; linarith
    have v2 := diff_whole (w1.sub w2 c1) w3 c2
    have c3 : |(a * e * j - a * f * i - b * d * j).val + (b * f * g).val| ≤ 2 ^ p := by rw [v2, v1, t1, t2, t3, t4]; linarith
    have v3 := sum_whole ((w1.sub w2 c1).sub w3 c2) w4 c3
    have c4 : |(a * e * j - a * f * i - b * d * j + b * f * g).val + (c * d * i).val| ≤ 2 ^ p := by
      rw [v3, v2, v1, t1, t2, t3, t4, t5]; linarith
    have v4 := sum_whole (((w1.sub w2 c1).sub w3 c2).add w4 c3) w5 c4
    have c5 : |(a * e * j - a * f * i - b * d * j + b * f * g + c * d * i).val - (c * e * g).val| ≤ 2 ^ p := by
      rw [v4, v3, v2, v1, t1, t2, t3, t4, t5, t6]; linarith
    rw [diff_whole ((((w1.sub w2 c1).sub w3 c2).add w4 c3).add w5 c4) w6 c5, v4, v3, v2, v1, t1, t2, t3, t4, t5, t6]

example (R : Rounding 53) := C90_det_whole (s := ⟨[dbl R 1, dbl R 2, dbl R 3, dbl R 5, 0, 1, 0, 1, 1], 1, 9, 3⟩) (of_decide_eq_true rfl)
  (of_decide_eq_true rfl) (.inr rfl) rfl rfl

/-- C90: each component of `cross` is off by at most 2 roundings, relative to the sum of the absolute values of its two
products. -/
theorem C90_cross_error {a b : Serie (Dbl R)} (ha : WF a) (hb : WF b) (h3 : a.itemSize = 3) (h3' : b.itemSize = 3)
    (hc : a.count = b.count) (h0 : 0 < a.count) :
    ∃ r, cross a b = .ok r ∧ WF r ∧ r.itemSize = 3 ∧ ItemWise3 (fun u v w =>
      ∀ i : Fin 3, |vec 3 (vals w) i - crossProduct (vec 3 (vals u)) (vec 3 (vals v)) i| ≤
        growth p 2 * (vec 3 (absVals u) (i + 1) * vec 3 (absVals v) (i + 2) +
          vec 3 (absVals u) (i + 2) * vec 3 (absVals v) (i + 1))) a b r := by
  have hf := ofItems_zip_facts ha hb hc (k := 3) (g := fun u v => [num u 1 * num v 2 - num u 2 * num v 1,
      num u 2 * num v 0 - num u 0 * num v 2, num u 0 * num v 1 - num u 1 * num v 0]) (by omega) (by omega)
      (fun _ _ _ _ => rfl)
  refine ⟨_, cross_run ha hb h3 h3' hc h0, hf.1, hf.2.1, ItemWise3_zip hc hf.2.2.2 (fun u hu v hv => ?_)⟩
  obtain ⟨a1, a2, a3, rfl⟩ := len3 ((ha.item_length hu).trans h3)
  obtain ⟨b1, b2, b3, rfl⟩ := len3 ((hb.item_length hv).trans h3')
  rw [cross_apply]
  intro i
  fin_cases i
  · exact det2_error a2 a3 b2 b3
  · exact det2_error a3 a1 b3 b1
  · exact det2_error a1 a2 b1 b2

example (R : Rounding 53) := C90_cross_error (exA_WF R) (exB_WF R) rfl rfl rfl (of_decide_eq_true rfl)

/-- C90: exchanging the operands of `cross` changes the sign of every component, bit for bit, for roundings that are
symmetric around zero (as that of IEEE 754). -/
theorem C90_cross_antisymmetric {a b : Serie (Dbl R)} (ha : WF a) (hb : WF b) (h3 : a.itemSize = 3) (h3' : b.itemSize = 3)
    (hc : a.count = b.count) (h0 : 0 < a.count) (hsym : ∀ x, R.fl (-x) = -R.fl x) :
    ∃ r t, cross a b = .ok r ∧ cross b a = .ok t ∧ ItemWise (fun u v => v = u.map (- ·)) r t := by
  have g : ∀ x y z w : Dbl R, x * y - z * w = -(w * z - y * x) := by
    intro x y z w
    apply Dbl.ext
    rw [Dbl.val_neg, Dbl.val_sub, Dbl.val_sub, Dbl.val_mul, Dbl.val_mul, Dbl.val_mul, Dbl.val_mul, ← hsym, neg_sub,
      mul_comm x.val, mul_comm z.val]
  have hf := ofItems_zip_facts ha hb hc (k := 3) (g := fun u v => [num u 1 * num v 2 - num u 2 * num v 1,
      num u 2 * num v 0 - num u 0 * num v 2, num u 0 * num v 1 - num u 1 * num v 0]) (by omega) (by omega)
      (fun _ _ _ _ => rfl)
  have hf' := ofItems_zip_facts hb ha hc.symm (k := 3) (g := fun u v => [num u 1 * num v 2 - num u 2 * num v 1,
      num u 2 * num v 0 - num u 0 * num v 2, num u 0 * num v 1 - num u 1 * num v 0]) (by omega) (by omega)
      (fun _ _ _ _ => rfl)
  refine ⟨_, _, cross_run ha hb h3 h3' hc h0, cross_run hb ha h3' h3 hc.symm (by omega), ?_⟩
  unfold ItemWise
  rw [hf.2.2.2, hf'.2.2.2]
  have hl : (items a).length = (items b).length := by simp [hc]
  generalize items a = l at hl
  generalize items b = m at hl
  induction l generalizing m with
  | nil => cases m with
    | nil => simp
    | cons _ _ => simp at hl
  | cons u l ih => cases m with
    | nil => simp at hl
    | cons v m =>
      refine .cons ?_ (ih m (by simpa using hl))
      simp only [List.map_cons, List.map_nil, List.cons.injEq, and_true]
      exact ⟨g _ _ _ _, g _ _ _ _, g _ _ _ _⟩

example (R : Rounding 53) (h : ∀ x, R.fl (-x) = -R.fl x) :=
  C90_cross_antisymmetric (exA_WF R) (exB_WF R) rfl rfl rfl (of_decide_eq_true rfl) h

example : ∃ R : Rounding 53, ∀ x, R.fl (-x) = -R.fl x := symmetricRounding_exists (by decide)

end DF
