import Verif.Lemmas.Stats
import Verif.Props.Math
import Verif.Props.Utils
import Mathlib.Data.Rat.Floor
import Mathlib.Algebra.Order.BigOperators.Group.List

/-!
# Properties of the statistics (C44-C48)

Exact arithmetic: numbers of an ordered field (with a floor where the code truncates).
-/

namespace DF

open Spec

variable {α : Type}

/-- A scalar Serie of rationals for the examples. -/
def exQ : Serie ℚ := ⟨[3, 1, 4, 1, 5], 5, 1, 3⟩

theorem exQ_WF : WF exQ := ⟨by decide, by decide, by decide, by decide⟩

/-! ## C44 -/

/-- C44 is violated by values far above `stop`: the conversion of the bin number to `uint32_t` is undefined. -/
theorem C44_violated : ∃ s : Serie ℚ, WF s ∧ s.itemSize = 1 ∧ (∀ v ∈ scalars s, 0 ≤ v) ∧ binsIn s 1 0 1 = .ub :=
  ⟨⟨[2 ^ 32], 1, 1, 3⟩, ⟨by decide, by decide, by decide, by decide⟩, rfl, by decide +kernel, by decide +kernel⟩

/-- C44, what holds: for values from `start` to below `start + 2^32 w`, `w = (stop - start) / nb`, the result has `nb`
counts, count `i` is the number of values in bin `i`, and the total is the number of values. -/
theorem C44_bins_partial [Field α] [LinearOrder α] [IsStrictOrderedRing α] [FloorRing α] {s : Serie α} (h : WF s)
    (h1 : s.itemSize = 1) {nb : Nat} (hnb : 0 < nb) (hnb' : nb < 2 ^ 32) {start stop : α} (hss : start < stop)
    (hv : ∀ v ∈ scalars s, start ≤ v ∧ v < start + 2 ^ 32 * ((stop - start) / (nb : α))) :
    ∃ r, binsIn s nb start stop = .ok r ∧ WF r ∧ r.itemSize = 1 ∧ r.count = nb ∧ (scalars r).sum = (s.count : α) ∧
      ∀ i, i < nb → (scalars r)[i]? =
        some (((scalars s).countP (fun v => InBin start ((stop - start) / (nb : α)) nb i v) : Nat) : α) := by
  obtain ⟨b, h2, h3, h4, h5⟩ := binsIn_eq h h1 hnb hnb' hss hv
  refine ⟨_, h2, WF_ofScalars (by omega), rfl, by simpa [ofScalars] using h3, ?_, ?_⟩
  · rw [scalars_ofScalars]; exact h4
  · rw [scalars_ofScalars]; exact h5

example := C44_bins_partial exQ_WF rfl (nb := 3) (by decide) (by decide) (start := 0) (stop := 6) (by norm_num)
  (by decide +kernel)

/-- C44 for `bins(s, nb)`, where the range is the range of the values: no value is too large when there are two
different ones. -/
theorem C44_bins_range [Field α] [LinearOrder α] [IsStrictOrderedRing α] [FloorRing α] [Limits α] {s : Serie α} (h : WF s)
    (h1 : s.itemSize = 1) {nb : Nat} (hnb : 0 < nb) (hnb' : nb < 2 ^ 32)
    (hlim : ∀ x ∈ scalars s, Limits.lowest ≤ x ∧ x ≤ Limits.highest)
    (hne : ∃ x ∈ scalars s, ∃ y ∈ scalars s, x ≠ y) :
    ∃ a b r, Least a (scalars s) ∧ Greatest b (scalars s) ∧ bins s nb = .ok r ∧ WF r ∧ r.itemSize = 1 ∧ r.count = nb ∧
      (scalars r).sum = (s.count : α) ∧ ∀ i, i < nb → (scalars r)[i]? =
        some (((scalars s).countP (fun v => InBin a ((b - a) / (nb : α)) nb i v) : Nat) : α) := by
  obtain ⟨x0, hx0, y0, hy0, hxy⟩ := hne
  have h0 : 0 < s.count := by rw [← h.scalars_length]; exact List.length_pos_of_mem hx0
  obtain ⟨a, b, hm, ha, hb⟩ := minMax_scalar h h0 h1 hlim
  have hab : a < b := by
    rcases lt_or_ge a b with hlt | hge
    · exact hlt
    · have e : ∀ z ∈ scalars s, z = a := fun z hz => le_antisymm ((hb.2 z hz).trans hge) (ha.2 z hz)
      exact absurd ((e x0 hx0).trans (e y0 hy0).symm) hxy
  obtain ⟨r, hr⟩ := C44_bins_partial h h1 hnb hnb' hab (fun v hv => ⟨ha.2 v hv, by
    have hnbpos : (0 : α) < nb := Nat.cast_pos.2 hnb
    have h32 : (nb : α) < 2 ^ 32 := by exact_mod_cast hnb'
    have hw : 0 < (b - a) / (nb : α) := div_pos (by linarith) hnbpos
    have : (nb : α) * ((b - a) / (nb : α)) < 2 ^ 32 * ((b - a) / (nb : α)) := mul_lt_mul_of_pos_right h32 hw
    rw [mul_div_cancel₀ _ hnbpos.ne'] at this
    have := hb.2 v hv
    linarith⟩)
  refine ⟨a, b, r, ha, hb, ?_, hr.2⟩
  unfold bins
  rw [hm]
  exact hr.1

example := @C44_bins_range ℚ _ _ _ _ ⟨1000, -1000⟩ _ exQ_WF rfl 3 (by decide) (by decide) (by decide +kernel)
  ⟨3, by decide +kernel, 1, by decide +kernel, by norm_num⟩

/-- `bins(s, nb)` of a Serie whose values are all equal is undefined: the width is 0 and the bin number is not a number. -/
theorem C44_constant_violated [Field α] [LinearOrder α] [IsStrictOrderedRing α] [FloorRing α] [Limits α] {s : Serie α}
    (h : WF s) (h1 : s.itemSize = 1) (h0 : 0 < s.count) {nb : Nat} (hnb : 0 < nb) {c : α}
    (hc : ∀ x ∈ scalars s, x = c) (hlim : Limits.lowest ≤ c ∧ c ≤ Limits.highest) : bins s nb = .ub := by
  obtain ⟨a, b, hm, ha, hb⟩ := minMax_scalar h h0 h1 (fun x hx => by rw [hc x hx]; exact hlim)
  have ea := hc a ha.1
  have eb := hc b hb.1
  subst ea
  unfold bins
  rw [hm]
  show binsIn s nb a b = .ub
  rw [eb]
  unfold binsIn
  rw [if_neg (by simpa using h1), if_neg (by omega)]
  simp only [sub_self, zero_div]
  have hl := h.scalars_length
  unfold Eff.exec forEachS
  rw [if_neg (by simpa using h1), forLoop_unit _ (scalars s) s.count hl.symm (getD_hyp h)]
  obtain ⟨x, l, hxl⟩ : ∃ x l, scalars s = x :: l := by
    cases hsc : scalars s with
    | nil => rw [hsc] at hl; simp at hl; omega
    | cons x l => exact ⟨x, l, rfl⟩
  rw [hxl, callAll_cons]
  have : binOne nb a (0 : α) x (List.replicate nb 0) = (.ub, List.replicate nb 0) := by
    unfold binOne; rw [if_pos (beq_self_eq_true _)]; rfl
  rw [Eff.bind_ub (Eff.bind_ub this)]
  rfl

example := @C44_constant_violated ℚ _ _ _ _ ⟨1000, -1000⟩ ⟨[2, 2, 2], 3, 1, 3⟩ (by decide) rfl (by decide) 3 (by decide) 2
  (by decide +kernel) (by decide +kernel)

/-- C44: Series that are not scalar are rejected; no bins, an invalid Serie. -/
theorem C44_edge [Field α] [LinearOrder α] [FloorRing α] {s : Serie α} {nb : Nat} {start stop : α} :
    (s.itemSize ≠ 1 → binsIn s nb start stop = .throw .invalidArgument) ∧
    (s.itemSize = 1 → nb = 0 → binsIn s nb start stop = .ok Serie.empty) := by
  unfold binsIn
  exact ⟨fun h => by rw [if_pos h], fun h hn => by rw [if_neg (by simpa using h), if_pos (by omega)]; rfl⟩

/-- The bounds of the number type for the examples. -/
local instance : Limits ℚ := ⟨1000, -1000⟩

example : (∀ v ∈ scalars exQ, (0 : ℚ) ≤ v ∧ v < 0 + 2 ^ 32 * ((6 - 0) / ((3 : Nat) : ℚ))) ∧
    binsIn exQ 3 0 6 = .ok ⟨[2, 1, 2], 3, 1, 3⟩ ∧ bins exQ 2 = .ok ⟨[2, 3], 2, 1, 3⟩ := by decide +kernel

/-! ## C45 -/

theorem component_scalar {s : Serie α} (h : WF s) (h1 : s.itemSize = 1) : component s 0 = scalars s := by
  unfold component
  rw [items_scalar h1 h.count_le, List.filterMap_map]
  simp

/-- C45: `mean` returns a number for scalar Series and an array otherwise; number `j` times the count is the sum of the
numbers at component `j`. -/
theorem C45_mean [Field α] [CharZero α] {s : Serie α} (h : WF s) (h0 : 0 < s.count) :
    ∃ t, mean s = .ok t ∧ ((∃ x, t = .number x) ↔ s.itemSize = 1) ∧ (∀ j, s.itemSize ≤ j → tupleAt t j = none) ∧
      ∀ j, j < s.itemSize → ∃ x, tupleAt t j = some x ∧ x * (s.count : α) = (component s j).sum := by
  have hc : (s.count : α) ≠ 0 := Nat.cast_ne_zero.2 (by omega)
  by_cases h1 : s.itemSize = 1
  · refine ⟨_, mean_scalar h h1, ⟨fun _ => h1, fun _ => ⟨_, rfl⟩⟩, fun j hj => ?_, fun j hj => ?_⟩
    · simp [tupleAt]; omega
    · have : j = 0 := by omega
      subst this
      exact ⟨_, rfl, by rw [component_scalar h h1, div_mul_cancel₀ _ hc]⟩
  · obtain ⟨b, h2, h3, h4⟩ := mean_items h h1
    refine ⟨_, h2, ⟨fun ⟨x, hx⟩ => by simp at hx, fun h => absurd h h1⟩, fun j hj => ?_, fun j hj => ⟨_, h4 j hj, ?_⟩⟩
    · simp [tupleAt]; omega
    · rw [div_mul_cancel₀ _ hc]

example := C45_mean (s := (⟨[1, 2, 3, 4, 5, 6], 2, 3, 3⟩ : Serie ℚ)) (by decide) (by decide)

theorem component_length {s : Serie α} (h : WF s) {j : Nat} (hj : j < s.itemSize) : (component s j).length = s.count := by
  unfold component
  rw [← items_length s]
  have hl := fun v hv => h.item_length (v := v) hv
  generalize items s = l at hl
  induction l with
  | nil => rfl
  | cons v l ih =>
    have hjv : j < v.length := by rw [hl v (by simp)]; exact hj
    have : v[j]? = some v[j] := List.getElem?_eq_getElem hjv
    rw [List.filterMap_cons, this]
    simp only [List.length_cons, ih (fun w hw => hl w (by simp [hw]))]

/-- The mean in one formula. -/
theorem mean_at [Field α] {s : Serie α} (h : WF s) :
    ∃ t, mean s = .ok t ∧ ∀ j, j < s.itemSize → tupleAt t j = some (average (component s j)) := by
  by_cases h1 : s.itemSize = 1
  · refine ⟨_, mean_scalar h h1, fun j hj => ?_⟩
    have : j = 0 := by omega
    subst this
    rw [component_scalar h h1, average, h.scalars_length]; rfl
  · obtain ⟨b, h2, h3, h4⟩ := mean_items h h1
    exact ⟨_, h2, fun j hj => by rw [average, component_length h hj]; exact h4 j hj⟩

theorem average_bounds [Field α] [LinearOrder α] [IsStrictOrderedRing α] {l : List α} (hl : l ≠ []) {a b : α}
    (ha : ∀ y ∈ l, a ≤ y) (hb : ∀ y ∈ l, y ≤ b) : a ≤ average l ∧ average l ≤ b := by
  have hpos : (0 : α) < l.length := Nat.cast_pos.2 (List.length_pos_iff.2 hl)
  unfold average
  rw [le_div_iff₀ hpos, div_le_iff₀ hpos]
  constructor
  · have := List.card_nsmul_le_sum l a ha
    rw [nsmul_eq_mul] at this; linarith
  · have := List.sum_le_card_nsmul l b hb
    rw [nsmul_eq_mul] at this; linarith

/-- C45: the mean lies between the smallest and the largest number of each component. -/
theorem C45_between [Field α] [LinearOrder α] [IsStrictOrderedRing α] {s : Serie α} (h : WF s) (h0 : 0 < s.count) :
    ∃ t, mean s = .ok t ∧ ∀ j, j < s.itemSize → ∀ a b, Least a (component s j) → Greatest b (component s j) →
      ∃ x, tupleAt t j = some x ∧ a ≤ x ∧ x ≤ b := by
  obtain ⟨t, h1, h2⟩ := mean_at h
  refine ⟨t, h1, fun j hj a b ha hb => ⟨_, h2 j hj, average_bounds ?_ ha.2 hb.2⟩⟩
  intro he
  have := component_length h hj
  rw [he] at this; simp at this; omega

example := C45_between (s := (⟨[1, 2, 3, 4, 5, 6], 2, 3, 3⟩ : Serie ℚ)) (by decide) (by decide)

theorem average_add [Field α] {l m : List α} (h : l.length = m.length) :
    average (List.zipWith (· + ·) l m) = average l + average m := by
  unfold average
  rw [List.length_zipWith, ← h, Nat.min_self, ← add_div]
  congr 1
  induction l generalizing m with
  | nil => cases m with
    | nil => simp
    | cons => simp at h
  | cons x l ih => cases m with
    | nil => simp at h
    | cons y m =>
      simp only [List.zipWith_cons_cons, List.sum_cons, ih (by simpa using h)]; ring

theorem average_map_mul [Field α] (l : List α) (x : α) : average (l.map (· * x)) = average l * x := by
  unfold average
  rw [List.length_map, List.sum_map_mul_right, List.map_id']; ring

theorem average_map_add [Field α] [CharZero α] {l : List α} (hl : l ≠ []) (x : α) :
    average (l.map (· + x)) = average l + x := by
  have hpos : (l.length : α) ≠ 0 := Nat.cast_ne_zero.2 (by simpa using hl)
  have : (l.map (· + x)).sum = l.sum + l.length * x := by
    clear hl hpos
    induction l with
    | nil => simp
    | cons y l ih => simp only [List.map_cons, List.sum_cons, ih, List.length_cons]; push_cast; ring
  unfold average
  rw [List.length_map, this]
  field_simp

theorem component_pointwise {op : α → α → α} {a b : Serie α} (ha : WF a) (hb : WF b) (hs : SameShape a b) {j : Nat}
    (hj : j < a.itemSize) : component (pointwise op a b) j = List.zipWith op (component a j) (component b j) := by
  unfold component
  obtain ⟨_, _, hi⟩ := WF_pointwise (op := op) ha hb hs
  rw [hi]
  have hla := fun v hv => ha.item_length (v := v) hv
  have hlb := fun v hv => hb.item_length (v := v) hv
  rw [← hs.1] at hlb
  generalize items a = l at *
  generalize items b = m at *
  clear hi
  induction l generalizing m with
  | nil => simp
  | cons v l ih => cases m with
    | nil => simp
    | cons w m =>
      have hjv : j < v.length := by rw [hla v (by simp)]; exact hj
      have hjw : j < w.length := by rw [hlb w (by simp)]; exact hj
      have hv : v[j]? = some v[j] := List.getElem?_eq_getElem hjv
      have hw : w[j]? = some w[j] := List.getElem?_eq_getElem hjw
      rw [List.zipWith_cons_cons, List.filterMap_cons, List.filterMap_cons, List.filterMap_cons,
        List.getElem?_zipWith, hv, hw]
      simp only [List.zipWith_cons_cons]
      rw [ih (fun w hw => hla w (by simp [hw])) m (fun w hw => hlb w (by simp [hw]))]

theorem component_onNumbers {f : α → α} {s : Serie α} (h : WF s) (j : Nat) :
    component (onNumbers f s) j = (component s j).map f := by
  unfold component onNumbers
  rw [items_ofItems (mapItems_length h), List.filterMap_map, List.map_filterMap]
  simp

/-- C45: the mean of a sum is the sum of the means. -/
theorem C45_additive [Field α] {a b : Serie α} (ha : WF a) (hb : WF b) (hs : SameShape a b) :
    ∃ r ta tb tr, add2 a b = .ok r ∧ mean a = .ok ta ∧ mean b = .ok tb ∧ mean r = .ok tr ∧
      ∀ j, j < a.itemSize → ∃ x y, tupleAt ta j = some x ∧ tupleAt tb j = some y ∧ tupleAt tr j = some (x + y) := by
  obtain ⟨w, s', _⟩ := WF_pointwise (op := (· + ·)) ha hb hs
  obtain ⟨ta, ea, fa⟩ := mean_at ha
  obtain ⟨tb, eb, fb⟩ := mean_at hb
  obtain ⟨tr, er, fr⟩ := mean_at w
  refine ⟨_, ta, tb, tr, binOp_eq ha hb hs, ea, eb, er, fun j hj => ⟨_, _, fa j hj, fb j (hs.1 ▸ hj), ?_⟩⟩
  rw [fr j (by rw [s'.1]; exact hj), component_pointwise ha hb hs hj, average_add]
  rw [component_length ha hj, component_length hb (hs.1 ▸ hj), hs.2]

example := C45_additive (a := (⟨[1, 2, 3, 4, 5, 6], 2, 3, 3⟩ : Serie ℚ)) (b := ⟨[1, 0, 0, 0, 1, 1, 7], 2, 3, 2⟩) (by decide)
  (by decide) ⟨rfl, rfl⟩

/-- C45: the mean of a scaled Serie is the scaled mean. -/
theorem C45_homogeneous [Field α] {s : Serie α} (h : WF s) (h0 : 0 < s.count) (c : α) :
    ∃ r t tr, scale s c = .ok r ∧ mean s = .ok t ∧ mean r = .ok tr ∧
      ∀ j, j < s.itemSize → ∃ x, tupleAt t j = some x ∧ tupleAt tr j = some (x * c) := by
  obtain ⟨w, hk, _⟩ := onNumbers_facts (f := (· * c)) h
  obtain ⟨t, e, f⟩ := mean_at h
  obtain ⟨tr, er, fr⟩ := mean_at w
  refine ⟨_, t, tr, C36_scale h h0 c, e, er, fun j hj => ⟨_, f j hj, ?_⟩⟩
  rw [fr j hj, component_onNumbers h, average_map_mul]

example := C45_homogeneous (s := (⟨[1, 2, 3, 4, 5, 6], 2, 3, 3⟩ : Serie ℚ)) (by decide) (by decide) 7

/-- C45: adding a constant to the numbers of a scalar Serie adds it to the mean. -/
theorem C45_translation [Field α] [CharZero α] {s : Serie α} (h : WF s) (h1 : s.itemSize = 1) (h0 : 0 < s.count) (c : α) :
    ∃ r x, addNum s c = .ok r ∧ mean s = .ok (.number x) ∧ mean r = .ok (.number (x + c)) := by
  have hl := h.scalars_length
  have hw : WF (ofScalars ((scalars s).map (· + c))) := WF_ofScalars (by simpa [hl] using h.count_lt)
  refine ⟨ofScalars ((scalars s).map (· + c)), average (scalars s), ?_, ?_, ?_⟩
  · unfold addNum
    rw [if_neg (by simpa using h1)]
    refine (mapNum_numbers h h1 (f := (· + c)) (fun _ _ => rfl)).trans ?_
    rw [scalars_onNumbers h h1]
  · rw [mean_scalar h h1, average, hl]
  · rw [mean_scalar hw rfl, ← hw.scalars_length, scalars_ofScalars]
    show Res.ok (Tuple.number (average ((scalars s).map (· + c)))) = _
    rw [average_map_add (by intro he; rw [he] at hl; simp at hl; omega)]

example := C45_translation exQ_WF rfl (by decide) 7

example : mean (⟨[1, 2, 3, 4, 5, 6], 2, 3, 3⟩ : Serie ℚ) = .ok (.array [5/2, 7/2, 9/2]) ∧
    mean exQ = .ok (.number (14/5)) ∧ SameShape exQ exQ := by
  refine ⟨by decide +kernel, by decide +kernel, rfl, rfl⟩

/-! ## C46 -/

theorem sum_sub_mul [CommRing α] (a b : α) : ∀ (l m : List α), l.length = m.length →
    (List.zipWith (· * ·) (l.map (· - a)) (m.map (· - b))).sum =
      (List.zipWith (· * ·) l m).sum - a * m.sum - b * l.sum + (l.length : α) * (a * b)
  | [], [], _ => by simp
  | [], _ :: _, h => by simp at h
  | _ :: _, [], h => by simp at h
  | x :: l, y :: m, h => by
    simp only [List.map_cons, List.zipWith_cons_cons, List.sum_cons, sum_sub_mul a b l m (by simpa using h),
      List.length_cons]
    push_cast; ring

/-- C46: the covariance of two non-empty scalar Series of equal count is the mean of the products minus the product of
the means. -/
theorem C46_covariance [Field α] [CharZero α] {x y : Serie α} (hx : WF x) (hy : WF y) (hc : x.count = y.count)
    (h1 : x.itemSize = 1) (h1' : y.itemSize = 1) (h0 : 0 < x.count) :
    covariance x y = .ok (average (List.zipWith (· * ·) (scalars x) (scalars y)) -
      average (scalars x) * average (scalars y)) := by
  have hlx := hx.scalars_length
  have hly := hy.scalars_length
  have hn : (x.count : α) ≠ 0 := Nat.cast_ne_zero.2 (by omega)
  rw [covariance_eq hx hy hc h1 h1', sum_sub_mul _ _ _ _ (by omega)]
  unfold average
  rw [List.length_zipWith, hlx, hly, ← hc, Nat.min_self]
  congr 1
  field_simp
  ring

example := C46_covariance exQ_WF (y := ofScalars [2, 0, 7, 1, 8]) (by decide) rfl rfl rfl (by decide)

/-- C46: shapes that do not fit are rejected. -/
theorem C46_throws [Field α] {x y : Serie α} (h : x.count ≠ y.count ∨ x.itemSize ≠ 1 ∨ y.itemSize ≠ 1) :
    covariance x y = .throw .invalidArgument := by
  unfold covariance
  by_cases hc : x.count = y.count
  · rw [if_neg (by simpa using hc)]
    by_cases h1 : x.itemSize = 1
    · rw [if_neg (by simpa using h1), if_pos (by tauto)]
    · rw [if_pos h1]
  · rw [if_pos hc]

example := C46_throws (x := exQ) (y := ⟨[1, 2], 2, 1, 3⟩) (.inl (by decide))

/-- C46: the covariance is symmetric. -/
theorem C46_symmetric [Field α] [CharZero α] {x y : Serie α} (hx : WF x) (hy : WF y) (hc : x.count = y.count)
    (h1 : x.itemSize = 1) (h1' : y.itemSize = 1) (h0 : 0 < x.count) : covariance x y = covariance y x := by
  rw [C46_covariance hx hy hc h1 h1' h0, C46_covariance hy hx hc.symm h1' h1 (hc ▸ h0), mul_comm (average (scalars x)),
    zipWith_comm_op mul_comm]

example := C46_symmetric exQ_WF (y := ⟨[0, 1, 0, 1, 0], 5, 1, 3⟩) (by decide) rfl rfl rfl (by decide)

theorem cauchy [Field α] [LinearOrder α] [IsStrictOrderedRing α] : ∀ (l m : List α), l.length = m.length →
    0 ≤ (List.zipWith (· * ·) l l).sum ∧ 0 ≤ (List.zipWith (· * ·) m m).sum ∧
    (List.zipWith (· * ·) l m).sum ^ 2 ≤ (List.zipWith (· * ·) l l).sum * (List.zipWith (· * ·) m m).sum
  | [], [], _ => by simp
  | [], _ :: _, h => by simp at h
  | _ :: _, [], h => by simp at h
  | x :: l, y :: m, h => by
    obtain ⟨h1, h2, h3⟩ := cauchy l m (by simpa using h)
    simp only [List.zipWith_cons_cons, List.sum_cons]
    generalize (List.zipWith (· * ·) l l).sum = A at *
    generalize (List.zipWith (· * ·) m m).sum = B at *
    generalize (List.zipWith (· * ·) l m).sum = S at *
    refine ⟨by nlinarith [mul_self_nonneg x], by nlinarith [mul_self_nonneg y], ?_⟩
    have hp : 0 ≤ A * y ^ 2 + B * x ^ 2 := by positivity
    have h4 : (2 * S * x * y) ^ 2 ≤ (A * y ^ 2 + B * x ^ 2) ^ 2 := by
      have e1 : (2 * S * x * y) ^ 2 = 4 * S ^ 2 * (x ^ 2 * y ^ 2) := by ring
      have e2 : (A * y ^ 2 + B * x ^ 2) ^ 2 = (A * y ^ 2 - B * x ^ 2) ^ 2 + 4 * (A * B) * (x ^ 2 * y ^ 2) := by ring
      have e3 : S ^ 2 * (x ^ 2 * y ^ 2) ≤ A * B * (x ^ 2 * y ^ 2) := mul_le_mul_of_nonneg_right h3 (by positivity)
      have e4 := sq_nonneg (A * y ^ 2 - B * x ^ 2)
      rw [e1, e2]; linarith
    have h5 : 2 * S * x * y ≤ A * y ^ 2 + B * x ^ 2 := (le_abs_self _).trans (abs_le_of_sq_le_sq h4 hp)
    nlinarith

/-- C46: a variance is not negative, and the square of a covariance is at most the product of the variances. -/
theorem C46_cauchy_schwarz [Field α] [LinearOrder α] [IsStrictOrderedRing α] {x y : Serie α} (hx : WF x) (hy : WF y)
    (hc : x.count = y.count) (h1 : x.itemSize = 1) (h1' : y.itemSize = 1) (_ : 0 < x.count) :
    ∃ c vx vy, covariance x y = .ok c ∧ covariance x x = .ok vx ∧ covariance y y = .ok vy ∧ 0 ≤ vx ∧ 0 ≤ vy ∧
      c ^ 2 ≤ vx * vy := by
  have hlx := hx.scalars_length
  have hly := hy.scalars_length
  obtain ⟨g1, g2, g3⟩ := cauchy ((scalars x).map (· - average (scalars x))) ((scalars y).map (· - average (scalars y)))
    (by simp [hlx, hly, hc])
  refine ⟨_, _, _, covariance_eq hx hy hc h1 h1', covariance_eq hx hx rfl h1 h1, covariance_eq hy hy rfl h1' h1',
    ?_, ?_, ?_⟩
  · exact div_nonneg g1 (Nat.cast_nonneg _)
  · exact div_nonneg g2 (Nat.cast_nonneg _)
  · rw [hly, ← hc, ← hlx, div_pow, div_mul_div_comm, ← sq]
    exact div_le_div_of_nonneg_right g3 (by positivity)

example := C46_cauchy_schwarz exQ_WF (y := ⟨[0, 1, 0, 1, 0], 5, 1, 3⟩) (by decide) rfl rfl rfl (by decide)

/-- C46: adding a constant to one of the Series changes nothing. -/
theorem C46_shift [Field α] [CharZero α] {x y : Serie α} (hx : WF x) (hy : WF y) (hc : x.count = y.count)
    (h1 : x.itemSize = 1) (h1' : y.itemSize = 1) (h0 : 0 < x.count) (d : α) :
    (addNum x d >>= fun r => covariance r y) = covariance x y := by
  have hl := hx.scalars_length
  have hw : WF (ofScalars ((scalars x).map (· + d))) := WF_ofScalars (by simpa [hl] using hx.count_lt)
  have hadd : addNum x d = .ok (ofScalars ((scalars x).map (· + d))) := by
    unfold addNum
    rw [if_neg (by simpa using h1)]
    refine (mapNum_numbers hx h1 (f := (· + d)) (fun _ _ => rfl)).trans ?_
    rw [scalars_onNumbers hx h1]
  rw [hadd, Res.ok_bind, covariance_eq hw hy (by simp [ofScalars, hl, hc]) rfl h1', covariance_eq hx hy hc h1 h1',
    scalars_ofScalars, average_map_add (by intro he; rw [he] at hl; simp at hl; omega), List.length_map, List.map_map]
  congr 6
  funext v
  simp

example := C46_shift exQ_WF (y := ⟨[0, 1, 0, 1, 0], 5, 1, 3⟩) (by decide) rfl rfl rfl (by decide) 7

example : covariance exQ exQ = .ok (64/25) ∧ covariance exQ ⟨[0, 1, 0, 1, 0], 5, 1, 3⟩ = .ok (-18/25) := by decide +kernel

/-! ## C47 -/

section

variable [Field α] [LinearOrder α] [IsStrictOrderedRing α] [FloorRing α]

/-- C47: for `q` in [0,1], `quantile(s, q)` is the linear interpolation of the sorted values at fraction `q`. -/
theorem C47_interpolates {srt : StdSort} (hs : srt.Correct) {s : Serie α} (h : WF s) (h1 : s.itemSize = 1)
    (h0 : 0 < s.count) {q : α} (hq0 : 0 ≤ q) (hq1 : q ≤ 1) :
    ∃ xs v, SortedFrom xs (scalars s) ∧ quantile srt s q = .ok v ∧ Interpolates xs q v :=
  quantile_eq hs h h1 h0 hq0 hq1

example := C47_interpolates stdSort_exists.choose_spec exQ_WF rfl (by decide) (q := 5 / 8) (by norm_num) (by norm_num)

omit [Field α] [IsStrictOrderedRing α] [FloorRing α] in
theorem SortedFrom.unique {xs ys l m : List α} (h : SortedFrom xs l) (h' : SortedFrom ys m) (hp : l.Perm m) : xs = ys :=
  ((h.1.trans hp).trans h'.1.symm).eq_of_pairwise (fun _ _ _ _ => le_antisymm) h.2 h'.2

/-- C47: the quantile is monotone in `q`. -/
theorem C47_monotone {srt : StdSort} (hs : srt.Correct) {s : Serie α} (h : WF s) (h1 : s.itemSize = 1)
    (h0 : 0 < s.count) {q q' : α} (hq0 : 0 ≤ q) (hqq : q ≤ q') (hq1 : q' ≤ 1) :
    ∃ v v', quantile srt s q = .ok v ∧ quantile srt s q' = .ok v' ∧ v ≤ v' := by
  obtain ⟨xs, v, a, b, c⟩ := quantile_eq hs h h1 h0 hq0 (hqq.trans hq1)
  obtain ⟨xs', v', a', b', c'⟩ := quantile_eq hs h h1 h0 (hq0.trans hqq) hq1
  have e := SortedFrom.unique a a' (List.Perm.refl _)
  subst e
  exact ⟨v, v', b, b', c.mono a.2 c' hqq⟩

example := C47_monotone stdSort_exists.choose_spec exQ_WF rfl (by decide) (q := 1 / 2) (q' := 5 / 8) (by norm_num)
  (by norm_num) (by norm_num)

/-- C47: the quantile at 0 is the smallest value, at 1 the largest. -/
theorem C47_endpoints {srt : StdSort} (hs : srt.Correct) {s : Serie α} (h : WF s) (h1 : s.itemSize = 1)
    (h0 : 0 < s.count) :
    ∃ a b, quantile srt s 0 = .ok a ∧ quantile srt s 1 = .ok b ∧ Least a (scalars s) ∧ Greatest b (scalars s) := by
  obtain ⟨xs, v, a, b, c⟩ := quantile_eq hs h h1 h0 (le_refl 0) zero_le_one
  obtain ⟨xs', v', a', b', c'⟩ := quantile_eq hs h h1 h0 zero_le_one (le_refl 1)
  have e := SortedFrom.unique a a' (List.Perm.refl _)
  subst e
  have hz := c.zero
  have ho := c'.one
  refine ⟨v, v', b, b', ⟨?_, fun y hy => ?_⟩, ⟨?_, fun y hy => ?_⟩⟩
  · exact a.1.mem_iff.1 (List.mem_of_getElem? hz)
  · obtain ⟨i, hi⟩ := List.mem_iff_getElem?.1 (a.1.mem_iff.2 hy)
    exact getElem?_le_of_sorted a.2 (Nat.zero_le i) hz hi
  · exact a.1.mem_iff.1 (List.mem_of_getElem? ho)
  · obtain ⟨i, hi⟩ := List.mem_iff_getElem?.1 (a.1.mem_iff.2 hy)
    have : i < xs.length := (List.getElem?_eq_some_iff.1 hi).1
    exact getElem?_le_of_sorted a.2 (by omega) hi ho

example := C47_endpoints stdSort_exists.choose_spec exQ_WF rfl (by decide)

/-- C47: the quantile lies between the smallest and the largest value. -/
theorem C47_between {srt : StdSort} (hs : srt.Correct) {s : Serie α} (h : WF s) (h1 : s.itemSize = 1)
    (h0 : 0 < s.count) {q : α} (hq0 : 0 ≤ q) (hq1 : q ≤ 1) {a b : α} (ha : ∀ y ∈ scalars s, a ≤ y)
    (hb : ∀ y ∈ scalars s, y ≤ b) : ∃ v, quantile srt s q = .ok v ∧ a ≤ v ∧ v ≤ b := by
  obtain ⟨v0, v, e0, e, l1⟩ := C47_monotone hs h h1 h0 (le_refl 0) hq0 hq1
  obtain ⟨v', v1, e', e1, l2⟩ := C47_monotone hs h h1 h0 hq0 hq1 (le_refl 1)
  obtain ⟨a', b', f0, f1, g0, g1⟩ := C47_endpoints hs h h1 h0
  rw [e] at e'; cases e'
  rw [e0] at f0; cases f0
  rw [e1] at f1; cases f1
  exact ⟨v, e, (ha _ g0.1).trans l1, l2.trans (hb _ g1.1)⟩

example := C47_between stdSort_exists.choose_spec exQ_WF rfl (by decide) (q := 5 / 8) (by norm_num) (by norm_num) (a := 1)
  (b := 5) (by decide +kernel) (by decide +kernel)

/-- C47: `q25`, `q50`, `q75` are the quantiles at 1/4, 1/2, 3/4, in ascending order, and `IQR`, which is never negative, is the
difference of the outer two. -/
theorem C47_quartiles {srt : StdSort} (hs : srt.Correct) {s : Serie α} (h : WF s) (h1 : s.itemSize = 1) (h0 : 0 < s.count) :
    ∃ a m b, quantile srt s (1 / 4) = .ok a ∧ quantile srt s (1 / 2) = .ok m ∧ quantile srt s (3 / 4) = .ok b ∧
      q25 srt s = .ok a ∧ q50 srt s = .ok m ∧ q75 srt s = .ok b ∧ iqr srt s = .ok (b - a) ∧ a ≤ m ∧ m ≤ b ∧ 0 ≤ b - a := by
  obtain ⟨a, m, ea, em, l1⟩ := C47_monotone hs h h1 h0 (q := 1 / 4) (q' := 1 / 2) (by positivity) (by norm_num) (by norm_num)
  obtain ⟨m', b, em', eb, l2⟩ := C47_monotone hs h h1 h0 (q := 1 / 2) (q' := 3 / 4) (by positivity) (by norm_num) (by norm_num)
  rw [em] at em'; cases em'
  have c1 : (0.25 : α) = 1 / 4 := by norm_num
  have c2 : (0.5 : α) = 1 / 2 := by norm_num
  have c3 : (0.75 : α) = 3 / 4 := by norm_num
  refine ⟨a, m, b, ea, em, eb, ?_, ?_, ?_, ?_, l1, l2, by linarith⟩
  · unfold q25; rw [c1, ea]
  · unfold q50; rw [c2, em]
  · unfold q75; rw [c3, eb]
  · unfold iqr; rw [c1, c3, ea, eb]; rfl

example := C47_quartiles stdSort_exists.choose_spec exQ_WF rfl (by decide)

/-- C47: the order of the values (and the sorting algorithm) do not matter. -/
theorem C47_order_independent {srt srt' : StdSort} (hs : srt.Correct) (hs' : srt'.Correct) {s t : Serie α} (h : WF s)
    (ht : WF t) (h1 : s.itemSize = 1) (h1' : t.itemSize = 1) (hp : (scalars s).Perm (scalars t)) (h0 : 0 < s.count) (q : α) :
    quantile srt s q = quantile srt' t q := by
  have h0' : 0 < t.count := by rw [← ht.scalars_length, ← hp.length_eq, h.scalars_length]; exact h0
  by_cases hq : q < 0 ∨ q > 1
  · unfold quantile
    rw [h.valid, ht.valid, h1, h1', if_pos hq, if_pos hq]
  · rw [not_or, not_lt, not_lt] at hq
    obtain ⟨xs, v, a, b, c⟩ := quantile_eq hs h h1 h0 hq.1 hq.2
    obtain ⟨xs', v', a', b', c'⟩ := quantile_eq hs' ht h1' h0' hq.1 hq.2
    have e := SortedFrom.unique a a' hp
    subst e
    rw [b, b', le_antisymm (c.mono a.2 c' (le_refl q)) (c'.mono a.2 c (le_refl q))]

example := C47_order_independent stdSort_exists.choose_spec stdSort_exists.choose_spec exQ_WF (t := ⟨[5, 4, 3, 1, 1], 5, 1, 3⟩)
  (by decide) rfl rfl (by decide +kernel) (by decide) (5 / 8)

omit [IsStrictOrderedRing α] in
/-- C47: invalid or non-scalar Series and fractions outside [0,1] are rejected. -/
theorem C47_throws (srt : StdSort) {s : Serie α} {q : α} (h : s.isValid = false ∨ s.itemSize ≠ 1 ∨ q < 0 ∨ 1 < q) :
    quantile srt s q = .throw .invalidArgument := by
  unfold quantile
  by_cases hv : s.isValid = false
  · rw [hv]; rfl
  · rw [Bool.not_eq_false] at hv
    rw [hv, if_neg (by simp)]
    by_cases h1 : s.itemSize = 1
    · rw [if_neg (by simpa using h1), if_pos (by
        rcases h with h | h | h | h
        · rw [hv] at h; cases h
        · exact absurd h1 h
        · exact Or.inl h
        · exact Or.inr h)]
    · rw [if_pos h1]

example := C47_throws stdSort_exists.choose (s := exQ) (q := 2) (.inr (.inr (.inr (by norm_num))))

omit [IsStrictOrderedRing α] in
/-- The quantile of an empty Serie is undefined behaviour (an element of an empty array is read). -/
theorem C47_empty {srt : StdSort} (hs : srt.Correct) {s : Serie α} (h : WF s) (h1 : s.itemSize = 1) (h0 : s.count = 0)
    {q : α} (hq0 : 0 ≤ q) (hq1 : q ≤ 1) : quantile srt s q = .ub := by
  obtain ⟨xs, he, hp, ho⟩ := C29_sort_numbers hs h h1
  have hn : xs = [] := by
    have := hp.length_eq
    rw [h.scalars_length, h0] at this
    exact List.length_eq_zero_iff.1 this
  subst hn
  unfold quantile
  simp only [Trunc.floor, Trunc.toU32]
  rw [h.valid, if_neg (by simp), if_neg (by simpa using h1),
    if_neg (by rw [not_or]; exact ⟨not_lt.2 hq0, not_lt.2 hq1⟩), he, Res.ok_bind]
  have hu : ∀ x : α, toU32 x = .ub ∨ ∃ k, toU32 x = .ok k := by
    intro x; unfold toU32; split
    · exact Or.inr ⟨_, rfl⟩
    · exact Or.inl rfl
  have hd : (ofScalars ([] : List α)).data = [] := rfl
  generalize (ofScalars ([] : List α)).data = l at hd
  subst hd
  generalize (if ([] : List α).length = 0 then 2 ^ 64 - 1 else ([] : List α).length - 1 : Nat) = n
  rcases hu ((⌊(n : α) * q⌋ : α) + 1) with e | ⟨k, e⟩
  · rw [e]; rfl
  · rw [e, Res.ok_bind, if_neg (by simp)]
    rcases hu (⌊(n : α) * q⌋ : α) with e' | ⟨k', e'⟩
    · rw [e']; rfl
    · rw [e', Res.ok_bind, rd_of_ge (by simp)]

example := C47_empty stdSort_exists.choose_spec (s := (⟨[], 0, 1, 3⟩ : Serie ℚ)) (by decide) rfl rfl (q := 1 / 2)
  (by norm_num) (by norm_num)

/-! ## C48 -/

/-- C48: with `a`, `b` the quartiles and `lo = a - m (b - a)`, `hi = b + m (b - a)`: `outliers` are the values outside
`[lo, hi]` in order, `notOutliers` the values inside in order, `isOutliers` the mask of the former. -/
theorem C48_outliers {srt : StdSort} (hs : srt.Correct) {s : Serie α} (h : WF s) (h1 : s.itemSize = 1) (h0 : 0 < s.count)
    (m : α) : ∃ a b lo hi, quantile srt s (1 / 4) = .ok a ∧ quantile srt s (3 / 4) = .ok b ∧
      lo = a - m * (b - a) ∧ hi = b + m * (b - a) ∧
      outliers srt s m = .ok (ofScalars ((scalars s).filter (fun v => decide (v < lo ∨ hi < v)))) ∧
      notOutliers srt s m = .ok (ofScalars ((scalars s).filter (fun v => decide (lo ≤ v ∧ v ≤ hi)))) ∧
      isOutliers srt s m = .ok (ofScalars ((scalars s).map (fun v => if v < lo ∨ hi < v then 1 else 0))) := by
  obtain ⟨a, b, ea, eb, _⟩ := C47_monotone hs h h1 h0 (q := 1 / 4) (q' := 3 / 4) (by positivity)
    (by norm_num) (by norm_num)
  have ho : outlierBounds srt s m = .ok (a - m * (b - a), b + m * (b - a)) := by
    unfold outlierBounds q25 q75
    rw [show (0.25 : α) = 1 / 4 by norm_num, show (0.75 : α) = 3 / 4 by norm_num, ea, eb]; rfl
  exact ⟨a, b, _, _, ea, eb, rfl, rfl, outliers_run h ho, notOutliers_run h ho, isOutliers_run h ho⟩

/-- C48: each value is in exactly one of `outliers` and `notOutliers`; the mask says in which. -/
theorem C48_split {srt : StdSort} (hs : srt.Correct) {s : Serie α} (h : WF s) (h1 : s.itemSize = 1) (h0 : 0 < s.count)
    (m : α) : ∃ (o n k : Serie α) (mask : List Bool), outliers srt s m = .ok o ∧ notOutliers srt s m = .ok n ∧
      isOutliers srt s m = .ok k ∧ mask.length = s.count ∧
      scalars k = mask.map (fun b => if b then 1 else 0) ∧
      scalars o = keep (scalars s) mask ∧ scalars n = keep (scalars s) (mask.map (!·)) ∧
      o.count + n.count = s.count ∧ (scalars o ++ scalars n).Perm (scalars s) := by
  obtain ⟨a, b, lo, hi, _, _, _, _, e1, e2, e3⟩ := C48_outliers hs h h1 h0 m
  have hneg : (fun v => decide (lo ≤ v ∧ v ≤ hi)) = fun v => !(decide (v < lo ∨ hi < v)) := by
    funext v
    by_cases hv : v < lo ∨ hi < v
    · simp only [hv, decide_true, Bool.not_true, decide_eq_false_iff_not]
      rintro ⟨h1, h2⟩
      rcases hv with hv | hv
      · exact absurd hv (not_lt.2 h1)
      · exact absurd hv (not_lt.2 h2)
    · simp only [hv, decide_false, Bool.not_false, decide_eq_true_eq]
      rw [not_or, not_lt, not_lt] at hv
      exact hv
  rw [hneg] at e2
  have hperm := List.filter_append_perm (fun v => decide (v < lo ∨ hi < v)) (scalars s)
  refine ⟨_, _, _, (scalars s).map (fun v => decide (v < lo ∨ hi < v)), e1, e2, e3, by simp [h.scalars_length], ?_, ?_, ?_,
    ?_, ?_⟩
  · rw [scalars_ofScalars, List.map_map]; simp
  · rw [scalars_ofScalars, keep_map_filter]
  · rw [scalars_ofScalars, List.map_map]
    exact (keep_map_filter (fun v => !(decide (v < lo ∨ hi < v))) (scalars s)).symm
  · have := hperm.length_eq
    rw [List.length_append, h.scalars_length] at this
    exact this
  · rw [scalars_ofScalars, scalars_ofScalars]; exact hperm

example := C48_split stdSort_exists.choose_spec exQ_WF rfl (by decide) 0

/-- C48: a longer mustache leaves fewer outliers. -/
theorem C48_antitone {srt : StdSort} (hs : srt.Correct) {s : Serie α} (h : WF s) (h1 : s.itemSize = 1) (h0 : 0 < s.count)
    {m m' : α} (hm : m ≤ m') : ∃ o o', outliers srt s m = .ok o ∧ outliers srt s m' = .ok o' ∧
      (scalars o').Sublist (scalars o) := by
  obtain ⟨a, b, ea, eb, hab⟩ := C47_monotone hs h h1 h0 (q := 1 / 4) (q' := 3 / 4) (by positivity)
    (by norm_num) (by norm_num)
  obtain ⟨a1, b1, lo, hi, f1, f2, rfl, rfl, e1, _⟩ := C48_outliers hs h h1 h0 m
  obtain ⟨a2, b2, lo', hi', g1, g2, rfl, rfl, e2, _⟩ := C48_outliers hs h h1 h0 m'
  rw [ea] at f1 g1; cases f1; cases g1
  rw [eb] at f2 g2; cases f2; cases g2
  refine ⟨_, _, e1, e2, ?_⟩
  rw [scalars_ofScalars, scalars_ofScalars]
  apply List.monotone_filter_right
  intro v hv
  have hd : m * (b - a) ≤ m' * (b - a) := mul_le_mul_of_nonneg_right hm (by linarith)
  simp only [decide_eq_true_eq] at hv ⊢
  rcases hv with hv | hv
  · exact Or.inl (by linarith)
  · exact Or.inr (by linarith)

example := C48_antitone stdSort_exists.choose_spec exQ_WF rfl (by decide) (m := 0) (m' := 3 / 2) (by norm_num)

end

theorem exQ_quantile {srt : StdSort} (hs : srt.Correct) {q v : ℚ} (hq0 : 0 ≤ q) (hq1 : q ≤ 1)
    (hi : Interpolates [1, 1, 3, 4, 5] q v) : quantile srt exQ q = .ok v := by
  obtain ⟨xs, w, a, b, c⟩ := C47_interpolates hs exQ_WF rfl (by decide) hq0 hq1
  have hsort : SortedFrom [1, 1, 3, 4, 5] (scalars exQ) := ⟨by decide +kernel, by decide +kernel⟩
  rw [SortedFrom.unique a hsort (List.Perm.refl _)] at c
  rw [b, le_antisymm (c.mono hsort.2 hi (le_refl q)) (hi.mono hsort.2 c (le_refl q))]

/-- The values of `exQ` are 3, 1, 4, 1, 5: median 3, quartiles 1 and 4, 7/2 at 5/8; without mustache only 5 is outside. -/
example {srt : StdSort} (hs : srt.Correct) : quantile srt exQ (1 / 2) = .ok 3 ∧ quantile srt exQ (5 / 8) = .ok (7 / 2) ∧
    outliers srt exQ 0 = .ok (ofScalars [5]) ∧ isOutliers srt exQ 0 = .ok (ofScalars [0, 0, 0, 0, 1]) := by
  have h25 := exQ_quantile hs (q := 1 / 4) (v := 1) (by norm_num) (by norm_num)
    ⟨1, 0, 1, 3, by norm_num, by norm_num, by norm_num, rfl, Or.inl rfl, by norm_num⟩
  have h75 := exQ_quantile hs (q := 3 / 4) (v := 4) (by norm_num) (by norm_num)
    ⟨3, 0, 4, 5, by norm_num, by norm_num, by norm_num, rfl, Or.inl rfl, by norm_num⟩
  refine ⟨exQ_quantile hs (by norm_num) (by norm_num)
      ⟨2, 0, 3, 4, by norm_num, by norm_num, by norm_num, rfl, Or.inl rfl, by norm_num⟩,
    exQ_quantile hs (by norm_num) (by norm_num)
      ⟨2, 1 / 2, 3, 4, by norm_num, by norm_num, by norm_num, rfl, Or.inl rfl, by norm_num⟩, ?_, ?_⟩ <;>
  · obtain ⟨a, b, lo, hi, ea, eb, rfl, rfl, e1, e2, e3⟩ := C48_outliers hs exQ_WF rfl (by decide) (0 : ℚ)
    rw [h25] at ea; cases ea
    rw [h75] at eb; cases eb
    first
      | rw [e1]; decide +kernel
      | rw [e3]; decide +kernel

end DF
