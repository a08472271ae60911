import Verif.Lemmas.Extended
import Verif.Props.Special

/-!
# Calculations with infinities (C122, C123)

The numbers are `Ext ℝ`: real numbers, infinities and NaN.
-/

namespace DF

open Spec

/-! ## C122: sums, products and quotients -/

/-- Infinities of both signs, a number and NaN. -/
noncomputable def exWide : Serie (Ext ℝ) := ⟨[.pinf, .fin 2, .nan, .ninf, .pinf, .fin 0], 3, 2, 3⟩
/-- The same shape. -/
noncomputable def exWide' : Serie (Ext ℝ) := ⟨[.ninf, .pinf, .fin 1, .ninf, .fin 0, .fin (-3)], 3, 2, 3⟩

theorem exWide_WF : WF exWide := of_decide_eq_true rfl
theorem exWide'_WF : WF exWide' := of_decide_eq_true rfl

/-- C122: `add` and `sub` give the sum and the difference of the extended real numbers, NaN where they are not determined. -/
theorem C122_add_sub {a b : Serie (Ext ℝ)} (ha : WF a) (hb : WF b) (hs : SameShape a b) :
    ∃ r t, add2 a b = .ok r ∧ sub2 a b = .ok t ∧ SameShape r a ∧ SameShape t a ∧
      ∀ i j x y, cell a i j = some x → cell b i j = some y → ∃ z w, cell r i j = some z ∧ cell t i j = some w ∧
        toE z = addE (toE x) (toE y) ∧ toE w = subE (toE x) (toE y) := by
  obtain ⟨r, h1, _, h3, h4⟩ := (C35_add ha hb).2 hs
  obtain ⟨t, k1, _, k3, k4⟩ := (C35_sub ha hb).2 hs
  exact ⟨r, t, h1, k1, h3, k3, fun i j x y hx hy => ⟨_, _, h4 i j x y hx hy, k4 i j x y hx hy, toE_add x y, toE_sub x y⟩⟩

example := C122_add_sub exWide_WF exWide'_WF ⟨rfl, rfl⟩

/-- C122: `mult(s, d)` and `scale(s, d)` give the products, NaN for zero times an infinity. -/
theorem C122_mult {s : Serie (Ext ℝ)} (h : WF s) (h0 : 0 < s.count) (d : Ext ℝ) :
    ∃ r, mult s d = .ok r ∧ scale s d = .ok r ∧ SameShape r s ∧ ∀ i j x, cell s i j = some x → ∃ z, cell r i j = some z ∧
      toE z = mulE (toE x) (toE d) := by
  obtain ⟨_, c2, c3⟩ := onNumbers_cells (f := (· * d)) h
  exact ⟨_, C36_mult h h0 d, C36_scale h h0 d, c2, fun i j x hx => ⟨_, c3 i j x hx, toE_mul x d⟩⟩

example := C122_mult exWide_WF (by decide) .ninf

/-- C122: `negate(s)` exchanges the infinities and keeps NaN. -/
theorem C122_negate {s : Serie (Ext ℝ)} (h : WF s) (h0 : 0 < s.count) :
    ∃ r, negate s = .ok r ∧ SameShape r s ∧ ∀ i j x, cell s i j = some x → ∃ z, cell r i j = some z ∧
      toE z = (toE x).map (- ·) := by
  have hrun : negate s = .ok (onNumbers (fun y : Ext ℝ => y * (-1)) s) :=
    mapArr_numbers h h0 (fun _ hv _ => updLoop_map hv.symm (fun _ _ => rfl))
  obtain ⟨_, c2, c3⟩ := onNumbers_cells (f := fun y : Ext ℝ => y * (-1)) h
  refine ⟨_, hrun, c2, fun i j x hx => ⟨_, c3 i j x hx, ?_⟩⟩
  show toE (Ext.mul x (.fin (-1))) = _
  have h1 : ¬ (1 : ℝ) < 0 := by norm_num
  cases x <;> simp [Ext.mul, Ext.infTimes, Ext.ninfTimes, toE, h1]

example := C122_negate exWide_WF (by decide)

/-- C122: `div(d, s)` gives the quotients, NaN for 0/0 and for infinities divided by infinities. -/
theorem C122_div {s : Serie (Ext ℝ)} (h : WF s) (h0 : 0 < s.count) (d : Ext ℝ) :
    ∃ r, divNum d s = .ok r ∧ SameShape r s ∧ ∀ i j x, cell s i j = some x → ∃ z, cell r i j = some z ∧
      toE z = divE (toE x) (toE d) := by
  obtain ⟨_, c2, c3⟩ := onNumbers_cells (f := (· / d)) h
  exact ⟨_, C36_div h h0 d, c2, fun i j x hx => ⟨_, c3 i j x hx, toE_div x d⟩⟩

example := C122_div exWide_WF (by decide) (.fin 0)

theorem map_zipWith_mul (u v : List (Ext ℝ)) :
    (List.zipWith (· * ·) u v).map toE = List.zipWith mulE (u.map toE) (v.map toE) := by
  rw [List.map_zipWith, List.zipWith_map]
  simp only [toE_mul]

/-- C122: `dot` gives the sum of the products of the numbers of two items. -/
theorem C122_dot {a b : Serie (Ext ℝ)} (ha : WF a) (hb : WF b) (hs : SameShape a b) (h0 : 0 < a.count) :
    ∃ r, dot a b = .ok r ∧ WF r ∧ r.itemSize = 1 ∧ ItemWise3 (fun u v w => ∃ z, w = [z] ∧
      toE z = sumE (List.zipWith mulE (u.map toE) (v.map toE))) a b r := by
  have := ha.pos
  have hf := ofItems_zip_facts ha hb hs.2 (k := 1) (g := fun u v => [(List.zipWith (· * ·) u v).foldl (· + ·) 0])
    (by omega) (by omega) (fun _ _ _ _ => rfl)
  have hrun : dot a b =
      .ok (ofItems 1 (List.zipWith (fun u v => [(List.zipWith (· * ·) u v).foldl (· + ·) 0]) (items a) (items b))) :=
    mapArr_items2 (f := dotItem a.itemSize) ha hb hs.2 h0 (by omega) (by omega) (fun _ _ _ _ => rfl)
      (fun u v hu hv => dotItem_run hu (hv.trans hs.1.symm))
  refine ⟨_, hrun, hf.1, hf.2.1, ItemWise3_zip hs.2 hf.2.2.2 (fun u hu v hv => ⟨_, rfl, ?_⟩)⟩
  rw [toE_sum, map_zipWith_mul, toE_zero, sumE_zero]

example := C122_dot exWide_WF exWide'_WF ⟨rfl, rfl⟩ (by decide)

/-- C122: `weigthedSum` gives at each place the sum of the products of the numbers and the weights. -/
theorem C122_weightedSum {series : List (Serie (Ext ℝ))} {weights : List (Ext ℝ)} {k n : Nat} (hne : series ≠ [])
    (hlen : series.length = weights.length) (hss : ∀ s ∈ series, WF s ∧ s.itemSize = k ∧ s.count = n) (h0 : 0 < n) :
    ∃ r, weightedSum series weights = .ok r ∧ r.itemSize = k ∧ r.count = n ∧ ∀ i j, i < n → j < k →
      ∃ (xs : List (Ext ℝ)) (z : Ext ℝ), series.map (fun s => cell s i j) = xs.map some ∧ cell r i j = some z ∧
        toE z = sumE (List.zipWith mulE (xs.map toE) (weights.map toE)) := by
  obtain ⟨r, h1, _, h3, h4, h5⟩ := weightedSum_eq hne hlen hss h0
  refine ⟨r, h1, h3, h4, fun i j hi hj => ?_⟩
  obtain ⟨xs, a, b⟩ := h5 i j hi hj
  refine ⟨xs, _, a, b, ?_⟩
  rw [toE_sum, map_zipWith_mul, toE_zero, sumE_zero]

example := C122_weightedSum (series := [exWide, exWide']) (weights := [.fin 0, .pinf]) (k := 2) (n := 3) (by simp) rfl
  (by simp [exWide_WF, exWide'_WF]; exact ⟨⟨rfl, rfl⟩, rfl, rfl⟩) (by decide)

/-- C122: component `j` of `mean` is the sum of the numbers at component `j` divided by their count: an infinity among
them makes it infinite, both infinities or NaN make it NaN. -/
theorem C122_mean {s : Serie (Ext ℝ)} (h : WF s) :
    ∃ m, mean s = .ok m ∧ ∀ j, j < s.itemSize → ∃ z, tupleAt m j = some z ∧
      toE z = divE (sumE ((component s j).map toE)) (some ((s.count : ℝ) : EReal)) := by
  have key : ∀ l : List (Ext ℝ), toE (l.foldl (· + ·) 0 / (s.count : Ext ℝ)) =
      divE (sumE (l.map toE)) (some ((s.count : ℝ) : EReal)) := by
    intro l
    rw [toE_div, toE_sum, toE_zero, sumE_zero]
    rfl
  by_cases h1 : s.itemSize = 1
  · refine ⟨_, mean_scalar_run h h1, fun j hj => ?_⟩
    obtain rfl : j = 0 := by omega
    refine ⟨_, rfl, ?_⟩
    rw [component_scalar h h1, key]
  · obtain ⟨b, h2, h3, h4⟩ := mean_items_run h h1
    exact ⟨_, h2, fun j hj => ⟨_, h4 j hj, key _⟩⟩

example := C122_mean exWide_WF

/-! ## C123: approximate equality -/

/-- C123: `approximatelyEquals` on arrays of the same length is true exactly when the Series are valid, have the same shape and
all the distances are determined and at most `eps`. -/
theorem C123_approximatelyEquals_partial {a b : Serie (Ext ℝ)} {eps : Ext ℝ} (hlen : a.data.length = b.data.length) :
    ∃ r, approximatelyEquals a b eps = .ok r ∧ (r = true ↔
      a.isValid = true ∧ b.isValid = true ∧ a.itemSize = b.itemSize ∧ a.count = b.count ∧ a.dimension = b.dimension ∧
        ∀ i (h : i < a.data.length) (h' : i < b.data.length), Within (toE eps) (toE a.data[i]) (toE b.data[i])) := by
  unfold approximatelyEquals
  split
  · rename_i h
    refine ⟨false, rfl, ?_⟩
    simp at h ⊢
    intro h1 h2; simp [h1, h2] at h
  · rename_i h
    simp at h
    split
    · rename_i h2; exact ⟨false, rfl, by simp [h2]⟩
    · split
      · rename_i h3; exact ⟨false, rfl, by simp [h3]⟩
      · split
        · rename_i h4; exact ⟨false, rfl, by simp [h4]⟩
        · rename_i h2 h3 h4
          simp at h2 h3 h4
          obtain ⟨r, hr, hiff⟩ := stdEqual_eq (pred := near eps) hlen
          refine ⟨r, hr, ?_⟩
          rw [hiff]
          simp only [h, h2, h3, h4, true_and, toE_near]

example := C123_approximatelyEquals_partial (a := exWide) (b := exWide') (eps := .pinf) rfl

/-- C123: an item of `approximateEqualityMask` is 1 exactly when all its distances are determined and at most `eps`. -/
theorem C123_mask {a b : Serie (Ext ℝ)} (ha : WF a) (hb : WF b) (hs : SameShape a b) (eps : Ext ℝ) :
    ∃ r, approximateEqualityMask a b eps = .ok r ∧ WF r ∧ r.itemSize = 1 ∧ r.count = a.count ∧ ∀ i, i < a.count →
      ((∀ j x y, cell a i j = some x → cell b i j = some y → Within (toE eps) (toE x) (toE y)) → cell r i 0 = some 1) ∧
      ((∃ j x y, cell a i j = some x ∧ cell b i j = some y ∧ ¬ Within (toE eps) (toE x) (toE y)) → cell r i 0 = some 0) :=
  (maskWith_spec (pred := near eps) (P := fun x y => Within (toE eps) (toE x) (toE y)) (toE_near eps) ha hb).2 hs

example := C123_mask exWide_WF exWide'_WF ⟨rfl, rfl⟩ (.fin 1)

/-- C123: Series that are `equals` and have no infinity are approximately equal, whatever the tolerance. -/
theorem C123_equal_partial {a b : Serie (Ext ℝ)} (h : equals a b = true) (hn : ∀ x ∈ a.data, NotInf x) {eps : Ext ℝ}
    (he : ¬ eps < 0) (he' : eps ≠ .nan) : approximatelyEquals a b eps = .ok true := by
  obtain ⟨h1, h2, h3, h4, h5, h6, h7⟩ := (C93_equals a b).1 h
  obtain ⟨r, hr, hiff⟩ := C123_approximatelyEquals_partial (a := a) (b := b) (eps := eps) (by rw [h6])
  rw [hr, hiff.2 ⟨h1, h2, h3, h4, h5, fun i hi hi' => ?_⟩]
  have e : b.data[i] = a.data[i] := by simp only [h6]
  rw [e, ← toE_near]
  have hm := List.getElem_mem hi
  generalize a.data[i] = x at hm
  have hx := hn x hm
  cases x with
  | pinf => exact absurd rfl hx.1
  | ninf => exact absurd rfl hx.2
  | nan => exact absurd hm h7
  | fin x =>
    rw [toE_near]
    refine ⟨0, ?_⟩
    cases eps with
    | fin c =>
      have hc : ¬ c < 0 := he
      exact ⟨c, by simp [toE, subE, IsInf], rfl, by simpa using hc, by simpa using hc⟩
    | pinf => exact ⟨⊤, by simp [toE, subE, IsInf], rfl, le_top, le_top⟩
    | ninf => exact absurd trivial he
    | nan => exact absurd rfl he'

example := C123_equal_partial (a := ofScalars [.fin 1, .fin (-2)]) (b := ofScalars [.fin 1, .fin (-2)]) (eps := .fin 0)
  ((C93_equals _ _).2 ⟨rfl, rfl, rfl, rfl, rfl, rfl, by simp [ofScalars]⟩) (by simp [ofScalars, NotInf])
  (lt_irrefl (0 : ℝ)) (by simp)

/-- C123: a Serie with an infinity `equals` itself, but is not approximately equal to itself whatever the tolerance. -/
theorem C123_infinite_violated {s : Serie (Ext ℝ)} (h : WF s) (hn : Ext.nan ∉ s.data) (hi : Ext.pinf ∈ s.data ∨ Ext.ninf ∈ s.data)
    (eps : Ext ℝ) : equals s s = true ∧ approximatelyEquals s s eps = .ok false := by
  have hv : s.isValid = true := by
    have := h.pos; have := h.int
    simp [Serie.isValid, *]
  refine ⟨(C93_equals s s).2 ⟨hv, hv, rfl, rfl, rfl, rfl, hn⟩, ?_⟩
  obtain ⟨r, hr, hiff⟩ := C123_approximatelyEquals_partial (a := s) (b := s) (eps := eps) rfl
  rw [hr]
  cases r with
  | false => rfl
  | true =>
    obtain ⟨_, _, _, _, _, hw⟩ := hiff.1 rfl
    rcases hi with hi | hi <;> obtain ⟨i, hl, e⟩ := List.mem_iff_getElem.1 hi <;> have := hw i hl hl <;> rw [e] at this <;>
      obtain ⟨d, _, hd, _⟩ := this <;> simp [toE, subE, IsInf] at hd

example := C123_infinite_violated (s := ofScalars [.fin 1, .pinf]) (WF_ofScalars (by simp)) (by simp [ofScalars])
  (.inl (by simp [ofScalars])) .pinf

end DF
