import Verif.Props.Geo
import Verif.Props.Products
import Verif.Props.Special

/-!
# Properties of `insar` and `fringes` used together with the arithmetic of Series: C144
-/

namespace DF

open Spec

variable {α : Type}

/-! ## the results -/

theorem insar_run [CommRing α] {u : Serie α} (h : WF u) (h0 : 0 < u.count) (h3 : u.itemSize = 3) {los : List α}
    (hl : los.length = 3) : insar u los = .ok (ofItems 1 ((items u).map fun v => [dotL v los])) := by
  unfold insar dotArray
  rw [h.valid, if_neg (by simp [h3]), if_neg (by simp [hl]), Serie.value_eq h h0, Res.ok_bind,
    chunk_length (h.item_fits h0), if_neg (by simp [hl, h3])]
  exact mapArr_items h h0 (by omega) (by omega) (fun _ _ => rfl) (fun u hu i => dotItem_eq hu (hl.trans h3.symm))

theorem insarFacts [CommRing α] {u : Serie α} (h : WF u) (los : List α) :
    WF (ofItems 1 ((items u).map fun v => [dotL v los])) ∧ (ofItems 1 ((items u).map fun v => [dotL v los])).itemSize = 1 ∧
      (ofItems 1 ((items u).map fun v => [dotL v los])).count = u.count ∧
      items (ofItems 1 ((items u).map fun v => [dotL v los])) = (items u).map fun v => [dotL v los] :=
  ofItems_map_facts h (k := 1) (g := fun v => [dotL v los]) (by omega) h.pos (fun _ _ => rfl)

section linear

variable [CommRing α] {u v : Serie α} {los los' : List α}

/-! ## C144: insar is linear -/

/-- The sum of two fields of displacements is seen as the sum of what is seen of each. -/
theorem C144_insar_add (hu : WF u) (hv : WF v) (u3 : u.itemSize = 3) (v3 : v.itemSize = 3) (hc : u.count = v.count)
    (h0 : 0 < u.count) (hl : los.length = 3) :
    ∃ r, (do let x ← add2 u v; insar x los) = .ok r ∧ (do let x ← insar u los; let y ← insar v los; add2 x y) = .ok r := by
  have sh : SameShape u v := ⟨u3.trans v3.symm, hc⟩
  obtain ⟨w1, s1, i1⟩ := WF_pointwise (op := (· + ·)) hu hv sh
  obtain ⟨w2, k2, n2, i2⟩ := insarFacts hu los
  obtain ⟨w3, k3, n3, i3⟩ := insarFacts hv los
  refine ⟨_, bind_ok (binOp_eq hu hv sh) (insar_run w1 (by rw [s1.2]; exact h0) (s1.1.trans u3) hl), ?_⟩
  rw [insar_run hu h0 u3 hl, Res.ok_bind, insar_run hv (by omega) v3 hl, Res.ok_bind]
  refine (binOp_eq w2 w3 ⟨k2.trans k3.symm, by rw [n2, n3, hc]⟩).trans ?_
  rw [i1]
  unfold pointwise
  rw [i2, i3, k2]
  congr 2
  obtain ⟨a, b, c, rfl⟩ := len3 hl
  refine List.ext_getElem (by simp) fun i h1 h2 => ?_
  simp only [List.length_zipWith, List.length_map] at h1 h2
  simp only [List.getElem_zipWith, List.getElem_map, List.zipWith_cons_cons, List.zipWith_nil_left]
  obtain ⟨x, y, z, e⟩ := len3 (item_len hu u3 (i := i) (by omega))
  obtain ⟨x', y', z', e'⟩ := len3 (item_len hv v3 (i := i) (by omega))
  rw [e, e']
  simp [dotL]
  ring

example := C144_insar_add ex23_WF exTail_WF rfl rfl rfl (by decide) (los := [1, 0, 2]) rfl

/-- Displacements `k` times larger are seen `k` times larger. -/
theorem C144_insar_scale (hu : WF u) (u3 : u.itemSize = 3) (h0 : 0 < u.count) (hl : los.length = 3) (k : α) :
    ∃ r, (do let x ← scale u k; insar x los) = .ok r ∧ (do let x ← insar u los; scale x k) = .ok r ∧
      insar u (los.map (k * ·)) = .ok r := by
  obtain ⟨w1, ⟨k1, n1⟩, i1⟩ := onNumbers_facts (f := (· * k)) hu
  obtain ⟨w2, k2, n2, i2⟩ := insarFacts hu los
  refine ⟨_, bind_ok (C36_scale hu h0 k) (insar_run w1 (by rw [n1]; exact h0) (k1.trans u3) hl), ?_, ?_⟩
  · rw [insar_run hu h0 u3 hl, Res.ok_bind, C36_scale w2 (by rw [n2]; exact h0)]
    rw [i1]
    unfold onNumbers
    rw [i2, k2, List.map_map, List.map_map]
    congr 2
    obtain ⟨a, b, c, rfl⟩ := len3 hl
    refine List.map_congr_left fun t ht => ?_
    obtain ⟨x, y, z, rfl⟩ := len3 ((hu.item_length ht).trans u3)
    simp [dotL]
    ring
  · rw [insar_run hu h0 u3 (by simpa using hl), i1, List.map_map]
    congr 2
    obtain ⟨a, b, c, rfl⟩ := len3 hl
    refine List.map_congr_left fun t ht => ?_
    obtain ⟨x, y, z, rfl⟩ := len3 ((hu.item_length ht).trans u3)
    simp [dotL]
    ring

example := C144_insar_scale ex23_WF rfl (by decide) (los := [1, 0, 2]) rfl 5

/-- What is seen along the sum of two lines of sight. -/
theorem C144_insar_los (hu : WF u) (u3 : u.itemSize = 3) (h0 : 0 < u.count) (hl : los.length = 3) (hl' : los'.length = 3) :
    ∃ r, insar u (List.zipWith (· + ·) los los') = .ok r ∧
      (do let x ← insar u los; let y ← insar u los'; add2 x y) = .ok r := by
  obtain ⟨w2, k2, n2, i2⟩ := insarFacts hu los
  obtain ⟨w3, k3, n3, i3⟩ := insarFacts hu los'
  refine ⟨_, insar_run hu h0 u3 (by simp [hl, hl']), ?_⟩
  rw [insar_run hu h0 u3 hl, Res.ok_bind, insar_run hu h0 u3 hl', Res.ok_bind]
  refine (binOp_eq w2 w3 ⟨k2.trans k3.symm, by rw [n2, n3]⟩).trans ?_
  unfold pointwise
  rw [i2, i3, k2, List.zipWith_map, List.zipWith_self]
  congr 2
  obtain ⟨a, b, c, rfl⟩ := len3 hl
  obtain ⟨a', b', c', rfl⟩ := len3 hl'
  refine List.map_congr_left fun t ht => ?_
  obtain ⟨x, y, z, rfl⟩ := len3 ((hu.item_length ht).trans u3)
  simp [dotL]
  ring

example := C144_insar_los ex23_WF rfl (by decide) (los := [1, 0, 2]) (los' := [0, 3, 1]) rfl rfl

/-- A displacement perpendicular to the line of sight is not seen. -/
theorem C144_insar_hidden (hu : WF u) (hv : WF v) (u3 : u.itemSize = 3) (v3 : v.itemSize = 3) (hc : u.count = v.count)
    (h0 : 0 < u.count) (hl : los.length = 3) (hperp : ∀ t ∈ items v, vec 3 t ⬝ᵥ vec 3 los = 0) :
    ∃ r, (do let x ← add2 u v; insar x los) = .ok r ∧ insar u los = .ok r := by
  have sh : SameShape u v := ⟨u3.trans v3.symm, hc⟩
  obtain ⟨w1, s1, i1⟩ := WF_pointwise (op := (· + ·)) hu hv sh
  refine ⟨_, bind_ok (binOp_eq hu hv sh) (insar_run w1 (by rw [s1.2]; exact h0) (s1.1.trans u3) hl), ?_⟩
  rw [insar_run hu h0 u3 hl, i1]
  congr 2
  obtain ⟨a, b, c, rfl⟩ := len3 hl
  have hlen : (items u).length = (items v).length := by simpa using hc
  refine List.ext_getElem (by simp [hlen]) fun i h1 h2 => ?_
  simp only [List.length_zipWith, List.length_map] at h1 h2
  simp only [List.getElem_zipWith, List.getElem_map]
  have hp := hperp _ (List.getElem_mem (l := items v) (n := i) (by omega))
  obtain ⟨x, y, z, e⟩ := len3 (item_len hu u3 (i := i) (by omega))
  obtain ⟨x', y', z', e'⟩ := len3 (item_len hv v3 (i := i) (by omega))
  rw [e'] at hp
  rw [e, e']
  simp [vec, num, dotProduct, Fin.sum_univ_three] at hp
  simp [dotL]
  linear_combination -hp

/-- Seen from above, a horizontal displacement makes no difference. -/
example := C144_insar_hidden ex23_WF (v := ⟨[1, 2, 0, 4, 5, 0], 2, 3, 3⟩) (by decide) rfl rfl rfl (by decide) (los := [0, 0, 1]) rfl
  (by decide +kernel)

end linear

section fringes

variable [Field α] [LinearOrder α] [IsStrictOrderedRing α] [FloorRing α]

/-- The fringe of one number, as computed. -/
def fringeOf (w x : α) : α := absv (w * frac (x / w))

omit [LinearOrder α] [IsStrictOrderedRing α] [FloorRing α] in
theorem scalar_map {s : Serie α} (h : WF s) (h1 : s.itemSize = 1) (f : α → α) :
    ((items s).map fun v => [f (num v 0)]) = (items s).map (List.map f) := by
  refine List.map_congr_left fun v hv => ?_
  have hl := h.item_length hv
  rw [h1] at hl
  obtain ⟨x, rfl⟩ := List.length_eq_one_iff.1 hl
  rfl

omit [IsStrictOrderedRing α] in
theorem fringes_numbers {s : Serie α} (h : WF s) (h0 : 0 < s.count) (h1 : s.itemSize = 1) (w : α) :
    fringes s w = .ok (onNumbers (fringeOf w) s) := by
  rw [fringes_run h h0 h1]
  unfold onNumbers
  rw [h1, ← scalar_map h h1]
  rfl

theorem fringeOf_eq (w x : α) : fringeOf w x = |w| * Int.fract (x / w) := by
  unfold fringeOf
  rw [absv_eq, frac_eq, abs_mul, abs_of_nonneg (Int.fract_nonneg (x / w))]

theorem fringeOf_congr {w : α} (hw : w ≠ 0) {x y : α} : fringeOf w x = fringeOf w y ↔ ∃ m : ℤ, x - y = m * w := by
  rw [fringeOf_eq, fringeOf_eq, mul_right_inj' (abs_ne_zero.2 hw), Int.fract_eq_fract]
  refine exists_congr fun m => ?_
  rw [← sub_div, div_eq_iff hw]

/-- For a positive spacing a fringe is the number minus a multiple of the spacing. -/
theorem fringeOf_pos {w : α} (hw : 0 < w) (x : α) : fringeOf w x = x - ⌊x / w⌋ * w := by
  rw [fringeOf_eq, abs_of_pos hw, Int.fract, mul_sub, mul_div_cancel₀ _ hw.ne']
  ring

/-! ## C144: fringes of transformed Series -/

/-- The fringes of fringes computed with a spacing `n` times larger are the fringes; in particular (`n = 1`) taking the fringes
twice changes nothing. -/
theorem C144_fringes_coarse {s : Serie α} (h : WF s) (h0 : 0 < s.count) (h1 : s.itemSize = 1) {w : α} (hw : 0 < w) {n : Nat}
    (hn : 0 < n) : (do let x ← fringes s (n * w); fringes x w) = fringes s w := by
  obtain ⟨w1, ⟨k1, n1⟩, _⟩ := onNumbers_facts (f := fringeOf (n * w)) h
  rw [fringes_numbers h h0 h1, Res.ok_bind, fringes_numbers w1 (by rw [n1]; exact h0) (k1.trans h1), fringes_numbers h h0 h1,
    onNumbers_comp h]
  congr 2
  funext x
  have hnw : 0 < (n : α) * w := mul_pos (by exact_mod_cast hn) hw
  rw [fringeOf_congr hw.ne', fringeOf_pos hnw]
  exact ⟨-(⌊x / (n * w)⌋ * n), by push_cast; ring⟩

example := C144_fringes_coarse (s := (⟨[7, -1, 10], 3, 1, 3⟩ : Serie ℚ)) (by decide) (by decide) rfl (w := 4) (by norm_num) (n := 3)
  (by decide)

/-- The fringes of a sum can be computed from the fringes of the terms. -/
theorem C144_fringes_add {s t : Serie α} (hs : WF s) (ht : WF t) (h0 : 0 < s.count) (hc : s.count = t.count) (h1 : s.itemSize = 1)
    (h1' : t.itemSize = 1) {w : α} (hw : 0 < w) :
    (do let x ← fringes s w; let y ← fringes t w; let z ← add2 x y; fringes z w) = (do let z ← add2 s t; fringes z w) := by
  have sh : SameShape s t := ⟨h1.trans h1'.symm, hc⟩
  obtain ⟨w1, ⟨k1, n1⟩, i1⟩ := onNumbers_facts (f := fringeOf w) hs
  obtain ⟨w2, ⟨k2, n2⟩, i2⟩ := onNumbers_facts (f := fringeOf w) ht
  have sh' : SameShape (onNumbers (fringeOf w) s) (onNumbers (fringeOf w) t) := ⟨by rw [k1, k2, h1, h1'], by rw [n1, n2, hc]⟩
  obtain ⟨w3, s3, i3⟩ := WF_pointwise (op := (· + ·)) hs ht sh
  obtain ⟨w4, s4, i4⟩ := WF_pointwise (op := (· + ·)) w1 w2 sh'
  rw [fringes_numbers hs h0 h1, Res.ok_bind, fringes_numbers ht (by omega) h1', Res.ok_bind]
  unfold add2
  rw [binOp_eq w1 w2 sh', binOp_eq hs ht sh, Res.ok_bind, Res.ok_bind, fringes_numbers w4 (by rw [s4.2, n1]; exact h0)
    (by rw [s4.1, k1, h1]), fringes_numbers w3 (by rw [s3.2]; exact h0) (s3.1.trans h1)]
  unfold onNumbers at i1 i2 i4 k1 s4 ⊢
  rw [s4.1, s3.1, i4, i3, i1, i2, k1]
  congr 2
  have hlen : (items s).length = (items t).length := by simpa using hc
  refine List.ext_getElem (by simp) fun i q1 q2 => ?_
  simp only [List.length_zipWith, List.length_map] at q1 q2
  simp only [List.getElem_zipWith, List.getElem_map]
  obtain ⟨x, e⟩ := List.length_eq_one_iff.1 (item_len hs h1 (i := i) (by omega))
  obtain ⟨y, e'⟩ := List.length_eq_one_iff.1 (item_len ht h1' (i := i) (by omega))
  rw [e, e']
  simp only [List.map_cons, List.map_nil, List.zipWith_cons_cons, List.zipWith_nil_left, List.cons.injEq, and_true]
  rw [fringeOf_congr hw.ne', fringeOf_pos hw, fringeOf_pos hw]
  exact ⟨-(⌊x / w⌋ + ⌊y / w⌋), by push_cast; ring⟩

example := C144_fringes_add (s := (⟨[7, -1, 10], 3, 1, 3⟩ : Serie ℚ)) (t := ⟨[1, 2, 1/2], 3, 1, 3⟩) (by decide) (by decide) (by decide)
  rfl rfl rfl (w := 4) (by norm_num)

/-- In another unit: when the numbers and the spacing are multiplied by `k`, the fringes are multiplied by `|k|`. -/
theorem C144_fringes_scale {s : Serie α} (h : WF s) (h0 : 0 < s.count) (h1 : s.itemSize = 1) (w : α) {k : α} (hk : k ≠ 0) :
    (do let x ← scale s k; fringes x (w * k)) = (do let x ← fringes s w; scale x |k|) := by
  obtain ⟨w1, ⟨k1, n1⟩, _⟩ := onNumbers_facts (f := (· * k)) h
  obtain ⟨w2, ⟨k2, n2⟩, _⟩ := onNumbers_facts (f := fringeOf w) h
  rw [C36_scale h h0, Res.ok_bind, fringes_numbers w1 (by rw [n1]; exact h0) (k1.trans h1), fringes_numbers h h0 h1, Res.ok_bind,
    C36_scale w2 (by rw [n2]; exact h0), onNumbers_comp h, onNumbers_comp h]
  congr 2
  funext x
  rw [fringeOf_eq, fringeOf_eq, mul_div_mul_right _ _ hk, abs_mul]
  ring

example := C144_fringes_scale (s := (⟨[7, -1, 10], 3, 1, 3⟩ : Serie ℚ)) (by decide) (by decide) rfl 4 (k := -2) (by norm_num)

/-- The fringe of the opposite of a number is the spacing minus its fringe, except for the multiples of the spacing, whose fringes
are zero. -/
theorem C144_fringes_negate {s : Serie α} (h : WF s) (h0 : 0 < s.count) (h1 : s.itemSize = 1) {w : α} (hw : 0 < w) :
    ∃ r r', fringes s w = .ok r ∧ (do let x ← negate s; fringes x w) = .ok r' ∧ r'.count = r.count ∧
      ItemWise (fun u v => ∃ y, u = [y] ∧ v = [if y = 0 then 0 else w - y]) r r' := by
  obtain ⟨w1, ⟨k1, n1⟩, _⟩ := onNumbers_facts (f := (- ·)) h
  obtain ⟨w2, ⟨k2, n2⟩, i2⟩ := onNumbers_facts (f := fringeOf w) h
  refine ⟨_, _, fringes_numbers h h0 h1 w, bind_ok (C36_negate h h0)
    (fringes_numbers w1 (by rw [n1]; exact h0) (k1.trans h1) w), ?_, ?_⟩
  · rw [onNumbers_count, n1, n2]
  · rw [onNumbers_comp h]
    unfold ItemWise
    rw [i2, (onNumbers_facts h).2.2, List.forall₂_map_left_iff, List.forall₂_map_right_iff, List.forall₂_same]
    intro v hv
    obtain ⟨x, rfl⟩ := List.length_eq_one_iff.1 ((h.item_length hv).trans h1)
    refine ⟨_, rfl, ?_⟩
    rw [List.map_cons, List.map_nil, fringeOf_eq, fringeOf_eq, neg_div, abs_of_pos hw]
    by_cases hz : Int.fract (x / w) = 0
    · rw [if_pos (by rw [hz, mul_zero]), Int.fract_neg_eq_zero.2 hz, mul_zero]
    · rw [if_neg (mul_ne_zero hw.ne' hz), Int.fract_neg hz]
      congr 1
      ring

example := C144_fringes_negate (s := (⟨[7, -1, 8], 3, 1, 3⟩ : Serie ℚ)) (by decide) (by decide) rfl (w := 4) (by norm_num)

/-- Numbers that are already between zero and the spacing are their own fringes, and only those. -/
theorem C144_fringes_unchanged {s : Serie α} (h : WF s) (h0 : 0 < s.count) (h1 : s.itemSize = 1) {w : α} (hw : 0 < w) :
    fringes s w = .ok (ofItems 1 (items s)) ↔ ∀ v ∈ items s, 0 ≤ num v 0 ∧ num v 0 < w := by
  have key : ∀ x : α, fringeOf w x = x ↔ 0 ≤ x ∧ x < w := by
    intro x
    rw [fringeOf_eq, abs_of_pos hw]
    constructor
    · intro e
      refine ⟨e ▸ mul_nonneg hw.le (Int.fract_nonneg _), ?_⟩
      rw [← e]
      calc w * Int.fract (x / w) < w * 1 := mul_lt_mul_of_pos_left (Int.fract_lt_one _) hw
        _ = w := mul_one _
    · rintro ⟨a, b⟩
      rw [Int.fract_eq_self.2 ⟨div_nonneg a hw.le, (div_lt_one hw).2 b⟩, mul_div_cancel₀ _ hw.ne']
  rw [fringes_numbers h h0 h1]
  obtain ⟨_, ⟨_, _⟩, i2⟩ := onNumbers_facts (f := fringeOf w) h
  constructor
  · intro e v hv
    have e' := congrArg items (Res.ok.inj e)
    rw [i2, items_ofItems (fun v hv => (h.item_length hv).trans h1)] at e'
    obtain ⟨x, rfl⟩ := List.length_eq_one_iff.1 ((h.item_length hv).trans h1)
    have := List.map_inj_left.1 (e'.trans (List.map_id _).symm) [x] hv
    exact (key x).1 (by simpa using this)
  · intro hb
    unfold onNumbers
    rw [h1]
    congr 2
    refine (List.map_congr_left fun v hv => ?_).trans (List.map_id _)
    obtain ⟨x, rfl⟩ := List.length_eq_one_iff.1 ((h.item_length hv).trans h1)
    rw [List.map_cons, List.map_nil, (key x).2 (hb _ hv), id]

example := (C144_fringes_unchanged (s := (⟨[1, 3, 0], 3, 1, 3⟩ : Serie ℚ)) (by decide) (by decide) rfl (w := 4) (by norm_num)).2
  (by decide +kernel)

/-! ## C144: special values -/

theorem fringe_nan {x d : Ext α} (h : ¬ ∃ a w, x = .fin a ∧ d = .fin w ∧ w ≠ 0) : absv (d * frac (x / d)) = .nan := by
  have absnan : absv (Ext.nan : Ext α) = .nan := rfl
  have key : frac (x / d) = .nan ∨ (frac (x / d) = .fin 0 ∧ (d = .pinf ∨ d = .ninf)) := by
    have inf : ∀ y : α, frac (Ext.infTimes y) = .nan := by
      intro y
      unfold Ext.infTimes
      split
      · rfl
      · split <;> rfl
    cases d with
    | nan => left; cases x <;> rfl
    | pinf =>
      cases x with
      | fin a =>
        refine .inr ⟨?_, .inl rfl⟩
        show Ext.fin ((0 : α) - ((⌊(0 : α)⌋ : ℤ) : α)) = .fin 0
        simp
      | _ => left; rfl
    | ninf =>
      cases x with
      | fin a =>
        refine .inr ⟨?_, .inr rfl⟩
        show Ext.fin ((0 : α) - ((⌊(0 : α)⌋ : ℤ) : α)) = .fin 0
        simp
      | _ => left; rfl
    | fin w =>
      left
      cases x with
      | fin a =>
        have hw : w = 0 := by
          by_contra hw
          exact h ⟨a, w, rfl, rfl, hw⟩
        subst hw
        show frac (if (0 : α) = 0 then Ext.infTimes a else .fin (a / 0)) = .nan
        rw [if_pos rfl, inf]
      | nan => rfl
      | pinf =>
        show frac (if w < 0 then Ext.ninf else .pinf) = .nan
        split <;> rfl
      | ninf =>
        show frac (if w < 0 then Ext.pinf else .ninf) = .nan
        split <;> rfl
  have zero : ∀ e : Ext α, e = .pinf ∨ e = .ninf → e * .fin 0 = .nan := by
    rintro e (rfl | rfl)
    · show Ext.infTimes (0 : α) = .nan
      simp [Ext.infTimes]
    · show Ext.ninfTimes (0 : α) = .nan
      simp [Ext.ninfTimes]
  rcases key with e | ⟨e, hd⟩
  · rw [e, show d * Ext.nan = .nan by cases d <;> rfl, absnan]
  · rw [e, zero d hd, absnan]

/-- With special values: a number and a spacing that are finite give a finite fringe, provided that the spacing is not zero; in all
the other cases (infinite or undefined number, infinite, undefined or zero spacing) the fringe is NaN. -/
theorem C144_fringes_special {s : Serie (Ext α)} (h : WF s) (h0 : 0 < s.count) (h1 : s.itemSize = 1) (d : Ext α) :
    ∃ r, fringes s d = .ok r ∧ WF r ∧ SameShape r s ∧ ItemWise (fun u v => ∃ x, u = [x] ∧
      (∀ a w, x = .fin a → d = .fin w → w ≠ 0 → ∃ y, v = [.fin y] ∧ 0 ≤ y ∧ y < |w| ∧
        ∃ m : ℤ, (0 < w → a = y + m * w) ∧ (w < 0 → a = -y + m * w)) ∧
      ((¬ ∃ a w, x = .fin a ∧ d = .fin w ∧ w ≠ 0) → v = [.nan])) s r := by
  have hf := ofItems_map_facts h (k := 1) (g := fun v => [absv (d * frac (num v 0 / d))]) (by omega) (by omega)
    (fun _ _ => rfl)
  refine ⟨_, fringes_run h h0 h1 d, hf.1, ⟨hf.2.1.trans h1.symm, hf.2.2.1⟩, ItemWise_map hf.2.2.2 fun v hv => ?_⟩
  have hl := h.item_length hv
  rw [h1] at hl
  obtain ⟨x, rfl⟩ := List.length_eq_one_iff.1 hl
  refine ⟨x, rfl, ?_, fun hn => congrArg (fun y => [y]) (fringe_nan hn)⟩
  rintro a w rfl rfl hw
  obtain ⟨r, hr, _, _, it⟩ := C61_fringes (s := (⟨[a], 1, 1, 3⟩ : Serie α)) ⟨by simp, by simp, by simp, by simp⟩ Nat.one_pos rfl hw
  rw [fringes_run ⟨by simp, by simp, by simp, by simp⟩ Nat.one_pos rfl] at hr
  obtain rfl := Res.ok.inj hr
  have hi : items (⟨[a], 1, 1, 3⟩ : Serie α) = [[a]] := rfl
  unfold ItemWise at it
  rw [hi, items_ofItems (by simp)] at it
  cases it with
  | cons hab _ =>
    obtain ⟨x, y, e1, e2, p⟩ := hab
    obtain rfl : a = x := by simpa using e1
    refine ⟨y, ?_, p⟩
    have e2' : absv (w * frac (a / w)) = y := by simpa [num] using e2
    rw [← e2']
    have e3 : (Ext.fin a / Ext.fin w : Ext α) = .fin (a / w) := by
      show (if w = 0 then Ext.infTimes a else .fin (a / w)) = _
      rw [if_neg hw]
    show [absv (Ext.fin w * frac (Ext.fin a / Ext.fin w))] = _
    rw [e3]
    show [absv (Ext.fin (w * frac (a / w)))] = _
    unfold absv
    show [if w * frac (a / w) < 0 then Ext.fin (-(w * frac (a / w))) else Ext.fin (w * frac (a / w))] = _
    split <;> rfl

/-- A finite number, an infinity and a NaN, with a spacing of 4 and with a spacing of zero. -/
example (d : Ext ℚ) := C144_fringes_special (s := (⟨[.fin 7, .pinf, .nan], 3, 1, 3⟩ : Serie (Ext ℚ))) ⟨by decide, by decide, by decide, by decide⟩
  (by decide) rfl d

end fringes

end DF
