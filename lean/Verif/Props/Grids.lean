import Verif.Props.Geo
import Verif.Props.Motion
import Verif.Props.Stats

/-!
# Properties of grids: C143

`axisCount npts a` is the number of points along axis `a`; `num v a` is coordinate `a` of the point `v`.
-/

namespace DF

open Spec

variable {α : Type}

/-! ## the list of the points -/

theorem gridList_map {n0 n1 n2 : Nat} (pt : Nat → Nat → Nat → List α) (f : List α → List α) :
    (gridList n0 n1 n2 pt).map f = gridList n0 n1 n2 fun i j k => f (pt i j k) := by
  unfold gridList
  simp only [List.map_flatMap, List.map_map]
  rfl

theorem gridList_congr {n0 n1 n2 : Nat} {pt pt' : Nat → Nat → Nat → List α}
    (h : ∀ i j k, i < n0 → j < n1 → k < n2 → pt i j k = pt' i j k) : gridList n0 n1 n2 pt = gridList n0 n1 n2 pt' := by
  unfold gridList
  have fm : ∀ (l : List Nat) (f g : Nat → List (List α)), (∀ x ∈ l, f x = g x) → l.flatMap f = l.flatMap g := by
    intro l f g e
    rw [List.flatMap, List.flatMap, List.map_congr_left e]
  refine fm _ _ _ fun k hk => fm _ _ _ fun j hj => List.map_congr_left fun i hi => ?_
  exact h i j k (List.mem_range.1 hi) (List.mem_range.1 hj) (List.mem_range.1 hk)

theorem mem_gridList {n0 n1 n2 : Nat} (pt : Nat → Nat → Nat → List α) {i j k : Nat} (hi : i < n0) (hj : j < n1) (hk : k < n2) :
    pt i j k ∈ gridList n0 n1 n2 pt := by
  unfold gridList
  simp only [List.mem_flatMap, List.mem_map, List.mem_range]
  exact ⟨k, hk, j, hj, i, hi, rfl⟩

theorem range_reverse (n : Nat) : (List.range n).reverse = (List.range n).map fun i => n - 1 - i := by
  rw [List.range_eq_range', List.reverse_range', List.range_eq_range', Nat.zero_add]

theorem gridList_reverse {n0 n1 n2 : Nat} (pt : Nat → Nat → Nat → List α) :
    (gridList n0 n1 n2 pt).reverse = gridList n0 n1 n2 fun i j k => pt (n0 - 1 - i) (n1 - 1 - j) (n2 - 1 - k) := by
  unfold gridList
  rw [List.reverse_flatMap, range_reverse, List.flatMap_map]
  congr 1
  funext k
  rw [Function.comp_apply, List.reverse_flatMap, range_reverse, List.flatMap_map]
  congr 1
  funext j
  rw [Function.comp_apply, ← List.map_reverse, range_reverse, List.map_map]
  rfl

theorem gridList_nodup {n0 n1 n2 : Nat} {pt : Nat → Nat → Nat → List α}
    (h : ∀ i j k i' j' k', i < n0 → j < n1 → k < n2 → i' < n0 → j' < n1 → k' < n2 → pt i j k = pt i' j' k' →
      i = i' ∧ j = j' ∧ k = k') : (gridList n0 n1 n2 pt).Nodup := by
  unfold gridList
  rw [List.nodup_flatMap]
  refine ⟨fun k hk => ?_, ?_⟩
  · rw [List.nodup_flatMap]
    refine ⟨fun j hj => ?_, ?_⟩
    · refine List.Nodup.map_on (fun i hi i' hi' e => ?_) List.nodup_range
      exact (h _ _ _ _ _ _ (List.mem_range.1 hi) (List.mem_range.1 hj) (List.mem_range.1 hk) (List.mem_range.1 hi')
        (List.mem_range.1 hj) (List.mem_range.1 hk) e).1
    · refine (List.nodup_range (n := n1)).imp_of_mem fun {j j'} hj hj' hne => ?_
      intro x hx hx'
      simp only [List.mem_map, List.mem_range] at hx hx'
      obtain ⟨i, hi, rfl⟩ := hx
      obtain ⟨i', hi', e⟩ := hx'
      exact hne (h _ _ _ _ _ _ hi' (List.mem_range.1 hj') (List.mem_range.1 hk) hi (List.mem_range.1 hj) (List.mem_range.1 hk) e).2.1.symm
  · refine (List.nodup_range (n := n2)).imp_of_mem fun {k k'} hk hk' hne => ?_
    intro x hx hx'
    simp only [List.mem_flatMap, List.mem_map, List.mem_range] at hx hx'
    obtain ⟨j, hj, i, hi, rfl⟩ := hx
    obtain ⟨j', hj', i', hi', e⟩ := hx'
    exact hne (h _ _ _ _ _ _ hi' hj' (List.mem_range.1 hk') hi hj (List.mem_range.1 hk) e).2.2.symm

section grids

variable [Field α]

theorem cornerGrid_axis (npts : List Nat) (p1 p2 : List α) : cornerGrid npts p1 p2 =
    gridList (axisCount npts 0) (axisCount npts 1) (axisCount npts 2) fun i j k =>
      [axisPoint (axisCount npts 0) (num p1 0) (num p2 0) i, axisPoint (axisCount npts 1) (num p1 1) (num p2 1) j,
        axisPoint (axisCount npts 2) (num p1 2) (num p2 2) k] := by
  unfold cornerGrid
  refine gridList_congr fun i j k hi hj hk => ?_
  rw [axisPoint_eq hi, axisPoint_eq hj, axisPoint_eq hk]

theorem fromPoints_items {npts : List Nat} (h0 : npts ≠ []) (h3 : npts.length ≤ 3) {p1 p2 : List α} (h1 : p1.length = 3)
    (h2 : p2.length = 3) (hn : npts.prod * 3 < 2 ^ 32) :
    ∃ r, fromPoints npts p1 p2 = .ok r ∧ WF r ∧ r.itemSize = 3 ∧ r.count = npts.prod ∧ items r = cornerGrid npts p1 p2 := by
  have hl : (cornerGrid npts p1 p2).length = npts.prod := by
    unfold cornerGrid
    rw [(gridList_facts ..).1, (three_counts h0 h3).2]
  exact ⟨_, fromPoints_run h0 h3 h1 h2 hn, WF_ofItems (by omega) (by omega) (fun v hv => cornerGrid_three hv)
    (by rw [hl]; exact hn), rfl, hl, items_ofItems fun v hv => cornerGrid_three hv⟩

/-! ## C143 -/

/-- Moving the two corners, by a factor and an offset along each axis, moves all the points of the grid in the same way. -/
theorem C143_affine {npts : List Nat} (h0 : npts ≠ []) (h3 : npts.length ≤ 3) {p1 p2 : List α} (h1 : p1.length = 3)
    (h2 : p2.length = 3) (hn : npts.prod * 3 < 2 ^ 32) (s t : Nat → α) :
    ∃ r r', fromPoints npts p1 p2 = .ok r ∧
      fromPoints npts (p1.mapIdx fun a x => s a * x + t a) (p2.mapIdx fun a x => s a * x + t a) = .ok r' ∧
      items r' = (items r).map fun v => v.mapIdx fun a x => s a * x + t a := by
  obtain ⟨r, hr, _, _, _, hi⟩ := fromPoints_items h0 h3 h1 h2 hn
  obtain ⟨r', hr', _, _, _, hi'⟩ := fromPoints_items h0 h3 (p1 := p1.mapIdx fun a x => s a * x + t a)
    (p2 := p2.mapIdx fun a x => s a * x + t a) (by simpa using h1) (by simpa using h2) hn
  refine ⟨r, r', hr, hr', ?_⟩
  obtain ⟨a, b, c, rfl⟩ := len3 h1
  obtain ⟨a', b', c', rfl⟩ := len3 h2
  have e : ∀ (n i : Nat) (x y s t : α), axisPoint n (s * x + t) (s * y + t) i = s * axisPoint n x y i + t := by
    intro n i x y s t
    unfold axisPoint
    ring
  rw [hi, hi', cornerGrid_axis, cornerGrid_axis, gridList_map]
  refine gridList_congr fun i j k _ _ _ => ?_
  simp [num, e]

/-- A translation and a doubling. -/
example := C143_affine (npts := [3, 2]) (by decide) (by decide) (p1 := ([0, 0, 5] : List ℚ)) (p2 := [1, 4, 7]) rfl rfl (by decide)
  (fun _ => 2) (fun a => (a : ℚ))

theorem axisPoint_swap [CharZero α] {n i : Nat} (hi : i < n) {lo hi' : α} (h : 2 ≤ n ∨ lo = hi') :
    axisPoint n hi' lo i = axisPoint n lo hi' (n - 1 - i) := by
  unfold axisPoint
  rcases h with h | rfl
  · have hne : (n : α) - 1 ≠ 0 := by
      rw [sub_ne_zero]; exact_mod_cast (by omega : n ≠ 1)
    rw [Nat.cast_sub (by omega), Nat.cast_sub (by omega), Nat.cast_one]
    field_simp
    ring
  · simp

/-- Exchanging the two corners reverses the order of the points, provided that the corners agree along the axes with one point. -/
theorem C143_reversed [CharZero α] {npts : List Nat} (h0 : npts ≠ []) (h3 : npts.length ≤ 3) {p1 p2 : List α} (h1 : p1.length = 3)
    (h2 : p2.length = 3) (hn : npts.prod * 3 < 2 ^ 32) (hax : ∀ a < 3, 2 ≤ axisCount npts a ∨ num p1 a = num p2 a) :
    ∃ r r', fromPoints npts p1 p2 = .ok r ∧ fromPoints npts p2 p1 = .ok r' ∧ items r' = (items r).reverse := by
  obtain ⟨r, hr, _, _, _, hi⟩ := fromPoints_items h0 h3 h1 h2 hn
  obtain ⟨r', hr', _, _, _, hi'⟩ := fromPoints_items h0 h3 h2 h1 hn
  refine ⟨r, r', hr, hr', ?_⟩
  rw [hi, hi', cornerGrid_axis, cornerGrid_axis, gridList_reverse]
  refine gridList_congr fun i j k hi hj hk => ?_
  rw [axisPoint_swap hi (hax 0 (by omega)), axisPoint_swap hj (hax 1 (by omega)), axisPoint_swap hk (hax 2 (by omega))]

example := C143_reversed (npts := [3, 2]) (by decide) (by decide) (p1 := ([0, 0, 5] : List ℚ)) (p2 := [1, 4, 5]) rfl rfl (by decide)
  (by decide +kernel)

/-- The points of a grid are points of the grid with the same corners whose steps are `m a` times smaller along axis `a`. -/
theorem C143_refined [CharZero α] {npts npts' : List Nat} (h0 : npts ≠ []) (h3 : npts.length ≤ 3) (h0' : npts' ≠ [])
    (h3' : npts'.length ≤ 3) {p1 p2 : List α} (h1 : p1.length = 3) (h2 : p2.length = 3) (hn : npts.prod * 3 < 2 ^ 32)
    (hn' : npts'.prod * 3 < 2 ^ 32) {m : Nat → Nat} (hm : ∀ a, 0 < m a)
    (hc : ∀ a < 3, axisCount npts' a = (axisCount npts a - 1) * m a + 1) :
    ∃ r r', fromPoints npts p1 p2 = .ok r ∧ fromPoints npts' p1 p2 = .ok r' ∧ ∀ v ∈ items r, v ∈ items r' := by
  obtain ⟨r, hr, _, _, _, hi⟩ := fromPoints_items h0 h3 h1 h2 hn
  obtain ⟨r', hr', _, _, _, hi'⟩ := fromPoints_items h0' h3' h1 h2 hn'
  refine ⟨r, r', hr, hr', fun v hv => ?_⟩
  rw [hi, cornerGrid_axis] at hv
  rw [hi', cornerGrid_axis]
  obtain ⟨i, j, k, hi, hj, hk, rfl⟩ := gridList_mem hv
  have e : ∀ (n i m : Nat) (lo up : α), 0 < m → i < n →
      axisPoint n lo up i = axisPoint ((n - 1) * m + 1) lo up (i * m) ∧ i * m < (n - 1) * m + 1 := by
    intro n i m lo up hm hi
    have hmz : (m : α) ≠ 0 := by exact_mod_cast (by omega : m ≠ 0)
    refine ⟨?_, Nat.lt_succ_of_le (Nat.mul_le_mul_right _ (by omega))⟩
    unfold axisPoint
    push_cast
    rw [Nat.cast_sub (by omega), Nat.cast_one, add_sub_cancel_right, mul_div_mul_right _ _ hmz]
  obtain ⟨e0, l0⟩ := e _ _ (m 0) (num p1 0) (num p2 0) (hm 0) hi
  obtain ⟨e1, l1⟩ := e _ _ (m 1) (num p1 1) (num p2 1) (hm 1) hj
  obtain ⟨e2, l2⟩ := e _ _ (m 2) (num p1 2) (num p2 2) (hm 2) hk
  rw [e0, e1, e2, ← hc 0 (by omega), ← hc 1 (by omega), ← hc 2 (by omega)]
  exact mem_gridList _ (by rw [hc 0 (by omega)]; exact l0) (by rw [hc 1 (by omega)]; exact l1) (by rw [hc 2 (by omega)]; exact l2)

/-- A grid of 3 by 2 points in a grid of 5 by 4 points. -/
example := C143_refined (npts := [3, 2]) (npts' := [5, 4]) (by decide) (by decide) (by decide) (by decide)
  (p1 := ([0, 0, 5] : List ℚ)) (p2 := [1, 4, 7]) rfl rfl (by decide) (by decide) (m := fun a => if a = 0 then 2 else 3)
  (fun a => by split <;> omega) (by decide +kernel)

/-- The points of a grid are all different when the corners differ along each axis with several points. -/
theorem C143_distinct [CharZero α] {npts : List Nat} (h0 : npts ≠ []) (h3 : npts.length ≤ 3) {p1 p2 : List α} (h1 : p1.length = 3)
    (h2 : p2.length = 3) (hn : npts.prod * 3 < 2 ^ 32) (hax : ∀ a < 3, 2 ≤ axisCount npts a → num p1 a ≠ num p2 a) :
    ∃ r, fromPoints npts p1 p2 = .ok r ∧ (items r).Nodup := by
  obtain ⟨r, hr, _, _, _, hi⟩ := fromPoints_items h0 h3 h1 h2 hn
  refine ⟨r, hr, ?_⟩
  rw [hi, cornerGrid_axis]
  have e : ∀ (n i i' : Nat) (lo up : α), i < n → i' < n → (2 ≤ n → lo ≠ up) →
      axisPoint n lo up i = axisPoint n lo up i' → i = i' := by
    intro n i i' lo up hi hi' hne h
    by_cases h2 : 2 ≤ n
    · have hd : up - lo ≠ 0 := sub_ne_zero.2 (hne h2).symm
      have hz : (n : α) - 1 ≠ 0 := by
        rw [sub_ne_zero]; exact_mod_cast (by omega : n ≠ 1)
      unfold axisPoint at h
      have := mul_left_cancel₀ hd (add_left_cancel h)
      rw [div_left_inj' hz] at this
      exact_mod_cast this
    · omega
  refine gridList_nodup fun i j k i' j' k' hi hj hk hi' hj' hk' h => ?_
  simp only [List.cons.injEq, and_true] at h
  exact ⟨e _ _ _ _ _ hi hi' (hax 0 (by omega)) h.1, e _ _ _ _ _ hj hj' (hax 1 (by omega)) h.2.1,
    e _ _ _ _ _ hk hk' (hax 2 (by omega)) h.2.2⟩

example := C143_distinct (npts := [3, 2]) (by decide) (by decide) (p1 := ([0, 0, 5] : List ℚ)) (p2 := [1, 4, 5]) rfl rfl (by decide)
  (by decide +kernel)

theorem component_of_items {s : Serie α} {j : Nat} (h : ∀ v ∈ items s, j < v.length) : component s j = (items s).map (num · j) := by
  unfold component
  generalize items s = l at h
  induction l with
  | nil => rfl
  | cons v l ih =>
    have hv := h v (by simp)
    rw [List.filterMap_cons, List.getElem?_eq_getElem hv, List.map_cons, ih fun v hv => h v (by simp [hv])]
    simp only [num, List.getElem?_eq_getElem hv, Option.getD_some]

/-- The mean of the points of a grid is the middle of the two corners, provided that the corners agree along the axes with one
point. -/
theorem C143_mean [CharZero α] {npts : List Nat} (h0 : npts ≠ []) (h3 : npts.length ≤ 3) {p1 p2 : List α} (h1 : p1.length = 3)
    (h2 : p2.length = 3) (hn : npts.prod * 3 < 2 ^ 32) (hp : 0 < npts.prod)
    (hax : ∀ a < 3, 2 ≤ axisCount npts a ∨ num p1 a = num p2 a) :
    ∃ r m, fromPoints npts p1 p2 = .ok r ∧ mean r = .ok m ∧ ∀ a < 3, tupleAt m a = some ((num p1 a + num p2 a) / 2) := by
  obtain ⟨r, hr, hw, hk, hcount, hi⟩ := fromPoints_items h0 h3 h1 h2 hn
  obtain ⟨r1, r', hr1, hr', hrev⟩ := C143_reversed h0 h3 h1 h2 hn hax
  obtain rfl : r = r1 := by rw [hr] at hr1; exact Res.ok.inj hr1
  obtain ⟨m, hm, hma⟩ := mean_at hw
  refine ⟨r, m, hr, hm, fun a ha => ?_⟩
  rw [hma a (by omega)]
  have hl : ∀ v ∈ items r, a < v.length := fun v hv => by
    rw [hw.item_length hv]; omega
  rw [component_of_items hl, average, List.length_map, items_length, hcount]
  have hz : (npts.prod : α) ≠ 0 := by exact_mod_cast (by omega : npts.prod ≠ 0)
  obtain ⟨r2, hr2, _, _, _, hi'⟩ := fromPoints_items h0 h3 h2 h1 hn
  obtain rfl : r' = r2 := by rw [hr'] at hr2; exact Res.ok.inj hr2
  have hsum : ((items r').map (num · a)).sum = ((items r).map (num · a)).sum := by
    rw [hrev, List.map_reverse, List.sum_reverse]
  have hadd : ((items r).map (num · a)).sum + ((items r').map (num · a)).sum = (npts.prod : α) * (num p1 a + num p2 a) := by
    have hlen : ∀ p q : List α, (cornerGrid npts p q).length = npts.prod := fun p q => by
      unfold cornerGrid
      rw [(gridList_facts ..).1, (three_counts h0 h3).2]
    have : (items r').map (num · a) = ((items r).map (num · a)).map fun x => (num p1 a + num p2 a) - x := by
      rw [hi, hi', cornerGrid_axis, cornerGrid_axis, List.map_map]
      have ez : ∀ (n i : Nat) (x y : α), axisPoint n y x i = (x + y) - axisPoint n x y i := fun n i x y => by
        unfold axisPoint
        ring
      have : ∀ (g : List α → α) (pt : Nat → Nat → Nat → List α) (n0 n1 n2 : Nat), (gridList n0 n1 n2 pt).map g =
          ((gridList n0 n1 n2 fun i j k => [g (pt i j k)]).map fun v => num v 0) := by
        intro g pt n0 n1 n2
        unfold gridList
        simp only [List.map_flatMap, List.map_map]
        rfl
      rw [this (num · a), this ((fun x => num p1 a + num p2 a - x) ∘ (num · a))]
      refine congrArg (List.map fun v => num v 0) (gridList_congr fun i j k _ _ _ => ?_)
      match a, ha with
      | 0, _ => exact congrArg (fun x => [x]) (ez ..)
      | 1, _ => exact congrArg (fun x => [x]) (ez ..)
      | 2, _ => exact congrArg (fun x => [x]) (ez ..)
    rw [this]
    have gen : ∀ (c : α) (l : List α), l.sum + (l.map fun x => c - x).sum = (l.length : α) * c := by
      intro c l
      induction l with
      | nil => simp
      | cons x l ih =>
        rw [List.sum_cons, List.map_cons, List.sum_cons, List.length_cons]
        push_cast
        linear_combination ih
    rw [gen, List.length_map, items_length, hcount]
  rw [hsum] at hadd
  congr 1
  rw [div_eq_div_iff hz two_ne_zero]
  linear_combination hadd

example := C143_mean (npts := [3, 2]) (by decide) (by decide) (p1 := ([0, 0, 5] : List ℚ)) (p2 := [1, 4, 5]) rfl rfl (by decide)
  (by decide) (by decide +kernel)

/-- With several points along each axis (or corners that agree along it), the bounds of the grid are its two corners. -/
theorem C143_bounds [LinearOrder α] [IsStrictOrderedRing α] [Limits α] {npts : List Nat} (h0 : npts ≠ []) (h3 : npts.length ≤ 3)
    {p1 p2 : List α} (h1 : p1.length = 3) (h2 : p2.length = 3) (hn : npts.prod * 3 < 2 ^ 32) (hp : 0 < npts.prod)
    (hax : ∀ a < 3, 2 ≤ axisCount npts a ∨ num p1 a = num p2 a) (hbox : ∀ a < 3, num p1 a ≤ num p2 a) :
    ∃ r, fromPoints npts p1 p2 = .ok r ∧ minMax r = .ok (p1, p2) := by
  obtain ⟨r, hr, hw, hk, hcount, hi⟩ := fromPoints_items h0 h3 h1 h2 hn
  obtain ⟨r1, hr1, hin⟩ := C62_inside h0 h3 h1 h2 hn hbox
  obtain rfl : r = r1 := by rw [hr] at hr1; exact Res.ok.inj hr1
  refine ⟨r, hr, ?_⟩
  obtain ⟨mn, mx, hm, l1, l2, hb⟩ := minMax_items hw (by omega) (by omega)
  rw [hm]
  have hcpos : ∀ a < 3, 0 < axisCount npts a := by
    have := (three_counts h0 h3).2
    rw [this] at hp
    have q := Nat.pos_of_mul_pos_right hp
    have q2 := Nat.pos_of_mul_pos_left hp
    have q0 := Nat.pos_of_mul_pos_right q
    have q1 := Nat.pos_of_mul_pos_left q
    intro a ha
    match a, ha with
    | 0, _ => assumption
    | 1, _ => assumption
    | 2, _ => assumption
  have corner : ∀ pt : Nat → Nat → Nat → List α, pt 0 0 0 ∈ gridList (axisCount npts 0) (axisCount npts 1) (axisCount npts 2) pt ∧
      pt (axisCount npts 0 - 1) (axisCount npts 1 - 1) (axisCount npts 2 - 1) ∈
        gridList (axisCount npts 0) (axisCount npts 1) (axisCount npts 2) pt := fun pt => by
    have := hcpos 0 (by omega)
    have := hcpos 1 (by omega)
    have := hcpos 2 (by omega)
    exact ⟨mem_gridList pt (by omega) (by omega) (by omega), mem_gridList pt (by omega) (by omega) (by omega)⟩
  have first : ∀ (n : Nat) (lo up : α), axisPoint n lo up 0 = lo := fun n lo up => by simp [axisPoint]
  have last : ∀ a < 3, axisPoint (axisCount npts a) (num p1 a) (num p2 a) (axisCount npts a - 1) = num p2 a := by
    intro a ha
    rcases hax a ha with h | h
    · have := axisPoint_swap (i := 0) (lo := num p1 a) (hi' := num p2 a) (hcpos a ha) (.inl h)
      rw [Nat.sub_zero, first] at this
      exact this.symm
    · rw [h]; simp [axisPoint]
  have mem : p1 ∈ items r ∧ p2 ∈ items r := by
    rw [hi, cornerGrid_axis]
    obtain ⟨c1, c2⟩ := corner fun i j k => [axisPoint (axisCount npts 0) (num p1 0) (num p2 0) i,
      axisPoint (axisCount npts 1) (num p1 1) (num p2 1) j, axisPoint (axisCount npts 2) (num p1 2) (num p2 2) k]
    simp only [first] at c1
    rw [last 0 (by omega), last 1 (by omega), last 2 (by omega)] at c2
    obtain ⟨a, b, c, rfl⟩ := len3 h1
    obtain ⟨a', b', c', rfl⟩ := len3 h2
    exact ⟨c1, c2⟩
  have key : ∀ a < 3, mn[a]? = some (num p1 a) ∧ mx[a]? = some (num p2 a) := by
    intro a ha
    obtain ⟨x, y, hx, hy, hl, hg⟩ := hb a (by omega)
    have hlen : ∀ v ∈ items r, a < v.length := fun v hv => by
      rw [hw.item_length hv]; omega
    rw [component_of_items hlen] at hl hg
    obtain ⟨⟨u, hu, eu⟩, hl'⟩ : (∃ u ∈ items r, num u a = x) ∧ _ := ⟨List.mem_map.1 hl.1, hl.2⟩
    obtain ⟨w, hw', ew⟩ := List.mem_map.1 hg.1
    refine ⟨hx.trans (congrArg some (le_antisymm ?_ ?_)), hy.trans (congrArg some (le_antisymm ?_ ?_))⟩
    · exact hl.2 _ (List.mem_map.2 ⟨p1, mem.1, rfl⟩)
    · rw [← eu]; exact (hin u hu a ha).1
    · rw [← ew]; exact (hin w hw' a ha).2
    · exact hg.2 _ (List.mem_map.2 ⟨p2, mem.2, rfl⟩)
  have ext3 : ∀ l p : List α, l.length = 3 → p.length = 3 → (∀ a < 3, l[a]? = some (num p a)) → l = p := by
    intro l p hl hp h
    obtain ⟨a, b, c, rfl⟩ := len3 hl
    obtain ⟨a', b', c', rfl⟩ := len3 hp
    have e0 := h 0 (by omega)
    have e1 := h 1 (by omega)
    have e2 := h 2 (by omega)
    simp [num] at e0 e1 e2
    rw [e0, e1, e2]
  rw [ext3 mn p1 (by omega) h1 fun a ha => (key a ha).1, ext3 mx p2 (by omega) h2 fun a ha => (key a ha).2]

local instance gridLimits : Limits ℚ := ⟨1000, -1000⟩

example := C143_bounds (npts := [3, 2]) (by decide) (by decide) (p1 := ([0, 0, 5] : List ℚ)) (p2 := [1, 4, 5]) rfl rfl (by decide)
  (by decide) (by decide +kernel) (by decide +kernel)

end grids

end DF
