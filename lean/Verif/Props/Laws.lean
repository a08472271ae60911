import Verif.Props.Parallel
import Verif.Props.Utils
import Verif.Lemmas.Stats

/-!
# Rearranging pipelines (C106)

`x >>= f` is `pipe(x, f)` (see C20). The callbacks are pure and do not look at the index unless stated otherwise.
-/

namespace DF

open Spec

variable {α σ : Type}

/-! ## Pure callbacks that ignore the index -/

theorem zipIdx_map_free {γ δ : Type} (g : γ → δ) (l : List γ) (lo : Nat) : (l.zipIdx lo).map (fun p => g p.1) = l.map g := by
  rw [show (fun p : γ × Nat => g p.1) = g ∘ Prod.fst from rfl, ← List.map_map, List.zipIdx_map_fst]

theorem filterS_free [Zero α] {s : Serie α} (h : WF s) (p : α → Bool) :
    filterS (σ := σ) (pureCb fun x _ => p x) s = pure (ofScalars ((scalars s).filter p)) := by
  rw [filterS_eq h, callAll_pureCb, pure_bind, zipIdx_map_free p, keep_map_filter]

theorem filterV_free [Zero α] {s : Serie α} (h : WF s) (p : List α → Bool) :
    filterV (σ := σ) (pureCb fun v _ => p v) s = pure (ofItems s.itemSize ((items s).filter p)) := by
  rw [filterV_eq h, callAll_pureCb, pure_bind, zipIdx_map_free p, keep_map_filter]

theorem mapSS_free {s : Serie α} (h : WF s) (g : α → α) :
    mapSS (σ := σ) (pureCb fun x _ => g x) s = pure (ofScalars ((scalars s).map g)) := by
  rw [mapSS_eq h, callAll_pureCb, pure_bind, zipIdx_map_free g]

theorem mapVV_free [Zero α] {s : Serie α} (h : WF s) (h0 : 0 < s.count) {k : Nat} (hk : 0 < k) (hk' : k < 2 ^ 31)
    {g : List α → List α} (hg : ∀ v ∈ items s, (g v).length = k) :
    mapVV (σ := σ) (pureCb fun v _ => g v) s = pure (ofItems k ((items s).map g)) := by
  rw [mapVV_eq h, sizedMap_pure (f := fun v _ => g v) (by rw [← List.length_pos_iff, items_length]; exact h0) hk hk'
    (fun v hv _ => hg v hv) (by rw [items_length]; exact h.count_lt), List.mapIdx_eq_zipIdx_map, zipIdx_map_free g]

theorem WF_filterS {s : Serie α} (h : WF s) (p : α → Bool) : WF (ofScalars ((scalars s).filter p)) :=
  WF_ofScalars (Nat.lt_of_le_of_lt (List.length_filter_le _ _) (by rw [h.scalars_length]; exact h.count_lt))

theorem filter_item_length {s : Serie α} (h : WF s) (p : List α → Bool) : ∀ v ∈ (items s).filter p, v.length = s.itemSize :=
  fun _ hv => h.item_length (List.mem_filter.1 hv).1

theorem WF_filterV {s : Serie α} (h : WF s) (p : List α → Bool) : WF (ofItems s.itemSize ((items s).filter p)) :=
  WF_ofItems h.pos h.int (filter_item_length h p)
    (Nat.lt_of_le_of_lt (Nat.mul_le_mul_right _ ((List.length_filter_le _ _).trans (items_length s).le))
      (Nat.lt_of_le_of_lt h.fits h.small))

/-! ## C106 -/

/-- C106: filtering twice is filtering once by both predicates (numbers). -/
theorem C106_filter_filter_numbers [Zero α] {s : Serie α} (h : WF s) (p q : α → Bool) :
    (filterS (σ := σ) (pureCb fun x _ => p x) s >>= filterS (pureCb fun x _ => q x)) =
      filterS (pureCb fun x _ => p x && q x) s := by
  rw [filterS_free h, pure_bind, filterS_free (WF_filterS h p), filterS_free h, scalars_ofScalars, List.filter_filter]
  simp only [Bool.and_comm]

example := C106_filter_filter_numbers (σ := Unit) ex41_WF (fun x => decide (5 < x)) (fun x => decide (x < 11))

/-- C106: filtering twice is filtering once by both predicates (arrays). -/
theorem C106_filter_filter_arrays [Zero α] {s : Serie α} (h : WF s) (p q : List α → Bool) :
    (filterV (σ := σ) (pureCb fun v _ => p v) s >>= filterV (pureCb fun v _ => q v)) =
      filterV (pureCb fun v _ => p v && q v) s := by
  rw [filterV_free h, pure_bind, filterV_free (WF_filterV h p), filterV_free h, items_ofItems (filter_item_length h p),
    List.filter_filter]
  simp only [Bool.and_comm]
  rfl

example := C106_filter_filter_arrays (σ := Unit) ex23_WF (fun v => decide (v.sum < 10)) (fun v => decide (1 < v.length))

/-- C106: with predicates that look at the index this fails, the second `filter` sees the indices of the filtered Serie. -/
theorem C106_filter_index_violated : ¬ ∀ (s : Serie Int) (p q : Int → Nat → Bool), WF s →
    (filterS (σ := Unit) (pureCb p) s >>= filterS (pureCb q)) = filterS (pureCb fun x i => p x i && q x i) s := by
  intro h
  have := congrFun (h ex41 (fun _ i => i == 1) (fun _ i => i == 1) ex41_WF) ()
  revert this
  decide

/-- C106: `filter` after `map` is `map` after `filter` (numbers). -/
theorem C106_filter_map_numbers [Zero α] {s : Serie α} (h : WF s) (g : α → α) (p : α → Bool) :
    (mapSS (σ := σ) (pureCb fun x _ => g x) s >>= filterS (pureCb fun x _ => p x)) =
      (filterS (pureCb fun x _ => p (g x)) s >>= mapSS (pureCb fun x _ => g x)) := by
  have hw : WF (ofScalars ((scalars s).map g)) :=
    WF_ofScalars (by rw [List.length_map, h.scalars_length]; exact h.count_lt)
  rw [mapSS_free h, pure_bind, filterS_free hw, filterS_free h, pure_bind, mapSS_free (WF_filterS h _), scalars_ofScalars,
    scalars_ofScalars, List.filter_map]
  rfl

example := C106_filter_map_numbers (σ := Unit) ex41_WF (fun x => x * 2) (fun x => decide (x < 20))

theorem WF_mapV {s : Serie α} {k : Nat} (hk : 0 < k) (hk' : k < 2 ^ 31) (hfit : s.count * k < 2 ^ 32) {g : List α → List α}
    (hg : ∀ v, (g v).length = k) : WF (ofItems k ((items s).map g)) :=
  WF_ofItems hk hk' (by intro v hv; obtain ⟨w, _, rfl⟩ := List.mem_map.1 hv; exact hg w)
    (by rw [List.length_map, items_length]; exact hfit)

/-- C106: `filter` after `map` on arrays, and what `map` after `filter` gives. -/
theorem filter_map_arrays [Zero α] {s : Serie α} (h : WF s) (h0 : 0 < s.count) {k : Nat} (hk : 0 < k) (hk' : k < 2 ^ 31)
    (hfit : s.count * k < 2 ^ 32) {g : List α → List α} (hg : ∀ v, (g v).length = k) (p : List α → Bool) :
    (mapVV (σ := σ) (pureCb fun v _ => g v) s >>= filterV (pureCb fun v _ => p v)) =
      pure (ofItems k (((items s).filter fun v => p (g v)).map g)) := by
  rw [mapVV_free h h0 hk hk' (fun v _ => hg v), pure_bind, filterV_free (WF_mapV hk hk' hfit hg), items_ofItems (by
    intro v hv; obtain ⟨w, _, rfl⟩ := List.mem_map.1 hv; exact hg w), List.filter_map]
  rfl

/-- C106: `filter` after `map` is `map` after `filter` (arrays), when at least one item is kept. -/
theorem C106_filter_map_arrays_partial [Zero α] {s : Serie α} (h : WF s) {k : Nat} (hk : 0 < k) (hk' : k < 2 ^ 31)
    (hfit : s.count * k < 2 ^ 32) {g : List α → List α} (hg : ∀ v, (g v).length = k) (p : List α → Bool)
    (hm : ∃ v ∈ items s, p (g v) = true) :
    (mapVV (σ := σ) (pureCb fun v _ => g v) s >>= filterV (pureCb fun v _ => p v)) =
      (filterV (pureCb fun v _ => p (g v)) s >>= mapVV (pureCb fun v _ => g v)) := by
  obtain ⟨v, hv, hpv⟩ := hm
  have h0 : 0 < s.count := by rw [← items_length s]; exact List.length_pos_of_mem hv
  have h0' : 0 < (ofItems s.itemSize ((items s).filter fun v => p (g v))).count :=
    List.length_pos_of_mem (List.mem_filter.2 ⟨hv, hpv⟩)
  rw [filter_map_arrays h h0 hk hk' hfit hg, filterV_free h, pure_bind,
    mapVV_free (WF_filterV h _) h0' hk hk' (fun v _ => hg v), items_ofItems (filter_item_length h _)]

example := C106_filter_map_arrays_partial (σ := Unit) ex23_WF (k := 1) (by decide) (by decide) (by decide) (g := fun v => [v.sum])
  (fun _ => rfl) (fun v => decide (v.sum < 10)) (by decide)

/-- C106: when no item is kept, `filter` after `map` gives an empty Serie of the size of the mapped items, `map` after
`filter` an invalid one. -/
theorem C106_filter_map_arrays_violated [Zero α] {s : Serie α} (h : WF s) (h0 : 0 < s.count) {k : Nat} (hk : 0 < k)
    (hk' : k < 2 ^ 31) (hfit : s.count * k < 2 ^ 32) {g : List α → List α} (hg : ∀ v, (g v).length = k) (p : List α → Bool)
    (hm : ∀ v ∈ items s, p (g v) = false) (st : σ) :
    (mapVV (pureCb fun v _ => g v) s >>= filterV (pureCb fun v _ => p v)) st = (.ok ⟨[], 0, k, 3⟩, st) ∧
    (filterV (pureCb fun v _ => p (g v)) s >>= mapVV (pureCb fun v _ => g v)) st = (.ok ⟨[], 0, 0, 3⟩, st) := by
  have he : ((items s).filter fun v => p (g v)) = [] := by
    rw [List.filter_eq_nil_iff]; intro v hv; rw [hm v hv]; simp
  rw [filter_map_arrays h h0 hk hk' hfit hg, filterV_free h, pure_bind, he]
  exact ⟨rfl, (C10_empty rfl (fun _ _ => pure []) _ st).2.1⟩

example := C106_filter_map_arrays_violated ex23_WF (by decide) (k := 1) (by decide) (by decide) (by decide)
  (g := fun v => [v.sum]) (fun _ => rfl) (fun v => decide (v.sum < -10)) (by decide) ()

/-- C106: `reduce` after `map` is one `reduce`. -/
theorem C106_reduce_map {s : Serie α} (h : WF s) (g : α → Nat → α) (f : α → α → Nat → Eff σ α) (init : α) :
    (mapSS (pureCb g) s >>= fun t => reduceS f t init) = reduceS (fun a x i => f a (g x i) i) s init := by
  have hw : WF (ofScalars ((scalars s).mapIdx fun i x => g x i)) :=
    WF_ofScalars (by rw [List.length_mapIdx, h.scalars_length]; exact h.count_lt)
  rw [mapSS_eq h, callAll_pure, pure_bind, pure_bind, C16_reduce hw, C16_reduce h, scalars_ofScalars, List.mapIdx_eq_zipIdx_map]
  have key : ∀ (l : List α) (lo : Nat) (a : α), (((l.zipIdx lo).map fun p => g p.1 p.2).zipIdx lo).foldlM (fun acc p => f acc p.1 p.2) a =
      (l.zipIdx lo).foldlM (fun acc p => f acc (g p.1 p.2) p.2) a := by
    intro l
    induction l with
    | nil => intro lo a; rfl
    | cons x l ih =>
      intro lo a
      simp only [List.zipIdx_cons, List.map_cons, List.foldlM_cons, ih]
  exact key _ 0 init

example := C106_reduce_map ex41_WF (fun x i => x * i) (fun a x i => fun (st : Nat) => (.ok (a - x + i), st + 1)) 100

/-- C106: `reduce` after `filter` is one `reduce` that skips the other numbers. -/
theorem C106_reduce_filter [Zero α] {s : Serie α} (h : WF s) (p : α → Bool) (f : α → α → Eff σ α) (init : α) :
    (filterS (pureCb fun x _ => p x) s >>= fun t => reduceS (fun a x _ => f a x) t init) =
      reduceS (fun a x _ => if p x then f a x else pure a) s init := by
  rw [filterS_free h, pure_bind, C16_reduce (WF_filterS h p), C16_reduce h, scalars_ofScalars]
  have free : ∀ (u : α → α → Eff σ α) (l : List α) (lo : Nat) (a : α), (l.zipIdx lo).foldlM (fun acc q => u acc q.1) a = l.foldlM u a := by
    intro u l
    induction l with
    | nil => intro lo a; rfl
    | cons x l ih => intro lo a; simp only [List.zipIdx_cons, List.foldlM_cons, ih]
  rw [free, free (fun a x => if p x then f a x else pure a)]
  generalize scalars s = l
  induction l generalizing init with
  | nil => rfl
  | cons x l ih =>
    rw [List.filter_cons, List.foldlM_cons]
    split
    · rw [List.foldlM_cons]; congr 1; funext a; exact ih a
    · rw [pure_bind]; exact ih init

example := C106_reduce_filter ex41_WF (fun x => decide (x < 10)) (fun a x => fun (st : Nat) => (.ok (a - x), st + 1)) 100

/-! ### concat -/

theorem concat_scalars [Zero α] {ss : List (Serie α)} (hne : ss ≠ []) (hw : ∀ s ∈ ss, WF s ∧ s.itemSize = 1)
    (hn : (ss.map (·.count)).sum < 2 ^ 32) : concat ss = .ok (ofScalars (ss.map scalars).flatten) := by
  rw [concat_eq (k := 1) hne hw (by omega)]
  have e : ss.map items = ss.map fun s => (scalars s).map fun x => [x] :=
    List.map_congr_left fun s hs => items_scalar (hw s hs).2 (hw s hs).1.count_le
  have e' : (ss.map items).flatten = ((ss.map scalars).flatten).map fun x => [x] := by
    rw [e, List.map_flatten, List.map_map]; rfl
  rw [e']
  congr 1
  unfold ofItems ofScalars
  rw [flatten_singletons, List.length_map]

theorem mapM_pure_on {β γ : Type} {f : β → Eff σ γ} {g : β → γ} : ∀ {l : List β}, (∀ x ∈ l, f x = pure (g x)) →
    l.mapM f = pure (l.map g)
  | [], _ => rfl
  | x :: l, h => by
    rw [List.mapM_cons, h x (by simp), pure_bind, mapM_pure_on (fun y hy => h y (by simp [hy])), pure_bind]; rfl

theorem scalars_sum {ss : List (Serie α)} (hw : ∀ s ∈ ss, WF s ∧ s.itemSize = 1) :
    (ss.map scalars).flatten.length = (ss.map (·.count)).sum := by
  rw [List.length_flatten, List.map_map]
  exact congrArg _ (List.map_congr_left fun s hs => (hw s hs).1.scalars_length)

/-- C106: mapping a concatenation is concatenating the mapped Series (numbers). -/
theorem C106_map_concat_numbers [Zero α] {ss : List (Serie α)} (hne : ss ≠ []) (hw : ∀ s ∈ ss, WF s ∧ s.itemSize = 1)
    (hn : (ss.map (·.count)).sum < 2 ^ 32) (g : α → α) :
    (Eff.lift (concat ss) >>= mapSS (σ := σ) (pureCb fun x _ => g x)) =
      (ss.mapM (mapSS (pureCb fun x _ => g x)) >>= fun ts => Eff.lift (concat ts)) := by
  rw [concat_scalars hne hw hn, Eff.lift_ok, pure_bind, mapSS_free (WF_ofScalars (by rw [scalars_sum hw]; exact hn)),
    mapM_pure_on (g := fun s => ofScalars ((scalars s).map g)) (fun s hs => mapSS_free (hw s hs).1 g), pure_bind, concat_scalars]
  · rw [scalars_ofScalars, List.map_map, List.map_flatten, List.map_map]
    congr 3
    exact List.map_congr_left fun s _ => (scalars_ofScalars _ _).symm
  · simpa using hne
  · intro t ht
    obtain ⟨s, hs, rfl⟩ := List.mem_map.1 ht
    exact ⟨WF_ofScalars (by rw [List.length_map, (hw s hs).1.scalars_length]; exact (hw s hs).1.count_lt), rfl⟩
  · rw [List.map_map, show ss.map ((·.count) ∘ fun s => ofScalars ((scalars s).map g)) = ss.map (·.count) from
      List.map_congr_left fun s hs => by simp [ofScalars, (hw s hs).1.scalars_length]]
    exact hn

example := C106_map_concat_numbers (σ := Unit) (ss := [ex41, ofScalars [1, 2], ofScalars []]) (by simp) (by decide) (by decide) (fun x => x * 2)

theorem sum_map_le {β : Type} {f g : β → Nat} : ∀ {l : List β}, (∀ x ∈ l, f x ≤ g x) → (l.map f).sum ≤ (l.map g).sum
  | [], _ => Nat.le_refl _
  | x :: l, h => by
    rw [List.map_cons, List.map_cons, List.sum_cons, List.sum_cons]
    exact Nat.add_le_add (h x (by simp)) (sum_map_le fun y hy => h y (by simp [hy]))

/-- C106: filtering a concatenation is concatenating the filtered Series (numbers). -/
theorem C106_filter_concat_numbers [Zero α] {ss : List (Serie α)} (hne : ss ≠ []) (hw : ∀ s ∈ ss, WF s ∧ s.itemSize = 1)
    (hn : (ss.map (·.count)).sum < 2 ^ 32) (p : α → Bool) :
    (Eff.lift (concat ss) >>= filterS (σ := σ) (pureCb fun x _ => p x)) =
      (ss.mapM (filterS (pureCb fun x _ => p x)) >>= fun ts => Eff.lift (concat ts)) := by
  rw [concat_scalars hne hw hn, Eff.lift_ok, pure_bind, filterS_free (WF_ofScalars (by rw [scalars_sum hw]; exact hn)),
    mapM_pure_on (g := fun s => ofScalars ((scalars s).filter p)) (fun s hs => filterS_free (hw s hs).1 p), pure_bind, concat_scalars]
  · rw [scalars_ofScalars, List.map_map, List.filter_flatten, List.map_map]
    congr 3
    exact List.map_congr_left fun s _ => (scalars_ofScalars _ _).symm
  · simpa using hne
  · intro t ht
    obtain ⟨s, hs, rfl⟩ := List.mem_map.1 ht
    exact ⟨WF_filterS (hw s hs).1 p, rfl⟩
  · rw [List.map_map]
    refine Nat.lt_of_le_of_lt (sum_map_le fun s hs => ?_) hn
    show ((scalars s).filter p).length ≤ s.count
    exact (List.length_filter_le _ _).trans (hw s hs).1.scalars_length.le

example := C106_filter_concat_numbers (σ := Unit) (ss := [ex41, ofScalars [1, 2], ofScalars []]) (by simp) (by decide) (by decide)
  (fun x => decide (x < 6))

theorem items_sum (ss : List (Serie α)) : (ss.map items).flatten.length = (ss.map (·.count)).sum := flatten_items_length ss

theorem flatten_item_length {k : Nat} {ss : List (Serie α)} (hw : ∀ s ∈ ss, WF s ∧ s.itemSize = k) :
    ∀ v ∈ (ss.map items).flatten, v.length = k := by
  intro v hv
  obtain ⟨_, hl, hv⟩ := List.mem_flatten.1 hv
  obtain ⟨s, hs, rfl⟩ := List.mem_map.1 hl
  rw [← (hw s hs).2]; exact (hw s hs).1.item_length hv

/-- C106: filtering a concatenation is concatenating the filtered Series (arrays). -/
theorem C106_filter_concat_arrays [Zero α] {k : Nat} {ss : List (Serie α)} (hne : ss ≠ []) (hw : ∀ s ∈ ss, WF s ∧ s.itemSize = k)
    (hn : (ss.map (·.count)).sum * k < 2 ^ 32) (p : List α → Bool) :
    (Eff.lift (concat ss) >>= filterV (σ := σ) (pureCb fun v _ => p v)) =
      (ss.mapM (filterV (pureCb fun v _ => p v)) >>= fun ts => Eff.lift (concat ts)) := by
  have hk : 0 < k ∧ k < 2 ^ 31 := by
    obtain ⟨s, hs⟩ := List.exists_mem_of_ne_nil _ hne
    rw [← (hw s hs).2]; exact ⟨(hw s hs).1.pos, (hw s hs).1.int⟩
  rw [concat_eq hne hw hn, Eff.lift_ok, pure_bind,
    filterV_free (WF_ofItems hk.1 hk.2 (flatten_item_length hw) (by rw [items_sum]; exact hn)),
    mapM_pure_on (g := fun s => ofItems s.itemSize ((items s).filter p)) (fun s hs => filterV_free (hw s hs).1 p), pure_bind,
    concat_eq (k := k)]
  · rw [items_ofItems (flatten_item_length hw), List.filter_flatten, List.map_map, List.map_map]
    congr 3
    refine List.map_congr_left fun s hs => ?_
    exact (items_ofItems (filter_item_length (hw s hs).1 p)).symm
  · simpa using hne
  · intro t ht
    obtain ⟨s, hs, rfl⟩ := List.mem_map.1 ht
    exact ⟨WF_filterV (hw s hs).1 p, (hw s hs).2⟩
  · rw [List.map_map]
    refine Nat.lt_of_le_of_lt (Nat.mul_le_mul_right _ (sum_map_le fun s hs => ?_)) hn
    show ((items s).filter p).length ≤ s.count
    exact (List.length_filter_le _ _).trans (items_length s).le

example := C106_filter_concat_arrays (σ := Unit) (k := 3) (ss := [ex23, ⟨[7, 8, 9], 1, 3, 3⟩, ⟨[], 0, 3, 3⟩]) (by simp) (by decide) (by decide)
  (fun v => decide (v.sum < 10))

/-- C106: mapping a concatenation is concatenating the mapped Series (arrays), when none of them is empty. -/
theorem C106_map_concat_arrays_partial [Zero α] {k m : Nat} {ss : List (Serie α)} (hne : ss ≠ [])
    (hw : ∀ s ∈ ss, WF s ∧ s.itemSize = k) (hn : (ss.map (·.count)).sum * k < 2 ^ 32) (hm : 0 < m) (hm' : m < 2 ^ 31)
    (hfit : (ss.map (·.count)).sum * m < 2 ^ 32) {g : List α → List α} (hg : ∀ v, (g v).length = m) (h0 : ∀ s ∈ ss, 0 < s.count) :
    (Eff.lift (concat ss) >>= mapVV (σ := σ) (pureCb fun v _ => g v)) =
      (ss.mapM (mapVV (pureCb fun v _ => g v)) >>= fun ts => Eff.lift (concat ts)) := by
  obtain ⟨s0, hs0⟩ := List.exists_mem_of_ne_nil _ hne
  have hk : 0 < k ∧ k < 2 ^ 31 := by
    rw [← (hw s0 hs0).2]; exact ⟨(hw s0 hs0).1.pos, (hw s0 hs0).1.int⟩
  have hle : ∀ s ∈ ss, s.count ≤ (ss.map (·.count)).sum := fun s hs => le_sum_of_mem (List.mem_map.2 ⟨s, hs, rfl⟩)
  have hsum : 0 < (ss.map (·.count)).sum := Nat.lt_of_lt_of_le (h0 s0 hs0) (hle s0 hs0)
  rw [concat_eq hne hw hn, Eff.lift_ok, pure_bind,
    mapVV_free (WF_ofItems hk.1 hk.2 (flatten_item_length hw) (by rw [items_sum]; exact hn)) (by
      show 0 < ((ss.map items).flatten).length
      rw [items_sum]; exact hsum) hm hm' (fun v _ => hg v),
    mapM_pure_on (g := fun s => ofItems m ((items s).map g)) (fun s hs => mapVV_free (hw s hs).1 (h0 s hs) hm hm' (fun v _ => hg v)),
    pure_bind, concat_eq (k := m)]
  · rw [items_ofItems (flatten_item_length hw), List.map_flatten, List.map_map, List.map_map]
    congr 3
    refine List.map_congr_left fun s hs => ?_
    exact (items_ofItems (by intro v hv; obtain ⟨w, _, rfl⟩ := List.mem_map.1 hv; exact hg w)).symm
  · simpa using hne
  · intro t ht
    obtain ⟨s, hs, rfl⟩ := List.mem_map.1 ht
    exact ⟨WF_mapV hm hm' (Nat.lt_of_le_of_lt (Nat.mul_le_mul_right _ (hle s hs)) hfit) hg, rfl⟩
  · rw [List.map_map, show ss.map ((·.count) ∘ fun s => ofItems m ((items s).map g)) = ss.map (·.count) from
      List.map_congr_left fun s _ => by simp [ofItems]]
    exact hfit

example := C106_map_concat_arrays_partial (σ := Unit) (k := 3) (m := 1) (ss := [ex23, ⟨[7, 8, 9], 1, 3, 3⟩]) (by simp) (by decide) (by decide)
  (by decide) (by decide) (by decide) (g := fun v => [v.sum]) (fun _ => rfl) (by decide)

/-- C106: with an empty Serie among them the mapped Series cannot be concatenated, although the concatenation can be mapped. -/
theorem C106_map_concat_arrays_violated [Zero α] {k m : Nat} {ss : List (Serie α)} (hne : ss ≠ [])
    (hw : ∀ s ∈ ss, WF s ∧ s.itemSize = k) (hn : (ss.map (·.count)).sum * k < 2 ^ 32) (hm : 0 < m) (hm' : m < 2 ^ 31)
    {g : List α → List α} (hg : ∀ v, (g v).length = m) (h0 : ∃ s ∈ ss, 0 < s.count)
    (he : ∃ s ∈ ss, s.count = 0) (st : σ) :
    (∃ r, (Eff.lift (concat ss) >>= mapVV (pureCb fun v _ => g v)) st = (.ok r, st)) ∧
      (ss.mapM (mapVV (pureCb fun v _ => g v)) >>= fun ts => Eff.lift (concat ts)) st = (.throw .invalidArgument, st) := by
  obtain ⟨s0, hs0, hp⟩ := h0
  obtain ⟨s1, hs1, hz⟩ := he
  have hk : 0 < k ∧ k < 2 ^ 31 := by
    rw [← (hw s0 hs0).2]; exact ⟨(hw s0 hs0).1.pos, (hw s0 hs0).1.int⟩
  have hle : ∀ s ∈ ss, s.count ≤ (ss.map (·.count)).sum := fun s hs => le_sum_of_mem (List.mem_map.2 ⟨s, hs, rfl⟩)
  constructor
  · refine ⟨ofItems m ((ss.map items).flatten.map g), ?_⟩
    rw [concat_eq hne hw hn, Eff.lift_ok, pure_bind,
      mapVV_free (WF_ofItems hk.1 hk.2 (flatten_item_length hw) (by rw [items_sum]; exact hn)) (by
        show 0 < ((ss.map items).flatten).length
        rw [items_sum]; exact Nat.lt_of_lt_of_le hp (hle s0 hs0)) hm hm' (fun v _ => hg v), items_ofItems (flatten_item_length hw)]
    rfl
  · rw [mapM_pure_on (g := fun s => if s.count = 0 then ⟨[], 0, 0, 3⟩ else ofItems m ((items s).map g)) (fun s hs => by
      split
      · rename_i h; funext st; exact (C10_empty h (fun _ _ => pure []) _ st).2.1
      · rename_i h; exact mapVV_free (hw s hs).1 (by omega) hm hm' (fun v _ => hg v)), pure_bind]
    show (concat _, st) = _
    rw [C22_concat_throws.2.1 _ ⟨⟨[], 0, 0, 3⟩, List.mem_map.2 ⟨s1, hs1, by simp [hz]⟩, rfl⟩]

example := C106_map_concat_arrays_violated (k := 3) (m := 1) (ss := [ex23, ⟨[], 0, 3, 3⟩]) (by simp) (by decide) (by decide)
  (by decide) (by decide) (g := fun v => [v.sum]) (fun _ => rfl) (by decide) (by decide) ()

/-! ### sort -/

/-- C106: filtering a sorted Serie is sorting the filtered Serie (numbers). -/
theorem C106_filter_sort [LinearOrder α] [Zero α] {srt : StdSort} (hs : srt.Correct) {s : Serie α} (h : WF s) (h1 : s.itemSize = 1)
    (p : α → Bool) :
    (Eff.lift (sortDefault srt s) >>= filterS (σ := σ) (pureCb fun x _ => p x)) =
      (filterS (pureCb fun x _ => p x) s >>= fun t => Eff.lift (sortDefault srt t)) := by
  obtain ⟨xs, e, hp, ho⟩ := C29_sort_numbers hs h h1
  obtain ⟨ys, e', hp', ho'⟩ := C29_sort_numbers hs (WF_filterS h p) rfl
  have hl : xs.length = s.count := by rw [hp.length_eq, h.scalars_length]
  rw [e, Eff.lift_ok, pure_bind, filterS_free (WF_ofScalars (by rw [hl]; exact h.count_lt)), filterS_free h, pure_bind, e',
    scalars_ofScalars]
  rw [scalars_ofScalars] at hp'
  rw [((hp.filter p).trans hp'.symm).eq_of_pairwise (fun _ _ _ _ => le_antisymm) (ho.filter p) ho']
  rfl

example := C106_filter_sort (σ := Unit) stdSort_exists.choose_spec ex41_WF rfl (fun x => decide (x < 10))

/-- C106: applying an increasing function to a sorted Serie is sorting the mapped Serie (numbers). -/
theorem C106_map_sort [LinearOrder α] [Zero α] {srt : StdSort} (hs : srt.Correct) {s : Serie α} (h : WF s) (h1 : s.itemSize = 1)
    {g : α → α} (hg : Monotone g) :
    (Eff.lift (sortDefault srt s) >>= mapSS (σ := σ) (pureCb fun x _ => g x)) =
      (mapSS (pureCb fun x _ => g x) s >>= fun t => Eff.lift (sortDefault srt t)) := by
  have hw : WF (ofScalars ((scalars s).map g)) :=
    WF_ofScalars (by rw [List.length_map, h.scalars_length]; exact h.count_lt)
  obtain ⟨xs, e, hp, ho⟩ := C29_sort_numbers hs h h1
  obtain ⟨ys, e', hp', ho'⟩ := C29_sort_numbers hs hw rfl
  have hl : xs.length = s.count := by rw [hp.length_eq, h.scalars_length]
  rw [e, Eff.lift_ok, pure_bind, mapSS_free (WF_ofScalars (by rw [hl]; exact h.count_lt)), mapSS_free h, pure_bind, e',
    scalars_ofScalars]
  rw [scalars_ofScalars] at hp'
  rw [((hp.map g).trans hp'.symm).eq_of_pairwise (fun _ _ _ _ => le_antisymm)
    (List.pairwise_map.2 (ho.imp fun hab => hg hab)) ho']
  rfl

example := C106_map_sort (σ := Unit) stdSort_exists.choose_spec ex41_WF rfl (g := fun x => x + 3) (fun _ _ h => Int.add_le_add_right h 3)

/-- C106: the order of the Series given to `concat` does not matter before a `sort` (numbers). -/
theorem C106_sort_concat [LinearOrder α] [Zero α] {srt : StdSort} (hs : srt.Correct) {ss ts : List (Serie α)} (hne : ss ≠ [])
    (hw : ∀ s ∈ ss, WF s ∧ s.itemSize = 1) (hn : (ss.map (·.count)).sum < 2 ^ 32) (hp : ss.Perm ts) :
    (concat ss >>= sortDefault srt) = (concat ts >>= sortDefault srt) := by
  have hne' : ts ≠ [] := fun he => hne (by subst he; exact hp.eq_nil)
  have hw' : ∀ s ∈ ts, WF s ∧ s.itemSize = 1 := fun s hs => hw s (hp.mem_iff.2 hs)
  have hn' : (ts.map (·.count)).sum < 2 ^ 32 := by rw [← (hp.map (·.count)).sum_eq]; exact hn
  rw [concat_scalars hne hw hn, concat_scalars hne' hw' hn', Res.ok_bind, Res.ok_bind]
  obtain ⟨xs, e, p1, o⟩ := C29_sort_numbers hs (WF_ofScalars (xs := (ss.map scalars).flatten) (by rw [scalars_sum hw]; exact hn)) rfl
  obtain ⟨ys, e', p2, o'⟩ := C29_sort_numbers hs (WF_ofScalars (xs := (ts.map scalars).flatten) (by rw [scalars_sum hw']; exact hn')) rfl
  rw [scalars_ofScalars] at p1 p2
  rw [e, e', (p1.trans ((hp.map scalars).flatten.trans p2.symm)).eq_of_pairwise (fun _ _ _ _ => le_antisymm) o o']

example := C106_sort_concat stdSort_exists.choose_spec (ss := [ex41, ofScalars [1, 2]]) (ts := [ofScalars [1, 2], ex41]) (by simp)
  (by decide) (by decide) (List.Perm.swap _ _ _)

theorem keep_perm {γ : Type} : ∀ (l : List γ) (bs : List Bool), bs.length = l.length →
    (keep l bs ++ keep l (bs.map not)).Perm l
  | [], _, _ => by simp [keep]
  | _ :: _, [], h => by simp at h
  | x :: l, true :: bs, h => by
    simpa [keep] using (keep_perm l bs (by simpa using h)).cons x
  | x :: l, false :: bs, h => by
    simp only [keep, List.map_cons, Bool.not_false, if_true, Bool.false_eq_true, if_false]
    exact List.perm_middle.trans ((keep_perm l bs (by simpa using h)).cons x)

theorem partition_concat [Zero α] {s : Serie α} (h : WF s) (p : List α → Nat → Bool) (st : σ) :
    ∃ a b r, partitionV (pureCb p) s st = (.ok (a, b), st) ∧ concat [a, b] = .ok r ∧ WF r ∧ r.itemSize = s.itemSize ∧
      (items r).Perm (items s) := by
  have hall : ∀ bs, ∀ v ∈ keep (items s) bs, v.length = s.itemSize := fun bs v hv => h.item_length (keep_mem _ _ hv)
  have hfit : s.count * s.itemSize < 2 ^ 32 := Nat.lt_of_le_of_lt h.fits h.small
  have hwf : ∀ bs, WF (ofItems s.itemSize (keep (items s) bs)) := fun bs =>
    WF_ofItems h.pos h.int (hall bs) (Nat.lt_of_le_of_lt (Nat.mul_le_mul_right _ ((keep_length_le _ _).trans (items_length s).le)) hfit)
  have hb : ((items s).mapIdx fun i v => p v i).length = (items s).length := by simp
  generalize hbs : ((items s).mapIdx fun i v => p v i) = bs at hb
  have hsum := keep_add_length (items s) bs hb
  have hcat := C22_concat (k := s.itemSize) (ss := [ofItems s.itemSize (keep (items s) bs), ofItems s.itemSize (keep (items s) (bs.map not))])
    (by simp) (by
      intro t ht
      rcases List.mem_cons.1 ht with rfl | ht
      · exact ⟨hwf _, rfl⟩
      · rcases List.mem_singleton.1 ht with rfl
        exact ⟨hwf _, rfl⟩) (by
      simp only [List.map_cons, List.map_nil, List.sum_cons, List.sum_nil, ofItems, Nat.add_zero]
      rw [hsum, items_length]; exact hfit)
  obtain ⟨r, e, hw, hk, hi, _⟩ := hcat
  refine ⟨_, _, r, by rw [partitionV_eq h, callAll_pure, hbs]; rfl, e, hw, hk, ?_⟩
  rw [hi]
  simp only [List.map_cons, List.map_nil, List.flatten_cons, List.flatten_nil, List.append_nil]
  rw [items_ofItems (hall _), items_ofItems (hall _)]
  exact keep_perm _ _ hb

/-- C106: the two halves of `partition` put together hold the items of the Serie. -/
theorem C106_partition_concat [Zero α] {s : Serie α} (h : WF s) (p : List α → Nat → Bool) (st : σ) :
    ∃ a b r, partitionV (pureCb p) s st = (.ok (a, b), st) ∧ concat [a, b] = .ok r ∧ r.itemSize = s.itemSize ∧
      (items r).Perm (items s) := by
  obtain ⟨a, b, r, e1, e2, _, hk, hp⟩ := partition_concat h p st
  exact ⟨a, b, r, e1, e2, hk, hp⟩

example := C106_partition_concat ex23_WF (fun v i => decide (v.sum < 10 * i)) ()

end DF
