import Verif.Spec.Zip
import Verif.Props.Combine

/-!
# One Serie of rows or several columns (C165)
-/

namespace DF

open Spec

variable {α σ : Type} [Zero α]

/-! ## Helpers -/

/-- The items at the positions `J`. -/
def picked (J : List Nat) (s : Serie α) : Serie α := ofItems s.itemSize (J.map (chunk s.itemSize s.data))

section
omit [Zero α]

theorem picked_item {s : Serie α} (h : WF s) {J : List Nat} (hJ : ∀ j ∈ J, j < s.count) :
    ∀ v ∈ J.map (chunk s.itemSize s.data), v.length = s.itemSize := by
  intro v hv
  obtain ⟨j, hj, rfl⟩ := List.mem_map.1 hv
  exact h.item_length (List.mem_map.2 ⟨j, List.mem_range.2 (hJ j hj), rfl⟩)

theorem Spec.Packable.picked {ss : List (Serie α)} {n : Nat} (h : Packable ss n) {J : List Nat} (hJ : ∀ j ∈ J, j < n)
    (hl : J.length ≤ n) : Packable (ss.map (DF.picked J)) J.length := by
  have hs : (ss.map (DF.picked J)).map (·.itemSize) = ss.map (·.itemSize) := by
    rw [List.map_map]; rfl
  refine ⟨by simpa using h.some, ?_, ?_, by rw [hs]; exact h.width, ?_⟩
  · intro t ht
    obtain ⟨s, hs, rfl⟩ := List.mem_map.1 ht
    have hw := h.wf s hs
    have hc := h.count s hs
    refine WF_ofItems hw.pos hw.int (picked_item hw (by rwa [hc])) ?_
    rw [List.length_map]
    exact Nat.lt_of_le_of_lt (Nat.le_trans (Nat.mul_le_mul_right _ (by omega)) hw.fits) hw.small
  · intro t ht
    obtain ⟨s, hs, rfl⟩ := List.mem_map.1 ht
    simp [DF.picked, ofItems]
  · rw [hs]
    exact Nat.lt_of_le_of_lt (Nat.mul_le_mul_right _ hl) h.small

/-- The rows of the chosen items are the chosen rows. -/
theorem rows_picked {ss : List (Serie α)} {n : Nat} (h : Packable ss n) {J : List Nat} (hJ : ∀ j ∈ J, j < n) :
    rows (ss.map (picked J)) J.length = J.map (row ss) := by
  apply List.ext_getElem
  · simp [rows]
  · intro i h1 h2
    have hi : i < J.length := by simpa using h2
    simp only [rows, List.getElem_map, List.getElem_range, row, List.map_map]
    refine List.map_congr_left fun s hs => ?_
    have := chunk_flatten (picked_item (h.wf s hs) (J := J) (by rw [h.count s hs]; exact hJ)) (i := i) (by simpa using hi) []
    simpa [picked, ofItems] using this

theorem le_sum_of_one {x : Nat} : ∀ {l : List Nat}, x ∈ l → x ≤ l.sum
  | y :: l, h => by
    rw [List.sum_cons]
    rcases List.mem_cons.1 h with rfl | h
    · omega
    · have := le_sum_of_one h
      omega

theorem keep_of_map {γ δ : Type} (f : γ → δ) : ∀ (l : List γ) (bs : List Bool), keep (l.map f) bs = (keep l bs).map f
  | [], _ => by simp [keep]
  | _ :: _, [] => by simp [keep]
  | x :: l, b :: bs => by
    have := keep_of_map f l bs
    cases b <;> simp [keep, this]

theorem callAll_of_map {m : Type → Type} [Monad m] [LawfulMonad m] {γ δ β : Type} (g : γ → δ) (f : δ → Nat → m β) : ∀ (l : List γ) (lo : Nat),
    callAll f (l.map g) lo = callAll (fun x i => f (g x) i) l lo
  | [], lo => by simp
  | x :: l, lo => by
    rw [List.map_cons, callAll_cons, callAll_cons, callAll_of_map g f l]

theorem sizedMap_of_map {γ δ : Type} (g : γ → δ) (cb : δ → Nat → Eff σ (List α)) (l : List γ) :
    sizedMap cb (l.map g) = sizedMap (fun x i => cb (g x) i) l := by
  cases l with
  | nil => rfl
  | cons x l => rw [List.map_cons, sizedMap_cons, sizedMap_cons]; simp only [callAll_of_map]

end

/-- What `zip` gives, and that it is well formed. -/
theorem Spec.Packable.zip {ss : List (Serie α)} {n : Nat} (h : Packable ss n) :
    ∃ z, DF.zip ss = .ok z ∧ WF z ∧ z.itemSize = (ss.map (·.itemSize)).sum ∧ z.count = n ∧
      items z = (rows ss n).map List.flatten ∧
      z = ofItems (ss.map (·.itemSize)).sum ((rows ss n).map List.flatten) := by
  obtain ⟨z, h1, _, h3, h4, h5, h6⟩ := C28_zip h.some h.wf h.count h.width h.small
  refine ⟨z, h1, h3, h4, h5, h6, ?_⟩
  have := (zip_eq h.some h.wf h.count h.width h.small).1
  rw [h1] at this
  cases this
  rfl

theorem zip_picked {ss : List (Serie α)} {n : Nat} (h : Packable ss n) {J : List Nat} (hJ : ∀ j ∈ J, j < n)
    (hl : J.length ≤ n) :
    zip (ss.map (picked J)) = .ok (ofItems (ss.map (·.itemSize)).sum (J.map fun j => (row ss j).flatten)) := by
  obtain ⟨z, h1, _, _, _, _, h6⟩ := (h.picked hJ hl).zip
  rw [h1, h6, rows_picked h hJ, List.map_map, List.map_map]
  rfl

omit [Zero α] in
theorem keep_items {s : Serie α} {n : Nat} (h : s.count = n) (bs : List Bool) :
    ofItems s.itemSize (keep (items s) bs) = picked (keep (List.range n) bs) s := by
  unfold items picked
  rw [keep_of_map, h]

theorem keep_zip {ss : List (Serie α)} {n : Nat} (h : Packable ss n) (bs : List Bool) :
    zip (ss.map fun s => ofItems s.itemSize (keep (items s) bs)) =
      .ok (ofItems (ss.map (·.itemSize)).sum (keep ((rows ss n).map List.flatten) bs)) := by
  have e : (ss.map fun s => ofItems s.itemSize (keep (items s) bs)) = ss.map (picked (keep (List.range n) bs)) :=
    List.map_congr_left fun s hs => keep_items (h.count s hs) bs
  rw [e, zip_picked h (fun j hj => List.mem_range.1 (keep_mem _ _ hj))
    (by simpa using keep_length_le (List.range n) bs)]
  unfold rows
  rw [keep_of_map, keep_of_map, List.map_map]
  rfl

/-! ## C165 -/

/-- C165: `map` over several columns is `map` over the zipped Serie, when the callback looks at the row as one array: same
calls, same effects, same result. -/
theorem C165_map {ss : List (Serie α)} {n : Nat} (h : Packable ss n) (hn : 0 < n) (f : List α → Nat → Eff σ α)
    (g : List α → Nat → Eff σ (List α)) :
    (mapMultiS (fun r i => f r.flatten i) ss = Eff.lift (zip ss) >>= fun z => mapVS f z) ∧
      (mapMultiV (fun r i => g r.flatten i) ss = Eff.lift (zip ss) >>= fun z => mapVV g z) := by
  obtain ⟨z, h1, wz, _, _, h5, _⟩ := h.zip
  rw [h1, Eff.lift_ok]
  simp only [pure_bind]
  rw [mapMultiS_eq h.some h.wf h.count hn, mapMultiV_eq h.some h.wf h.count hn, mapVS_eq wz, mapVV_eq wz, h5, callAll_of_map,
    sizedMap_of_map]
  exact ⟨rfl, rfl⟩

example := C165_map (σ := Int) (ss := [ex23, exTail, ⟨[8, 9], 2, 1, 3⟩]) (n := 2) ⟨by decide, by decide, by decide, by decide, by decide⟩
  (by decide) (fun v i st => (.ok (v.sum + i + st), st + 1)) fun v _ st => if st = 1 then (.throw .lengthError, 5) else (.ok v, st + 1)

/-- C165: `forEach` over two or more columns is `forEach` over the zipped Serie. -/
theorem C165_forEach {ss : List (Serie α)} {n : Nat} (h : Packable ss n) (h2 : 2 ≤ ss.length) (f : List α → Nat → Eff σ Unit) :
    forEachMulti (fun r i => f r.flatten i) ss = Eff.lift (zip ss) >>= fun z => forEachV f z := by
  obtain ⟨z, h1, wz, h3, _, h5, _⟩ := h.zip
  have hk : z.itemSize ≠ 1 := by
    rw [h3]
    have hw := h.wf
    match ss, h2 with
    | a :: b :: l, _ =>
      have ha := (hw a (by simp)).pos
      have hb := (hw b (by simp)).pos
      simp only [List.map_cons, List.sum_cons]
      omega
  rw [h1, Eff.lift_ok, pure_bind, forEachMulti_eq h.some h.wf h.count]
  unfold forEachV
  rw [if_neg hk, forLoop_unit f (items z) z.count (items_length z).symm (getA_hyp wz), h5, callAll_of_map]

example := C165_forEach (σ := Int) (ss := [ex23, exTail, ⟨[8, 9], 2, 1, 3⟩]) (n := 2) ⟨by decide, by decide, by decide, by decide, by decide⟩
  (by decide) fun v _ st => (.ok (), v.sum + st)

/-- C165: filtering (rejecting) aligned columns and then zipping them is filtering (rejecting) the zipped Serie. -/
theorem C165_filter {ss : List (Serie α)} {n : Nat} (h : Packable ss n) (p : List α → Nat → Eff σ Bool) :
    ((filterMulti (fun r i => p r.flatten i) ss >>= fun ts => Eff.lift (zip ts)) =
      Eff.lift (zip ss) >>= fun z => filterV p z) ∧
    ((rejectMulti (fun r i => p r.flatten i) ss >>= fun ts => Eff.lift (zip ts)) =
      Eff.lift (zip ss) >>= fun z => rejectV p z) := by
  obtain ⟨z, h1, wz, h3, _, h5, _⟩ := h.zip
  rw [h1, Eff.lift_ok]
  simp only [pure_bind]
  rw [filterMulti_eq h.some h.wf h.count, rejectMulti_eq h.some h.wf h.count, filterV_eq wz, rejectV_eq wz, h5, callAll_of_map,
    bind_assoc, bind_assoc]
  constructor
  · refine bind_congr fun bs => ?_
    rw [pure_bind, keep_zip h, Eff.lift_ok, h3]
  · refine bind_congr fun bs => ?_
    rw [pure_bind, keep_zip h, Eff.lift_ok, h3]

example := C165_filter (σ := Int) (ss := [ex23, exTail, ⟨[8, 9], 2, 1, 3⟩]) (n := 2) ⟨by decide, by decide, by decide, by decide, by decide⟩
  fun v _ st => (.ok (decide (v.sum > 20)), st + 1)

/-- C165: the columns that `filter` gives are the columns of the filtered rows. -/
theorem C165_filter_unzip {ss : List (Serie α)} {n : Nat} (h : Packable ss n) (p : List α → Nat → Eff σ Bool) :
    filterMulti (fun r i => p r.flatten i) ss =
      Eff.lift (zip ss) >>= fun z => filterV p z >>= fun y => Eff.lift (unzip y (ss.map (·.itemSize))) := by
  obtain ⟨z, h1, wz, h3, _, h5, _⟩ := h.zip
  rw [h1, Eff.lift_ok, pure_bind, filterMulti_eq h.some h.wf h.count, filterV_eq wz, h5, callAll_of_map, bind_assoc]
  refine bind_congr fun bs => ?_
  rw [pure_bind, h3]
  have e : (ss.map fun s => ofItems s.itemSize (keep (items s) bs)) = ss.map (picked (keep (List.range n) bs)) :=
    List.map_congr_left fun s hs => keep_items (h.count s hs) bs
  have hp := h.picked (J := keep (List.range n) bs) (fun j hj => List.mem_range.1 (keep_mem _ _ hj))
    (by simpa using keep_length_le (List.range n) bs)
  have hz := keep_zip h bs
  have hu := C28_unzip_zip hp.some hp.wf hp.count hp.width hp.small
  rw [← e, hz, Res.ok_bind] at hu
  simp only [List.map_map] at hu
  have e2 : ss.map ((fun s : Serie α => s.itemSize) ∘ fun s => ofItems s.itemSize (keep (items s) bs)) = ss.map (·.itemSize) := rfl
  rw [e2] at hu
  rw [hu, Eff.lift_ok]
  refine congrArg pure (List.map_congr_left fun s hs => ?_)
  have hw := h.wf s hs
  show _ = ofItems s.itemSize (items (ofItems s.itemSize (keep (items s) bs)))
  rw [items_ofItems fun v hv => hw.item_length (keep_mem _ _ hv)]

example := C165_filter_unzip (σ := Int) (ss := [ex23, exTail, ⟨[8, 9], 2, 1, 3⟩]) (n := 2) ⟨by decide, by decide, by decide, by decide, by decide⟩
  fun v _ st => (.ok (decide (v.sum > 20)), st + 1)

/-- C165: zipping in several steps is zipping at once. -/
theorem C165_nested {ss ts : List (Serie α)} {n : Nat} (hs : ss ≠ []) (ht : ts ≠ []) (h : Packable (ss ++ ts) n) :
    (do let a ← zip ss
        let b ← zip ts
        zip [a, b]) = zip (ss ++ ts) := by
  have hsum : ((ss ++ ts).map (·.itemSize)).sum = (ss.map (·.itemSize)).sum + (ts.map (·.itemSize)).sum := by simp
  have hw := h.width
  have hm := h.small
  rw [hsum] at hw hm
  rw [Nat.mul_add] at hm
  have p1 : Packable ss n := ⟨hs, fun s h' => h.wf s (by simp [h']), fun s h' => h.count s (by simp [h']), by omega, by omega⟩
  have p2 : Packable ts n := ⟨ht, fun s h' => h.wf s (by simp [h']), fun s h' => h.count s (by simp [h']), by omega, by omega⟩
  obtain ⟨a, a1, a2, a3, a4, a5, _⟩ := p1.zip
  obtain ⟨b, b1, b2, b3, b4, b5, _⟩ := p2.zip
  obtain ⟨z, z1, _, _, _, _, z6⟩ := h.zip
  have pab : Packable [a, b] n := ⟨by simp, by simp [a2, b2], by simp [a4, b4], by simpa [a3, b3] using hw,
    by simpa [a3, b3, Nat.mul_add] using hm⟩
  obtain ⟨y, y1, _, _, _, _, y6⟩ := pab.zip
  rw [a1, b1, z1]
  simp only [Res.ok_bind]
  rw [y1, z6, y6, hsum]
  simp only [List.map_cons, List.map_nil, List.sum_cons, List.sum_nil, a3, b3, Nat.add_zero]
  congr 2
  unfold rows at *
  rw [List.map_map, List.map_map]
  refine List.map_congr_left fun i hi => ?_
  have hi : i < n := List.mem_range.1 hi
  have ea : chunk a.itemSize a.data i = (row ss i).flatten := by
    have := congrArg (fun l => l[i]?) a5
    simpa [items, a4, hi] using this
  have eb : chunk b.itemSize b.data i = (row ts i).flatten := by
    have := congrArg (fun l => l[i]?) b5
    simpa [items, b4, hi] using this
  simp only [Function.comp, row, List.map_cons, List.map_nil, List.map_append, List.flatten_append, List.flatten_cons,
    List.flatten_nil, List.append_nil]
  rw [ea, eb]
  rfl

example := C165_nested (ss := [ex23]) (ts := [exTail, ⟨[8, 9], 2, 1, 3⟩]) (n := 2) (by decide) (by decide)
  ⟨by decide, by decide, by decide, by decide, by decide⟩

/-- C165: cutting the zipped Serie in parts gives the zipped parts of the columns. -/
theorem C165_parts {ss : List (Serie α)} {c n : Nat} (h : Packable ss c) (hn : 0 < n) {z : Serie α} (hz : zip ss = .ok z) :
    ∃ parts cols, partitionN n z = .ok parts ∧ partitionNMulti n ss = .ok cols ∧
      ∀ i (hi : i < parts.length), ∃ ts, cols.mapM (fun col => col[i]?) = some ts ∧ zip ts = .ok parts[i] := by
  obtain ⟨z', h1, wz, h3, h4, h5, h6⟩ := h.zip
  clear h6
  rw [hz] at h1
  cases h1
  obtain ⟨m, m1, m2, _, _, m5⟩ := partLoop_eq wz hn n 0 [] hn (by omega) (by omega)
  rw [cut_zero] at m5
  simp only [List.nil_append, Nat.sub_zero] at m5
  have hpn : partitionN n z = .ok ((List.range' 0 m).map (fun j => ofItems z.itemSize (partItems z n j))) := by
    unfold partitionN; rw [if_neg (by omega)]; exact m5
  obtain ⟨c1, c2⟩ := countAndCheck_eq h.some h.count
  let parts : Serie α → List (Serie α) := fun s =>
    (List.range' 0 n).map (fun j => ofItems s.itemSize (partItems s n j))
  have hm : partitionNMulti n ss = .ok (ss.map parts) := by
    unfold partitionNMulti
    rw [if_neg (by omega), c1]
    simp only [Res.ok_bind, c2]
    refine mapM_ok ss (fun s hs => ?_)
    have := partLoopAll_eq (h.wf s hs) hn n 0 [] (by omega)
    rw [cut_zero, h.count s hs] at this
    simpa using this
  refine ⟨_, _, hpn, hm, fun i hi => ?_⟩
  simp only [List.length_map, List.length_range'] at hi
  let J := ((List.range c).drop (cut c n i)).take (c / n + if i < c % n then 1 else 0)
  have hJ : ∀ j ∈ J, j < c := fun j hj => List.mem_range.1 (List.drop_subset _ _ (List.take_subset _ _ hj))
  have hl : J.length ≤ c := by simp only [J, List.length_take, List.length_drop, List.length_range]; omega
  have ecol : ∀ s ∈ ss, ofItems s.itemSize (partItems s n i) = picked J s := fun s hs => by
    unfold partItems items picked
    rw [h.count s hs, ← List.map_drop, ← List.map_take]
  refine ⟨ss.map (picked J), ?_, ?_⟩
  · rw [List.mapM_map]
    have : ∀ s ∈ ss, ((fun col : List (Serie α) => col[i]?) ∘ parts) s = some (picked J s) := fun s hs => by
      simp only [Function.comp, parts]
      rw [List.getElem?_map, List.getElem?_range' (by omega)]
      simp only [Option.map_some, Nat.zero_add, Nat.one_mul]
      rw [ecol s hs]
    clear_value J
    clear ecol hJ hl hm c1 c2 hz h h5 h3
    induction ss with
    | nil => rfl
    | cons s ss ih =>
      rw [List.mapM_cons, this s (by simp), ih fun t ht => this t (by simp [ht])]
      rfl
  · rw [zip_picked h hJ hl]
    simp only [List.getElem_map, List.getElem_range', Nat.zero_add, Nat.one_mul]
    rw [h3]
    unfold partItems
    rw [h5, h4]
    unfold rows
    rw [List.map_map, ← List.map_drop, ← List.map_take]
    rfl

example := C165_parts (ss := [ex23, exTail, ⟨[8, 9], 2, 1, 3⟩]) (c := 2) (n := 2) ⟨by decide, by decide, by decide, by decide, by decide⟩
  (by decide) (z := ⟨[1, 2, 3, 1, 2, 3, 8, 4, 5, 6, 4, 5, 6, 9], 2, 7, 3⟩) (by decide +kernel)

/-- C165: one table under another: zipping the concatenated columns is concatenating the zipped tables. -/
theorem C165_stack {ps : List (Serie α × Serie α)} {n m : Nat} (ha : Packable (ps.map Prod.fst) n)
    (hb : Packable (ps.map Prod.snd) m) (hk : ∀ p ∈ ps, p.2.itemSize = p.1.itemSize)
    (hs : (n + m) * (ps.map (·.1.itemSize)).sum < 2 ^ 32) :
    (ps.mapM (fun p => concat [p.1, p.2]) >>= zip) =
      (do let a ← zip (ps.map Prod.fst)
          let b ← zip (ps.map Prod.snd)
          concat [a, b]) := by
  obtain ⟨a, a1, a2, a3, a4, a5, _⟩ := ha.zip
  obtain ⟨b, b1, b2, b3, b4, b5, _⟩ := hb.zip
  have eb : (ps.map Prod.snd).map (·.itemSize) = (ps.map Prod.fst).map (·.itemSize) := by
    rw [List.map_map, List.map_map]
    exact List.map_congr_left hk
  have es : ps.map (·.1.itemSize) = (ps.map Prod.fst).map (·.itemSize) := by rw [List.map_map]; rfl
  rw [es] at hs
  rw [eb, ← a3] at b3
  rw [← a3] at hs
  have ec : ∀ p ∈ ps, concat [p.1, p.2] = .ok (ofItems p.1.itemSize (items p.1 ++ items p.2)) := fun p hp => by
    have h1 := ha.wf p.1 (List.mem_map.2 ⟨p, hp, rfl⟩)
    have h2 := hb.wf p.2 (List.mem_map.2 ⟨p, hp, rfl⟩)
    rw [concat_eq (k := p.1.itemSize) (by simp) (by simp [h1, h2, hk p hp])]
    · simp
    · have c1 := ha.count p.1 (List.mem_map.2 ⟨p, hp, rfl⟩)
      have c2 := hb.count p.2 (List.mem_map.2 ⟨p, hp, rfl⟩)
      simp only [List.map_cons, List.map_nil, List.sum_cons, List.sum_nil, c1, c2, Nat.add_zero]
      refine Nat.lt_of_le_of_lt (Nat.mul_le_mul_left _ ?_) hs
      rw [a3]
      exact le_sum_of_one (List.mem_map.2 ⟨p.1, List.mem_map.2 ⟨p, hp, rfl⟩, rfl⟩)
  have em : ps.mapM (fun p => concat [p.1, p.2]) = .ok (ps.map fun p => ofItems p.1.itemSize (items p.1 ++ items p.2)) :=
    mapM_ok ps ec
  have hl : ∀ p ∈ ps, ∀ v ∈ items p.1 ++ items p.2, v.length = p.1.itemSize := fun p hp v hv => by
    rcases List.mem_append.1 hv with hv | hv
    · exact (ha.wf p.1 (List.mem_map.2 ⟨p, hp, rfl⟩)).item_length hv
    · rw [← hk p hp]
      exact (hb.wf p.2 (List.mem_map.2 ⟨p, hp, rfl⟩)).item_length hv
  have ek : (ps.map fun p => ofItems p.1.itemSize (items p.1 ++ items p.2)).map (·.itemSize) =
      (ps.map Prod.fst).map (·.itemSize) := by
    rw [List.map_map, List.map_map]; rfl
  have hp : Packable (ps.map fun p => ofItems p.1.itemSize (items p.1 ++ items p.2)) (n + m) := by
    refine ⟨by simpa using ha.some, ?_, ?_, by rw [ek]; exact ha.width, by rw [ek, ← a3]; exact hs⟩
    · intro t ht
      obtain ⟨p, hp, rfl⟩ := List.mem_map.1 ht
      have h1 := ha.wf p.1 (List.mem_map.2 ⟨p, hp, rfl⟩)
      have c1 := ha.count p.1 (List.mem_map.2 ⟨p, hp, rfl⟩)
      have c2 := hb.count p.2 (List.mem_map.2 ⟨p, hp, rfl⟩)
      refine WF_ofItems h1.pos h1.int (hl p hp) ?_
      rw [List.length_append, items_length, items_length, c1, c2]
      refine Nat.lt_of_le_of_lt (Nat.mul_le_mul_left _ ?_) hs
      rw [a3]
      exact le_sum_of_one (List.mem_map.2 ⟨p.1, List.mem_map.2 ⟨p, hp, rfl⟩, rfl⟩)
    · intro t ht
      obtain ⟨p, hp, rfl⟩ := List.mem_map.1 ht
      have c1 := ha.count p.1 (List.mem_map.2 ⟨p, hp, rfl⟩)
      have c2 := hb.count p.2 (List.mem_map.2 ⟨p, hp, rfl⟩)
      simp [ofItems, c1, c2]
  obtain ⟨z, z1, _, _, _, _, z6⟩ := hp.zip
  rw [em, Res.ok_bind, z1, a1, b1]
  simp only [Res.ok_bind]
  rw [concat_eq (k := a.itemSize) (by simp) (by simp [a2, b2, b3]) (by simpa [a4, b4] using hs), z6, ek, ← a3]
  simp only [List.map_cons, List.map_nil, List.flatten_cons, List.flatten_nil, List.append_nil]
  congr 2
  rw [a5, b5, ← List.map_append]
  congr 1
  unfold rows
  rw [List.range_add, List.map_append, List.map_map]
  congr 1
  · refine List.map_congr_left fun i hi => ?_
    have hi := List.mem_range.1 hi
    unfold row
    rw [List.map_map, List.map_map]
    refine List.map_congr_left fun p hp => ?_
    have c1 := ha.count p.1 (List.mem_map.2 ⟨p, hp, rfl⟩)
    have e := chunk_flatten (hl p hp) (i := i) (by simp [c1]; omega) []
    rw [List.append_nil] at e
    show chunk p.1.itemSize (items p.1 ++ items p.2).flatten i = _
    rw [e, List.getElem_append_left (by simp [c1]; omega), items_getElem]
    rfl
  · refine List.map_congr_left fun i hi => ?_
    have hi := List.mem_range.1 hi
    simp only [Function.comp]
    unfold row
    rw [List.map_map, List.map_map]
    refine List.map_congr_left fun p hp => ?_
    have c1 := ha.count p.1 (List.mem_map.2 ⟨p, hp, rfl⟩)
    have c2 := hb.count p.2 (List.mem_map.2 ⟨p, hp, rfl⟩)
    have e := chunk_flatten (hl p hp) (i := n + i) (by simp [c1, c2]; omega) []
    rw [List.append_nil] at e
    show chunk p.1.itemSize (items p.1 ++ items p.2).flatten (n + i) = _
    rw [e, List.getElem_append_right (by simp [c1]), items_getElem]
    simp only [items_length, c1, Nat.add_sub_cancel_left]
    rfl

example := C165_stack (ps := [(ex23, exTail), (⟨[8, 9], 2, 1, 3⟩, ⟨[5, 4], 2, 1, 3⟩)]) (n := 2) (m := 2)
  ⟨by decide, by decide, by decide, by decide, by decide⟩ ⟨by decide, by decide, by decide, by decide, by decide⟩ (by decide) (by decide)

end DF
