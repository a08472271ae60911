import Verif.Props.Attributes
import Verif.Props.Combine

/-!
# The attributes that hold the components of a Serie, put together again (C141)
-/

namespace DF

open Spec

variable {α : Type} [Zero α] {m : Manager α} {n : String} {s : Serie α}

theorem column_one (h : WF s) {p : Nat} (hp : p < s.itemSize) : column s 1 p = (items s).map fun t => [num t p] := by
  unfold column
  refine List.map_congr_left fun t ht => ?_
  have hl : p < t.length := by rw [h.item_length ht]; exact hp
  rw [List.drop_eq_getElem_cons hl]
  show [t[p]] = _
  simp [num, hl]

/-- A component obtained from the manager. -/
theorem serie_component (hno : NoClash m.df) (hs : Stored m.df n s) (h : WF s) (h0 : 0 < s.count)
    {rest : List (Decomposer α)} (hd : m.ds = components :: rest) {c : String}
    (hc : c ∈ ["x", "y", "z", "xx", "xy", "xz", "yx", "yy", "yz", "zx", "zy", "zz", "0"]) {p : Nat} (hp : p < s.itemSize)
    (e : components.serie m.df 1 (n ++ c) = pickItem p s) : m.serie 1 (n ++ c) = .ok (ofItems 1 (column s 1 p)) := by
  obtain ⟨r, h1, h2, h3, _, h5⟩ := pickItem_eq h h0 hp
  rw [C66_first (fun t ht => absurd rfl (hno n s _ t hs ht c hc)) (pre := []) hd (by simp) (by
    intro q hq
    rw [e, h1] at hq
    cases hq
    exact h2.valid), e, h1, column_one h hp]
  have hf := mapArr_items h h0 (k := 1) (g := fun t => [num t p]) (cb := fun item _ => do
    let x ← rd item p
    pure [x]) (by omega) (by omega) (fun _ _ => rfl) (fun v hv j => by
      rw [rd_of_lt (by omega), Res.ok_bind]
      show Res.ok _ = Res.ok _
      simp [num, hv, hp])
  rw [← hf, ← h1]
  rfl

theorem serie_vector (hr : ReachableFrame m.df) (hno : NoClash m.df) (hs : Stored m.df n s) (h : WF s) (h0 : 0 < s.count)
    (h3 : s.itemSize = 3) {rest : List (Decomposer α)} (hd : m.ds = components :: rest) (i : Fin 3) :
    m.serie 1 (n ++ axisName i) = .ok (ofItems 1 (column s 1 i)) :=
  serie_component hno hs h h0 hd (by revert i; decide) (by omega)
    (comp_vector hr hs h.valid (Nat.le_refl 1) (axisName_length i) (axisIndex i))

theorem serie_matrix (hr : ReachableFrame m.df) (hno : NoClash m.df) (hs : Stored m.df n s) (h : WF s) (h0 : 0 < s.count)
    {rest : List (Decomposer α)} (hd : m.ds = components :: rest) (i j : Fin 3) {p : Nat} (hp : p < s.itemSize)
    (hi : pairIndex (axisName i ++ axisName j) = some p) :
    m.serie 1 (n ++ (axisName i ++ axisName j)) = .ok (ofItems 1 (column s 1 p)) :=
  serie_component hno hs h h0 hd (by clear hi; revert i j; decide) hp
    (comp_matrix hr hs h.valid (Nat.le_refl 1) (axisName_length i) (axisName_length j)
      (fun t ht => hno n s _ t hs ht _ (by clear ht hi; revert i; decide) rfl) hi)

/-- C141: the components of a vector or of a symmetric tensor asked from the manager are what `unzip` gives. -/
theorem C141_unzip (hr : ReachableFrame m.df) (hno : NoClash m.df) (hs : Stored m.df n s) (h : WF s) (h0 : 0 < s.count)
    (hk : s.itemSize = 3 ∨ s.itemSize = 6) {rest : List (Decomposer α)} (hd : m.ds = components :: rest) :
    (componentNames s.itemSize).mapM (fun c => m.serie 1 (n ++ c)) = unzip s (List.replicate s.itemSize 1) := by
  rw [unzip_eq h (by have := h.pos; simp; omega) (by simp) (by simp)]
  rcases hk with hk | hk
  · rw [hk]
    show ["x", "y", "z"].mapM _ = _
    simp only [List.mapM_cons, List.mapM_nil]
    rw [show n ++ "x" = n ++ axisName 0 from rfl, show n ++ "y" = n ++ axisName 1 from rfl, show n ++ "z" = n ++ axisName 2 from rfl,
      serie_vector hr hno hs h h0 hk hd, serie_vector hr hno hs h h0 hk hd, serie_vector hr hno hs h h0 hk hd]
    rfl
  · rw [hk]
    show ["xx", "xy", "xz", "yy", "yz", "zz"].mapM _ = _
    simp only [List.mapM_cons, List.mapM_nil]
    have g := fun i j p hp => serie_matrix hr hno hs h h0 hd i j (p := p) (by rw [hk]; exact hp)
    rw [show m.serie 1 (n ++ "xx") = _ from g 0 0 0 (by omega) (by decide), show m.serie 1 (n ++ "xy") = _ from g 0 1 1 (by omega) (by decide),
      show m.serie 1 (n ++ "xz") = _ from g 0 2 2 (by omega) (by decide), show m.serie 1 (n ++ "yy") = _ from g 1 1 3 (by omega) (by decide),
      show m.serie 1 (n ++ "yz") = _ from g 1 2 4 (by omega) (by decide), show m.serie 1 (n ++ "zz") = _ from g 2 2 5 (by omega) (by decide)]
    rfl

example := C141_unzip (m := ⟨exFrame, [components], 3⟩) exFrame_reachable exFrame_noClash exFrame_U (by decide) (by decide) (.inl rfl) rfl
example := C141_unzip (m := ⟨exFrame, [components], 3⟩) exFrame_reachable exFrame_noClash exFrame_S (by decide) (by decide) (.inr rfl) rfl

/-- C141: zipped together, they are the items of the Serie. -/
theorem C141_zip (hr : ReachableFrame m.df) (hno : NoClash m.df) (hs : Stored m.df n s) (h : WF s) (h0 : 0 < s.count)
    (hk : s.itemSize = 3 ∨ s.itemSize = 6) {rest : List (Decomposer α)} (hd : m.ds = components :: rest) :
    ∃ r, ((componentNames s.itemSize).mapM (fun c => m.serie 1 (n ++ c)) >>= fun l => zip l) = .ok r ∧ WF r ∧
      r.itemSize = s.itemSize ∧ items r = items s := by
  rw [C141_unzip hr hno hs h h0 hk hd, C28_zip_unzip h (by have := h.pos; simp; omega) (by simp) (by simp)]
  have hl : ∀ v ∈ items s, v.length = s.itemSize := fun v hv => h.item_length hv
  refine ⟨_, rfl, WF_ofItems h.pos h.int hl ?_, rfl, items_ofItems hl⟩
  rw [items_length]
  exact Nat.lt_of_le_of_lt h.fits h.small

example := C141_zip (m := ⟨exFrame, [components], 3⟩) exFrame_reachable exFrame_noClash exFrame_S (by decide) (by decide) (.inr rfl) rfl

/-- C141 is violated for full tensors, three of the components being wrong: what is put together is another tensor. -/
theorem C141_full_violated (hr : ReachableFrame m.df) (hno : NoClash m.df) (hs : Stored m.df n s) (h : WF s) (h0 : 0 < s.count)
    (hk : s.itemSize = 9) {rest : List (Decomposer α)} (hd : m.ds = components :: rest) :
    ∃ r, ((componentNames s.itemSize).mapM (fun c => m.serie 1 (n ++ c)) >>= fun l => zip l) = .ok r ∧ r.itemSize = 9 ∧
      items r = (items s).map fun t => [num t 0, num t 1, num t 2, num t 3, num t 3, num t 4, num t 6, num t 7, num t 5] := by
  rw [hk]
  have g := fun i j p hp => serie_matrix hr hno hs h h0 hd i j (p := p) (by rw [hk]; exact hp)
  have run : (componentNames 9).mapM (fun c => m.serie 1 (n ++ c)) = .ok ([0, 1, 2, 3, 3, 4, 6, 7, 5].map fun p => ofItems 1 (column s 1 p)) := by
    show ["xx", "xy", "xz", "yx", "yy", "yz", "zx", "zy", "zz"].mapM _ = _
    simp only [List.mapM_cons, List.mapM_nil]
    rw [show m.serie 1 (n ++ "xx") = _ from g 0 0 0 (by omega) (by decide), show m.serie 1 (n ++ "xy") = _ from g 0 1 1 (by omega) (by decide),
      show m.serie 1 (n ++ "xz") = _ from g 0 2 2 (by omega) (by decide), show m.serie 1 (n ++ "yx") = _ from g 1 0 3 (by omega) (by decide),
      show m.serie 1 (n ++ "yy") = _ from g 1 1 3 (by omega) (by decide), show m.serie 1 (n ++ "yz") = _ from g 1 2 4 (by omega) (by decide),
      show m.serie 1 (n ++ "zx") = _ from g 2 0 6 (by omega) (by decide), show m.serie 1 (n ++ "zy") = _ from g 2 1 7 (by omega) (by decide),
      show m.serie 1 (n ++ "zz") = _ from g 2 2 5 (by omega) (by decide)]
    rfl
  have hp9 : ∀ p ∈ [0, 1, 2, 3, 3, 4, 6, 7, 5], p < s.itemSize := by rw [hk]; decide
  have hw : ∀ t ∈ ([0, 1, 2, 3, 3, 4, 6, 7, 5].map fun p => ofItems 1 (column s 1 p)), WF t ∧ t.count = s.count := by
    intro t ht
    obtain ⟨p, hp, rfl⟩ := List.mem_map.1 ht
    rw [column_one h (hp9 p hp)]
    have hf := ofItems_map_facts h (k := 1) (g := fun t => [num t p]) (by omega) (by omega) (fun _ _ => rfl)
    exact ⟨hf.1, hf.2.2.1⟩
  obtain ⟨r, e, _, wr, kr, cr, ir⟩ := C28_zip (n := s.count) (by simp) (fun t ht => (hw t ht).1) (fun t ht => (hw t ht).2)
    (by simp [ofItems]) (by
      have h1 := h.fits
      have h2 := h.small
      rw [hk] at h1
      simp [ofItems]
      omega)
  refine ⟨r, by rw [run, Res.ok_bind, e], kr.trans (by simp [ofItems]), ?_⟩
  rw [ir]
  apply List.ext_getElem (by simp [rows])
  intro i h1 h2
  have hi : i < s.count := by simpa [rows] using h1
  have row_eq : ∀ p, p < 9 → chunk (ofItems 1 (column s 1 p)).itemSize (ofItems 1 (column s 1 p)).data i =
      [num ((items s)[i]'(by simpa using hi)) p] := by
    intro p hp
    have e1 : (items (ofItems 1 (column s 1 p)))[i]? =
        some (chunk (ofItems 1 (column s 1 p)).itemSize (ofItems 1 (column s 1 p)).data i) := by
      unfold items
      rw [List.getElem?_map, List.getElem?_range (by simpa [ofItems, column] using hi)]
      rfl
    refine Option.some.inj (e1.symm.trans ?_)
    rw [column_one h (by omega), items_ofItems (fun v hv => by obtain ⟨t, _, rfl⟩ := List.mem_map.1 hv; rfl), List.getElem?_map,
      List.getElem?_eq_getElem (by simpa using hi)]
    rfl
  simp only [rows, row, List.getElem_map, List.getElem_range, List.map_cons, List.map_nil]
  rw [row_eq 0 (by omega), row_eq 1 (by omega), row_eq 2 (by omega), row_eq 3 (by omega), row_eq 4 (by omega), row_eq 5 (by omega),
    row_eq 6 (by omega), row_eq 7 (by omega)]
  rfl

theorem exFrame2_noClash : NoClash exFrame2 := by
  have h : ∀ a ∈ exFrame2.series, ∀ b ∈ exFrame2.series,
      ∀ x ∈ ["x", "y", "z", "xx", "xy", "xz", "yx", "yy", "yz", "zx", "zy", "zz", "0"], b.1 ≠ a.1 ++ x := by decide +kernel
  exact fun n s m t h1 h2 => h (n, s) h1 (m, t) h2

example := C141_full_violated (m := ⟨exFrame2, [components], 3⟩) exFrame2_reachable exFrame2_noClash (n := "F")
  (s := ⟨[1, 2, 3, 4, 5, 6, 7, 8, 9], 1, 9, 3⟩) (by decide +kernel) (by decide) (by decide) rfl rfl

end DF
