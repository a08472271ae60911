import Verif.Spec.Attributes
import Verif.Lemmas.Dataframe
import Verif.Lemmas.Geo

/-!
# Lemmas on the attributes
-/

namespace DF

open Spec

variable {α : Type}

/-! ## Stored Series -/

theorem mapFind_iff {β : Type} {n : String} {s : β} {l : List (String × β)} (h : Sorted l) :
    mapFind n l = some s ↔ (n, s) ∈ l := by
  induction l with
  | nil => simp [mapFind]
  | cons p l ih =>
    obtain ⟨k, b⟩ := p
    unfold Sorted at h
    rw [List.map_cons, List.pairwise_cons] at h
    have ih := ih h.2
    rw [List.mem_cons, mapFind]
    by_cases e : k = n
    · subst e
      rw [if_pos rfl]
      constructor
      · intro h; simp at h; left; rw [h]
      · rintro (h' | h')
        · simp at h'; rw [h']
        · exact absurd (h.1 k (List.mem_map_of_mem (f := (·.1)) h')) (lt_irrefl _)
    · rw [if_neg e, ih]
      constructor
      · exact .inr
      · rintro (h' | h')
        · simp at h'; exact absurd h'.1.symm e
        · exact h'

theorem Spec.ReachableFrame.sorted [Zero α] {d : Dataframe α} (h : ReachableFrame d) : Sorted d.series := by
  obtain ⟨c, ops, rfl⟩ := h
  exact (Represents.history c ops).sorted

theorem Spec.ReachableFrame.dim [Zero α] {d : Dataframe α} (h : ReachableFrame d) {n : String} {s : Serie α} (hs : Stored d n s) :
    s.dimension = 3 := by
  have := (mapFind_iff h.sorted).2 hs
  obtain ⟨c, ops, rfl⟩ := h
  have hr := Represents.history c ops
  rw [hr.find] at this
  exact hr.dim n s this

theorem Spec.ReachableFrame.get [Zero α] {d : Dataframe α} (h : ReachableFrame d) {n : String} {s : Serie α} (hs : Stored d n s) :
    d.get n = s := by
  unfold Dataframe.get
  rw [(mapFind_iff h.sorted).2 hs]
  rfl

theorem get_missing [Zero α] {d : Dataframe α} {n : String} (h : ∀ s, ¬ Stored d n s) : d.get n = Serie.empty := by
  unfold Dataframe.get
  rw [mapFind_none]
  · rfl
  · intro hm
    obtain ⟨⟨k, s⟩, hp, rfl⟩ := List.mem_map.1 hm
    exact h s hp

theorem contains_iff {d : Dataframe α} {n : String} : d.contains n = true ↔ ∃ s, Stored d n s := by
  unfold Dataframe.contains
  rw [mapFind_isSome]
  simp [Stored]

theorem nameOfSerie_stored {d : Dataframe α} {n : String} {s : Serie α} (h : Stored d n s) :
    d.nameOfSerie (.stored n) = n := by
  unfold Dataframe.nameOfSerie
  cases e : d.series.find? fun e => Dataframe.Place.stored e.1 = .stored n with
  | none =>
    have := List.find?_eq_none.1 e (n, s) h
    simp at this
  | some p =>
    have := List.find?_some e
    simpa using this

/-! ## Names -/

theorem dropEnd_append (n x : String) : dropEnd (n ++ x) x.length = n := by
  unfold dropEnd
  rw [if_neg (by simp)]
  simp only [String.length_append, Nat.add_sub_cancel, String.toList_append]
  rw [← String.length_toList, List.take_left, String.ofList_toList]

theorem suffixIndex_append (n x : String) (l : List String) : suffixIndex (n ++ x) n l = l.findIdx? (fun y => x = y) := by
  unfold suffixIndex
  congr 1
  funext y
  simp

/-! ## Manager -/

namespace Manager

theorem mem_setInsert {x y : String} {l : List String} : y ∈ setInsert x l ↔ y = x ∨ y ∈ l := by
  induction l with
  | nil => simp [setInsert]
  | cons z l ih =>
    unfold setInsert
    split
    · simp
    · split
      · rename_i h; subst h; simp
      · simp only [List.mem_cons, ih]; tauto

theorem setInsert_sorted {x : String} {l : List String} (h : l.Pairwise (· < ·)) : (setInsert x l).Pairwise (· < ·) := by
  induction l with
  | nil => simp [setInsert]
  | cons z l ih =>
    rw [List.pairwise_cons] at h
    unfold setInsert
    split
    · rename_i hx
      refine List.pairwise_cons.2 ⟨fun y hy => ?_, List.pairwise_cons.2 h⟩
      rcases List.mem_cons.1 hy with rfl | hy
      · exact hx
      · exact lt_trans hx (h.1 y hy)
    · split
      · exact List.pairwise_cons.2 h
      · rename_i h1 h2
        refine List.pairwise_cons.2 ⟨fun y hy => ?_, ih h.2⟩
        rcases mem_setInsert.1 hy with rfl | hy
        · exact lt_of_le_of_ne (not_lt.1 h1) (Ne.symm h2)
        · exact h.1 y hy

/-- Insertion of several names. -/
theorem insertAll {l : List String} : ∀ {acc : List String}, acc.Pairwise (· < ·) →
    (l.foldl (fun names s => setInsert s names) acc).Pairwise (· < ·) ∧
      ∀ y, y ∈ l.foldl (fun names s => setInsert s names) acc ↔ y ∈ acc ∨ y ∈ l := by
  induction l with
  | nil => intro acc h; exact ⟨h, fun y => by simp⟩
  | cons x l ih =>
    intro acc h
    rw [List.foldl_cons]
    obtain ⟨h1, h2⟩ := ih (setInsert_sorted (x := x) h)
    refine ⟨h1, fun y => ?_⟩
    rw [h2, mem_setInsert, List.mem_cons]
    tauto

/-- One stored Serie. -/
theorem offers {m : Manager α} {k : Nat} {e : String × Serie α} : ∀ (ds : List (Decomposer α)),
    (∀ dc ∈ ds, ∃ l, dc.names m.df k e.2 (.stored e.1) e.1 = .ok l) →
    ∀ {acc : List String}, acc.Pairwise (· < ·) →
    ∃ r, ds.foldlM (fun names dc => do
      let otherNames ← dc.names m.df k e.2 (.stored e.1) e.1
      pure (otherNames.foldl (fun names s => setInsert s names) names)) acc = .ok r ∧ r.Pairwise (· < ·) ∧
      ∀ y, y ∈ r ↔ y ∈ acc ∨ ∃ dc ∈ ds, ∃ l, dc.names m.df k e.2 (.stored e.1) e.1 = .ok l ∧ y ∈ l := by
  intro ds
  induction ds with
  | nil => intro _ acc h; exact ⟨acc, rfl, h, fun y => by simp⟩
  | cons dc ds ih =>
    intro hok acc h
    obtain ⟨l, hl⟩ := hok dc (by simp)
    obtain ⟨h1, h2⟩ := insertAll (l := l) h
    obtain ⟨r, hr, h3, h4⟩ := ih (fun dc hd => hok dc (by simp [hd])) h1
    refine ⟨r, ?_, h3, fun y => ?_⟩
    · rw [List.foldlM_cons, hl, Res.ok_bind]
      exact hr
    · rw [h4, h2]
      constructor
      · rintro ((h | h) | ⟨dc', hd, l', hl', hy⟩)
        · exact .inl h
        · exact .inr ⟨dc, by simp, l, hl, h⟩
        · exact .inr ⟨dc', by simp [hd], l', hl', hy⟩
      · rintro (h | ⟨dc', hd, l', hl', hy⟩)
        · exact .inl (.inl h)
        · rcases List.mem_cons.1 hd with rfl | hd
          · rw [hl] at hl'
            cases hl'
            exact .inl (.inr hy)
          · exact .inr ⟨dc', hd, l', hl', hy⟩

theorem names_spec (m : Manager α) (k : Nat)
    (hok : ∀ n s, Stored m.df n s → ∀ dc ∈ m.ds, ∃ l, dc.names m.df k s (.stored n) n = .ok l) :
    ∃ r, m.names k = .ok r ∧ r.Pairwise (· < ·) ∧ ∀ x, x ∈ r ↔
      (∃ s, Stored m.df x s ∧ s.itemSize = k ∧ s.dimension = m.dimension ∧ x ≠ "positions" ∧ x ≠ "indices") ∨
        Offered m k x := by
  unfold names Offered Stored
  unfold Stored at hok
  have key : ∀ (l : List (String × Serie α)), (∀ e ∈ l, ∀ dc ∈ m.ds, ∃ l, dc.names m.df k e.2 (.stored e.1) e.1 = .ok l) →
      ∀ {acc : List String}, acc.Pairwise (· < ·) → ∃ r, l.foldlM (fun names (e : String × Serie α) =>
      let names :=
        if e.2.itemSize = k ∧ e.2.dimension = m.dimension then
          if e.1 ≠ "positions" ∧ e.1 ≠ "indices" then setInsert e.1 names else names
        else names
      m.ds.foldlM (fun names dc => do
        let otherNames ← dc.names m.df k e.2 (.stored e.1) e.1
        pure (otherNames.foldl (fun names s => setInsert s names) names)) names) acc = Res.ok r ∧ r.Pairwise (· < ·) ∧
      ∀ x, x ∈ r ↔ x ∈ acc ∨
        (∃ s, (x, s) ∈ l ∧ s.itemSize = k ∧ s.dimension = m.dimension ∧ x ≠ "positions" ∧ x ≠ "indices") ∨
          ∃ n s, (n, s) ∈ l ∧ ∃ dc ∈ m.ds, ∃ l, dc.names m.df k s (.stored n) n = .ok l ∧ x ∈ l := by
    intro l
    induction l with
    | nil => intro _ acc h; exact ⟨acc, rfl, h, fun x => by simp⟩
    | cons e l ih =>
      intro hok acc h
      rw [List.foldlM_cons]
      have h0 : (if e.2.itemSize = k ∧ e.2.dimension = m.dimension then
          if e.1 ≠ "positions" ∧ e.1 ≠ "indices" then setInsert e.1 acc else acc else acc).Pairwise (· < ·) ∧
          ∀ x, x ∈ (if e.2.itemSize = k ∧ e.2.dimension = m.dimension then
            if e.1 ≠ "positions" ∧ e.1 ≠ "indices" then setInsert e.1 acc else acc else acc) ↔ x ∈ acc ∨
              (x = e.1 ∧ e.2.itemSize = k ∧ e.2.dimension = m.dimension ∧ x ≠ "positions" ∧ x ≠ "indices") := by
        split
        · rename_i hc
          split
          · rename_i hn
            refine ⟨setInsert_sorted h, fun x => ?_⟩
            rw [mem_setInsert]
            constructor
            · rintro (rfl | hx)
              · exact .inr ⟨rfl, hc.1, hc.2, hn⟩
              · exact .inl hx
            · rintro (hx | hx)
              · exact .inr hx
              · exact .inl hx.1
          · rename_i hn
            refine ⟨h, fun x => ⟨.inl, ?_⟩⟩
            rintro (hx | ⟨rfl, _, _, hx⟩)
            · exact hx
            · exact absurd hx hn
        · rename_i hc
          refine ⟨h, fun x => ⟨.inl, ?_⟩⟩
          rintro (hx | ⟨_, hx, hx', _⟩)
          · exact hx
          · exact absurd ⟨hx, hx'⟩ hc
      obtain ⟨r1, e1, p1, m1⟩ := offers m.ds (hok e (by simp)) h0.1
      obtain ⟨r, e2, p2, m2⟩ := ih (fun e he => hok e (by simp [he])) p1
      refine ⟨r, ?_, p2, fun x => ?_⟩
      · rw [show _ = Res.ok r1 from e1, Res.ok_bind]
        exact e2
      · rw [m2, m1, h0.2]
        obtain ⟨n, s⟩ := e
        constructor
        · rintro (((hx | ⟨rfl, hx⟩) | ⟨dc, hd, hx⟩) | ⟨t, ht, hx⟩ | ⟨n', t, ht, hx⟩)
          · exact .inl hx
          · exact .inr (.inl ⟨s, by simp, hx⟩)
          · exact .inr (.inr ⟨n, s, by simp, dc, hd, hx⟩)
          · exact .inr (.inl ⟨t, by simp [ht], hx⟩)
          · exact .inr (.inr ⟨n', t, by simp [ht], hx⟩)
        · rintro (hx | ⟨t, ht, hx⟩ | ⟨n', t, ht, hx⟩)
          · exact .inl (.inl (.inl hx))
          · rcases List.mem_cons.1 ht with ht | ht
            · cases ht
              exact .inl (.inl (.inr ⟨rfl, hx⟩))
            · exact .inr (.inl ⟨t, ht, hx⟩)
          · rcases List.mem_cons.1 ht with ht | ht
            · cases ht
              exact .inl (.inr hx)
            · exact .inr (.inr ⟨n', t, ht, hx⟩)
  obtain ⟨r, h1, h2, h3⟩ := key m.df.series (fun e he => hok e.1 e.2 he) (acc := []) List.Pairwise.nil
  exact ⟨r, h1, h2, fun x => by rw [h3]; simp⟩

theorem storedSerie_some {k : Nat} {n : String} {s : Serie α} {l : List (String × Serie α)} (h : Sorted l)
    (hs : (n, s) ∈ l) (hk : s.itemSize = k) : storedSerie k n l = some s := by
  induction l with
  | nil => simp at hs
  | cons e l ih =>
    obtain ⟨x, t⟩ := e
    unfold Sorted at h
    rw [List.map_cons, List.pairwise_cons] at h
    unfold storedSerie
    rcases List.mem_cons.1 hs with hs | hs
    · cases hs
      rw [if_pos hk, if_pos rfl]
    · have hne : n ≠ x := fun e => by
        have := h.1 n (List.mem_map_of_mem (f := (·.1)) hs)
        rw [e] at this
        exact lt_irrefl _ this
      rw [if_neg hne, ite_self]
      exact ih h.2 hs

theorem storedSerie_none {k : Nat} {n : String} {l : List (String × Serie α)}
    (hs : ∀ s, (n, s) ∈ l → s.itemSize ≠ k) : storedSerie k n l = none := by
  induction l with
  | nil => rfl
  | cons e l ih =>
    obtain ⟨x, t⟩ := e
    unfold storedSerie
    have ih := ih fun s h => hs s (by simp [h])
    by_cases e : n = x
    · subst e
      rw [if_neg (hs t (by simp))]
      exact ih
    · rw [if_neg e, ite_self]
      exact ih

theorem firstAnswer_pre [Zero α] {df : Dataframe α} {k : Nat} {name : String} {pre ds : List (Decomposer α)}
    (h : ∀ dc ∈ pre, ∃ r, dc.serie df k name = .ok r ∧ r.isValid = false) :
    firstAnswer df k name (pre ++ ds) = firstAnswer df k name ds := by
  induction pre with
  | nil => rfl
  | cons dc pre ih =>
    obtain ⟨r, hr, hv⟩ := h dc (by simp)
    rw [List.cons_append, firstAnswer, hr, Res.ok_bind, if_neg (by simp [hv])]
    exact ih fun dc hd => h dc (by simp [hd])

end Manager

/-! ## Items -/

theorem pickItem_eq [Zero α] {s : Serie α} (h : WF s) (h0 : 0 < s.count) {i : Nat} (hi : i < s.itemSize) :
    ∃ r, pickItem i s = .ok r ∧ WF r ∧ r.itemSize = 1 ∧ r.count = s.count ∧
      ItemWise (fun t w => w = [num t i]) s r := by
  have hf := ofItems_map_facts h (k := 1) (g := fun t => [num t i]) (by omega) (by omega) (fun _ _ => rfl)
  refine ⟨_, mapArr_items h h0 (k := 1) (g := fun t => [num t i]) (by omega) (by omega) (fun _ _ => rfl) (fun v hv j => ?_), hf.1, hf.2.1, hf.2.2.1,
    ItemWise_map hf.2.2.2 fun t _ => rfl⟩
  rw [rd_of_lt (by omega), Res.ok_bind]
  show Res.ok _ = Res.ok _
  simp [num, hv, hi]

theorem pickItem_ub [Zero α] {s : Serie α} (h : WF s) (h0 : 0 < s.count) {i : Nat} (hi : s.itemSize ≤ i) :
    pickItem i s = .ub := by
  refine mapArr_ub0 h h0 fun v hv => ?_
  rw [rd_of_ge (by omega)]
  rfl

/-! ## Components -/

section components

variable [Zero α] {d : Dataframe α}

omit [Zero α] in
theorem copy_eq (s : Serie α) : s.copy = s := rfl

omit [Zero α] in
theorem assign_same {s t : Serie α} (h : s.dimension = t.dimension) : (Serie.assign s t).2 = s := by
  unfold Serie.assign
  rw [← h]

theorem comp_vector (hr : ReachableFrame d) {n : String} {s : Serie α} (hs : Stored d n s) (hv : s.isValid = true) {k : Nat}
    (hk : k ≤ 1) {x : String} {i : Nat} (hx : x.length = 1) (hi : vector3Names.findIdx? (fun y => x = y) = some i) :
    componentsSerie d k (n ++ x) = pickItem i s := by
  unfold componentsSerie
  have e := dropEnd_append n x
  rw [hx] at e
  rw [if_neg (by omega)]
  simp only [e, hr.get hs, copy_eq]
  have : vectorIndex (n ++ x) n s = some i := by
    unfold vectorIndex
    rw [if_pos hv, if_neg (by rw [hr.dim hs]; decide), suffixIndex_append, hi]
  rw [this]

/-- The number looked up for a pair of axes. -/
def pairIndex (x : String) : Option Nat :=
  match smatrix3Names.findIdx? (fun y => x = y) with
  | some i => some i
  | none => matrix3Names.findIdx? (fun y => x = y)

theorem comp_matrix (hr : ReachableFrame d) {n : String} {s : Serie α} (hs : Stored d n s) (hv : s.isValid = true) {k : Nat}
    (hk : k ≤ 1) {x y : String} {i : Nat} (hx : x.length = 1) (hy : y.length = 1) (hno : ∀ t, ¬ Stored d (n ++ x) t)
    (hi : pairIndex (x ++ y) = some i) :
    componentsSerie d k (n ++ (x ++ y)) = pickItem i s := by
  unfold componentsSerie
  have e1 := dropEnd_append (n ++ x) y
  have e2 := dropEnd_append n (x ++ y)
  rw [hy, String.append_assoc] at e1
  rw [String.length_append, hx, hy] at e2
  rw [if_neg (by omega)]
  simp only [e1, e2, get_missing hno, hr.get hs, copy_eq]
  have h1 : vectorIndex (n ++ (x ++ y)) (n ++ x) (Serie.empty : Serie α) = none := rfl
  rw [h1]
  simp only []
  rw [assign_same (hr.dim hs)]
  have h2 : matrixIndex (n ++ (x ++ y)) n s = some i := by
    unfold matrixIndex
    rw [if_pos hv, if_neg (by rw [hr.dim hs]; decide), suffixIndex_append, suffixIndex_append]
    exact hi
  rw [h2]

theorem suffixIndex_none {name b : String} {l : List String} {c : Char} (hc : name.toList.getLast? = some c)
    (hl : ∀ y ∈ l, ∃ c', y.toList.getLast? = some c' ∧ c' ≠ c) : suffixIndex name b l = none := by
  unfold suffixIndex
  rw [List.findIdx?_eq_none_iff]
  intro y hy
  obtain ⟨c', h1, h2⟩ := hl y hy
  simp only [decide_eq_false_iff_not]
  rintro rfl
  rw [String.toList_append, List.getLast?_append, h1] at hc
  simp at hc
  exact h2 hc

theorem comp_zero (hr : ReachableFrame d) {n : String} {s : Serie α} (hs : Stored d n s) (hv : s.isValid = true) :
    componentsSerie d 1 (n ++ "0") = pickItem 0 s := by
  unfold componentsSerie
  have e := dropEnd_append n "0"
  rw [show "0".length = 1 from rfl] at e
  rw [if_neg (by omega)]
  have hl : (n ++ "0").toList.getLast? = some '0' := by
    rw [String.toList_append, List.getLast?_append]; rfl
  simp only [e, hr.get hs, copy_eq]
  have h1 : vectorIndex (n ++ "0") n s = none := by
    unfold vectorIndex
    rw [if_pos hv, if_neg (by rw [hr.dim hs]; decide)]
    exact suffixIndex_none hl (by decide)
  rw [h1]
  simp only []
  have h2 : matrixIndex (n ++ "0") (dropEnd (n ++ "0") 2) (Serie.assign (d.get (dropEnd (n ++ "0") 2)) s).2 = none := by
    unfold matrixIndex
    split
    · rw [if_neg (by simp [Serie.assign, hr.dim hs]), suffixIndex_none hl (by decide), suffixIndex_none hl (by decide)]
    · rfl
  rw [h2]
  simp only []
  have h3 : (Serie.assign s (Serie.assign (d.get (dropEnd (n ++ "0") 2)) s).2).2 = s := assign_same rfl
  rw [h3]
  have h4 : numberIndex 1 (n ++ "0") n s = some 0 := by
    unfold numberIndex
    rw [if_pos hv, suffixIndex_append]
    decide
  rw [h4]

theorem components_names (hr : ReachableFrame d) {n : String} {s : Serie α} (hs : Stored d n s) (h1 : n ≠ "positions")
    (h2 : n ≠ "indices") (h3 : s.itemSize ≠ 1) :
    componentsNames d 1 s (.stored n) n = (if s.itemSize = 3 ∨ s.itemSize = 6 ∨ s.itemSize = 9 then
      componentNames s.itemSize else ["0"]).map fun x => n ++ x := by
  unfold componentsNames
  rw [if_neg (by simp [h1, h2]), if_neg (fun h => h3 h.2), if_neg (by omega), if_neg (by rw [hr.dim hs]; decide)]
  unfold componentNames
  split
  · rename_i h; rw [if_pos (.inl h)]; rfl
  · split
    · rename_i h; rw [if_pos (.inr (.inl h))]; rfl
    · split
      · rename_i h; rw [if_pos (.inr (.inr h))]; rfl
      · rw [if_neg (by omega)]; rfl

end components

/-! ## Valence -/

section valence

variable [Ring α] [LinearOrder α] [IsStrictOrderedRing α] [FloorRing α]

/-- One more corner at vertex `i`. -/
def bump (i : Nat) (ids : List α) : List α := ids.set i ((ids[i]?).getD 0 + 1)

omit [LinearOrder α] [IsStrictOrderedRing α] [FloorRing α] in
theorem bump_get (i v : Nat) (ids : List α) :
    (bump i ids)[v]? = (ids[v]?).map fun x => x + if v = i then 1 else 0 := by
  unfold bump
  rw [List.getElem?_set]
  by_cases h : i = v
  · subst h
    rw [if_pos rfl, if_pos rfl]
    by_cases h' : i < ids.length
    · simp [h']
    · rw [if_neg h', List.getElem?_eq_none (by omega)]; rfl
  · rw [if_neg h, if_neg (Ne.symm h)]
    simp

omit [LinearOrder α] [IsStrictOrderedRing α] [FloorRing α] in
theorem bump_length (i : Nat) (ids : List α) : (bump i ids).length = ids.length := by simp [bump]

omit [LinearOrder α] [IsStrictOrderedRing α] [FloorRing α] in
theorem bump_sum {i : Nat} : ∀ {ids : List α}, i < ids.length → (bump i ids).sum = ids.sum + 1 := by
  unfold bump
  induction i with
  | zero =>
    intro ids h
    match ids, h with
    | x :: ids, _ => simp; abel
  | succ i ih =>
    intro ids h
    match ids, h with
    | x :: ids, h =>
      have := ih (ids := ids) (by simpa using h)
      simp at this ⊢
      rw [this]; abel

theorem countVertex_eq {t : List α} {k i : Nat} {ids : List α} (ht : t[k]? = some (i : α)) (hi : i < ids.length)
    (hl : ids.length < 2 ^ 32) : countVertex t k ids = .ok (bump i ids) := by
  obtain ⟨hk, hk'⟩ := List.getElem?_eq_some_iff.1 ht
  unfold countVertex bump
  rw [rd_of_lt hk, Res.ok_bind, hk', if_pos]
  · rw [Res.ok_bind, Int.floor_natCast, Int.toNat_natCast, rd_of_lt hi, Res.ok_bind, wr_of_lt (by omega)]
    simp [hi]
  · refine ⟨lt_of_lt_of_le (by simp) (Nat.cast_nonneg i), ?_⟩
    have : i < 2 ^ 64 := by omega
    exact_mod_cast this

/-- The effect of one triangle. -/
def bumpTri (ids t : List α) : List α :=
  bump ⌊num t 2⌋.toNat (bump ⌊num t 1⌋.toNat (bump ⌊num t 0⌋.toNat ids))

theorem bumpTri_eq {t : List α} {a b c : Nat} (ht : Triangle t a b c) (ids : List α) :
    bumpTri ids t = bump c (bump b (bump a ids)) := by
  unfold Triangle at ht
  subst ht
  simp [bumpTri, num]

omit [IsStrictOrderedRing α] in
theorem triangle_count {t : List α} {a b c : Nat} (ht : Triangle t a b c) (v : Nat) :
    t.count (v : α) = (if v = a then 1 else 0) + (if v = b then 1 else 0) + (if v = c then 1 else 0) := by
  unfold Triangle at ht
  subst ht
  simp only [List.count_cons, List.count_nil, beq_iff_eq, Nat.cast_inj, eq_comm (a := v)]
  omega

theorem valence_run {P I : Serie α} (h : Mesh P I) :
    ∃ ids : List α, Eff.exec (forEachV (fun t _ => Eff.update fun ids => do
        let ids ← countVertex t 0 ids
        let ids ← countVertex t 1 ids
        countVertex t 2 ids) I) (List.replicate P.count 0) = .ok ids ∧ ids.length = P.count ∧
      (∀ v < P.count, ids[v]? = some ((((items I).map fun t => t.count (v : α)).sum : Nat) : α)) ∧
      ids.sum = ((3 * I.count : Nat) : α) := by
  have hPc : P.count < 2 ^ 32 := h.pos.count_lt
  obtain ⟨h1, h2⟩ := exec_forEachV h.tri (by rw [h.tri3]; decide) (f := fun t _ => Eff.update fun ids => do
        let ids ← countVertex t 0 ids
        let ids ← countVertex t 1 ids
        countVertex t 2 ids) (step := bumpTri) (Inv := fun ids => ids.length = P.count)
    (st := List.replicate P.count (0 : α)) (by simp) (by
      intro t ht _ ids hi
      obtain ⟨a, b, c, hT, ha, hb, hc⟩ := h.inRange t ht
      have e := bumpTri_eq hT ids
      refine ⟨Eff.update_ok ?_, by rw [e]; simp [bump_length, hi]⟩
      rw [e]
      unfold Triangle at hT
      rw [countVertex_eq (i := a) (by rw [hT]; rfl) (by omega) (by omega), Res.ok_bind,
        countVertex_eq (i := b) (by rw [hT]; rfl) (by rw [bump_length]; omega) (by rw [bump_length]; omega), Res.ok_bind,
        countVertex_eq (i := c) (by rw [hT]; rfl) (by simp only [bump_length]; omega) (by simp only [bump_length]; omega)])
  refine ⟨_, h1, h2, ?_⟩
  have key : ∀ (l : List (List α)), (∀ t ∈ l, t ∈ items I) → ∀ ids : List α, ids.length = P.count →
      (∀ v < P.count, (l.foldl bumpTri ids)[v]? =
        (ids[v]?).map fun x => x + (((l.map fun t => t.count (v : α)).sum : Nat) : α)) ∧
      (l.foldl bumpTri ids).sum = ids.sum + ((3 * l.length : Nat) : α) := by
    intro l
    induction l with
    | nil => intro _ ids _; simp
    | cons t l ih =>
      intro hm ids hi
      obtain ⟨a, b, c, hT, ha, hb, hc⟩ := h.inRange t (hm t (by simp))
      have e := bumpTri_eq hT ids
      obtain ⟨i1, i2⟩ := ih (fun t ht => hm t (by simp [ht])) (bumpTri ids t) (by rw [e]; simp [bump_length, hi])
      rw [List.foldl_cons]
      refine ⟨fun v hv => ?_, ?_⟩
      · rw [i1 v hv, e, bump_get, bump_get, bump_get, List.map_cons, List.sum_cons, triangle_count hT]
        simp only [Option.map_map]
        congr 1
        funext x
        simp only [Function.comp_apply]
        push_cast
        abel
      · rw [i2, e, bump_sum (by simp only [bump_length]; omega), bump_sum (by simp only [bump_length]; omega),
          bump_sum (by omega), List.length_cons]
        push_cast
        rw [mul_add]
        have : (3 : α) = 1 + 1 + 1 := by norm_num
        rw [this]
        simp only [mul_one]
        abel
  obtain ⟨k1, k2⟩ := key (items I) (fun _ h => h) (List.replicate P.count 0) (by simp)
  refine ⟨fun v hv => ?_, ?_⟩
  · rw [k1 v hv]
    simp [hv]
  · rw [k2, items_length]
    simp

end valence

end DF
