import Verif.Lemmas.Answer
import Verif.Props.Attributes

/-!
# Asking attributes: memory safety (C149), item size of the answers (C150)
-/

namespace DF

open Spec

variable {α : Type}

theorem axis_length : ∀ i : Fin 3, (axisName i).length = 1 := by decide

theorem axis_find : ∀ i : Fin 3, vector3Names.findIdx? (fun y => axisName i = y) = some i.val := by decide

/-! ## C149 -/

/-- C149: a manager has no undefined behaviour when the stored Series are well-formed and its decomposers have none. -/
theorem C149_manager [Zero α] {m : Manager α} (hw : ∀ e ∈ m.df.series, WF e.2) {k : Nat} {x : String}
    (h : ∀ dc ∈ m.ds, Answers dc m.df k x) : m.serie k x ≠ .ub :=
  (manager_safe (P := fun _ => True) trivial (fun e he _ _ => hw e he) (fun _ _ => trivial) fun dc hd => Safe.of_ne (h dc hd)).ne

theorem exFrame_wf : ∀ e ∈ exFrame.series, WF e.2 := by rw [exFrame_series]; decide

theorem exFrame_parts : HasParts exFrame "Syz" := by
  unfold HasParts
  rw [exFrame_series]
  decide

/-- C149, components: asked for a name, the decomposer reads the number given by the ending of the name in the Serie stored under
the rest of it. What is missing: it does not look if the items have this number. -/
theorem C149_components_partial [Zero α] {d : Dataframe α} (hr : ReachableFrame d) (hw : ∀ e ∈ d.series, WF e.2) {x : String}
    (hx : HasParts d x) (k : Nat) : Answers components d k x := (components_safe hr hw hx k).ne

example := C149_components_partial exFrame_reachable exFrame_wf exFrame_parts 1

example := C149_manager (m := ⟨exFrame, [components], 3⟩) exFrame_wf (k := 1) (x := "Syz")
  (List.forall_mem_singleton.2 (C149_components_partial exFrame_reachable exFrame_wf exFrame_parts 1))

/-- C149 is violated by the components: asked for the name of a stored Serie followed by the name of an axis that its items do not
have (`z` after the name of a Serie of pairs, `y` or `z` after the name of a Serie of numbers), a manager reads out of bounds. -/
theorem C149_components_violated [Zero α] {d : Dataframe α} (hr : ReachableFrame d) {n : String} {s : Serie α} (hs : Stored d n s)
    (h : WF s) (h0 : 0 < s.count) {i : Fin 3} (hi : s.itemSize ≤ i) (hno : ∀ t, Stored d (n ++ axisName i) t → t.itemSize ≠ 1)
    (ds : List (Decomposer α)) : (⟨d, components :: ds, 3⟩ : Manager α).serie 1 (n ++ axisName i) = .ub := by
  have e : components.serie d 1 (n ++ axisName i) = .ub := by
    show componentsSerie d 1 (n ++ axisName i) = _
    rw [comp_vector hr hs h.valid (k := 1) (x := axisName i) (i := i) (by omega) (axis_length i) (axis_find i)]
    exact pickItem_ub h h0 hi
  unfold Manager.serie
  rw [Manager.storedSerie_none (fun s hs => hno s hs)]
  simp only []
  unfold Manager.firstAnswer
  rw [e]
  rfl

example := C149_components_violated (d := (Dataframe.history 0 [.add "energ" ⟨[5, 7], 2, 1, 3⟩] : Dataframe Int)) ⟨_, _, rfl⟩
  (n := "energ") (s := ⟨[5, 7], 2, 1, 3⟩) (by decide +kernel) (by decide) (by decide) (i := 1) (by decide)
  (fun t ht => (not_stored (by decide +kernel) t ht).elim) []

/-- C149, coordinates: no undefined behaviour with three names, and positions in space. What is missing: with fewer names
(`C70_few_names_violated`) or positions in the plane (`C70_plane_violated`) there is. -/
theorem C149_coordinates_partial [Zero α] {d : Dataframe α} (hr : ReachableFrame d) {names : List String} (hn : 3 ≤ names.length)
    (hw : ∀ s, Stored d "positions" s → WF s ∧ 3 ≤ s.itemSize) (k : Nat) (x : String) : Answers (coordinates names) d k x :=
  (coordinates_safe hr hn hw k x).ne

theorem exFrame_pos : ∀ s, Stored exFrame "positions" s → WF s ∧ 3 ≤ s.itemSize :=
  fun s hs => stored_all (P := fun n s => n = "positions" → WF s ∧ 3 ≤ s.itemSize) (by rw [exFrame_series]; decide) "positions" s hs rfl

example := C149_coordinates_partial exFrame_reachable (names := ["x", "y", "z"]) (by decide) exFrame_pos 1 "q"

/-- C149, eigen values and vectors: no undefined behaviour for a name which ends with an ordinary character. -/
theorem C149_eigen_partial [Field α] [LinearOrder α] [OfScientific α] [Trig α] (d : Dataframe α) (k : Nat) (n : String) {c : Char}
    (h1 : 3 < c.toNat) (h2 : c.toNat < 256) : Answers eigenValuesAttr d k (n ++ c.toString) ∧ Answers eigenVectorsAttr d k (n ++ c.toString) := by
  constructor
  · show eigenSerie 1 eigenValues d k _ ≠ _
    rw [eigen_plain _ _ _ _ h1 h2]
    simp
  · show eigenSerie 3 eigenVectors d k _ ≠ _
    rw [eigen_plain _ _ _ _ h1 h2]
    simp

example := @C149_eigen_partial ℚ _ _ _ exTrig exFrame 1 "S" '1' (by decide) (by decide)

/-- C149 is violated by the eigen values and vectors: a manager asked for the empty name reads the character before the first. -/
theorem C149_eigen_violated [Field α] [LinearOrder α] [OfScientific α] [Trig α] (d : Dataframe α) (hno : ∀ s, ¬ Stored d "" s)
    (ds : List (Decomposer α)) :
    (⟨d, eigenValuesAttr :: ds, 3⟩ : Manager α).serie 1 "" = .ub ∧ (⟨d, eigenVectorsAttr :: ds, 3⟩ : Manager α).serie 3 "" = .ub := by
  constructor
  all_goals
    unfold Manager.serie
    rw [Manager.storedSerie_none (fun s hs => (hno s hs).elim)]
    rfl

example := @C149_eigen_violated ℚ _ _ _ exTrig exFrame (not_stored (by decide +kernel)) []

/-- C149, meshes: the normals and the valence, when the positions and the indices make a mesh. (The areas are the subject of
`C81_area_violated`.) -/
theorem C149_mesh [Field α] [LinearOrder α] [IsStrictOrderedRing α] [FloorRing α] {d : Dataframe α} {P I : Serie α} (hr : ReachableFrame d)
    (hP : Stored d "positions" P) (hI : Stored d "indices" I) (h : Mesh P I) (own : String) (k : Nat) (x : String) :
    Answers (normalsAttr own) d k x ∧ Answers (valenceAttr own) d k x := by
  by_cases hx : x = own
  · subst hx
    obtain ⟨r, e, _⟩ := C81_normals hr hP hI h x k
    obtain ⟨r', e', _⟩ := C71_valence hr hP hI h x k
    constructor
    · unfold Answers; rw [e]; simp
    · unfold Answers; rw [e']; simp
  · obtain ⟨r', e', _⟩ := C71_other d own x hx k
    constructor
    · show normalsSerie own d x ≠ _
      unfold normalsSerie
      rw [if_pos hx]
      intro h; cases h
    · unfold Answers; rw [e']; simp

example := C149_mesh exFrame_reachable exFrame_positions exFrame_indices exFrame_mesh "n" 3 "n"

/-- C149, all together: a Dataframe of well-formed Series with a mesh, the decomposers of the library other than the areas, and a name
that ends with an ordinary character and designates an existing component. -/
theorem C149_library_partial [Field α] [LinearOrder α] [IsStrictOrderedRing α] [FloorRing α] [OfScientific α] [Trig α] {m : Manager α} {P I : Serie α}
    (hr : ReachableFrame m.df) (hw : ∀ e ∈ m.df.series, WF e.2) (hP : Stored m.df "positions" P) (hI : Stored m.df "indices" I) (h : Mesh P I)
    (hd : ∀ dc ∈ m.ds, dc = components ∨ (∃ l : List String, 3 ≤ l.length ∧ dc = coordinates l) ∨ dc = eigenValuesAttr ∨ dc = eigenVectorsAttr ∨
      ∃ own, dc = normalsAttr own ∨ dc = valenceAttr own)
    (n : String) {c : Char} (h1 : 3 < c.toNat) (h2 : c.toNat < 256) (hx : HasParts m.df (n ++ c.toString)) (k : Nat) :
    m.serie k (n ++ c.toString) ≠ .ub := by
  refine C149_manager hw fun dc hdc => ?_
  rcases hd dc hdc with rfl | ⟨l, hl, rfl⟩ | rfl | rfl | ⟨own, rfl | rfl⟩
  · exact C149_components_partial hr hw hx k
  · refine C149_coordinates_partial hr hl (fun s hs => ?_) k _
    have e : s = P := (hr.get hs).symm.trans (hr.get hP)
    subst e
    exact ⟨h.pos, by rw [h.pos3]⟩
  · exact (C149_eigen_partial m.df k n h1 h2).1
  · exact (C149_eigen_partial m.df k n h1 h2).2
  · exact (C149_mesh hr hP hI h own k _).1
  · exact (C149_mesh hr hP hI h own k _).2

example := @C149_library_partial ℚ _ _ _ _ _ exTrig ⟨exFrame, [components, coordinates ["x", "y", "z"], normalsAttr "n"], 3⟩ _ _ exFrame_reachable
  exFrame_wf exFrame_positions exFrame_indices exFrame_mesh
  (List.forall_mem_cons.2 ⟨.inl rfl, List.forall_mem_cons.2 ⟨.inr (.inl ⟨_, by decide, rfl⟩),
    List.forall_mem_singleton.2 (.inr (.inr (.inr (.inr ⟨"n", .inl rfl⟩))))⟩⟩)
  "Sy" (c := 'z') (by decide) (by decide) exFrame_parts 1

/-! ## C150 -/

/-- C150: a manager whose decomposers give Series of the item size asked for does the same; the stored Series are given with this item
size anyway. -/
theorem C150_manager [Zero α] {m : Manager α} {k : Nat} {x : String} (hw : ∀ e ∈ m.df.series, WF e.2)
    (h : ∀ dc ∈ m.ds, ∀ r, dc.serie m.df k x = .ok r → Fitting k r) {r : Serie α} (e : m.serie k x = .ok r) : Fitting k r := by
  unfold Manager.serie at e
  cases e1 : Manager.storedSerie k x m.df.series with
  | some s =>
    rw [e1] at e
    simp only [] at e
    obtain ⟨h1, h2⟩ := storedSerie_mem e1
    have := clone_safe (hw _ h1)
    rw [h2, e] at this
    exact this
  | none =>
    rw [e1] at e
    simp only [] at e
    generalize m.ds = ds at e h
    induction ds with
    | nil => cases e; exact fitting_empty k
    | cons dc ds ih =>
      unfold Manager.firstAnswer at e
      cases e2 : dc.serie m.df k x with
      | ok t =>
        rw [e2, Res.ok_bind] at e
        split at e
        · cases e
          exact h dc (by simp) _ e2
        · exact ih e fun dc hd => h dc (List.mem_cons_of_mem _ hd)
      | throw t => rw [e2] at e; cases e
      | ub => rw [e2] at e; cases e

example : Fitting 6 (⟨[1, 2, 3, 4, 5, 6], 1, 6, 3⟩ : Serie ℚ) :=
  C150_manager (m := ⟨exFrame, [noDecomposer], 3⟩) (k := 6) (x := "S") exFrame_wf
    (List.forall_mem_singleton.2 fun r h => by cases h; exact fitting_empty 6) (by decide +kernel)

/-- C150, for the decomposers of the library: whatever the name, if the item size asked for is at least 1, and is 3 for normals, 1 for
valences, the Serie given has this item size and all its items can be read (or it is invalid). What is missing: the eigen vectors
(`C69_vectors_violated`), the areas, and the other item sizes. -/
theorem C150_library_partial [Field α] [LinearOrder α] [IsStrictOrderedRing α] [FloorRing α] {m : Manager α} {P I : Serie α}
    (hr : ReachableFrame m.df) (hw : ∀ e ∈ m.df.series, WF e.2) (hP : Stored m.df "positions" P) (hI : Stored m.df "indices" I) (h : Mesh P I)
    {k : Nat} (hk : 1 ≤ k) (hd : ∀ dc ∈ m.ds, dc = components ∨ (∃ l : List String, dc = coordinates l) ∨ (k = 3 ∧ ∃ own, dc = normalsAttr own) ∨
      (k = 1 ∧ ∃ own, dc = valenceAttr own))
    {x : String} {r : Serie α} (e : m.serie k x = .ok r) : Fitting k r := by
  refine C150_manager hw (fun dc hdc r e => ?_) e
  rcases hd dc hdc with rfl | ⟨l, rfl⟩ | ⟨rfl, own, rfl⟩ | ⟨rfl, own, rfl⟩
  · have := components_fitting hr hw e
    by_cases h1 : k ≤ 1
    · rw [if_pos h1] at this
      rwa [show k = 1 by omega]
    · rwa [if_neg h1] at this
  · exact coordinates_fitting hr hw e
  · by_cases hx : x = own
    · subst hx
      obtain ⟨t, q, q1, q2, _⟩ := C81_normals hr hP hI h x 3
      rw [q] at e
      cases e
      exact fun _ => ⟨q1, q2⟩
    · replace e : normalsSerie own m.df x = .ok r := e
      unfold normalsSerie at e
      rw [if_pos hx] at e
      cases e
      exact fitting_empty _
  · by_cases hx : x = own
    · subst hx
      obtain ⟨t, q, q1, q2, _⟩ := C71_valence hr hP hI h x 1
      rw [q] at e
      cases e
      exact fun _ => ⟨q1, q2⟩
    · obtain ⟨t, q, q1⟩ := C71_other m.df own x hx 1
      rw [q] at e
      cases e
      exact fun hv => by rw [q1] at hv; cases hv

example := C150_library_partial (m := ⟨exFrame, [components, coordinates ["x", "y", "z"], valenceAttr "v"], 3⟩) exFrame_reachable exFrame_wf
  exFrame_positions exFrame_indices exFrame_mesh (k := 1) le_rfl
  (List.forall_mem_cons.2 ⟨.inl rfl, List.forall_mem_cons.2 ⟨.inr (.inl ⟨_, rfl⟩),
    List.forall_mem_singleton.2 (.inr (.inr (.inr ⟨rfl, "v", rfl⟩)))⟩⟩)
  (x := "v") (r := ⟨[1, 2, 2, 1], 4, 1, 3⟩) (by decide +kernel)

/-- C150 is violated by the attributes of meshes: whatever the item size asked for, the normals are vectors and the valences are numbers. -/
theorem C150_mesh_violated [Field α] [LinearOrder α] [IsStrictOrderedRing α] [FloorRing α] {d : Dataframe α} {P I : Serie α} (hr : ReachableFrame d)
    (hP : Stored d "positions" P) (hI : Stored d "indices" I) (h : Mesh P I) (own : String) (hno : ∀ s, ¬ Stored d own s) (k : Nat) :
    (∃ r, (⟨d, [normalsAttr own], 3⟩ : Manager α).serie k own = .ok r ∧ r.isValid = true ∧ r.itemSize = 3) ∧
    ∃ r, (⟨d, [valenceAttr own], 3⟩ : Manager α).serie k own = .ok r ∧ r.isValid = true ∧ r.itemSize = 1 := by
  obtain ⟨r, e, h1, h2, _⟩ := C81_normals hr hP hI h own k
  obtain ⟨r', e', h1', h2', _⟩ := C71_valence hr hP hI h own k
  refine ⟨⟨r, ?_, h1.valid, h2⟩, ⟨r', ?_, h1'.valid, h2'⟩⟩
  · rw [C66_first (m := ⟨d, [normalsAttr own], 3⟩) (fun s hs => (hno s hs).elim) (pre := []) (post := []) (dc := normalsAttr own) rfl
      (fun _ h => by cases h) (fun t ht => by rw [show (normalsAttr own).serie d k own = _ from e] at ht; cases ht; exact h1.valid)]
    exact e
  · rw [C66_first (m := ⟨d, [valenceAttr own], 3⟩) (fun s hs => (hno s hs).elim) (pre := []) (post := []) (dc := valenceAttr own) rfl
      (fun _ h => by cases h) (fun t ht => by rw [show (valenceAttr own).serie d k own = _ from e'] at ht; cases ht; exact h1'.valid)]
    exact e'

example := C150_mesh_violated exFrame_reachable exFrame_positions exFrame_indices exFrame_mesh "n" (not_stored (by decide +kernel)) 7

/-- C150 is violated by the components asked for the item size 0: they are numbers. -/
theorem C150_zero_violated [Zero α] {d : Dataframe α} (hr : ReachableFrame d) {n : String} {s : Serie α} (hs : Stored d n s) (h : WF s)
    (h0 : 0 < s.count) (h3 : s.itemSize = 3) (i : Fin 3) :
    ∃ r, components.serie d 0 (n ++ axisName i) = .ok r ∧ r.isValid = true ∧ r.itemSize = 1 := by
  obtain ⟨r, e, h1, h2, _⟩ := pickItem_eq h h0 (i := i) (by omega)
  refine ⟨r, ?_, h1.valid, h2⟩
  show componentsSerie d 0 (n ++ axisName i) = _
  rw [comp_vector hr hs h.valid (k := 0) (x := axisName i) (i := i) (by omega) (axis_length i) (axis_find i)]
  exact e

example := C150_zero_violated exFrame_reachable exFrame_U (by decide) (by decide) rfl 2

end DF
