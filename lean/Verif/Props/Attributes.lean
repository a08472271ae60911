import Verif.Lemmas.Attributes
import Verif.Props.Geo
import Verif.Props.Eigen
import Verif.Props.Dataframe

/-!
# Properties of the attributes (C65-C72, C81, C82)
-/

namespace DF

open Spec

variable {α : Type}

/-- The Dataframe of the examples: a vector, a symmetric tensor and a mesh. -/
def exFrame : Dataframe ℚ :=
  Dataframe.history 0 [.add "U" ⟨[1, 2, 3, 4, 5, 6], 2, 3, 3⟩, .add "S" ⟨[1, 2, 3, 4, 5, 6], 1, 6, 3⟩,
    .add "positions" ⟨[0, 0, 0, 1, 0, 0, 0, 1, 0, 1, 1, 0], 4, 3, 3⟩, .add "indices" ⟨[0, 1, 2, 1, 3, 2], 2, 3, 3⟩]

theorem exFrame_reachable : ReachableFrame exFrame := ⟨_, _, rfl⟩

theorem exFrame_series : exFrame.series = [("S", ⟨[1, 2, 3, 4, 5, 6], 1, 6, 3⟩), ("U", ⟨[1, 2, 3, 4, 5, 6], 2, 3, 3⟩),
    ("indices", ⟨[0, 1, 2, 1, 3, 2], 2, 3, 3⟩), ("positions", ⟨[0, 0, 0, 1, 0, 0, 0, 1, 0, 1, 1, 0], 4, 3, 3⟩)] := by
  decide +kernel

instance [DecidableEq α] (d : Dataframe α) (n : String) (s : Serie α) : Decidable (Stored d n s) :=
  inferInstanceAs (Decidable ((n, s) ∈ d.series))

/-- How the examples check a statement on the stored Series. -/
theorem stored_all {d : Dataframe α} {P : String → Serie α → Prop} (h : ∀ e ∈ d.series, P e.1 e.2) (n : String) (s : Serie α)
    (hs : Stored d n s) : P n s := h (n, s) hs

/-- How the examples check that a name is not stored. -/
theorem not_stored {d : Dataframe α} {n : String} (h : ∀ e ∈ d.series, e.1 ≠ n) (s : Serie α) : ¬ Stored d n s :=
  fun hs => h (n, s) hs rfl

/-- The triangles of `exFrame`. -/
theorem exFrame_mesh : Mesh (⟨[0, 0, 0, 1, 0, 0, 0, 1, 0, 1, 1, 0], 4, 3, 3⟩ : Serie ℚ) ⟨[0, 1, 2, 1, 3, 2], 2, 3, 3⟩ where
  pos := by decide
  tri := by decide
  pos3 := rfl
  tri3 := rfl
  inRange := by
    intro t ht
    have : t = [0, 1, 2] ∨ t = [1, 3, 2] := by
      have e : items (⟨[0, 1, 2, 1, 3, 2], 2, 3, 3⟩ : Serie ℚ) = [[0, 1, 2], [1, 3, 2]] := rfl
      simpa [e] using ht
    rcases this with rfl | rfl
    · exact ⟨0, 1, 2, by simp [Triangle], by decide, by decide, by decide⟩
    · exact ⟨1, 3, 2, by simp [Triangle], by decide, by decide, by decide⟩

theorem exFrame_U : Stored exFrame "U" ⟨[1, 2, 3, 4, 5, 6], 2, 3, 3⟩ := by decide +kernel

theorem exFrame_S : Stored exFrame "S" ⟨[1, 2, 3, 4, 5, 6], 1, 6, 3⟩ := by decide +kernel

theorem exFrame_positions : Stored exFrame "positions" ⟨[0, 0, 0, 1, 0, 0, 0, 1, 0, 1, 1, 0], 4, 3, 3⟩ := by decide +kernel

theorem exFrame_indices : Stored exFrame "indices" ⟨[0, 1, 2, 1, 3, 2], 2, 3, 3⟩ := by decide +kernel

/-- A Dataframe with a full tensor, an item of four numbers and a scalar Serie whose name clashes with a component. -/
def exFrame2 : Dataframe ℚ :=
  Dataframe.history 0 [.add "F" ⟨[1, 2, 3, 4, 5, 6, 7, 8, 9], 1, 9, 3⟩, .add "Q" ⟨[1, 2, 3, 4], 1, 4, 3⟩,
    .add "Nx" ⟨[1, 2], 2, 1, 3⟩, .add "E" ⟨[], 0, 3, 3⟩]

theorem exFrame2_reachable : ReachableFrame exFrame2 := ⟨_, _, rfl⟩

/-- Angle functions for the examples in which they are not used. -/
abbrev exTrig : Trig ℚ := ⟨3, id, id, id⟩

/-! ## C65 -/

/-- C65: the names listed are in strictly increasing order (so without duplicates), and they are the stored names of the
requested item size (and of the dimension of the manager; not `positions` and `indices`) and those offered by the decomposers
for the stored Series. -/
theorem C65_names (m : Manager α) (k : Nat)
    (hok : ∀ n s, Stored m.df n s → ∀ dc ∈ m.ds, ∃ l, dc.names m.df k s (.stored n) n = .ok l) :
    ∃ r, m.names k = .ok r ∧ r.Pairwise (· < ·) ∧ ∀ x, x ∈ r ↔
      (∃ s, Stored m.df x s ∧ s.itemSize = k ∧ s.dimension = m.dimension ∧ x ≠ "positions" ∧ x ≠ "indices") ∨
        Offered m k x :=
  m.names_spec k hok

example := C65_names (⟨exFrame, [components, coordinates ["x", "y", "z"]], 3⟩ : Manager ℚ) 1
  (stored_all (P := fun n s => ∀ dc ∈ [components, coordinates ["x", "y", "z"]], ∃ l, dc.names exFrame 1 s (.stored n) n = .ok l)
    (by decide +kernel))

/-- The decomposers of the library. -/
inductive Builtin [Field α] [LinearOrder α] [FloorRing α] [Sqrt α] [OfScientific α] [Trig α] : Decomposer α → Prop
  | components : Builtin components
  | coordinates (names : List String) : Builtin (coordinates names)
  | eigenValues : Builtin eigenValuesAttr
  | eigenVectors : Builtin eigenVectorsAttr
  | normals (n : String) : Builtin (normalsAttr n)
  | area (n : String) : Builtin (areaAttr n)
  | valence (n : String) : Builtin (valenceAttr n)

/-- C65: with the decomposers of the library, `names` always returns. -/
theorem C65_builtin [Field α] [LinearOrder α] [FloorRing α] [Sqrt α] [OfScientific α] [Trig α] (m : Manager α) (k : Nat)
    (h : ∀ dc ∈ m.ds, Builtin dc) :
    ∃ r, m.names k = .ok r ∧ r.Pairwise (· < ·) ∧ ∀ x, x ∈ r ↔
      (∃ s, Stored m.df x s ∧ s.itemSize = k ∧ s.dimension = m.dimension ∧ x ≠ "positions" ∧ x ≠ "indices") ∨
        Offered m k x := by
  refine C65_names m k fun n s _ dc hd => ?_
  cases h dc hd <;> exact ⟨_, rfl⟩

example := @C65_builtin ℚ _ _ _ ⟨id⟩ _ exTrig ⟨exFrame, [components, coordinates ["x", "y", "z"]], 3⟩ 1
  (List.forall_mem_cons.2 ⟨@Builtin.components _ _ _ _ ⟨id⟩ _ exTrig,
    List.forall_mem_singleton.2 (@Builtin.coordinates _ _ _ _ ⟨id⟩ _ exTrig _)⟩)

example : (⟨exFrame, [components, coordinates ["x", "y", "z"]], 3⟩ : Manager ℚ).names 1 =
    .ok ["Sxx", "Sxy", "Sxz", "Syy", "Syz", "Szz", "Ux", "Uy", "Uz", "x", "y", "z"] := by decide +kernel

example : (⟨exFrame, [components, coordinates ["x", "y", "z"]], 3⟩ : Manager ℚ).names 3 = .ok ["U"] := by decide +kernel

/-- C65 is violated for Series of dimension 2: a Dataframe forgets the dimension, so a manager of dimension 2 lists no stored
name. -/
theorem C65_dimension_violated [Zero α] {m : Manager α} (hr : ReachableFrame m.df) (hd : m.dimension = 2) (hs : m.ds = [])
    (k : Nat) : m.names k = .ok [] := by
  obtain ⟨r, h1, _, h2⟩ := C65_names m k (fun n s _ dc hdc => by rw [hs] at hdc; simp at hdc)
  rw [h1]
  congr 1
  refine List.eq_nil_iff_forall_not_mem.2 fun x hx => ?_
  rcases (h2 x).1 hx with ⟨s, h3, _, h4, _⟩ | ⟨_, _, _, dc, hdc, _⟩
  · rw [hr.dim h3, hd] at h4
    omega
  · rw [hs] at hdc; simp at hdc

example := C65_dimension_violated (m := ⟨exFrame, [], 2⟩) exFrame_reachable rfl rfl 3

/-! ## C66 -/

/-- C66: a stored Serie of the requested item size is returned unchanged, whatever the decomposers. -/
theorem C66_stored [Zero α] {m : Manager α} (hr : ReachableFrame m.df) {n : String} {s : Serie α} (hs : Stored m.df n s)
    (h : WF s) (hc : s.count = s.data.length / s.itemSize) : m.serie s.itemSize n = .ok s := by
  unfold Manager.serie
  rw [Manager.storedSerie_some hr.sorted hs rfl]
  show s.clone = _
  rw [(C05_partial s s).2 h hc, ← hr.dim hs]

example := C66_stored (m := ⟨exFrame, [components], 3⟩) exFrame_reachable exFrame_U (by decide) rfl

/-- C66: otherwise the answer is that of the first decomposer which does not give an invalid Serie: its Serie, or its
failure. -/
theorem C66_first [Zero α] {m : Manager α} {k : Nat} {n : String} (hs : ∀ s, Stored m.df n s → s.itemSize ≠ k)
    {pre post : List (Decomposer α)} {dc : Decomposer α} (hd : m.ds = pre ++ dc :: post)
    (hpre : ∀ dc ∈ pre, ∃ r, dc.serie m.df k n = .ok r ∧ r.isValid = false)
    (hdc : ∀ r, dc.serie m.df k n = .ok r → r.isValid = true) : m.serie k n = dc.serie m.df k n := by
  unfold Manager.serie
  rw [Manager.storedSerie_none hs]
  simp only []
  rw [hd, Manager.firstAnswer_pre hpre, Manager.firstAnswer]
  cases e : dc.serie m.df k n with
  | ok r => rw [Res.ok_bind, if_pos (hdc r e)]; rfl
  | throw e => rfl
  | ub => rfl

example := C66_first (m := ⟨exFrame, [noDecomposer, components], 3⟩) (k := 1) (n := "Sxz")
  (stored_all (P := fun n s => n = "Sxz" → s.itemSize ≠ 1) (by decide +kernel) "Sxz" · · rfl) (pre := [noDecomposer]) rfl
  (List.forall_mem_singleton.2 ⟨_, rfl, rfl⟩)
  (fun r hr => by
    rw [show components.serie exFrame 1 "Sxz" = .ok ⟨[3], 1, 1, 3⟩ by decide +kernel] at hr
    cases hr; rfl)

/-- C66: when no decomposer answers, the Serie is invalid. -/
theorem C66_none [Zero α] {m : Manager α} {k : Nat} {n : String} (hs : ∀ s, Stored m.df n s → s.itemSize ≠ k)
    (h : ∀ dc ∈ m.ds, ∃ r, dc.serie m.df k n = .ok r ∧ r.isValid = false) :
    ∃ r, m.serie k n = .ok r ∧ r.isValid = false ∧ r.count = 0 := by
  refine ⟨Serie.empty, ?_, rfl, rfl⟩
  unfold Manager.serie
  rw [Manager.storedSerie_none hs]
  simp only []
  rw [← List.append_nil m.ds, Manager.firstAnswer_pre h]
  rfl

example := C66_none (m := ⟨exFrame, [noDecomposer, components], 3⟩) (k := 1) (n := "Q") (fun s hs => (not_stored (by decide +kernel) s hs).elim)
  (List.forall_mem_cons.2 ⟨⟨_, rfl, rfl⟩, List.forall_mem_singleton.2 ⟨⟨[], 0, 0, 3⟩, by decide +kernel, rfl⟩⟩)

/-- C66: `contains` tells if the name is listed. -/
theorem C66_contains {m : Manager α} {k : Nat} {r : List String} (h : m.names k = .ok r) (x : String) :
    ∃ b, m.contains k x = .ok b ∧ (b = true ↔ x ∈ r) := by
  refine ⟨r.contains x, ?_, by simp⟩
  unfold Manager.contains
  rw [h]
  rfl

example := C66_contains (m := (⟨exFrame, [components, coordinates ["x", "y", "z"]], 3⟩ : Manager ℚ)) (k := 3) (r := ["U"])
  (by decide +kernel) "U"

/-- C66 is violated for the item size 0 of the invalid Series that a Dataframe may store: the copy divides by zero. -/
theorem C66_zero_violated [Zero α] {m : Manager α} (hr : ReachableFrame m.df) {n : String} {s : Serie α}
    (hs : Stored m.df n s) (h : s.itemSize = 0) : m.serie 0 n = .ub := by
  unfold Manager.serie
  rw [Manager.storedSerie_some hr.sorted hs h]
  unfold Serie.clone Serie.ofArray Serie.divCount
  simp only [h]
  rfl

example := C66_zero_violated (m := (⟨Dataframe.history 0 [.access "A"], [], 3⟩ : Manager Int)) ⟨_, _, rfl⟩ (n := "A")
  (s := Serie.empty) (by decide +kernel) rfl

example : Stored (Dataframe.history 0 [.access "A"] : Dataframe Int) "A" Serie.empty := by
  simp [Stored, Dataframe.history, DOp.run, Dataframe.access, mapTouch, Dataframe.make]

example : (⟨exFrame, [components], 3⟩ : Manager ℚ).serie 3 "U" = .ok ⟨[1, 2, 3, 4, 5, 6], 2, 3, 3⟩ := by decide +kernel
example : (⟨exFrame, [noDecomposer, components], 3⟩ : Manager ℚ).serie 1 "Sxz" = .ok ⟨[3], 1, 1, 3⟩ := by
  decide +kernel
example : (⟨exFrame, [noDecomposer, components], 3⟩ : Manager ℚ).serie 1 "Q" = .ok ⟨[], 0, 0, 3⟩ := by
  decide +kernel

/-- C66: registering a decomposer puts it last. -/
theorem C66_add (m : Manager α) (dc : Decomposer α) :
    (m.add dc).ds = m.ds ++ [dc] ∧ (m.add dc).nbDecomposers = m.nbDecomposers + 1 ∧ m.clear.nbDecomposers = 0 ∧
      (m.add dc).df = m.df ∧ m.clear.df = m.df := by
  refine ⟨rfl, ?_, rfl, rfl, rfl⟩
  unfold Manager.nbDecomposers Manager.add
  simp

/-! ## C68 -/

section components

variable [Zero α] {d : Dataframe α} {n : String} {s : Serie α}

theorem axisName_length (i : Fin 3) : (axisName i).length = 1 := by
  revert i; decide

theorem axisIndex (i : Fin 3) : vector3Names.findIdx? (fun y => axisName i = y) = some (i : Nat) := by
  revert i; decide

/-- C68: the names listed for a stored Serie of vectors or tensors. -/
theorem C68_names (hr : ReachableFrame d) (hs : Stored d n s) (h1 : n ≠ "positions") (h2 : n ≠ "indices")
    (h3 : s.itemSize = 3 ∨ s.itemSize = 6 ∨ s.itemSize = 9) :
    components.names d 1 s (.stored n) n = .ok ((componentNames s.itemSize).map fun x => n ++ x) := by
  show Res.ok _ = _
  rw [components_names hr hs h1 h2 (by omega), if_pos h3]

example := C68_names exFrame_reachable exFrame_S (by decide) (by decide) (.inr (.inl rfl))

/-- C68 is violated for the other item sizes: only the first component is listed, the requested item size being taken for
that of the Serie. -/
theorem C68_others_violated (hr : ReachableFrame d) (hs : Stored d n s) (h1 : n ≠ "positions") (h2 : n ≠ "indices")
    (h3 : s.itemSize ∉ [1, 3, 6, 9]) : components.names d 1 s (.stored n) n = .ok [n ++ "0"] := by
  simp only [List.mem_cons, List.not_mem_nil, or_false, not_or] at h3
  show Res.ok _ = _
  rw [components_names hr hs h1 h2 h3.1, if_neg (by omega)]
  rfl

example := C68_others_violated exFrame2_reachable (n := "Q") (s := ⟨[1, 2, 3, 4], 1, 4, 3⟩) (by decide +kernel) (by decide)
  (by decide) (by decide)

/-- C68: this first component. -/
theorem C68_number_partial (hr : ReachableFrame d) (hs : Stored d n s) (h : WF s) (h0 : 0 < s.count) :
    ∃ r, components.serie d 1 (n ++ "0") = .ok r ∧ WF r ∧ r.itemSize = 1 ∧ r.count = s.count ∧
      ItemWise (fun t w => w = [num t 0]) s r := by
  have e : components.serie d 1 (n ++ "0") = pickItem 0 s := comp_zero hr hs h.valid
  rw [e]
  exact pickItem_eq h h0 h.pos

example := C68_number_partial exFrame2_reachable (n := "Q") (s := ⟨[1, 2, 3, 4], 1, 4, 3⟩) (by decide +kernel) (by decide)
  (by decide)

example : let d : Dataframe Int := Dataframe.history 0 [.add "Q" ⟨[1, 2, 3, 4], 1, 4, 3⟩]
    components.names d 1 (d.get "Q") (.stored "Q") "Q" = .ok ["Q0"] ∧ components.serie d 1 "Q0" = .ok ⟨[1], 1, 1, 3⟩ ∧
      components.serie d 1 "Q1" = .ok ⟨[], 0, 0, 3⟩ := by decide +kernel

/-- C68: the names given by a direct call for a Serie of dimension 2 (a Dataframe holds none): axes of the plane for vectors,
pairs of axes for tensors; only the first number for the other item sizes. -/
theorem C68_plane_names (d : Dataframe α) (n : String) (s : Serie α) (hd : s.dimension = 2) (p : Dataframe.Place)
    (h1 : n ≠ "positions") (h2 : n ≠ "indices") (h3 : s.itemSize ≠ 1) :
    ∃ l, components.names d 1 s p n = .ok l ∧
      (s.itemSize = 2 → l = [n ++ "x", n ++ "y"]) ∧ (s.itemSize = 3 → l = [n ++ "xx", n ++ "xy", n ++ "yy"]) ∧
      (s.itemSize = 4 → l = [n ++ "xx", n ++ "xy", n ++ "yx", n ++ "yy"]) ∧ (5 ≤ s.itemSize → l = [n ++ "0"]) := by
  refine ⟨_, rfl, ?_⟩
  unfold componentsNames
  rw [if_neg (by simp [h1, h2]), if_neg (fun h => h3 h.2), if_neg (by omega), if_pos hd]
  refine ⟨fun h => ?_, fun h => ?_, fun h => ?_, fun h => ?_⟩
  · rw [if_pos h]; rfl
  · rw [if_neg (by omega), if_pos h]; rfl
  · rw [if_neg (by omega), if_neg (by omega), if_pos h]; rfl
  · rw [if_neg (by omega), if_neg (by omega), if_neg (by omega)]; rfl

example := C68_plane_names exFrame "T" ⟨[1, 2, 3], 1, 3, 2⟩ rfl .elsewhere (by decide) (by decide) (by decide)

/-- C68: no component is listed for a scalar Serie, nor for the positions and indices, nor for item sizes above one. -/
theorem C68_no_names (hs : Stored d n s) (k : Nat) (h : s.itemSize = 1 ∨ n = "positions" ∨ n = "indices" ∨ 1 < k) :
    components.names d k s (.stored n) n = .ok [] := by
  show Res.ok _ = _
  congr 1
  unfold componentsNames
  rw [nameOfSerie_stored hs]
  split
  · rfl
  · rename_i h1
    split
    · rfl
    · rename_i h2
      rw [if_pos]
      rcases h with h | h | h | h
      · exact absurd ⟨rfl, h⟩ h2
      · exact absurd (.inl h) h1
      · exact absurd (.inr h) h1
      · exact h

example := C68_no_names exFrame_positions 1 (.inr (.inl rfl))

/-- C68: components of vectors. -/
theorem C68_vector (hr : ReachableFrame d) (hs : Stored d n s) (h : WF s) (h0 : 0 < s.count) (h3 : s.itemSize = 3)
    (i : Fin 3) :
    ∃ r, components.serie d 1 (n ++ axisName i) = .ok r ∧ WF r ∧ r.itemSize = 1 ∧ r.count = s.count ∧
      ItemWise (fun t w => w = [vec 3 t i]) s r := by
  have e : components.serie d 1 (n ++ axisName i) = pickItem i s :=
    comp_vector hr hs h.valid (Nat.le_refl 1) (axisName_length i) (axisIndex i)
  rw [e]
  exact pickItem_eq h h0 (by omega)

example := C68_vector exFrame_reachable exFrame_U (by decide) (by decide) rfl 1

/-- C68: components of symmetric tensors, when no Serie is stored under the name with one axis. -/
theorem C68_symmetric (hr : ReachableFrame d) (hs : Stored d n s) (h : WF s) (h0 : 0 < s.count) (h6 : s.itemSize = 6)
    (i j : Fin 3) (hij : i ≤ j) (hno : ∀ t, ¬ Stored d (n ++ axisName i) t) :
    ∃ r, components.serie d 1 (n ++ (axisName i ++ axisName j)) = .ok r ∧ WF r ∧ r.itemSize = 1 ∧ r.count = s.count ∧
      ItemWise (fun t w => w = [symMatrix3 t i j]) s r := by
  have key : ∃ p < 6, pairIndex (axisName i ++ axisName j) = some p ∧ ∀ t : List α, symMatrix3 t i j = num t p := by
    fin_cases i <;> fin_cases j <;> first
      | exact absurd hij (by decide)
      | exact ⟨0, by decide, by decide, fun _ => rfl⟩
      | exact ⟨1, by decide, by decide, fun _ => rfl⟩
      | exact ⟨2, by decide, by decide, fun _ => rfl⟩
      | exact ⟨3, by decide, by decide, fun _ => rfl⟩
      | exact ⟨4, by decide, by decide, fun _ => rfl⟩
      | exact ⟨5, by decide, by decide, fun _ => rfl⟩
  obtain ⟨p, hp, h1, h2⟩ := key
  have e : components.serie d 1 (n ++ (axisName i ++ axisName j)) = pickItem p s :=
    comp_matrix hr hs h.valid (Nat.le_refl 1) (axisName_length i) (axisName_length j) hno h1
  rw [e]
  obtain ⟨r, h3, h4, h5, h7, h8⟩ := pickItem_eq h h0 (i := p) (by omega)
  exact ⟨r, h3, h4, h5, h7, h8.imp fun t w hw => by rw [hw, h2]⟩

example := C68_symmetric exFrame_reachable exFrame_S (by decide) (by decide) rfl 0 2 (by decide) (not_stored (by decide +kernel))

theorem fullIndex (i j : Fin 3) : ∃ p < 9, pairIndex (axisName i ++ axisName j) = some p ∧
    p = if i = 1 ∧ j = 1 then 3 else if i = 1 ∧ j = 2 then 4 else if i = 2 ∧ j = 2 then 5 else (i : Nat) * 3 + j := by
  revert i j; decide

theorem comp_full (hr : ReachableFrame d) (hs : Stored d n s) (h : WF s) (h0 : 0 < s.count) (h9 : s.itemSize = 9)
    (i j : Fin 3) (hno : ∀ t, ¬ Stored d (n ++ axisName i) t) :
    ∃ r, components.serie d 1 (n ++ (axisName i ++ axisName j)) = .ok r ∧ WF r ∧ r.itemSize = 1 ∧ r.count = s.count ∧
      ItemWise (fun t w => w = [num t (if i = 1 ∧ j = 1 then 3 else if i = 1 ∧ j = 2 then 4 else if i = 2 ∧ j = 2 then 5
        else (i : Nat) * 3 + j)]) s r := by
  obtain ⟨p, hp, h1, h2⟩ := fullIndex i j
  have e : components.serie d 1 (n ++ (axisName i ++ axisName j)) = pickItem p s :=
    comp_matrix hr hs h.valid (Nat.le_refl 1) (axisName_length i) (axisName_length j) hno h1
  rw [e, ← h2]
  exact pickItem_eq h h0 (by omega)

/-- C68, for full tensors: six of the nine components. Missing: `yy`, `yz`, `zz` (see `C68_full_violated`). -/
theorem C68_full_partial (hr : ReachableFrame d) (hs : Stored d n s) (h : WF s) (h0 : 0 < s.count) (h9 : s.itemSize = 9)
    (i j : Fin 3) (hij : i = 0 ∨ j < i) (hno : ∀ t, ¬ Stored d (n ++ axisName i) t) :
    ∃ r, components.serie d 1 (n ++ (axisName i ++ axisName j)) = .ok r ∧ WF r ∧ r.itemSize = 1 ∧ r.count = s.count ∧
      ItemWise (fun t w => w = [fullMatrix 3 t i j]) s r := by
  obtain ⟨r, h3, h4, h5, h7, h8⟩ := comp_full hr hs h h0 h9 i j hno
  have key : (if i = 1 ∧ j = 1 then 3 else if i = 1 ∧ j = 2 then 4 else if i = 2 ∧ j = 2 then 5
        else (i : Nat) * 3 + j) = (i : Nat) * 3 + j := by
    clear h3 h8 hno
    revert i j; decide
  rw [key] at h8
  exact ⟨r, h3, h4, h5, h7, h8⟩

example := C68_full_partial exFrame2_reachable (n := "F") (s := ⟨[1, 2, 3, 4, 5, 6, 7, 8, 9], 1, 9, 3⟩) (by decide +kernel)
  (by decide) (by decide) rfl 2 1 (by decide) (not_stored (by decide +kernel))

/-- C68 is violated for full tensors: `yy` gives the component `yx`, `yz` gives `yy`, and `zz` gives `yz`. -/
theorem C68_full_violated (hr : ReachableFrame d) (hs : Stored d n s) (h : WF s) (h0 : 0 < s.count) (h9 : s.itemSize = 9)
    (hy : ∀ t, ¬ Stored d (n ++ "y") t) (hz : ∀ t, ¬ Stored d (n ++ "z") t) :
    (∃ r, components.serie d 1 (n ++ "yy") = .ok r ∧ ItemWise (fun t w => w = [fullMatrix 3 t 1 0]) s r) ∧
    (∃ r, components.serie d 1 (n ++ "yz") = .ok r ∧ ItemWise (fun t w => w = [fullMatrix 3 t 1 1]) s r) ∧
    ∃ r, components.serie d 1 (n ++ "zz") = .ok r ∧ ItemWise (fun t w => w = [fullMatrix 3 t 1 2]) s r := by
  obtain ⟨r, h3, _, _, _, h8⟩ := comp_full hr hs h h0 h9 1 1 hy
  obtain ⟨r', h3', _, _, _, h8'⟩ := comp_full hr hs h h0 h9 1 2 hy
  obtain ⟨r'', h3'', _, _, _, h8''⟩ := comp_full hr hs h h0 h9 2 2 hz
  exact ⟨⟨r, h3, h8⟩, ⟨r', h3', h8'⟩, ⟨r'', h3'', h8''⟩⟩

example := C68_full_violated exFrame2_reachable (n := "F") (s := ⟨[1, 2, 3, 4, 5, 6, 7, 8, 9], 1, 9, 3⟩) (by decide +kernel)
  (by decide) (by decide) rfl (not_stored (by decide +kernel)) (not_stored (by decide +kernel))

/-- Such a Dataframe; here the three components asked for are 5, 6 and 9, and 4, 5, 6 are obtained. -/
example : let d : Dataframe Int := Dataframe.history 0 [.add "F" ⟨[1, 2, 3, 4, 5, 6, 7, 8, 9], 1, 9, 3⟩]
    components.serie d 1 "Fyy" = .ok ⟨[4], 1, 1, 3⟩ ∧ components.serie d 1 "Fyz" = .ok ⟨[5], 1, 1, 3⟩ ∧
      components.serie d 1 "Fzz" = .ok ⟨[6], 1, 1, 3⟩ := by decide +kernel

/-- C68 is violated when another Serie is stored under the name with one axis: a scalar Serie `Nx` makes `Nxy` read out of
bounds. -/
theorem C68_clash_violated (hr : ReachableFrame d) {i j : Fin 3} {t : Serie α} (ht : Stored d (n ++ axisName i) t)
    (h : WF t) (h0 : 0 < t.count) (h1 : t.itemSize ≤ j) :
    components.serie d 1 (n ++ (axisName i ++ axisName j)) = .ub := by
  have e : components.serie d 1 (n ++ axisName i ++ axisName j) = pickItem j t :=
    comp_vector hr ht h.valid (Nat.le_refl 1) (axisName_length j) (axisIndex j)
  rw [← String.append_assoc, e]
  exact pickItem_ub h h0 h1

example := C68_clash_violated exFrame2_reachable (n := "N") (i := 0) (j := 1) (t := ⟨[1, 2], 2, 1, 3⟩) (by decide +kernel)
  (by decide) (by decide) (by decide)

/-- C68 is violated for Series of dimension 2: the Dataframe forgets the dimension, so that a symmetric tensor of the plane
gets the names of the components of a vector of space, and a vector of the plane a single component. -/
theorem C68_plane_violated (count : Nat) (ops : List (DOp α)) (n : String) (s : Serie α) (_ : s.dimension = 2)
    (h1 : n ≠ "positions") (h2 : n ≠ "indices") :
    let d := (Dataframe.history count ops).add n s
    (s.itemSize = 3 → components.names d 1 (d.get n) (.stored n) n = .ok [n ++ "x", n ++ "y", n ++ "z"]) ∧
    (s.itemSize = 2 → components.names d 1 (d.get n) (.stored n) n = .ok [n ++ "0"]) := by
  have hr : ReachableFrame ((Dataframe.history count ops).add n s) :=
    ⟨count, ops ++ [.add n s], by simp [Dataframe.history, DOp.run]⟩
  have hs : Stored ((Dataframe.history count ops).add n s) n (kept s) := by
    have := (C30_refines_map count (ops ++ [DOp.add n s])).2.2.2.2 n (kept s)
    simp only [Dataframe.history, AbsFrame.history, List.foldl_append, List.foldl_cons, List.foldl_nil] at this
    exact this.2 (by simp [AbsFrame.step, put])
  constructor
  · intro h
    have := C68_names hr hs h1 h2 (.inl h)
    rw [show (kept s).itemSize = 3 from h] at this
    rw [hr.get hs]
    exact this
  · intro h
    have := C68_others_violated hr hs h1 h2 (by simp [kept, h])
    rw [hr.get hs]
    exact this

example := C68_plane_violated 0 [.add "U" ⟨[1, 2, 3, 4, 5, 6], 2, 3, 3⟩] "T" (⟨[1, 2, 3], 1, 3, 2⟩ : Serie Int) rfl (by decide)
  (by decide)

end components

/-! ## C67 -/

/-- C67 is violated with eigenvalues: the names are listed, and give an invalid Serie. -/
theorem C67_eigen_violated [Field α] [LinearOrder α] [OfScientific α] [Trig α] {d : Dataframe α} (hr : ReachableFrame d)
    {n : String} {s : Serie α} (hs : Stored d n s) (h6 : s.itemSize = 6) (h1 : n ≠ "positions") (h2 : n ≠ "indices")
    (hno : ∀ t, ¬ Stored d (n ++ "1") t) :
    ∃ l r, (⟨d, [eigenValuesAttr], 3⟩ : Manager α).names 1 = .ok l ∧ n ++ "1" ∈ l ∧
      (⟨d, [eigenValuesAttr], 3⟩ : Manager α).serie 1 (n ++ "1") = .ok r ∧ r.isValid = false := by
  obtain ⟨l, e1, _, e2⟩ := C65_names (⟨d, [eigenValuesAttr], 3⟩ : Manager α) 1 (by
    intro n s _ dc hd
    rw [List.mem_singleton.1 hd]
    exact ⟨_, rfl⟩)
  obtain ⟨r, e3, e4, _⟩ := C66_none (m := (⟨d, [eigenValuesAttr], 3⟩ : Manager α)) (k := 1) (n := n ++ "1")
    (fun t ht => absurd ht (hno t)) (by
      intro dc hd
      rw [List.mem_singleton.1 hd]
      refine ⟨Serie.empty, ?_, rfl⟩
      show eigenSerie 1 eigenValues d 1 (n ++ "1") = _
      have hl : lastCode (n ++ "1") = .ok 49 := by
        unfold lastCode
        rw [String.toList_append, List.getLast?_append]
        rfl
      have hd := dropEnd_append n "1"
      rw [show "1".length = 1 from rfl] at hd
      unfold eigenSerie
      rw [if_neg (by simp), hl, Res.ok_bind, hd, hr.get hs, hr.dim hs]
      simp)
  refine ⟨l, r, e1, (e2 _).2 (.inr ⟨n, s, hs, _, List.mem_singleton.2 rfl, _, rfl, ?_⟩), e3, e4⟩
  unfold eigenNames
  rw [if_neg (by simp [h1, h2]), hr.dim hs]
  simp [h6]

example := @C67_eigen_violated ℚ _ _ _ exTrig exFrame exFrame_reachable _ _ exFrame_S rfl (by decide) (by decide)
  (not_stored (by decide +kernel))

/-- C67 is violated with Series of no items: their components are listed, and give an invalid Serie. -/
theorem C67_empty_violated [Zero α] {d : Dataframe α} (hr : ReachableFrame d) {n : String} {s : Serie α} (hs : Stored d n s)
    (h3 : s.itemSize = 3) (h0 : s.count = 0) (h1 : n ≠ "positions") (h2 : n ≠ "indices")
    (hno : ∀ t, ¬ Stored d (n ++ "x") t) :
    ∃ l r, (⟨d, [components], 3⟩ : Manager α).names 1 = .ok l ∧ n ++ "x" ∈ l ∧
      (⟨d, [components], 3⟩ : Manager α).serie 1 (n ++ "x") = .ok r ∧ r.isValid = false := by
  obtain ⟨l, e1, _, e2⟩ := C65_names (⟨d, [components], 3⟩ : Manager α) 1 (by
    intro n s _ dc hd
    rw [List.mem_singleton.1 hd]
    exact ⟨_, rfl⟩)
  obtain ⟨r, e3, e4, _⟩ := C66_none (m := (⟨d, [components], 3⟩ : Manager α)) (k := 1) (n := n ++ "x")
    (fun t ht => absurd ht (hno t)) (by
      intro dc hd
      rw [List.mem_singleton.1 hd]
      refine ⟨⟨[], 0, 0, 3⟩, ?_, rfl⟩
      refine (comp_vector hr hs (by simp [Serie.isValid, h3]) (Nat.le_refl 1) (x := "x") (i := 0) rfl (by decide)).trans ?_
      exact mapArr_empty h0 _)
  refine ⟨l, r, e1, (e2 _).2 (.inr ⟨n, s, hs, _, List.mem_singleton.2 rfl, _, C68_names hr hs h1 h2 (.inl h3), ?_⟩), e3, e4⟩
  simp [h3, componentNames]

example := C67_empty_violated exFrame2_reachable (n := "E") (s := ⟨[], 0, 3, 3⟩) (by decide +kernel) rfl rfl (by decide)
  (by decide) (not_stored (by decide +kernel))

/-- C67, with the decomposer `Components`: when all the stored Series are well formed and not empty, and no stored name is
another one followed by the name of a component, each listed name gives a Serie of the requested item size, with one item per
item of a stored Serie. Missing: the other decomposers, see `C67_eigen_violated`. -/
theorem C67_components_partial [Zero α] {d : Dataframe α} (hr : ReachableFrame d)
    (hwf : ∀ n s, Stored d n s → WF s ∧ 0 < s.count ∧ s.count = s.data.length / s.itemSize) (hcl : NoClash d) {k : Nat}
    (hk : 1 ≤ k) {l : List String} (hl : (⟨d, [components], 3⟩ : Manager α).names k = .ok l) (x : String) (hx : x ∈ l) :
    ∃ r, (⟨d, [components], 3⟩ : Manager α).serie k x = .ok r ∧ WF r ∧ r.itemSize = k ∧
      ∃ n s, Stored d n s ∧ r.count = s.count := by
  obtain ⟨l', e1, _, e2⟩ := C65_names (⟨d, [components], 3⟩ : Manager α) k (by
    intro n s _ dc hd
    rw [List.mem_singleton.1 hd]
    exact ⟨_, rfl⟩)
  rw [hl] at e1
  cases e1
  rcases (e2 x).1 hx with ⟨s, hs, h1, _⟩ | ⟨n, s, hs, dc, hd, l, h1, h2⟩
  · refine ⟨s, ?_, (hwf x s hs).1, h1, x, s, hs, rfl⟩
    rw [← h1]
    exact C66_stored (m := (⟨d, [components], 3⟩ : Manager α)) hr hs (hwf x s hs).1 (hwf x s hs).2.2
  · obtain rfl := List.mem_singleton.1 hd
    obtain ⟨w1, w2, _⟩ := hwf n s hs
    have hs' : Stored d n s := hs
    by_cases hn : s.itemSize = 1 ∨ n = "positions" ∨ n = "indices" ∨ 1 < k
    · rw [show components.names d k s (.stored n) n = _ from C68_no_names hs' k hn] at h1
      cases h1
      simp at h2
    · simp only [not_or] at hn
      obtain rfl : k = 1 := by omega
      rw [show components.names d 1 s (.stored n) n = _ from congrArg Res.ok (components_names hr hs' hn.2.1 hn.2.2.1 hn.1)]
        at h1
      cases h1
      obtain ⟨y, hy, rfl⟩ := List.mem_map.1 h2
      have hmem : y ∈ ["x", "y", "z", "xx", "xy", "xz", "yx", "yy", "yz", "zx", "zy", "zz", "0"] := by
        split at hy
        · rename_i h369
          rcases h369 with h | h | h <;> rw [h] at hy <;> simp [componentNames] at hy ⊢ <;> tauto
        · simp at hy ⊢; tauto
      have hno : ∀ z ∈ ["x", "y", "z", "xx", "xy", "xz", "yx", "yy", "yz", "zx", "zy", "zz", "0"], ∀ t, ¬ Stored d (n ++ z) t :=
        fun z hz t ht => hcl n s _ t hs' ht z hz rfl
      obtain ⟨p, hp, hpick⟩ : ∃ p < s.itemSize, componentsSerie d 1 (n ++ y) = pickItem p s := by
        have hv : ∀ (y : String) (p : Nat), y.length = 1 → vector3Names.findIdx? (fun z => y = z) = some p → p < s.itemSize →
            ∃ p < s.itemSize, componentsSerie d 1 (n ++ y) = pickItem p s :=
          fun y p h1 h2 h3 => ⟨p, h3, comp_vector hr hs' w1.valid (by omega) h1 h2⟩
        have hm : ∀ (a b : String) (p : Nat), a ∈ ["x", "y", "z"] → a.length = 1 → b.length = 1 →
            pairIndex (a ++ b) = some p → p < s.itemSize →
            ∃ p < s.itemSize, componentsSerie d 1 (n ++ (a ++ b)) = pickItem p s :=
          fun a b p h0 h1 h2 h3 h4 => ⟨p, h4, comp_matrix hr hs' w1.valid (by omega) h1 h2
            (hno a (by simp at h0 ⊢; tauto)) h3⟩
        split at hy
        · rename_i h369
          rcases h369 with h | h | h
          · rw [h, componentNames, if_pos rfl] at hy
            simp only [List.mem_cons, List.not_mem_nil, or_false] at hy
            rcases hy with rfl | rfl | rfl
            · exact hv "x" 0 rfl (by decide) (by omega)
            · exact hv "y" 1 rfl (by decide) (by omega)
            · exact hv "z" 2 rfl (by decide) (by omega)
          · rw [h, componentNames, if_neg (by decide), if_pos rfl] at hy
            simp only [List.mem_cons, List.not_mem_nil, or_false] at hy
            rcases hy with rfl | rfl | rfl | rfl | rfl | rfl
            · exact hm "x" "x" 0 (by simp) rfl rfl (by decide) (by omega)
            · exact hm "x" "y" 1 (by simp) rfl rfl (by decide) (by omega)
            · exact hm "x" "z" 2 (by simp) rfl rfl (by decide) (by omega)
            · exact hm "y" "y" 3 (by simp) rfl rfl (by decide) (by omega)
            · exact hm "y" "z" 4 (by simp) rfl rfl (by decide) (by omega)
            · exact hm "z" "z" 5 (by simp) rfl rfl (by decide) (by omega)
          · rw [h, componentNames, if_neg (by decide), if_neg (by decide), if_pos rfl] at hy
            simp only [List.mem_cons, List.not_mem_nil, or_false] at hy
            rcases hy with rfl | rfl | rfl | rfl | rfl | rfl | rfl | rfl | rfl
            · exact hm "x" "x" 0 (by simp) rfl rfl (by decide) (by omega)
            · exact hm "x" "y" 1 (by simp) rfl rfl (by decide) (by omega)
            · exact hm "x" "z" 2 (by simp) rfl rfl (by decide) (by omega)
            · exact hm "y" "x" 3 (by simp) rfl rfl (by decide) (by omega)
            · exact hm "y" "y" 3 (by simp) rfl rfl (by decide) (by omega)
            · exact hm "y" "z" 4 (by simp) rfl rfl (by decide) (by omega)
            · exact hm "z" "x" 6 (by simp) rfl rfl (by decide) (by omega)
            · exact hm "z" "y" 7 (by simp) rfl rfl (by decide) (by omega)
            · exact hm "z" "z" 5 (by simp) rfl rfl (by decide) (by omega)
        · obtain rfl := List.mem_singleton.1 hy
          exact ⟨0, w1.pos, comp_zero hr hs' w1.valid⟩
      obtain ⟨r, q1, q2, q3, q4, _⟩ := pickItem_eq w1 w2 hp
      refine ⟨r, ?_, q2, q3, n, s, hs', q4⟩
      rw [C66_first (m := (⟨d, [components], 3⟩ : Manager α)) (k := 1) (n := n ++ y) (pre := []) (post := [])
        (dc := components) (fun t ht => absurd ht (hno y hmem t)) rfl (by simp)]
      · exact hpick.trans q1
      · intro r' hr'
        have : componentsSerie d 1 (n ++ y) = .ok r' := hr'
        rw [hpick, q1] at this
        cases this
        exact q2.valid

theorem exFrame_WF : ∀ n s, Stored exFrame n s → WF s ∧ 0 < s.count ∧ s.count = s.data.length / s.itemSize :=
  stored_all (by decide +kernel)

theorem exFrame_noClash : NoClash exFrame := by
  have h : ∀ a ∈ exFrame.series, ∀ b ∈ exFrame.series,
      ∀ x ∈ ["x", "y", "z", "xx", "xy", "xz", "yx", "yy", "yz", "zx", "zy", "zz", "0"], b.1 ≠ a.1 ++ x := by decide +kernel
  exact fun n s m t h1 h2 => h (n, s) h1 (m, t) h2

example := C67_components_partial exFrame_reachable exFrame_WF exFrame_noClash (k := 1) (by decide)
  (l := ["Sxx", "Sxy", "Sxz", "Syy", "Syz", "Szz", "Ux", "Uy", "Uz"]) (by decide +kernel) "Syz" (by decide)

/-! ## C69 -/

theorem lastCode_one (n : String) {x : String} {c : Char} (hx : x.toList = [c]) (hc : c.toNat < 128) :
    lastCode (n ++ x) = .ok c.toNat := by
  unfold lastCode
  rw [String.toList_append, List.getLast?_append, hx]
  simp only [List.getLast?_singleton, Option.some_or]
  rw [if_pos hc]
  rfl

theorem eigenSerie_run [Zero α] {d : Dataframe α} (hr : ReachableFrame d) {n : String} {s : Serie α} (hs : Stored d n s)
    (h6 : s.itemSize = 6) (size : Nat) (f : Serie α → Res (Serie α)) {x : String} {c : Char} (hx : x.toList = [c])
    (hc : c.toNat < 128) :
    eigenSerie size f d size (n ++ x) =
      if c.toNat < 1 ∨ c.toNat > 3 then .ok Serie.empty else f s >>= pickItem (c.toNat - 1) := by
  have hd := dropEnd_append n x
  rw [← String.length_toList, hx] at hd
  unfold eigenSerie
  rw [if_neg (by simp), lastCode_one n hx hc, Res.ok_bind, show dropEnd (n ++ x) 1 = n from hd, hr.get hs, hr.dim hs]
  have hv : s.isValid = true := by simp [Serie.isValid, h6]
  rw [hv, if_neg (by simp), if_neg (by simp), if_neg (by simp), if_neg (by simp [h6])]
  by_cases hcc : c.toNat < 1 ∨ c.toNat > 3
  · rw [if_pos ⟨by decide, hcc⟩, if_pos hcc]; rfl
  · rw [if_neg (fun h => hcc h.2), if_neg hcc]

/-- C69 is violated: whatever the Dataframe, the attributes `N1`, `N2` and `N3` are invalid Series, the code of the last
character (49, 50, 51) being taken for the number of the eigenvalue. -/
theorem C69_violated [Field α] [LinearOrder α] [OfScientific α] [Trig α] {d : Dataframe α} (hr : ReachableFrame d)
    (n x : String) (hx : x ∈ ["1", "2", "3"]) (k : Nat) :
    (∃ r, eigenValuesAttr.serie d k (n ++ x) = .ok r ∧ r.isValid = false) ∧
    ∃ r, eigenVectorsAttr.serie d k (n ++ x) = .ok r ∧ r.isValid = false := by
  have key : ∀ (size : Nat) (f : Serie α → Res (Serie α)), eigenSerie size f d k (n ++ x) = .ok Serie.empty := by
    intro size f
    obtain ⟨c, hc, h1, h2⟩ : ∃ c : Char, x.toList = [c] ∧ c.toNat < 128 ∧ 3 < c.toNat := by
      simp only [List.mem_cons, List.not_mem_nil, or_false] at hx
      rcases hx with rfl | rfl | rfl
      · exact ⟨'1', by decide, by decide, by decide⟩
      · exact ⟨'2', by decide, by decide, by decide⟩
      · exact ⟨'3', by decide, by decide, by decide⟩
    by_cases hk : k = size
    · subst hk
      have hd := dropEnd_append n x
      rw [← String.length_toList, hc] at hd
      by_cases hs : ∃ s, Stored d n s
      · obtain ⟨s, hs⟩ := hs
        by_cases h6 : s.itemSize = 6
        · rw [eigenSerie_run hr hs h6 k f hc h1, if_pos (.inr h2)]
        · unfold eigenSerie
          rw [if_neg (by simp), lastCode_one n hc h1, Res.ok_bind, show dropEnd (n ++ x) 1 = n from hd, hr.get hs,
            hr.dim hs]
          by_cases hv : s.isValid = true
          · rw [hv, if_neg (by simp), if_neg (by simp), if_neg (by simp), if_pos (by simp [h6])]; rfl
          · rw [if_pos (by simpa using hv)]; rfl
      · unfold eigenSerie
        rw [if_neg (by simp), lastCode_one n hc h1, Res.ok_bind, show dropEnd (n ++ x) 1 = n from hd,
          get_missing (fun s h => hs ⟨s, h⟩)]
        rfl
    · unfold eigenSerie
      rw [if_pos hk]
      rfl
  exact ⟨⟨_, key 1 eigenValues, rfl⟩, ⟨_, key 3 eigenVectors, rfl⟩⟩

example := @C69_violated ℚ _ _ _ exTrig exFrame exFrame_reachable "S" "2" (by decide) 1

/-- The codes taken for the numbers of the eigenvalues are those of control characters. -/
def control : Fin 3 → Char := ![Char.ofNat 1, Char.ofNat 2, Char.ofNat 3]

theorem control_toNat (i : Fin 3) : (control i).toNat = i + 1 := by
  revert i; decide

/-- C69, what holds: with the control character of code `i + 1` in place of the digit, the attribute is the `i`-th
eigenvalue, in decreasing order. -/
theorem C69_values_partial [Trig ℝ] (ht : ExactTrig) {d : Dataframe ℝ} (hr : ReachableFrame d) {n : String} {s : Serie ℝ}
    (hs : Stored d n s) (h : WF s) (h6 : s.itemSize = 6) (h0 : 0 < s.count) (hfit : s.count * 9 < 2 ^ 32) (i : Fin 3) :
    ∃ val vecs r, eigenSystem s = .ok (val, vecs) ∧ eigenValuesAttr.serie d 1 (n ++ (control i).toString) = .ok r ∧
      WF r ∧ r.itemSize = 1 ∧ r.count = s.count ∧ ItemWise (fun e w => w = [vec 3 e i]) val r := by
  obtain ⟨val, vecs, h1, h2, _, h3, _, h4, _, _, h5⟩ := eigen_facts ht h ⟨hr.dim hs, .inr ⟨rfl, h6⟩⟩ hfit
  obtain ⟨r, q1, q2, q3, q4, q5⟩ := pickItem_eq h2 (by omega) (i := i) (by omega)
  refine ⟨val, vecs, r, h1, ?_, q2, q3, by omega, q5⟩
  refine (eigenSerie_run hr hs h6 1 eigenValues (x := (control i).toString) (c := control i) ?_ ?_).trans ?_
  · exact String.toList_singleton _
  · rw [control_toNat]; omega
  · rw [control_toNat, if_neg (by omega), (h5 h0).1, Res.ok_bind]
    exact q1

/-- A Dataframe with one symmetric tensor. -/
noncomputable def exFrameR : Dataframe ℝ := Dataframe.history 0 [.add "T" ⟨[2, 1, 0, 3, 1, 5], 1, 6, 3⟩]

theorem exFrameR_T : Stored exFrameR "T" ⟨[2, 1, 0, 3, 1, 5], 1, 6, 3⟩ := by
  simp [exFrameR, Stored, Dataframe.history, DOp.run, Dataframe.add, Dataframe.make, mapModify, mapTouch, Serie.assign,
    Serie.empty, Serie.zeros]

example := @C69_values_partial realTrig exactTrig exFrameR ⟨_, _, rfl⟩ _ _ exFrameR_T (by decide) rfl (by decide) (by decide) 1

/-- C69 is violated for eigenvectors even with these characters: the attribute, asked with item size 3, is a scalar Serie: the
`i`-th number of the first eigenvector. -/
theorem C69_vectors_violated [Trig ℝ] (ht : ExactTrig) {d : Dataframe ℝ} (hr : ReachableFrame d) {n : String} {s : Serie ℝ}
    (hs : Stored d n s) (h : WF s) (h6 : s.itemSize = 6) (h0 : 0 < s.count) (hfit : s.count * 9 < 2 ^ 32) (i : Fin 3) :
    ∃ val vecs r, eigenSystem s = .ok (val, vecs) ∧ eigenVectorsAttr.serie d 3 (n ++ (control i).toString) = .ok r ∧
      r.itemSize = 1 ∧ ItemWise (fun e w => w = [fullMatrix 3 e 0 i]) vecs r := by
  obtain ⟨val, vecs, h1, _, h2, _, h3, _, h4, _, h5⟩ := eigen_facts ht h ⟨hr.dim hs, .inr ⟨rfl, h6⟩⟩ hfit
  obtain ⟨r, q1, q2, q3, q4, q5⟩ := pickItem_eq h2 (by omega) (i := i) (by omega)
  refine ⟨val, vecs, r, h1, ?_, q3, q5.imp fun e w hw => by rw [hw]; simp [fullMatrix]⟩
  refine (eigenSerie_run hr hs h6 3 eigenVectors (x := (control i).toString) (c := control i) ?_ ?_).trans ?_
  · exact String.toList_singleton _
  · rw [control_toNat]; omega
  · rw [control_toNat, if_neg (by omega), (h5 h0).2, Res.ok_bind]
    exact q1

example := @C69_vectors_violated realTrig exactTrig exFrameR ⟨_, _, rfl⟩ _ _ exFrameR_T (by decide) rfl (by decide) (by decide) 1

theorem C69_names [Field α] [LinearOrder α] [OfScientific α] [Trig α] {d : Dataframe α} (hr : ReachableFrame d)
    {n : String} {s : Serie α} (hs : Stored d n s) (h1 : n ≠ "positions") (h2 : n ≠ "indices") (k : Nat) (p : Dataframe.Place) :
    (eigenValuesAttr.names d k s p n =
      .ok (if s.itemSize = 6 ∧ k = 1 then [n ++ "1", n ++ "2", n ++ "3"] else [])) ∧
    eigenVectorsAttr.names d k s p n =
      .ok (if s.itemSize = 6 ∧ k = 3 then [n ++ "1", n ++ "2", n ++ "3"] else []) := by
  have key : ∀ size2 size3, eigenNames size2 size3 k s n =
      if s.itemSize = 6 ∧ k = size3 then [n ++ "1", n ++ "2", n ++ "3"] else [] := by
    intro size2 size3
    unfold eigenNames
    rw [if_neg (by simp [h1, h2]), hr.dim hs, if_neg (by simp)]
    by_cases h : s.itemSize = 6 ∧ k = size3
    · rw [if_pos h, if_neg (by simp [h]), if_neg (by simp)]
    · rw [if_neg h, if_pos (by simp; tauto)]
  exact ⟨congrArg Res.ok (key 1 1), congrArg Res.ok (key 2 3)⟩

example := @C69_names ℚ _ _ _ exTrig exFrame exFrame_reachable _ _ exFrame_S (by decide) (by decide) 1 .elsewhere

/-- C69: the names given by a direct call for a Serie of dimension 2 (a Dataframe holds none). -/
theorem C69_plane_names [Field α] [LinearOrder α] [OfScientific α] [Trig α] (d : Dataframe α) (n : String) (s : Serie α)
    (hd : s.dimension = 2) (h1 : n ≠ "positions") (h2 : n ≠ "indices") (k : Nat) (p : Dataframe.Place) :
    (eigenValuesAttr.names d k s p n = .ok (if s.itemSize = 3 ∧ k = 1 then [n ++ "1", n ++ "2"] else [])) ∧
    eigenVectorsAttr.names d k s p n = .ok (if s.itemSize = 3 ∧ k = 2 then [n ++ "1", n ++ "2"] else []) := by
  have key : ∀ size2 size3, eigenNames size2 size3 k s n =
      if s.itemSize = 3 ∧ k = size2 then [n ++ "1", n ++ "2"] else [] := by
    intro size2 size3
    unfold eigenNames
    rw [if_neg (by simp [h1, h2]), hd]
    by_cases h : s.itemSize = 3 ∧ k = size2
    · rw [if_pos h, if_neg (by simp [h]), if_neg (by simp)]
      rfl
    · rw [if_neg h, if_pos (by simp; tauto)]
  exact ⟨congrArg Res.ok (key 1 1), congrArg Res.ok (key 2 3)⟩

example := @C69_plane_names ℚ _ _ _ exTrig exFrame "T" ⟨[1, 2, 3], 1, 3, 2⟩ rfl (by decide) (by decide) 1 .elsewhere

/-! ## C70 -/

/-- C70: the names of the coordinates are offered exactly for the Serie of name `positions`, and item size 1. -/
theorem C70_names [Zero α] (names : List String) (d : Dataframe α) (k : Nat) (s : Serie α) (p : Dataframe.Place) (n : String) :
    ∃ l, (coordinates names).names d k s p n = .ok l ∧ (k = 1 → n = "positions" → l = names) ∧
      (¬(k = 1 ∧ n = "positions") → l = []) := by
  refine ⟨_, rfl, fun h1 h2 => by rw [if_neg (by simp [h1, h2])], fun h => ?_⟩
  rw [if_pos]
  by_cases h1 : k = 1
  · exact .inr fun h2 => h ⟨h1, h2⟩
  · exact .inl h1

theorem coordinateIndex_three (a b c name : String) :
    coordinateIndex [a, b, c] name 0 3 =
      .ok (if name = a then some 0 else if name = b then some 1 else if name = c then some 2 else none) := by
  unfold coordinateIndex
  rw [show rd [a, b, c] 0 = .ok a from rfl, Res.ok_bind]
  split
  · rfl
  · unfold coordinateIndex
    rw [show rd [a, b, c] (0 + 1) = .ok b from rfl, Res.ok_bind]
    split
    · rfl
    · unfold coordinateIndex
      rw [show rd [a, b, c] (0 + 1 + 1) = .ok c from rfl, Res.ok_bind]
      split
      · rfl
      · rfl

theorem coordinates_serie [Zero α] (d : Dataframe α) {names : List String} {x : String} {o : Res (Option Nat)}
    (h : coordinateIndex names x 0 3 = o) : (coordinates names).serie d 1 x = o >>= fun
      | some i => pickItem i (d.get "positions")
      | none => pure Serie.empty := by
  subst h
  unfold coordinates
  simp only [if_true] <;> rfl

/-- C70: for three distinct names, the `i`-th attribute is the Serie of the `i`-th numbers of the positions. -/
theorem C70_coordinates [Zero α] {d : Dataframe α} (hr : ReachableFrame d) {s : Serie α} (hs : Stored d "positions" s)
    (h : WF s) (h0 : 0 < s.count) (h3 : s.itemSize = 3) (names : Fin 3 → String) (hn : Function.Injective names)
    (i : Fin 3) :
    ∃ r, (coordinates (List.ofFn names)).serie d 1 (names i) = .ok r ∧ WF r ∧ r.itemSize = 1 ∧ r.count = s.count ∧
      ItemWise (fun t w => w = [vec 3 t i]) s r := by
  obtain ⟨r, q1, q⟩ := pickItem_eq h h0 (i := i) (by omega)
  refine ⟨r, ?_, q⟩
  have e : List.ofFn names = [names 0, names 1, names 2] := by simp [List.ofFn_succ]
  have key : coordinateIndex (List.ofFn names) (names i) 0 3 = .ok (some i) := by
    rw [e, coordinateIndex_three]
    simp only [hn.eq_iff]
    fin_cases i <;> rfl
  rw [coordinates_serie d key, Res.ok_bind]
  simp only [hr.get hs]
  exact q1

example := C70_coordinates exFrame_reachable exFrame_positions (by decide) (by decide) rfl ![ "x", "y", "z" ] (by decide) 1

/-- C70: any other name, or item size, gives an invalid Serie. -/
theorem C70_other [Zero α] (d : Dataframe α) (names : Fin 3 → String) (k : Nat) (x : String) (h : k ≠ 1 ∨ ∀ i, x ≠ names i) :
    ∃ r, (coordinates (List.ofFn names)).serie d k x = .ok r ∧ r.isValid = false := by
  refine ⟨Serie.empty, ?_, rfl⟩
  by_cases hk : k = 1
  · have h := h.resolve_left (by simp [hk])
    have e : List.ofFn names = [names 0, names 1, names 2] := by simp [List.ofFn_succ]
    have key : coordinateIndex (List.ofFn names) x 0 3 = .ok none := by
      rw [e, coordinateIndex_three, if_neg (h 0), if_neg (h 1), if_neg (h 2)]
    rw [hk, coordinates_serie d key]
    rfl
  · unfold coordinates
    simp only [hk, if_false]
    rfl

example := C70_other exFrame ![ "x", "y", "z" ] 1 "t" (.inr (by decide))

/-- C70 is violated with fewer than three names: looking for any other name reads past the end of the list. -/
theorem C70_few_names_violated [Zero α] (d : Dataframe α) (names : List String) (h : names.length < 3) (x : String)
    (hx : x ∉ names) : (coordinates names).serie d 1 x = .ub := by
  have key : coordinateIndex names x 0 3 = .ub := by
    match names, h, hx with
    | [], _, _ => rfl
    | [a], _, hx =>
      simp only [List.mem_singleton] at hx
      unfold coordinateIndex
      rw [show rd [a] 0 = .ok a from rfl, Res.ok_bind, if_neg hx]
      rfl
    | [a, b], _, hx =>
      simp only [List.mem_cons, List.not_mem_nil, or_false, not_or] at hx
      unfold coordinateIndex
      rw [show rd [a, b] 0 = .ok a from rfl, Res.ok_bind, if_neg hx.1]
      unfold coordinateIndex
      rw [show rd [a, b] (0 + 1) = .ok b from rfl, Res.ok_bind, if_neg hx.2]
      rfl
  rw [coordinates_serie d key]
  rfl

example := C70_few_names_violated exFrame ["x", "y"] (by decide) "z" (by decide)

/-- C70 is violated for positions of the plane: the third coordinate is listed, and reads out of bounds. -/
theorem C70_plane_violated [Zero α] {d : Dataframe α} (hr : ReachableFrame d) {s : Serie α} (hs : Stored d "positions" s)
    (h : WF s) (h0 : 0 < s.count) (h2 : s.itemSize = 2) (names : Fin 3 → String) (hn : Function.Injective names) :
    (coordinates (List.ofFn names)).serie d 1 (names 2) = .ub := by
  have e : List.ofFn names = [names 0, names 1, names 2] := by simp [List.ofFn_succ]
  have key : coordinateIndex (List.ofFn names) (names 2) 0 3 = .ok (some 2) := by
    rw [e, coordinateIndex_three]
    simp only [hn.eq_iff]
    rfl
  rw [coordinates_serie d key, Res.ok_bind]
  simp only [hr.get hs]
  exact pickItem_ub h h0 (by omega)

example := C70_plane_violated (d := (Dataframe.history 0 [.add "positions" ⟨[1, 2, 3, 4], 2, 2, 3⟩] : Dataframe Int)) ⟨_, _, rfl⟩
  (s := ⟨[1, 2, 3, 4], 2, 2, 3⟩) (by decide +kernel) (by decide) (by decide) rfl ![ "x", "y", "z" ] (by decide)

example : (coordinates ["x", "y", "z"]).serie exFrame 1 "y" = .ok ⟨[0, 0, 1, 1], 4, 1, 3⟩ := by decide +kernel

/-! ## C71 -/

section mesh

variable [Ring α] [LinearOrder α] [FloorRing α] {d : Dataframe α} {P I : Serie α}

/-- C71: the valence of a vertex is the number of corners of triangles at this vertex; the total is three times the number of
triangles. -/
theorem C71_valence [IsStrictOrderedRing α] (hr : ReachableFrame d) (hP : Stored d "positions" P) (hI : Stored d "indices" I) (h : Mesh P I)
    (own : String) (k : Nat) :
    ∃ r, (valenceAttr own).serie d k own = .ok r ∧ WF r ∧ r.itemSize = 1 ∧ r.count = P.count ∧
      (∀ v < P.count, (items r)[v]? = some [((((items I).map fun t => t.count (v : α)).sum : Nat) : α)]) ∧
      (items r).flatten.sum = ((3 * I.count : Nat) : α) := by
  obtain ⟨ids, h1, h2, h3, h4⟩ := valence_run h
  have hl : ids.length < 2 ^ 32 := by have := h.pos.count_lt; omega
  refine ⟨ofScalars ids, ?_, WF_ofScalars hl, rfl, by simpa [ofScalars] using h2, ?_, ?_⟩
  · show valenceSerie own d own = _
    unfold valenceSerie
    simp only [ne_eq, not_true, if_false, hr.get hP, hr.get hI, h.pos.valid, h.tri.valid, Bool.not_true, Bool.or_self,
      Bool.false_eq_true]
    rw [h1]
    exact ofArray_one hl
  · intro v hv
    rw [items_scalar (s := ofScalars ids) rfl (Nat.le_refl _), List.getElem?_map, scalars_ofScalars, h3 v hv]
    rfl
  · rw [items_scalar (s := ofScalars ids) rfl (Nat.le_refl _), scalars_ofScalars, ← List.flatMap_def, List.flatMap_singleton']
    exact h4

example := C71_valence exFrame_reachable exFrame_positions exFrame_indices exFrame_mesh "v" 1

/-- C71: any other name gives an invalid Serie. -/
theorem C71_other (d : Dataframe α) (own x : String) (hx : x ≠ own) (k : Nat) :
    ∃ r, (valenceAttr own).serie d k x = .ok r ∧ r.isValid = false := by
  refine ⟨Serie.empty, ?_, rfl⟩
  show valenceSerie own d x = _
  unfold valenceSerie
  rw [if_pos hx]
  rfl

example := C71_other exFrame "v" "w" (by decide) 1

/-- C71: without positions or triangles the Serie is invalid. -/
theorem C71_missing (d : Dataframe α) (own x : String) (k : Nat)
    (h : (∀ s, ¬ Stored d "positions" s) ∨ ∀ s, ¬ Stored d "indices" s) :
    ∃ r, (valenceAttr own).serie d k x = .ok r ∧ r.isValid = false := by
  refine ⟨Serie.empty, ?_, rfl⟩
  show valenceSerie own d x = _
  unfold valenceSerie
  split
  · rfl
  · rcases h with h | h
    · rw [get_missing h]; rfl
    · rw [get_missing h]
      simp only [show (Serie.empty : Serie α).isValid = false from rfl, Bool.not_false, Bool.or_true, if_true]
      rfl

example := C71_missing exFrame2 "v" "v" 1 (.inr (not_stored (by decide +kernel)))

example : (valenceAttr "v").serie exFrame 1 "v" = .ok ⟨[1, 2, 2, 1], 4, 1, 3⟩ := by decide +kernel

end mesh

/-! ## C72 -/

section listed

variable [Field α] [LinearOrder α] [FloorRing α] [Sqrt α]

/-- C72 is violated: with positions and no triangles the three names are listed. -/
theorem C72_violated {d : Dataframe α} {s : Serie α} (hs : Stored d "positions" s) (_ : ∀ t, ¬ Stored d "indices" t)
    (own n : String) (t : Serie α) (p : Dataframe.Place) :
    (normalsAttr own).names d 3 t p n = .ok [own] ∧ (areaAttr own).names d 1 t p n = .ok [own] ∧
      (valenceAttr own).names d 1 t p n = .ok [own] := by
  have h : d.contains "positions" = true := contains_iff.2 ⟨s, hs⟩
  have key : ∀ k, meshNames k own d k = [own] := by
    intro k
    unfold meshNames
    rw [if_neg (by simp), h]
    rfl
  exact ⟨congrArg Res.ok (key 3), congrArg Res.ok (key 1), congrArg Res.ok (key 1)⟩

example := @C72_violated ℚ _ _ _ ⟨id⟩ (Dataframe.history 0 [.add "positions" ⟨[0, 0, 0, 1, 0, 0], 2, 3, 3⟩]) ⟨[0, 0, 0, 1, 0, 0], 2, 3, 3⟩
  (by decide +kernel) (not_stored (by decide +kernel)) "v" "U" ⟨[1, 2, 3], 1, 3, 3⟩ .elsewhere

/-- The names are then listed, and the attributes are invalid (C67 is violated). -/
theorem C67_mesh_violated {d : Dataframe α} {s : Serie α} (hs : Stored d "positions" s) (h : ∀ t, ¬ Stored d "indices" t)
    (own n : String) (t : Serie α) (p : Dataframe.Place) :
    (normalsAttr own).names d 3 t p n = .ok [own] ∧ (∃ r, (normalsAttr own).serie d 3 own = .ok r ∧ r.isValid = false) ∧
    (valenceAttr own).names d 1 t p n = .ok [own] ∧ ∃ r, (valenceAttr own).serie d 1 own = .ok r ∧ r.isValid = false := by
  obtain ⟨h1, _, h2⟩ := C72_violated hs h own n t p
  obtain ⟨r, h3, h4⟩ := C59_shape (P := d.get "positions") (I := (Serie.empty : Serie α)) (.inr (.inl rfl))
  refine ⟨h1, ⟨r, ?_, h4⟩, h2, C71_missing d own own 1 (.inr h)⟩
  show normalsSerie own d own = _
  unfold normalsSerie
  rw [if_neg (by simp), get_missing h]
  exact h3

example := @C67_mesh_violated ℚ _ _ _ ⟨id⟩ (Dataframe.history 0 [.add "positions" ⟨[0, 0, 0, 1, 0, 0], 2, 3, 3⟩])
  ⟨[0, 0, 0, 1, 0, 0], 2, 3, 3⟩ (by decide +kernel) (not_stored (by decide +kernel)) "v" "U" ⟨[1, 2, 3], 1, 3, 3⟩ .elsewhere

/-- C72, what holds: the names are listed when positions and triangles are stored, not listed when none of the two is, and
only for their own item size. Missing: the case of only one of the two, see `C72_violated`. -/
theorem C72_partial (d : Dataframe α) (own n : String) (t : Serie α) (p : Dataframe.Place) (k : Nat) :
    ∃ l1 l2 l3, (normalsAttr own).names d k t p n = .ok l1 ∧ (areaAttr own).names d k t p n = .ok l2 ∧
      (valenceAttr own).names d k t p n = .ok l3 ∧
      (((∃ s, Stored d "positions" s) ∧ ∃ s, Stored d "indices" s) →
        l1 = (if k = 3 then [own] else []) ∧ l2 = (if k = 1 then [own] else []) ∧ l3 = if k = 1 then [own] else []) ∧
      (((∀ s, ¬ Stored d "positions" s) ∧ ∀ s, ¬ Stored d "indices" s) → l1 = [] ∧ l2 = [] ∧ l3 = []) ∧
      (l1 ≠ [] → k = 3) ∧ (l2 ≠ [] → k = 1) ∧ (l3 ≠ [] → k = 1) := by
  have a : ∀ size, ((∃ s, Stored d "positions" s) ∧ ∃ s, Stored d "indices" s) →
      meshNames size own d k = if k = size then [own] else [] := by
    rintro size ⟨h1, h2⟩
    unfold meshNames
    rw [contains_iff.2 h1]
    simp
  have b : ∀ size, ((∀ s, ¬ Stored d "positions" s) ∧ ∀ s, ¬ Stored d "indices" s) → meshNames size own d k = [] := by
    rintro size ⟨h1, h2⟩
    unfold meshNames
    split
    · rfl
    · rw [if_pos]
      have e1 : d.contains "positions" = false := by
        rw [Bool.eq_false_iff]; intro h; obtain ⟨s, hs⟩ := contains_iff.1 h; exact h1 s hs
      have e2 : d.contains "indices" = false := by
        rw [Bool.eq_false_iff]; intro h; obtain ⟨s, hs⟩ := contains_iff.1 h; exact h2 s hs
      simp [e1, e2]
  have c : ∀ size, meshNames size own d k ≠ [] → k = size := by
    intro size h
    by_contra hk
    exact h (by unfold meshNames; rw [if_pos hk])
  exact ⟨_, _, _, rfl, rfl, rfl, fun h => ⟨a 3 h, a 1 h, a 1 h⟩, fun h => ⟨b 3 h, b 1 h, b 1 h⟩, c 3, c 1, c 1⟩

end listed

/-! ## C81 -/

section attributes

variable {d : Dataframe α} {P I : Serie α}

/-- C81: the attribute of the normals: one normal per triangle, the cross product of two sides. -/
theorem C81_normals [Field α] [LinearOrder α] [IsStrictOrderedRing α] [FloorRing α] (hr : ReachableFrame d) (hP : Stored d "positions" P)
    (hI : Stored d "indices" I) (h : Mesh P I) (own : String) (k : Nat) :
    ∃ r, (normalsAttr own).serie d k own = .ok r ∧ WF r ∧ r.itemSize = 3 ∧ r.count = I.count ∧
      ItemWise (fun t n => n.length = 3 ∧ ∀ a b c, Triangle t a b c →
        vec 3 n = crossProduct (pointAt P b - pointAt P a) (pointAt P c - pointAt P a)) I r := by
  obtain ⟨r, h1, q⟩ := C59_normals h
  refine ⟨r, ?_, q⟩
  show normalsSerie own d own = _
  unfold normalsSerie
  rw [if_neg (by simp), hr.get hP, hr.get hI, h1]

example := C81_normals exFrame_reachable exFrame_positions exFrame_indices exFrame_mesh "n" 3

/-- C81: any other name gives an invalid Serie. -/
theorem C81_other [Field α] [LinearOrder α] [FloorRing α] [Sqrt α] (d : Dataframe α) (own x : String) (hx : x ≠ own) (k : Nat) :
    (∃ r, (normalsAttr own).serie d k x = .ok r ∧ r.isValid = false) ∧
    ∃ r, (areaAttr own).serie d k x = .ok r ∧ r.isValid = false := by
  refine ⟨⟨Serie.empty, ?_, rfl⟩, ⟨Serie.empty, ?_, rfl⟩⟩
  · show normalsSerie own d x = _
    unfold normalsSerie
    rw [if_pos hx]
    rfl
  · show (if x ≠ own then _ else _) = _
    rw [if_pos hx]
    rfl

example := @C81_other ℚ _ _ _ ⟨id⟩ exFrame "n" "m" (by decide) 3

theorem area_run [Field α] [LinearOrder α] [FloorRing α] [Sqrt α] (hr : ReachableFrame d) (hP : Stored d "positions" P)
    (hI : Stored d "indices" I) {n : Serie α} (hn : normals P I = .ok n) (hv : n.isValid = true) (own : String) (k : Nat) :
    (areaAttr own).serie d k own = norm n >>= fun l => divNum 2 l := by
  show (if own ≠ own then _ else _) = _
  rw [if_neg (by simp)]
  have e : normalsSerie "n" d "n" = .ok n := by
    unfold normalsSerie
    rw [if_neg (by simp), hr.get hP, hr.get hI, hn]
  rw [e, Res.ok_bind, hv, if_pos rfl]

/-- C81 is violated for the areas: with two triangles or more the computation of the norms of the normals writes out of
bounds. -/
theorem C81_area_violated [Field α] [LinearOrder α] [IsStrictOrderedRing α] [FloorRing α] [Sqrt α] (hr : ReachableFrame d)
    (hP : Stored d "positions" P) (hI : Stored d "indices" I) (h : Mesh P I) (h2 : 2 ≤ I.count) (own : String) (k : Nat) :
    (areaAttr own).serie d k own = .ub := by
  obtain ⟨n, q1, q2, q3, q4, _⟩ := C59_normals h
  rw [area_run hr hP hI q1 q2.valid, (C55_vectors_violated q2 (by omega) (by omega)).1]
  rfl

example := @C81_area_violated ℚ exFrame _ _ _ _ _ _ ⟨id⟩ exFrame_reachable exFrame_positions exFrame_indices exFrame_mesh
  (by decide) "a" 1

/-- C81 is violated for the areas of a mesh without triangles: there is one. -/
theorem C81_area_empty_violated [Field α] [LinearOrder α] [IsStrictOrderedRing α] [FloorRing α] [Sqrt α] (hr : ReachableFrame d)
    (hP : Stored d "positions" P) (hI : Stored d "indices" I) (h : Mesh P I) (h0 : I.count = 0) (own : String) (k : Nat) :
    ∃ r, (areaAttr own).serie d k own = .ok r ∧ r.count = 1 := by
  obtain ⟨n, q1, q2, q3, q4, _⟩ := C59_normals h
  have hn : norm2 n = .ok (ofScalars [((0 : Nat) : α)]) := by
    unfold norm2
    rw [q2.valid, if_neg (by simp), if_neg (by omega), q4, h0]
    exact ofArray_single _
  have hf := ofItems_map_facts (WF_one ((0 : Nat) : α)) (k := 1)
    (g := fun u => [Sqrt.sqrt (num u 0)]) (by omega) (Nat.le_refl 1) (fun _ _ => rfl)
  rw [area_run hr hP hI q1 q2.valid own k, norm_of_norm2 hn (WF_one _) rfl (by simp [ofScalars]), Res.ok_bind,
    C36_div hf.1 (by rw [hf.2.2.1]; exact Nat.one_pos) 2]
  exact ⟨_, rfl, by simp [onNumbers, ofItems, ofScalars]⟩

example := @C81_area_empty_violated ℚ
  (Dataframe.history 0 [.add "positions" ⟨[0, 0, 0, 1, 0, 0], 2, 3, 3⟩, .add "indices" ⟨[], 0, 3, 3⟩])
  ⟨[0, 0, 0, 1, 0, 0], 2, 3, 3⟩ ⟨[], 0, 3, 3⟩ _ _ _ _ ⟨id⟩ ⟨_, _, rfl⟩ (by decide +kernel) (by decide +kernel)
  ⟨by decide, by decide, rfl, rfl, fun _ h => nomatch h⟩ rfl "a" 1

/-- C81, what holds for areas: the area of a mesh of one triangle. -/
theorem C81_area_partial [Sqrt ℝ] (hsqrt : ∀ x : ℝ, Sqrt.sqrt x = Real.sqrt x) {d : Dataframe ℝ} {P I : Serie ℝ}
    (hr : ReachableFrame d) (hP : Stored d "positions" P) (hI : Stored d "indices" I) (h : Mesh P I) (h1 : I.count = 1)
    (own : String) (k : Nat) :
    ∃ r, (areaAttr own).serie d k own = .ok r ∧ WF r ∧ r.itemSize = 1 ∧
      ItemWise (fun t w => ∀ a b c, Triangle t a b c → w = [triangleArea (WithLp.toLp 2 (pointAt P a))
        (WithLp.toLp 2 (pointAt P b)) (WithLp.toLp 2 (pointAt P c))]) I r := by
  obtain ⟨n, q1, q2, q3, q4, q5⟩ := C59_normals h
  obtain ⟨n', q1', qa⟩ := C59_area h
  rw [q1] at q1'
  cases q1'
  obtain ⟨r, w1, w2, w3, w4⟩ := C55_one_item_partial hsqrt q2 (by omega) (by omega)
  obtain ⟨u, hu, _⟩ := norm2_one q2 (by omega) (by omega)
  have hw : items r = [[Real.sqrt (u.map (fun x => x * x)).sum]] := by
    unfold ItemWise at w4
    rw [hu] at w4
    generalize items r = l at w4
    cases w4 with
    | cons h1 h2 => cases h2; rw [h1]
  have hrc : r.count = 1 := by rw [← items_length, hw]; rfl
  obtain ⟨z1, z2, z3⟩ := onNumbers_cells (f := (· / (2 : ℝ))) w2
  rw [area_run hr hP hI q1 q2.valid own k, w1, Res.ok_bind, C36_div w2 (by omega) 2]
  refine ⟨_, rfl, z1, by rw [z2.1, w3], ?_⟩
  have hi : items (onNumbers (· / (2 : ℝ)) r) = [[Real.sqrt (u.map (fun x => x * x)).sum / 2]] := by
    unfold onNumbers
    rw [hw, w3, items_ofItems (by simp)]
    rfl
  unfold ItemWise at qa q5 ⊢
  rw [hu] at qa q5
  rw [hi]
  generalize items I = l at qa q5
  cases q5 with
  | cons h5 h6 =>
    cases qa with
    | cons h7 h8 =>
      cases h6
      refine .cons (fun a b c hT => ?_) .nil
      have := h7 a b c hT
      obtain ⟨x, y, z, rfl⟩ := len3 h5.1
      rw [show vec 3 [x, y, z] ⬝ᵥ vec 3 [x, y, z] = ([x, y, z].map (fun x => x * x)).sum by
        simp [dotProduct, Fin.sum_univ_three, vec, num, add_assoc]] at this
      rw [this]
      congr 1
      ring

/-- A Dataframe with one triangle. -/
noncomputable def exFrameTri : Dataframe ℝ :=
  Dataframe.history 0 [.add "positions" ⟨[0, 0, 0, 1, 0, 0, 0, 1, 0], 3, 3, 3⟩, .add "indices" ⟨[0, 1, 2], 1, 3, 3⟩]

example := @C81_area_partial ⟨Real.sqrt⟩ (fun _ => rfl) exFrameTri ⟨[0, 0, 0, 1, 0, 0, 0, 1, 0], 3, 3, 3⟩ ⟨[0, 1, 2], 1, 3, 3⟩
  ⟨_, _, rfl⟩
  (((C30_refines_map 0 _).2.2.2.2 _ _).2 (by simp [AbsFrame.history, AbsFrame.step, put, kept]))
  (((C30_refines_map 0 _).2.2.2.2 _ _).2 (by simp [AbsFrame.history, AbsFrame.step, put, kept]))
  ⟨by decide, by decide, rfl, rfl, fun t ht => ⟨0, 1, 2, by
    obtain rfl : t = [0, 1, 2] := List.mem_singleton.1 ht
    simp [Triangle], by decide, by decide, by decide⟩⟩ rfl "a" 1

end attributes

/-! ## C67, other decomposers -/

/-- With one decomposer: if its answers for the names it offers are well formed Series of the requested item size, and these
names are not those of stored Series of that item size, all the listed names are available. -/
theorem listed_available [Zero α] {d : Dataframe α} (hr : ReachableFrame d)
    (hwf : ∀ n s, Stored d n s → WF s ∧ s.count = s.data.length / s.itemSize) {dc : Decomposer α} {k : Nat}
    (hok : ∀ n s, Stored d n s → ∃ l, dc.names d k s (.stored n) n = .ok l ∧ ∀ x ∈ l, (∀ t, Stored d x t → t.itemSize ≠ k) ∧
      ∃ r, dc.serie d k x = .ok r ∧ WF r ∧ r.itemSize = k)
    {l : List String} (hl : (⟨d, [dc], 3⟩ : Manager α).names k = .ok l) (x : String) (hx : x ∈ l) :
    ∃ r, (⟨d, [dc], 3⟩ : Manager α).serie k x = .ok r ∧ WF r ∧ r.itemSize = k := by
  obtain ⟨l', e1, _, e2⟩ := C65_names (⟨d, [dc], 3⟩ : Manager α) k (by
    intro n s hs dc' hd
    rw [List.mem_singleton.1 hd]
    obtain ⟨l, h, _⟩ := hok n s hs
    exact ⟨l, h⟩)
  rw [hl] at e1
  cases e1
  rcases (e2 x).1 hx with ⟨s, hs, h1, _⟩ | ⟨n, s, hs, dc', hd, l, h1, h2⟩
  · refine ⟨s, ?_, (hwf x s hs).1, h1⟩
    rw [← h1]
    exact C66_stored (m := (⟨d, [dc], 3⟩ : Manager α)) hr hs (hwf x s hs).1 (hwf x s hs).2
  · obtain rfl := List.mem_singleton.1 hd
    obtain ⟨l', h3, h4⟩ := hok n s hs
    rw [show dc'.names d k s (.stored n) n = .ok l from h1] at h3
    cases h3
    obtain ⟨h5, r, h6, h7, h8⟩ := h4 x h2
    refine ⟨r, ?_, h7, h8⟩
    rw [C66_first (m := (⟨d, [dc'], 3⟩ : Manager α)) (k := k) (n := x) (pre := []) (post := []) (dc := dc') h5 rfl (by simp)]
    · exact h6
    · intro r' hr'
      rw [show dc'.serie d k x = .ok r from h6] at hr'
      cases hr'
      exact h7.valid

/-- C67, with the decomposer `Coordinates`: three distinct names that are not names of stored Series, positions of space. -/
theorem C67_coordinates_partial [Zero α] {d : Dataframe α} (hr : ReachableFrame d)
    (hwf : ∀ n s, Stored d n s → WF s ∧ s.count = s.data.length / s.itemSize)
    (hp : ∀ s, Stored d "positions" s → s.itemSize = 3 ∧ 0 < s.count) (names : Fin 3 → String)
    (hn : Function.Injective names) (hns : ∀ i t, ¬ Stored d (names i) t) {k : Nat} {l : List String}
    (hl : (⟨d, [coordinates (List.ofFn names)], 3⟩ : Manager α).names k = .ok l) (x : String) (hx : x ∈ l) :
    ∃ r, (⟨d, [coordinates (List.ofFn names)], 3⟩ : Manager α).serie k x = .ok r ∧ WF r ∧ r.itemSize = k := by
  refine listed_available hr hwf (fun n s hs => ?_) hl x hx
  obtain ⟨l, h1, h2, h3⟩ := C70_names (List.ofFn names) d k s (.stored n) n
  refine ⟨l, h1, fun x hx => ?_⟩
  by_cases hkn : k = 1 ∧ n = "positions"
  · obtain ⟨rfl, rfl⟩ := hkn
    rw [h2 rfl rfl, List.mem_ofFn] at hx
    obtain ⟨i, rfl⟩ := hx
    obtain ⟨r, q1, q2, q3, _⟩ := C70_coordinates hr hs (hwf _ s hs).1 (hp s hs).2 (hp s hs).1 names hn i
    exact ⟨fun t ht => absurd ht (hns i t), r, q1, q2, q3⟩
  · rw [h3 hkn] at hx
    simp at hx

example := C67_coordinates_partial exFrame_reachable (fun n s h => ⟨(exFrame_WF n s h).1, (exFrame_WF n s h).2.2⟩)
  (stored_all (P := fun n s => n = "positions" → s.itemSize = 3 ∧ 0 < s.count) (by decide +kernel) "positions" · · rfl)
  ![ "x", "y", "z" ] (by decide) (fun i => not_stored (by revert i; decide +kernel)) (k := 1) (l := ["x", "y", "z"])
  (by decide +kernel) "y" (by decide)

/-- C67, with the decomposers `Normals` and `Valence`, when a mesh is stored. -/
theorem C67_mesh_partial [Field α] [LinearOrder α] [IsStrictOrderedRing α] [FloorRing α] {d : Dataframe α} (hr : ReachableFrame d)
    (hwf : ∀ n s, Stored d n s → WF s ∧ s.count = s.data.length / s.itemSize) {P I : Serie α}
    (hP : Stored d "positions" P) (hI : Stored d "indices" I) (h : Mesh P I) (own : String) (hns : ∀ t, ¬ Stored d own t)
    {k : Nat} (dc : Decomposer α) (hdc : dc = normalsAttr own ∨ dc = valenceAttr own) {l : List String}
    (hl : (⟨d, [dc], 3⟩ : Manager α).names k = .ok l) (x : String) (hx : x ∈ l) :
    ∃ r, (⟨d, [dc], 3⟩ : Manager α).serie k x = .ok r ∧ WF r ∧ r.itemSize = k := by
  have key : ∀ size, ∀ x ∈ meshNames size own d k, x = own ∧ k = size := by
    intro size x hx
    unfold meshNames at hx
    split at hx
    · simp at hx
    · rename_i hk
      split at hx
      · simp at hx
      · exact ⟨List.mem_singleton.1 hx, by simpa using hk⟩
  refine listed_available hr hwf (fun n s hs => ?_) hl x hx
  rcases hdc with rfl | rfl
  · refine ⟨_, rfl, fun x hx => ?_⟩
    obtain ⟨rfl, rfl⟩ := key 3 x hx
    obtain ⟨r, q1, q2, q3, _⟩ := C81_normals hr hP hI h x 3
    exact ⟨fun t ht => absurd ht (hns t), r, q1, q2, q3⟩
  · refine ⟨_, rfl, fun x hx => ?_⟩
    obtain ⟨rfl, rfl⟩ := key 1 x hx
    obtain ⟨r, q1, q2, q3, _⟩ := C71_valence hr hP hI h x 1
    exact ⟨fun t ht => absurd ht (hns t), r, q1, q2, q3⟩

example := C67_mesh_partial exFrame_reachable (fun n s h => ⟨(exFrame_WF n s h).1, (exFrame_WF n s h).2.2⟩) exFrame_positions
  exFrame_indices exFrame_mesh "n" (not_stored (by decide +kernel)) (k := 3) (normalsAttr "n") (.inl rfl) (l := ["U", "n"])
  (by decide +kernel) "n" (by decide)

/-! ## C82 -/

/-- C82: while the callable exists, a user-defined attribute is listed, for its item size, exactly when the callable gives a
valid Serie, and this Serie is its value. -/
theorem C82_user [Zero α] (size : Nat) (own : String) (f : Dataframe α → Res (Serie α)) (d : Dataframe α) {r : Serie α}
    (hf : f d = .ok r) :
    (∀ s p n, (userAttr size own (some f)).names d size s p n = .ok (if r.isValid then [own] else [])) ∧
    (userAttr size own (some f)).serie d size own = .ok r ∧
    (∀ k s p n, k ≠ size → (userAttr size own (some f)).names d k s p n = .ok []) ∧
    (∀ k x, k ≠ size ∨ x ≠ own → ∃ q, (userAttr size own (some f)).serie d k x = .ok q ∧ q.isValid = false) := by
  refine ⟨fun s p n => ?_, ?_, fun k s p n hk => ?_, fun k x hk => ⟨Serie.empty, ?_, rfl⟩⟩
  · show (if size ≠ size then _ else _) = _
    rw [if_neg (by simp)]
    simp only [hf, Res.ok_bind]
    cases r.isValid <;> rfl
  · show (if size ≠ size ∨ own ≠ own then _ else _) = _
    rw [if_neg (by simp)]
    exact hf
  · show (if k ≠ size then _ else _) = _
    rw [if_pos hk]
    rfl
  · show (if k ≠ size ∨ own ≠ x then _ else _) = _
    rw [if_pos (hk.imp id Ne.symm)]
    rfl

example := C82_user 3 "double" (fun d => .ok (d.get "U")) exFrame rfl

/-- C82 is violated once the callable given to the constructor is gone (a temporary, for instance): the decomposer kept a
reference to it. -/
theorem C82_dangling_violated [Zero α] (size : Nat) (own : String) (d : Dataframe α) (s : Serie α) (p : Dataframe.Place) (n : String) :
    (userAttr size own (none : Option (Dataframe α → Res (Serie α)))).names d size s p n = .ub ∧
    (userAttr size own (none : Option (Dataframe α → Res (Serie α)))).serie d size own = .ub := by
  constructor
  · show (if size ≠ size then _ else _) = _
    rw [if_neg (by simp)]
  · show (if size ≠ size ∨ own ≠ own then _ else _) = _
    rw [if_neg (by simp)]

/-- C82: an exception of the callable reaches the caller. -/
theorem C82_throws [Zero α] (size : Nat) (own : String) (f : Dataframe α → Res (Serie α)) (d : Dataframe α) {e : Err}
    (hf : f d = .throw e) (s : Serie α) (p : Dataframe.Place) (n : String) :
    (userAttr size own (some f)).names d size s p n = .throw e ∧ (userAttr size own (some f)).serie d size own = .throw e := by
  constructor
  · show (if size ≠ size then _ else _) = _
    rw [if_neg (by simp)]
    simp only [hf]
    rfl
  · show (if size ≠ size ∨ own ≠ own then _ else _) = _
    rw [if_neg (by simp)]
    exact hf

example := C82_throws 3 "double" (fun _ => .throw .runtimeError) exFrame rfl (exFrame.get "U") .elsewhere "U"

end DF
