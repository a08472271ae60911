import Verif.Lemmas.RowAttributes

/-!
# C156: attributes on chosen rows and in batches
-/

namespace DF

open Spec

variable {α : Type} [Zero α] {B n : Nat} {scheme : String → Option Nat} {d : Dataframe α}

/-! ## the decomposers that work row by row -/

/-- C156: `Components` and `Coordinates` answer row by row, on Dataframes of any scheme. -/
theorem C156_components (hB : 0 < B) (names : List String) : ByRow B scheme (components (α := α)) ∧ ByRow B scheme (coordinates (α := α) names) :=
  ⟨components_byRow hB, coordinates_byRow hB names⟩

example := C156_components (α := Int) (B := 9) (scheme := fun x => if x = "U" then some 3 else none) (by decide) ["x", "y", "z"]

/-- C156: so do `EigenValues` and `EigenVectors`. -/
theorem C156_eigen [Trig ℝ] (ht : ExactTrig) (hB : 9 ≤ B) :
    ByRow B scheme (eigenValuesAttr (α := ℝ)) ∧ ByRow B scheme (eigenVectorsAttr (α := ℝ)) :=
  ⟨fun k name => eigen_byRow hB (C153_eigen ht hB).1 (by decide) k name, fun k name => eigen_byRow hB (C153_eigen ht hB).2 (by decide) k name⟩

example := @C156_eigen 9 (fun x => if x = "S" then some 6 else none) realTrig exactTrig (by decide)

/-- C156: so does a `UserDefinedDecomposer` whose callable computes row by row from columns of the scheme. -/
theorem C156_user (size : Nat) (own : String) {cs : List String} {ks : List Nat} {m : Nat} {F : List (Serie α) → Res (Serie α)}
    (hc : List.Forall₂ (fun c k => scheme c = some k) cs ks) (hF : RowByRow B ks m F) :
    ByRow B scheme (userAttr size own (some fun d => F (cs.map d.get))) := by
  intro k name
  by_cases h : k ≠ size ∨ own ≠ name
  · exact Spec.AnsweredByRow.none.congr fun n d _ _ _ => if_pos h
  · exact .inr (.inr ⟨cs, ks, m, F, hc, hF, fun n d _ _ _ => if_neg h⟩)

example := C156_user (α := ℚ) (B := 9) (scheme := fun x => if x = "U" then some 3 else if x = "V" then some 3 else none) 3 "U+V" (cs := ["U", "V"])
  (.cons (by decide) (.cons (by decide) .nil)) (C154_pairs (k := 3) (by decide) (by decide) (by decide)).1

/-! ## what it brings to a Manager -/

/-- The scheme of the examples: vectors `U` and symmetric matrices `S`. -/
def rowScheme : String → Option Nat := fun x => if x = "S" then some 6 else if x = "U" then some 3 else none

/-- A Dataframe of this scheme. -/
def rowFrame (u s : Serie Int) : Dataframe Int := Dataframe.history 0 [.add "U" u, .add "S" s]

theorem rowFrame_frame {n : Nat} {u s : Serie Int} (hu : Column 9 n 3 u) (hs : Column 9 n 6 s) :
    Frame 9 n rowScheme (rowFrame u s) ∧ (rowFrame u s).get "U" = u ∧ (rowFrame u s).get "S" = s := by
  have e : (rowFrame u s).series = [("S", s), ("U", u)] := by
    obtain ⟨u1, u2, u3, u4⟩ := u
    obtain ⟨s1, s2, s3, s4⟩ := s
    have h1 : u4 = 3 := hu.dim
    have h2 : s4 = 3 := hs.dim
    subst h1 h2
    rfl
  have g1 : (rowFrame u s).get "U" = u := by unfold Dataframe.get; rw [e]; rfl
  have g2 : (rowFrame u s).get "S" = s := by unfold Dataframe.get; rw [e]; rfl
  refine ⟨⟨⟨_, _, rfl⟩, fun x => ?_, fun x k hx => ?_⟩, g1, g2⟩
  · unfold Dataframe.contains rowScheme
    rw [e]
    by_cases h1 : x = "S"
    · subst h1; rfl
    · by_cases h2 : x = "U"
      · subst h2; rfl
      · rw [if_neg h1, if_neg h2]
        simp [mapFind, Ne.symm h1, Ne.symm h2]
  · unfold rowScheme at hx
    by_cases h1 : x = "S"
    · subst h1
      cases hx
      rw [g2]
      exact hs
    · by_cases h2 : x = "U"
      · subst h2
        cases hx
        rw [g1]
        exact hu
      · rw [if_neg h1, if_neg h2] at hx
        cases hx

/-- Two rows. -/
private theorem rowU : Column 9 2 3 (⟨[1, 2, 3, 4, 5, 6], 2, 3, 3⟩ : Serie Int) := ⟨by decide, rfl, rfl, rfl, rfl, by decide⟩
private theorem rowS : Column 9 2 6 (⟨[1, 2, 3, 4, 5, 6, 6, 5, 4, 3, 2, 1], 2, 6, 3⟩ : Serie Int) := ⟨by decide, rfl, rfl, rfl, rfl, by decide⟩
/-- Three rows chosen among them. -/
private theorem rowU' : Column 9 3 3 (⟨[4, 5, 6, 1, 2, 3, 4, 5, 6], 3, 3, 3⟩ : Serie Int) := ⟨by decide, rfl, rfl, rfl, rfl, by decide⟩
private theorem rowS' : Column 9 3 6 (⟨[6, 5, 4, 3, 2, 1, 1, 2, 3, 4, 5, 6, 6, 5, 4, 3, 2, 1], 3, 6, 3⟩ : Serie Int) :=
  ⟨by decide, rfl, rfl, rfl, rfl, by decide⟩

private theorem rowDs : ∀ dc ∈ [components (α := Int)], ByRow 9 rowScheme dc := by
  simp only [List.mem_cons, List.not_mem_nil, or_false, forall_eq]
  exact (C156_components (by decide) []).1


/-- C156: when its decomposers answer row by row, so does a Manager. -/
theorem C156_manager {ds : List (Decomposer α)} (h : ∀ dc ∈ ds, ByRow B scheme dc) (dimension k : Nat) (name : String) :
    AnsweredByRow B scheme (fun d => (Manager.mk d ds dimension).serie k name) := manager_byRow h dimension k name

example := C156_manager rowDs 3 1 "Sxy"

/-- C156: asking for an attribute gives the empty Serie, or a Serie with one item per row, or an exception, or is undefined; whether it is undefined, and
whether it gives the empty Serie, depends on the scheme only. -/
theorem C156_defined {ds : List (Decomposer α)} (h : ∀ dc ∈ ds, ByRow B scheme dc) (dimension k : Nat) (name : String) :
    (∀ n d, 0 < n → n * B < 2 ^ 32 → Frame B n scheme d → (Manager.mk d ds dimension).serie k name = .ok Serie.empty) ∨
    (∀ n d, 0 < n → n * B < 2 ^ 32 → Frame B n scheme d → (Manager.mk d ds dimension).serie k name = .ub) ∨
    ∃ m, ∀ n d, 0 < n → n * B < 2 ^ 32 → Frame B n scheme d →
      (∃ t, (Manager.mk d ds dimension).serie k name = .ok t ∧ Column B n m t) ∨
      ∃ e, StdError e ∧ (Manager.mk d ds dimension).serie k name = .throw e := by
  rcases manager_byRow h dimension k name with h1 | h1 | ⟨cs, ks, m, F, h1, h2, h3⟩
  · exact .inl h1
  · exact .inr (.inl h1)
  · refine .inr (.inr ⟨m, fun n d h0 hB hd => ?_⟩)
    beta_reduce at h3
    rw [h3 n d h0 hB hd]
    exact h2.defined (hd.table h1) h0 hB

example := C156_defined rowDs 3 1 "Sxy"

/-- C156: attributes follow a choice of rows, in any order and with repetitions: when the columns of a Dataframe hold these rows of the columns of
another one, so does each attribute. -/
theorem C156_rows {ds : List (Decomposer α)} (h : ∀ dc ∈ ds, ByRow B scheme dc) (dimension k : Nat) (name : String) (hd : Frame B n scheme d)
    (h0 : 0 < n) (hB : n * B < 2 ^ 32) {ps : List Nat} (hne : ps ≠ []) (hp : ∀ i ∈ ps, i < n) (hpB : ps.length * B < 2 ^ 32) {d' : Dataframe α}
    (hd' : Frame B ps.length scheme d') (hs : ∀ x k, scheme x = some k → d'.get x = selectItems ps (d.get x)) {t : Serie α}
    (ht : (Manager.mk d ds dimension).serie k name = .ok t) : (Manager.mk d' ds dimension).serie k name = .ok (selectItems ps t) := by
  have h0' : 0 < ps.length := List.length_pos_iff.2 hne
  rcases manager_byRow h dimension k name with h1 | h1 | ⟨cs, ks, m, F, h1, h2, h3⟩
  · beta_reduce at h1
    rw [h1 n d h0 hB hd] at ht
    cases ht
    rw [h1 _ d' h0' hpB hd']
    unfold selectItems
    have : items (Serie.empty (α := α)) = [] := rfl
    have e : select ps ([] : List (List α)) = [] := by unfold select; simp
    rw [this, e]
    rfl
  · beta_reduce at h1
    rw [h1 n d h0 hB hd] at ht
    cases ht
  · beta_reduce at h3
    rw [h3 n d h0 hB hd] at ht
    rw [h3 _ d' h0' hpB hd']
    have := h2.select (hd.table h1) h0 hB ht hne hp hpB
    rw [List.map_map] at this
    rw [← this]
    congr 1
    clear * - h1 hs
    induction h1 with
    | nil => rfl
    | cons h1 _ ih => rw [List.map_cons, List.map_cons, ih, hs _ _ h1]; rfl

example := C156_rows rowDs 3 1 "Uy" (rowFrame_frame rowU rowS).1 (by decide) (by decide) (ps := [1, 0, 1]) (by decide) (by decide) (by decide)
  (rowFrame_frame rowU' rowS').1 (fun x k hx => by
    unfold rowScheme at hx
    by_cases h1 : x = "S"
    · subst h1
      rw [(rowFrame_frame rowU' rowS').2.2, (rowFrame_frame rowU rowS).2.2]
      rfl
    · by_cases h2 : x = "U"
      · subst h2
        rw [(rowFrame_frame rowU' rowS').2.1, (rowFrame_frame rowU rowS).2.1]
        rfl
      · rw [if_neg h1, if_neg h2] at hx
        cases hx) (t := ⟨[2, 5], 2, 1, 3⟩) (by decide +kernel)

theorem adds_find : ∀ {l : List (String × Serie α)}, Sorted l → ∀ (a : AbsFrame α) (x : String),
    ((l.map fun e => DOp.add e.1 e.2).foldl AbsFrame.step a).map x = (match mapFind x l with | some s => some (kept s) | none => a.map x)
  | [], _, _, _ => rfl
  | (n, s) :: l, hs, a, x => by
    have h := List.pairwise_cons.1 hs
    rw [List.map_cons, List.foldl_cons, adds_find h.2, mapFind]
    by_cases hx : n = x
    · subst hx
      rw [mapFind_none fun hm => lt_irrefl _ (h.1 n hm), if_pos rfl]
      exact if_pos rfl
    · rw [if_neg hx]
      cases mapFind x l with
      | some t => rfl
      | none => exact if_neg fun e => hx e.symm

/-- C156: the Dataframe of the chosen rows can be built. -/
theorem C156_choose (hd : Frame B n scheme d) {ps : List Nat} (hp : ∀ i ∈ ps, i < n) (hpB : ps.length * B < 2 ^ 32) :
    ∃ d', Frame B ps.length scheme d' ∧ ∀ x k, scheme x = some k → d'.get x = selectItems ps (d.get x) := by
  let l : List (String × Serie α) := d.series.map fun e => (e.1, selectItems ps e.2)
  have hl : Sorted l := by
    have := hd.reached.sorted
    unfold Sorted at this ⊢
    simpa [l, List.map_map, Function.comp_def] using this
  have hf : ∀ x, mapFind x l = (mapFind x d.series).map (selectItems ps) := fun x => mapFind_mapVal _ x _
  have hr := Represents.history (α := α) 0 (l.map fun e => DOp.add e.1 e.2)
  have hfind : ∀ x, mapFind x (Dataframe.history 0 (l.map fun e => DOp.add e.1 e.2)).series = ((mapFind x d.series).map (selectItems ps)).map kept := fun x => by
    rw [hr.find]
    show ((l.map fun e => DOp.add e.1 e.2).foldl AbsFrame.step _).map x = _
    rw [adds_find hl, hf]
    cases mapFind x d.series <;> rfl
  have hget : ∀ x k, scheme x = some k → (Dataframe.history 0 (l.map fun e => DOp.add e.1 e.2)).get x = selectItems ps (d.get x) := fun x k hx => by
    have hc := (hd.names x).trans (by rw [hx]; rfl : _ = true)
    unfold Dataframe.contains at hc
    obtain ⟨s, hs⟩ := Option.isSome_iff_exists.1 hc
    unfold Dataframe.get
    rw [hfind, hs]
    rfl
  refine ⟨_, ⟨⟨_, _, rfl⟩, fun x => ?_, fun x k hx => ?_⟩, hget⟩
  · rw [← hd.names]
    unfold Dataframe.contains
    rw [hfind]
    cases mapFind x d.series <;> rfl
  · rw [hget x k hx]
    exact ((hd.column x k hx).selectItems hp hpB).1

example := C156_choose (rowFrame_frame rowU rowS).1 (ps := [1, 0, 1]) (by decide) (by decide)

/-- C156: attributes can be asked for in batches: when each column of a Dataframe is, by `concat`, a column of a first Dataframe followed by
the same column of a second one, an attribute that is not empty is obtained from it exactly when it is obtained from both, and is then their concatenation. -/
theorem C156_batches {ds : List (Decomposer α)} (h : ∀ dc ∈ ds, ByRow B scheme dc) (dimension k : Nat) (name : String) {l : Nat}
    {a b c : Dataframe α} (ha : Frame B n scheme a) (hb : Frame B l scheme b) (hc : Frame B (n + l) scheme c) (hn : 0 < n) (hl : 0 < l)
    (hB : (n + l) * B < 2 ^ 32) (hs : ∀ x k, scheme x = some k → concat [a.get x, b.get x] = .ok (c.get x)) :
    (∀ f ∈ [a, b, c], (Manager.mk f ds dimension).serie k name = .ok Serie.empty) ∨
    (∀ f ∈ [a, b, c], (Manager.mk f ds dimension).serie k name = .ub) ∨
    ∀ t, (Manager.mk c ds dimension).serie k name = .ok t ↔
      ∃ u v, (Manager.mk a ds dimension).serie k name = .ok u ∧ (Manager.mk b ds dimension).serie k name = .ok v ∧ concat [u, v] = .ok t := by
  have hBn : n * B < 2 ^ 32 := Nat.lt_of_le_of_lt (Nat.mul_le_mul_right _ (by omega)) hB
  have hBl : l * B < 2 ^ 32 := Nat.lt_of_le_of_lt (Nat.mul_le_mul_right _ (by omega)) hB
  rcases manager_byRow h dimension k name with h1 | h1 | ⟨cs, ks, m, F, h1, h2, h3⟩
  · refine .inl ?_
    simp only [List.mem_cons, List.not_mem_nil, or_false, forall_eq_or_imp, forall_eq]
    exact ⟨h1 _ _ hn hBn ha, h1 _ _ hl hBl hb, h1 _ _ (by omega) hB hc⟩
  · refine .inr (.inl ?_)
    simp only [List.mem_cons, List.not_mem_nil, or_false, forall_eq_or_imp, forall_eq]
    exact ⟨h1 _ _ hn hBn ha, h1 _ _ hl hBl hb, h1 _ _ (by omega) hB hc⟩
  · refine .inr (.inr fun t => ?_)
    beta_reduce at h3
    rw [h3 _ _ hn hBn ha, h3 _ _ hl hBl hb, h3 _ _ (by omega) hB hc]
    refine h2.stack ?_ (ha.table h1) (hb.table h1) hn hl hB t
    clear * - h1 hs
    induction h1 with
    | nil => exact .nil
    | cons h1 _ ih => exact .cons (hs _ _ h1) ih

example := fun (u s : Serie Int) (hu : concat [⟨[1, 2, 3, 4, 5, 6], 2, 3, 3⟩, ⟨[4, 5, 6, 1, 2, 3, 4, 5, 6], 3, 3, 3⟩] = .ok u)
    (hs : concat [⟨[1, 2, 3, 4, 5, 6, 6, 5, 4, 3, 2, 1], 2, 6, 3⟩, ⟨[6, 5, 4, 3, 2, 1, 1, 2, 3, 4, 5, 6, 6, 5, 4, 3, 2, 1], 3, 6, 3⟩] = .ok s) =>
  have cu : Column 9 5 3 u := by
    obtain ⟨h1, h2, _⟩ := concat_two rowU rowU' (by decide)
    rw [h1] at hu
    cases hu
    exact h2
  have cs : Column 9 5 6 s := by
    obtain ⟨h1, h2, _⟩ := concat_two rowS rowS' (by decide)
    rw [h1] at hs
    cases hs
    exact h2
  C156_batches rowDs 3 1 "Uy" (rowFrame_frame rowU rowS).1 (rowFrame_frame rowU' rowS').1 (rowFrame_frame cu cs).1 (by decide) (by decide) (by decide)
    (fun x k hx => by
    unfold rowScheme at hx
    by_cases h1 : x = "S"
    · subst h1
      rw [(rowFrame_frame rowU' rowS').2.2, (rowFrame_frame rowU rowS).2.2, (rowFrame_frame cu cs).2.2]
      exact hs
    · by_cases h2 : x = "U"
      · subst h2
        rw [(rowFrame_frame rowU' rowS').2.1, (rowFrame_frame rowU rowS).2.1, (rowFrame_frame cu cs).2.1]
        exact hu
      · rw [if_neg h1, if_neg h2] at hx
        cases hx)

/-- C156: the names offered depend on the scheme only, when this is so for each decomposer. -/
theorem C156_names {ds : List (Decomposer α)} (hds : ∀ dc ∈ ds, NamesByScheme B scheme dc) (dimension k : Nat) {n' : Nat} {d' : Dataframe α}
    (h : Frame B n scheme d) (h' : Frame B n' scheme d') : (Manager.mk d ds dimension).names k = (Manager.mk d' ds dimension).names k :=
  names_same hds dimension k h h'

example := C156_names (B := 9) (ds := []) (by simp) 3 1 (rowFrame_frame rowU rowS).1 (rowFrame_frame rowU' rowS').1

/-- C156: this is so for the decomposers of the library. -/
theorem C156_library {β : Type} [Field β] [LinearOrder β] [FloorRing β] [Sqrt β] [OfScientific β] [Trig β] {B : Nat} {scheme : String → Option Nat} (names : List String)
    (own : String) :
    ∀ dc ∈ [components, coordinates names, eigenValuesAttr, eigenVectorsAttr, normalsAttr own, areaAttr own, valenceAttr own],
      NamesByScheme (α := β) B scheme dc := by
  have hm : ∀ size, ∀ n n' (d d' : Dataframe β), Frame B n scheme d → Frame B n' scheme d' → ∀ k,
      meshNames size own d k = meshNames size own d' k := fun size n n' d d' h h' k => by
    unfold meshNames
    rw [h.names, h'.names, h.names, h'.names]
  have he : ∀ a b, ∀ n n' (d d' : Dataframe β), Frame B n scheme d → Frame B n' scheme d' → ∀ k x,
      eigenNames a b k (d.get x) x = eigenNames a b k (d'.get x) x := fun a b n n' d d' h h' k x => by
    unfold eigenNames
    rw [h.sizes h', h.dim, h'.dim]
  simp only [List.mem_cons, List.not_mem_nil, or_false, forall_eq_or_imp, forall_eq]
  refine ⟨fun n n' d d' h h' k x hx => ?_, fun n n' d d' h h' k x hx => rfl, fun n n' d d' h h' k x hx => congrArg Res.ok (he 1 1 n n' d d' h h' k x),
    fun n n' d d' h h' k x hx => congrArg Res.ok (he 2 3 n n' d d' h h' k x), fun n n' d d' h h' k x hx => congrArg Res.ok (hm 3 n n' d d' h h' k),
    fun n n' d d' h h' k x hx => congrArg Res.ok (hm 1 n n' d d' h h' k), fun n n' d d' h h' k x hx => congrArg Res.ok (hm 1 n n' d d' h h' k)⟩
  show Res.ok (componentsNames d k (d.get x) (.stored x) x) = Res.ok (componentsNames d' k (d'.get x) (.stored x) x)
  have hx' : d'.contains x = true := by rw [h'.names, ← h.names]; exact hx
  obtain ⟨s, hs⟩ := contains_iff.1 hx
  obtain ⟨s', hs'⟩ := contains_iff.1 hx'
  unfold componentsNames
  rw [nameOfSerie_stored hs, nameOfSerie_stored hs', h.sizes h', h.dim, h'.dim]

example := @C156_library ℚ _ _ _ ⟨id⟩ _ ⟨0, id, id, id⟩ 9 rowScheme ["x", "y", "z"] "n"

end DF
