import Verif.Spec.RowAttributes
import Verif.Lemmas.Attributes
import Verif.Lemmas.Flow
import Verif.Props.Table

/-!
# Attributes computed row by row
-/

namespace DF

open Spec

variable {α : Type} [Zero α] {B n : Nat} {scheme : String → Option Nat} {d : Dataframe α}

theorem Spec.Frame.missing (h : Frame B n scheme d) {x : String} (hx : scheme x = none) : d.get x = Serie.empty := by
  refine get_missing fun s hs => ?_
  have := contains_iff.2 ⟨s, hs⟩
  rw [h.names, hx] at this
  cases this

theorem Spec.Frame.stored (h : Frame B n scheme d) {x : String} {k : Nat} (hx : scheme x = some k) : Stored d x (d.get x) := by
  obtain ⟨s, hs⟩ := contains_iff.1 ((h.names x).trans (by rw [hx]; rfl))
  rw [h.reached.get hs]
  exact hs

theorem Spec.Frame.dim (h : Frame B n scheme d) (x : String) : (d.get x).dimension = 3 := by
  cases hx : scheme x with
  | none => rw [h.missing hx]; rfl
  | some k => exact (h.column x k hx).dim

theorem Spec.Frame.valid (h : Frame B n scheme d) (x : String) : (d.get x).isValid = (scheme x).isSome := by
  cases hx : scheme x with
  | none => rw [h.missing hx]; rfl
  | some k => exact (h.column x k hx).wf.valid

theorem Spec.Frame.table (h : Frame B n scheme d) {cs : List String} {ks : List Nat} (hc : List.Forall₂ (fun c k => scheme c = some k) cs ks) :
    Table B n ks (cs.map d.get) := by
  induction hc with
  | nil => exact .nil
  | cons h1 _ ih => exact .cons (h.column _ _ h1) ih

/-- Questions that are the same on the Dataframes of the scheme. -/
theorem Spec.AnsweredByRow.congr {q q' : Dataframe α → Res (Serie α)} (h : AnsweredByRow B scheme q')
    (he : ∀ n d, 0 < n → n * B < 2 ^ 32 → Frame B n scheme d → q d = q' d) : AnsweredByRow B scheme q := by
  rcases h with h | h | ⟨cs, ks, m, F, h1, h2, h3⟩
  · exact .inl fun n d h0 hB hd => (he n d h0 hB hd).trans (h n d h0 hB hd)
  · exact .inr (.inl fun n d h0 hB hd => (he n d h0 hB hd).trans (h n d h0 hB hd))
  · exact .inr (.inr ⟨cs, ks, m, F, h1, h2, fun n d h0 hB hd => (he n d h0 hB hd).trans (h3 n d h0 hB hd)⟩)

theorem Spec.AnsweredByRow.none : AnsweredByRow B scheme (fun _ : Dataframe α => .ok Serie.empty) := .inl fun _ _ _ _ _ => rfl

theorem Spec.AnsweredByRow.ub : AnsweredByRow B scheme (fun _ : Dataframe α => .ub) := .inr (.inl fun _ _ _ _ _ => rfl)

theorem Spec.AnsweredByRow.one {f : Serie α → Res (Serie α)} {c : String} {k m : Nat} (hc : scheme c = some k) (hf : ItemByItem B k m f) :
    AnsweredByRow B scheme (fun d => f (d.get c)) :=
  .inr (.inr ⟨[c], [k], m, call1 f, .cons hc .nil, C154_one hf, fun _ _ _ _ _ => rfl⟩)

theorem pickItem_byItem {k i : Nat} (hi : i < k) (hB : 0 < B) : ItemByItem B k 1 (pickItem (α := α) i) := by
  have hg : Recipe k 1 (fun v : List α => .ok [num v i]) := fun v _ => .inl ⟨_, rfl, rfl⟩
  refine ⟨by decide, hB, by decide, _, hg, Spec.Applies.ofRun fun s h hk _ h0 _ =>
    mapArr_items h h0 (k := 1) (g := fun t => [num t i]) (by omega) (by omega) (fun _ _ => rfl) (fun v hv j => ?_)⟩
  have hi' : i < v.length := by omega
  rw [rd_of_lt hi', Res.ok_bind]
  show Res.ok _ = Res.ok _
  simp [num, hi']

/-- One component of a column. -/
theorem pick_answered (hB : 0 < B) {c : String} {k : Nat} (hc : scheme c = some k) (i : Nat) :
    AnsweredByRow B scheme (fun d : Dataframe α => pickItem i (d.get c)) := by
  by_cases hi : i < k
  · exact .one hc (pickItem_byItem hi hB)
  · refine .inr (.inl fun n d h0 _ hd => ?_)
    have := hd.column c k hc
    exact pickItem_ub this.wf (by rw [this.count]; exact h0) (by rw [this.size]; omega)

omit [Zero α] in
theorem clone_column {k : Nat} {s : Serie α} (h : Column B n k s) (h0 : 0 < n) (hB : n * B < 2 ^ 32) : s.clone = .ok s := by
  obtain ⟨data, count, itemSize, dimension⟩ := s
  obtain ⟨wf, rfl, rfl, h3, h4, h5⟩ := h
  have hp : 0 < itemSize := wf.pos
  have hi : itemSize < 2 ^ 31 := wf.int
  have hd : dimension = 3 := h3
  have h4 : data.length = count * itemSize := h4
  have hc : count < 2 ^ 32 := Nat.lt_of_le_of_lt (Nat.le_mul_of_pos_right _ (Nat.lt_of_lt_of_le hp h5)) hB
  have e1 : sizeT itemSize = itemSize := sizeT_of_lt hi
  show Serie.ofArray itemSize data = _
  unfold Serie.ofArray Serie.divCount
  rw [if_neg (by omega), e1, h4, Nat.mul_div_cancel _ hp, u32_of_lt hc, hd]
  rfl

omit [Zero α] in
theorem clone_byItem {k : Nat} (hk : 0 < k) (hk' : k < 2 ^ 31) (hB : k ≤ B) :
    RowByRow B [k] k (call1 (Serie.clone (α := α))) := by
  refine ⟨hk, hB, hk', fun r => .ok (r.getD 0 []), ?_, ?_⟩
  · intro r hr
    match r, hr with
    | [u], hr =>
      simp only [List.map_cons, List.map_nil, List.cons.injEq, and_true] at hr
      exact .inl ⟨_, rfl, hr⟩
  · intro n ss h0 hB h
    match ss, h with
    | [s], .cons hs .nil =>
      have hr : rows [s] n = (items s).map fun v => [v] := by
        rw [items_def, hs.count, List.map_map]
        rfl
      rw [hr]
      refine ⟨fun ws hw => ?_, fun ⟨r, hr, e, he⟩ => by cases he⟩
      have hw' : ws = items s := by
        unfold Gives at hw
        rw [List.forall₂_map_left_iff] at hw
        clear * - hw
        generalize items s = l at hw
        induction hw with
        | nil => rfl
        | cons h1 _ ih => cases h1; rw [ih]; rfl
      rw [hw', ← hs.eq_items]
      exact clone_column hs h0 hB

theorem components_byRow (hB : 0 < B) : ByRow B scheme (components (α := α)) := by
  intro k name
  show AnsweredByRow B scheme fun d => componentsSerie d k name
  by_cases hk : k > 1
  · exact Spec.AnsweredByRow.none.congr fun n d _ _ _ => if_pos hk
  -- what is looked at depends on the scheme
  have key : ∀ (n : Nat) (d : Dataframe α), 0 < n → n * B < 2 ^ 32 → Frame B n scheme d → componentsSerie d k name =
      match (if (scheme (dropEnd name 1)).isSome then suffixIndex name (dropEnd name 1) vector3Names else none) with
      | some i => pickItem i (d.get (dropEnd name 1))
      | none =>
        match (if (scheme (dropEnd name 2)).isSome then (match suffixIndex name (dropEnd name 2) smatrix3Names with
            | some i => some i
            | none => suffixIndex name (dropEnd name 2) matrix3Names) else none) with
        | some i => pickItem i (d.get (dropEnd name 2))
        | none =>
          match (if (scheme (dropEnd name 1)).isSome then suffixIndex name (dropEnd name 1) (numberNames k) else none) with
          | some i => pickItem i (d.get (dropEnd name 1))
          | none => .ok Serie.empty := by
    intro n d _ _ hd
    unfold componentsSerie
    rw [if_neg hk]
    have e1 : (Serie.assign (d.get (dropEnd name 2)) (d.get (dropEnd name 1))).2 = d.get (dropEnd name 2) :=
      assign_same (by rw [hd.dim, hd.dim])
    have e2 : (Serie.assign (d.get (dropEnd name 1)) (d.get (dropEnd name 2))).2 = d.get (dropEnd name 1) :=
      assign_same (by rw [hd.dim, hd.dim])
    have v1 : vectorIndex name (dropEnd name 1) (d.get (dropEnd name 1)) =
        if (scheme (dropEnd name 1)).isSome then suffixIndex name (dropEnd name 1) vector3Names else none := by
      unfold vectorIndex
      rw [hd.valid, hd.dim, if_neg (show ¬ (3 = 2) by decide)]
    have v2 : matrixIndex name (dropEnd name 2) (d.get (dropEnd name 2)) =
        if (scheme (dropEnd name 2)).isSome then (match suffixIndex name (dropEnd name 2) smatrix3Names with
            | some i => some i
            | none => suffixIndex name (dropEnd name 2) matrix3Names) else none := by
      unfold matrixIndex
      rw [hd.valid, hd.dim, if_neg (show ¬ (3 = 2) by decide)]
      rfl
    have v3 : numberIndex k name (dropEnd name 1) (d.get (dropEnd name 1)) =
        if (scheme (dropEnd name 1)).isSome then suffixIndex name (dropEnd name 1) (numberNames k) else none := by
      unfold numberIndex
      rw [hd.valid]
    simp only [copy_eq, e1, e2, v1, v2, v3]
    rfl
  refine Spec.AnsweredByRow.congr ?_ key
  have pick : ∀ c (o : Option Nat) i, (if (scheme c).isSome then o else none) = some i → AnsweredByRow B scheme (fun d : Dataframe α => pickItem i (d.get c)) := by
    intro c o i h
    cases hc : scheme c with
    | none => rw [hc] at h; cases h
    | some k => exact pick_answered hB hc i
  cases h1 : (if (scheme (dropEnd name 1)).isSome then suffixIndex name (dropEnd name 1) vector3Names else none) with
  | some i => exact pick _ _ i h1
  | none =>
    cases h2 : (if (scheme (dropEnd name 2)).isSome then (match suffixIndex name (dropEnd name 2) smatrix3Names with
            | some i => some i
            | none => suffixIndex name (dropEnd name 2) matrix3Names) else none) with
    | some i => exact pick _ _ i h2
    | none =>
      cases h3 : (if (scheme (dropEnd name 1)).isSome then suffixIndex name (dropEnd name 1) (numberNames k) else none) with
      | some i => exact pick _ _ i h3
      | none => exact .none

theorem coordinates_byRow (hB : 0 < B) (names : List String) : ByRow B scheme (coordinates (α := α) names) := by
  intro k name
  show AnsweredByRow B scheme fun d => if k = 1 then _ else _
  by_cases hk : k = 1
  · refine Spec.AnsweredByRow.congr ?_ fun n d _ _ _ => if_pos hk
    cases hi : coordinateIndex names name 0 3 with
    | ok o =>
      cases o with
      | none => exact .none
      | some i =>
        show AnsweredByRow B scheme fun d => pickItem i (d.get "positions")
        cases hp : scheme "positions" with
        | none =>
          refine .inl fun n d _ _ hd => ?_
          beta_reduce
          rw [hd.missing hp]
          exact mapArr_empty rfl _
        | some k => exact pick_answered hB hp i
    | throw e =>
      exfalso
      clear * - hi
      have key : ∀ m i, coordinateIndex names name i m ≠ .throw e := by
        intro m
        induction m with
        | zero => intro i h; cases h
        | succ m ih =>
          intro i h
          unfold coordinateIndex at h
          cases hr : rd names i with
          | ok x =>
            rw [hr, Res.ok_bind] at h
            split at h
            · cases h
            · exact ih _ h
          | throw e => unfold rd at hr; split at hr <;> cases hr
          | ub => rw [hr] at h; cases h
      exact key _ _ hi
    | ub => exact .ub
  · exact Spec.AnsweredByRow.none.congr fun n d _ _ _ => if_neg hk

theorem eigen_byRow (hB : 9 ≤ B) {size m : Nat} {f : Serie α → Res (Serie α)} (hf : ItemByItem B 6 m f) (hm : 3 ≤ m) (k : Nat) (name : String) :
    AnsweredByRow B scheme (fun d => eigenSerie size f d k name) := by
  by_cases hk : k = size
  · cases hl : lastCode name with
    | ok id =>
      cases hs : scheme (dropEnd name 1) with
      | none =>
        refine Spec.AnsweredByRow.none.congr fun n d _ _ hd => ?_
        unfold eigenSerie
        rw [if_neg (by simp [hk]), hl, Res.ok_bind, if_pos (by rw [hd.valid, hs]; rfl)]
        rfl
      | some k' =>
        by_cases h6 : k' = 6
        · by_cases hid : id < 1 ∨ id > 3
          · refine Spec.AnsweredByRow.none.congr fun n d _ _ hd => ?_
            have hcol := hd.column _ _ hs
            unfold eigenSerie
            rw [if_neg (by simp [hk]), hl, Res.ok_bind, if_neg (by rw [hd.valid, hs]; simp), if_neg (by rw [hd.dim]; simp), if_neg (by rw [hd.dim]; simp),
              if_neg (by rw [hcol.size]; simp [h6]), if_pos ⟨by rw [hd.dim]; decide, hid⟩]
            rfl
          · subst h6
            refine (Spec.AnsweredByRow.one hs (hf.comp (pickItem_byItem (i := id - 1) (by omega) (by omega)))).congr fun n d _ _ hd => ?_
            have hcol := hd.column _ _ hs
            unfold eigenSerie
            rw [if_neg (by simp [hk]), hl, Res.ok_bind, if_neg (by rw [hd.valid, hs]; simp), if_neg (by rw [hd.dim]; simp), if_neg (by rw [hd.dim]; simp),
              if_neg (by rw [hcol.size]; simp), if_neg (fun h => hid h.2)]
        · refine Spec.AnsweredByRow.none.congr fun n d _ _ hd => ?_
          have hcol := hd.column _ _ hs
          unfold eigenSerie
          rw [if_neg (by simp [hk]), hl, Res.ok_bind, if_neg (by rw [hd.valid, hs]; simp), if_neg (by rw [hd.dim]; simp), if_neg (by rw [hd.dim]; simp),
            if_pos ⟨by rw [hd.dim]; decide, by rw [hcol.size]; exact h6⟩]
          rfl
    | throw e => unfold lastCode at hl; split at hl <;> cases hl
    | ub =>
      refine Spec.AnsweredByRow.ub.congr fun n d _ _ hd => ?_
      unfold eigenSerie
      rw [if_neg (by simp [hk]), hl]
      rfl
  · refine Spec.AnsweredByRow.none.congr fun n d _ _ hd => ?_
    exact if_pos hk

theorem firstAnswer_byRow : ∀ {ds : List (Decomposer α)}, (∀ dc ∈ ds, ByRow B scheme dc) → ∀ (k : Nat) (name : String),
    AnsweredByRow B scheme (fun d => Manager.firstAnswer d k name ds)
  | [], _, _, _ => .none
  | dc :: ds, h, k, name => by
    rcases h dc List.mem_cons_self k name with h1 | h1 | ⟨cs, ks, m, F, h1, h2, h3⟩
    · beta_reduce at h1
      refine (firstAnswer_byRow (fun x hx => h x (List.mem_cons_of_mem _ hx)) k name).congr fun n d h0 hB hd => ?_
      rw [Manager.firstAnswer, h1 n d h0 hB hd, Res.ok_bind]
      rfl
    · refine .inr (.inl fun n d h0 hB hd => ?_)
      beta_reduce at h1 ⊢
      rw [Manager.firstAnswer, h1 n d h0 hB hd]
      rfl
    · refine .inr (.inr ⟨cs, ks, m, F, h1, h2, fun n d h0 hB hd => ?_⟩)
      beta_reduce at h3 ⊢
      rw [Manager.firstAnswer, h3 n d h0 hB hd]
      rcases h2.defined (hd.table h1) h0 hB with ⟨t, h4, h5⟩ | ⟨e, _, h4⟩
      · rw [h4, Res.ok_bind, if_pos h5.wf.valid]
        rfl
      · rw [h4]
        rfl

theorem manager_byRow {ds : List (Decomposer α)} (h : ∀ dc ∈ ds, ByRow B scheme dc) (dimension k : Nat) (name : String) :
    AnsweredByRow B scheme (fun d => (Manager.mk d ds dimension).serie k name) := by
  by_cases hk : scheme name = some k
  · by_cases hB' : 0 < k ∧ k < 2 ^ 31 ∧ k ≤ B
    · refine .inr (.inr ⟨[name], [k], k, call1 Serie.clone, .cons hk .nil, clone_byItem hB'.1 hB'.2.1 hB'.2.2, fun n d h0 hB hd => ?_⟩)
      beta_reduce
      unfold Manager.serie
      rw [Manager.storedSerie_some hd.reached.sorted (hd.stored hk) (hd.column _ _ hk).size]
      rfl
    · refine .inl fun n d h0 hB hd => (hB' ?_).elim
      have hcol := hd.column _ _ hk
      exact ⟨hcol.size ▸ hcol.wf.pos, hcol.size ▸ hcol.wf.int, hcol.le⟩
  · refine (firstAnswer_byRow h k name).congr fun n d h0 hB hd => ?_
    unfold Manager.serie
    rw [Manager.storedSerie_none fun s hs hsk => hk ?_]
    have hc := contains_iff.2 ⟨s, hs⟩
    rw [hd.names] at hc
    obtain ⟨k', hk'⟩ := Option.isSome_iff_exists.1 hc
    have := (hd.column _ _ hk').size
    rw [hd.reached.get hs] at this
    rw [hk', ← this, hsk]

/-! ## Names -/

theorem Spec.Frame.entry (h : Frame B n scheme d) {e : String × Serie α} (he : e ∈ d.series) :
    d.get e.1 = e.2 ∧ d.contains e.1 = true :=
  ⟨h.reached.get he, contains_iff.2 ⟨e.2, he⟩⟩

theorem Spec.Frame.keys (h : Frame B n scheme d) {n' : Nat} {d' : Dataframe α} (h' : Frame B n' scheme d') :
    d.series.map (·.1) = d'.series.map (·.1) := by
  have key : d.series.map (fun e => (e.1, ())) = d'.series.map (fun e => (e.1, ())) := by
    refine Sorted.ext (by have := h.reached.sorted; unfold Sorted at this ⊢; simpa [List.map_map, Function.comp_def] using this)
      (by have := h'.reached.sorted; unfold Sorted at this ⊢; simpa [List.map_map, Function.comp_def] using this) fun x => ?_
    rw [mapFind_mapVal (fun _ => ()), mapFind_mapVal (fun _ => ())]
    have h1 := (h.names x).trans (h'.names x).symm
    unfold Dataframe.contains at h1
    cases e1 : mapFind x d.series <;> cases e2 : mapFind x d'.series <;> simp [e1, e2] at h1 ⊢
  have := congrArg (List.map (·.1)) key
  simpa [List.map_map, Function.comp_def] using this

theorem Spec.Frame.sizes (h : Frame B n scheme d) {n' : Nat} {d' : Dataframe α} (h' : Frame B n' scheme d') (x : String) :
    (d.get x).itemSize = (d'.get x).itemSize := by
  cases hx : scheme x with
  | none => rw [h.missing hx, h'.missing hx]
  | some k => rw [(h.column x k hx).size, (h'.column x k hx).size]

theorem names_keys {ds : List (Decomposer α)} (dimension k : Nat) (h : Frame B n scheme d) :
    (Manager.mk d ds dimension).names k = (d.series.map (·.1)).foldlM (fun names x =>
      ds.foldlM (fun names dc => do
        let otherNames ← dc.names d k (d.get x) (.stored x) x
        pure (otherNames.foldl (fun names s => Manager.setInsert s names) names))
      (if (d.get x).itemSize = k ∧ (d.get x).dimension = dimension then
        if x ≠ "positions" ∧ x ≠ "indices" then Manager.setInsert x names else names
      else names)) [] := by
  unfold Manager.names
  rw [List.foldlM_map]
  have key : ∀ (l : List (String × Serie α)), (∀ e ∈ l, e ∈ d.series) → ∀ acc : List String,
      l.foldlM (fun names (e : String × Serie α) =>
        let names :=
          if e.2.itemSize = k ∧ e.2.dimension = dimension then
            if e.1 ≠ "positions" ∧ e.1 ≠ "indices" then Manager.setInsert e.1 names else names
          else names
        ds.foldlM (fun names dc => do
          let otherNames ← dc.names d k e.2 (.stored e.1) e.1
          pure (otherNames.foldl (fun names s => Manager.setInsert s names) names)) names) acc =
      l.foldlM (fun names (e : String × Serie α) =>
        ds.foldlM (fun names dc => do
          let otherNames ← dc.names d k (d.get e.1) (.stored e.1) e.1
          pure (otherNames.foldl (fun names s => Manager.setInsert s names) names))
        (if (d.get e.1).itemSize = k ∧ (d.get e.1).dimension = dimension then
          if e.1 ≠ "positions" ∧ e.1 ≠ "indices" then Manager.setInsert e.1 names else names
        else names)) acc := by
    intro l
    induction l with
    | nil => intro _ _; rfl
    | cons e l ih =>
      intro hl acc
      rw [List.foldlM_cons, List.foldlM_cons, (h.entry (hl e List.mem_cons_self)).1]
      congr 1
      funext acc'
      exact ih (fun e he => hl e (List.mem_cons_of_mem _ he)) acc'
  exact key d.series (fun _ he => he) []

theorem names_same {ds : List (Decomposer α)} (hds : ∀ dc ∈ ds, NamesByScheme B scheme dc) (dimension k : Nat) {n' : Nat} {d' : Dataframe α}
    (h : Frame B n scheme d) (h' : Frame B n' scheme d') : (Manager.mk d ds dimension).names k = (Manager.mk d' ds dimension).names k := by
  rw [names_keys dimension k h, names_keys dimension k h', ← h.keys h']
  have hin : ∀ x ∈ d.series.map (·.1), d.contains x = true := fun x hx => by
    obtain ⟨e, he, rfl⟩ := List.mem_map.1 hx
    exact (h.entry he).2
  generalize d.series.map (·.1) = l at hin
  generalize ([] : List String) = acc
  induction l generalizing acc with
  | nil => rfl
  | cons x l ih =>
    rw [List.foldlM_cons, List.foldlM_cons, h.sizes h' x, h.dim, h'.dim]
    have e : ∀ (ds' : List (Decomposer α)), (∀ dc ∈ ds', dc ∈ ds) → ∀ acc : List String,
        ds'.foldlM (fun names dc => do
          let otherNames ← dc.names d k (d.get x) (.stored x) x
          pure (otherNames.foldl (fun names s => Manager.setInsert s names) names)) acc =
        ds'.foldlM (m := Res) (fun names dc => do
          let otherNames ← dc.names d' k (d'.get x) (.stored x) x
          pure (otherNames.foldl (fun names s => Manager.setInsert s names) names)) acc := by
      intro ds'
      induction ds' with
      | nil => intro _ _; rfl
      | cons dc ds' ih' =>
        intro hd acc
        rw [List.foldlM_cons, List.foldlM_cons, hds dc (hd dc List.mem_cons_self) n n' d d' h h' k x (hin x List.mem_cons_self)]
        congr 1
        funext acc'
        exact ih' (fun y hy => hd y (List.mem_cons_of_mem _ hy)) acc'
    rw [e ds (fun _ hx => hx)]
    congr 1
    funext acc'
    exact ih (fun y hy => hin y (List.mem_cons_of_mem _ hy)) acc'

end DF
