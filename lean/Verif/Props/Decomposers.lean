import Verif.Props.Attributes

/-!
# Which decomposers a Manager has, and in what order (C164)
-/

namespace DF

open Spec

variable {α : Type}

/-! ## Helpers -/

theorem foldlM_ok_each {σ τ : Type} {f : σ → τ → Res σ} {l : List τ} {a r : σ} (h : l.foldlM f a = .ok r) :
    ∀ x ∈ l, ∃ b c, f b x = .ok c := by
  induction l generalizing a with
  | nil => intro x hx; simp at hx
  | cons y l ih =>
    rw [List.foldlM_cons] at h
    cases e : f a y with
    | ok c =>
      rw [e] at h
      intro x hx
      rcases List.mem_cons.1 hx with rfl | hx
      · exact ⟨a, c, e⟩
      · exact ih h x hx
    | throw e' => rw [e] at h; cases h
    | ub => rw [e] at h; cases h

/-- When `names` returns, every decomposer returned for every stored Serie. -/
theorem names_ok_each {m : Manager α} {k : Nat} {r : List String} (h : m.names k = .ok r) (n : String) (s : Serie α)
    (hs : Stored m.df n s) (dc : Decomposer α) (hd : dc ∈ m.ds) : ∃ l, dc.names m.df k s (.stored n) n = .ok l := by
  unfold Manager.names at h
  obtain ⟨b, c, hc⟩ := foldlM_ok_each h (n, s) hs
  obtain ⟨b', c', hc'⟩ := foldlM_ok_each hc dc hd
  cases e : dc.names m.df k s (.stored n) n with
  | ok l => exact ⟨l, rfl⟩
  | throw e' => simp only [e] at hc'; cases hc'
  | ub => simp only [e] at hc'; cases hc'

theorem sorted_ext {l₁ l₂ : List String} (h₁ : l₁.Pairwise (· < ·)) (h₂ : l₂.Pairwise (· < ·))
    (h : ∀ x, x ∈ l₁ ↔ x ∈ l₂) : l₁ = l₂ := by
  have n₁ : l₁.Nodup := h₁.imp fun h => ne_of_lt h
  have n₂ : l₂.Nodup := h₂.imp fun h => ne_of_lt h
  exact ((List.perm_ext_iff_of_nodup n₁ n₂).2 h).eq_of_pairwise
    (fun a b _ _ hab hba => absurd hab (lt_asymm hba)) h₁ h₂

theorem firstAnswer_append [Zero α] {df : Dataframe α} {k : Nat} {n : String} (pre : List (Decomposer α))
    {ds ds' : List (Decomposer α)} (h : Manager.firstAnswer df k n ds = Manager.firstAnswer df k n ds') :
    Manager.firstAnswer df k n (pre ++ ds) = Manager.firstAnswer df k n (pre ++ ds') := by
  induction pre with
  | nil => exact h
  | cons dc pre ih =>
    rw [List.cons_append, List.cons_append, Manager.firstAnswer, Manager.firstAnswer, ih]

theorem firstAnswer_skip [Zero α] {df : Dataframe α} {k : Nat} {n : String} {dc : Decomposer α} {r : Serie α}
    (h : dc.serie df k n = .ok r) (hv : r.isValid = false) (ds : List (Decomposer α)) :
    Manager.firstAnswer df k n (dc :: ds) = Manager.firstAnswer df k n ds := by
  rw [Manager.firstAnswer, h, Res.ok_bind, if_neg (by simp [hv])]

/-- A decomposer which does not say "no" ends the search. -/
theorem firstAnswer_stop [Zero α] {df : Dataframe α} {k : Nat} {n : String} {dc : Decomposer α}
    (h : ∀ r, dc.serie df k n = .ok r → r.isValid = true) (ds : List (Decomposer α)) :
    Manager.firstAnswer df k n (dc :: ds) = dc.serie df k n := by
  rw [Manager.firstAnswer]
  cases e : dc.serie df k n with
  | ok r => rw [Res.ok_bind, if_pos (h r e)]; rfl
  | throw e => rfl
  | ub => rfl

theorem says_no_or [Zero α] (df : Dataframe α) (k : Nat) (n : String) (dc : Decomposer α) :
    (∃ r, dc.serie df k n = .ok r ∧ r.isValid = false) ∨ ∀ r, dc.serie df k n = .ok r → r.isValid = true := by
  by_cases h : ∃ r, dc.serie df k n = .ok r ∧ r.isValid = false
  · exact .inl h
  · refine .inr fun r hr => ?_
    cases hv : r.isValid
    · exact absurd ⟨r, hr, hv⟩ h
    · rfl

theorem serie_congr_ds [Zero α] {df : Dataframe α} {dim k : Nat} {n : String} {ds ds' : List (Decomposer α)}
    (h : Manager.firstAnswer df k n ds = Manager.firstAnswer df k n ds') :
    (⟨df, ds, dim⟩ : Manager α).serie k n = (⟨df, ds', dim⟩ : Manager α).serie k n := by
  unfold Manager.serie
  simp only [h]

/-! ## C164 -/

/-- C164: the list of names depends on which decomposers were registered, not on their order nor on how many times. -/
theorem C164_names {df : Dataframe α} {ds ds' : List (Decomposer α)} {dim k : Nat} (h : ∀ dc, dc ∈ ds ↔ dc ∈ ds')
    {r : List String} (hr : (⟨df, ds, dim⟩ : Manager α).names k = .ok r) :
    (⟨df, ds', dim⟩ : Manager α).names k = .ok r := by
  have ok := names_ok_each hr
  obtain ⟨r₁, e₁, s₁, m₁⟩ := C65_names ⟨df, ds, dim⟩ k ok
  obtain ⟨r₂, e₂, s₂, m₂⟩ := C65_names ⟨df, ds', dim⟩ k fun n s hs dc hd => ok n s hs dc ((h dc).2 hd)
  rw [e₁] at hr
  cases hr
  rw [e₂]
  refine congrArg _ (sorted_ext s₂ s₁ fun x => ?_)
  rw [m₁, m₂]
  simp only [Offered, h]

example := C164_names (df := exFrame) (ds := [components, coordinates ["x", "y", "z"]]) (dim := 3) (k := 1)
  (ds' := [coordinates ["x", "y", "z"], components, coordinates ["x", "y", "z"]]) (by simp)
  (r := ["Sxx", "Sxy", "Sxz", "Syy", "Syz", "Szz", "Ux", "Uy", "Uz", "x", "y", "z"]) (by decide +kernel)

/-- C164: registering one more decomposer removes no name, and a list which could not be made still cannot. -/
theorem C164_names_grow (m : Manager α) (dc : Decomposer α) (k : Nat) {r' : List String}
    (h : (m.add dc).names k = .ok r') : ∃ r, m.names k = .ok r ∧ r.Sublist r' := by
  have ok := names_ok_each h
  obtain ⟨r₁, e₁, s₁, m₁⟩ := C65_names m k fun n s hs d hd => ok n s hs d (List.mem_append_left _ hd)
  obtain ⟨r₂, e₂, s₂, m₂⟩ := C65_names (m.add dc) k ok
  obtain rfl : r₂ = r' := by rw [e₂] at h; cases h; rfl
  refine ⟨r₁, e₁, ?_⟩
  have hsub : ∀ x ∈ r₁, x ∈ r₂ := fun x hx => by
    rw [m₂]
    rcases (m₁ x).1 hx with h | ⟨n, s, hs, d, hd, hl⟩
    · exact .inl h
    · exact .inr ⟨n, s, hs, d, List.mem_append_left _ hd, hl⟩
  have n₁ : r₁.Nodup := s₁.imp fun h => ne_of_lt h
  have e : r₂.filter (· ∈ r₁) = r₁ := sorted_ext (s₂.filter _) s₁ fun x => by
    simp only [List.mem_filter, decide_eq_true_eq]
    exact ⟨fun h => h.2, fun h => ⟨hsub x h, h⟩⟩
  rw [← e]
  exact List.filter_sublist

example := C164_names_grow (⟨exFrame, [components], 3⟩ : Manager ℚ) (coordinates ["x", "y", "z"]) 1
  (r' := ["Sxx", "Sxy", "Sxz", "Syy", "Syz", "Szz", "Ux", "Uy", "Uz", "x", "y", "z"]) (by decide +kernel)

/-- C164: registering one more decomposer leaves every answer as it was, whether a valid Serie or a failure; only a name which
gave an invalid Serie may now have an answer. -/
theorem C164_serie_grow [Zero α] (m : Manager α) (dc : Decomposer α) {k : Nat} {n : String}
    (h : ∀ s, m.serie k n = .ok s → s.isValid = true) : (m.add dc).serie k n = m.serie k n := by
  unfold Manager.serie at h ⊢
  show (match Manager.storedSerie k n m.df.series with
    | some s => s.clone
    | none => Manager.firstAnswer m.df k n (m.ds ++ [dc])) = _
  cases e : Manager.storedSerie k n m.df.series with
  | some s => rfl
  | none =>
    rw [e] at h
    simp only at h ⊢
    generalize m.ds = ds at h ⊢
    induction ds with
    | nil => exact absurd (h _ rfl) (show ¬ false = true by decide)
    | cons d ds ih =>
      rw [List.cons_append]
      rcases says_no_or m.df k n d with ⟨r, hr, hv⟩ | hd
      · rw [firstAnswer_skip hr hv] at h
        rw [firstAnswer_skip hr hv, firstAnswer_skip hr hv]
        exact ih h
      · rw [firstAnswer_stop hd, firstAnswer_stop hd]

example := C164_serie_grow (⟨exFrame, [components], 3⟩ : Manager ℚ) (coordinates ["x", "y", "z"]) (k := 1) (n := "Sxz")
  (fun s hs => by
    rw [show (⟨exFrame, [components], 3⟩ : Manager ℚ).serie 1 "Sxz" = .ok ⟨[3], 1, 1, 3⟩ by decide +kernel] at hs
    cases hs; rfl)

/-- C164: a decomposer of the base class, wherever it stands, changes nothing. -/
theorem C164_base [Zero α] (df : Dataframe α) (pre post : List (Decomposer α)) (dim k : Nat) (n : String) :
    (⟨df, pre ++ noDecomposer :: post, dim⟩ : Manager α).names k = (⟨df, pre ++ post, dim⟩ : Manager α).names k ∧
      (⟨df, pre ++ noDecomposer :: post, dim⟩ : Manager α).serie k n = (⟨df, pre ++ post, dim⟩ : Manager α).serie k n ∧
      (⟨df, pre ++ noDecomposer :: post, dim⟩ : Manager α).contains k n =
        (⟨df, pre ++ post, dim⟩ : Manager α).contains k n := by
  have e : (⟨df, pre ++ noDecomposer :: post, dim⟩ : Manager α).names k = (⟨df, pre ++ post, dim⟩ : Manager α).names k := by
    unfold Manager.names
    congr 1
    funext names e
    simp only [List.foldlM_append, List.foldlM_cons]
    rfl
  refine ⟨e, serie_congr_ds (firstAnswer_append pre (firstAnswer_skip rfl rfl post)), ?_⟩
  unfold Manager.contains
  rw [e]

example := C164_base exFrame [components] [coordinates ["x", "y", "z"]] 3 1 "Sxz"

/-- C164: a decomposer registered twice answers no more than registered once. -/
theorem C164_twice [Zero α] (df : Dataframe α) (pre mid post : List (Decomposer α)) (dc : Decomposer α) (dim k : Nat)
    (n : String) :
    (⟨df, pre ++ dc :: (mid ++ dc :: post), dim⟩ : Manager α).serie k n =
      (⟨df, pre ++ dc :: (mid ++ post), dim⟩ : Manager α).serie k n := by
  refine serie_congr_ds (firstAnswer_append pre ?_)
  rcases says_no_or df k n dc with ⟨r, hr, hv⟩ | hd
  · rw [firstAnswer_skip hr hv, firstAnswer_skip hr hv]
    exact firstAnswer_append mid (firstAnswer_skip hr hv post)
  · rw [firstAnswer_stop hd, firstAnswer_stop hd]

example := C164_twice exFrame [coordinates ["x", "y", "z"]] [noDecomposer] [] components 3 1 "Sxz"

/-- C164: two neighbours may be exchanged when one of them has no answer for the name. -/
theorem C164_exchange [Zero α] (df : Dataframe α) (pre post : List (Decomposer α)) (a b : Decomposer α) (dim : Nat) {k : Nat}
    {n : String} {r : Serie α} (h : a.serie df k n = .ok r ∨ b.serie df k n = .ok r) (hv : r.isValid = false) :
    (⟨df, pre ++ a :: b :: post, dim⟩ : Manager α).serie k n = (⟨df, pre ++ b :: a :: post, dim⟩ : Manager α).serie k n := by
  refine serie_congr_ds (firstAnswer_append pre ?_)
  rcases h with h | h
  · rw [firstAnswer_skip h hv]
    exact (firstAnswer_append [b] (firstAnswer_skip h hv post)).symm
  · rw [firstAnswer_skip h hv (a :: post)]
    exact firstAnswer_append [a] (firstAnswer_skip h hv post)

example := C164_exchange exFrame [] [] components (coordinates ["x", "y", "z"]) 3 (k := 1) (n := "Sxz") (r := ⟨[], 0, 0, 3⟩)
  (.inr (by decide +kernel)) rfl

/-- C164: when both have a valid answer, the one registered first wins. -/
theorem C164_wins [Zero α] (df : Dataframe α) (pre post : List (Decomposer α)) (a b : Decomposer α) (dim : Nat) {k : Nat}
    {n : String} {r r' : Serie α} (hs : ∀ s, Stored df n s → s.itemSize ≠ k)
    (hpre : ∀ dc ∈ pre, ∃ r, dc.serie df k n = .ok r ∧ r.isValid = false) (ha : a.serie df k n = .ok r)
    (hb : b.serie df k n = .ok r') (hv : r.isValid = true) (hv' : r'.isValid = true) :
    (⟨df, pre ++ a :: b :: post, dim⟩ : Manager α).serie k n = .ok r ∧
      (⟨df, pre ++ b :: a :: post, dim⟩ : Manager α).serie k n = .ok r' :=
  ⟨(C66_first (m := ⟨df, pre ++ a :: b :: post, dim⟩) hs rfl hpre (fun s h => by rw [ha] at h; cases h; exact hv)).trans ha,
    (C66_first (m := ⟨df, pre ++ b :: a :: post, dim⟩) hs rfl hpre (fun s h => by rw [hb] at h; cases h; exact hv')).trans hb⟩

/-- Coordinates named as the components of `U`: both decomposers answer. -/
example := C164_wins exFrame [noDecomposer] [] components (coordinates ["Ux", "Uy", "Uz"]) 3 (k := 1) (n := "Ux")
  (r := ⟨[1, 4], 2, 1, 3⟩) (r' := ⟨[0, 1, 0, 1], 4, 1, 3⟩)
  (stored_all (P := fun n s => n = "Ux" → s.itemSize ≠ 1) (by decide +kernel) "Ux" · · rfl)
  (List.forall_mem_singleton.2 ⟨_, rfl, rfl⟩) (by decide +kernel) (by decide +kernel) rfl rfl

end DF
