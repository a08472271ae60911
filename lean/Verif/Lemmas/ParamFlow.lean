import Verif.Lemmas.ParamOps
import Verif.Model.Combine

/-!
# Related inputs give related results: functions with callbacks, combining and cutting of Series
-/

namespace DF

variable {α β σ τ γ δ : Type} {R : α → β → Prop} {S : σ → τ → Prop}

/-- Callbacks that give related results on related items, keeping the captured variables related. -/
def CbRel (S : σ → τ → Prop) (P : γ → δ → Prop) {γ' δ' : Type} (Q : γ' → δ' → Prop) (f : γ → Nat → Eff σ γ')
    (g : δ → Nat → Eff τ δ') : Prop := ∀ x y, P x y → ∀ i, EffRel S Q (f x i) (g y i)

theorem EffRel.mapM_same {ι : Type} {Q : γ → δ → Prop} {f : ι → Eff σ γ} {g : ι → Eff τ δ} (l : List ι)
    (h : ∀ i, EffRel S Q (f i) (g i)) : EffRel S (List.Forall₂ Q) (l.mapM f) (l.mapM g) := by
  induction l with
  | nil => exact EffRel.pure .nil
  | cons i l ih =>
    rw [List.mapM_cons, List.mapM_cons]
    exact (h i).bind fun a b hab => ih.bind fun _ _ hl => EffRel.pure (.cons hab hl)

theorem ResRel.mapM {γ' δ' : Type} {P : γ → δ → Prop} {Q : γ' → δ' → Prop} {f : γ → Res γ'} {g : δ → Res δ'} {l : List γ} {m : List δ}
    (h : List.Forall₂ P l m) (hf : ∀ a b, P a b → ResRel Q (f a) (g b)) : ResRel (List.Forall₂ Q) (l.mapM f) (m.mapM g) := by
  induction h with
  | nil => exact .ok .nil
  | cons h1 _ ih =>
    rw [List.mapM_cons, List.mapM_cons]
    exact (hf _ _ h1).bind fun a b hab => ih.bind fun _ _ hl => .ok (.cons hab hl)

/-! ## map -/

theorem numLoop_rel {get : Nat → Res γ} {get' : Nat → Res δ} {P : γ → δ → Prop} (hg : ∀ i, ResRel P (get i) (get' i))
    {f : γ → Nat → Eff σ α} {g : δ → Nat → Eff τ β} (hf : CbRel S P R f g) (n : Nat) (d : Nat) :
    EffRel S (SRel R) (do
      let results ← forLoop (fun i r => do
        let x ← Eff.lift (get i)
        let y ← f x i
        pure (r ++ [y])) 0 n []
      Eff.lift (Serie.ofArray 1 results d)) (do
      let results ← forLoop (fun i r => do
        let x ← Eff.lift (get' i)
        let y ← g x i
        pure (r ++ [y])) 0 n []
      Eff.lift (Serie.ofArray 1 results d)) := by
  refine (EffRel.forLoop (Q := List.Forall₂ R) _ 0 .nil fun i a b hab => ?_).bind fun a b hab => EffRel.lift (SRel.ofArray _ hab _)
  exact (EffRel.lift (hg i)).bind fun v w hv => (hf v w hv i).bind fun v2 w2 h2 => EffRel.pure (Forall₂.append hab (.cons h2 .nil))

theorem mapSS_rel {f : α → Nat → Eff σ α} {g : β → Nat → Eff τ β} (hf : CbRel S R R f g) {s : Serie α} {t : Serie β} (h : SRel R s t) :
    EffRel S (SRel R) (mapSS f s) (mapSS g t) := by
  unfold mapSS
  rw [h.count]
  exact numLoop_rel h.getD hf _ _

theorem mapVS_rel {f : List α → Nat → Eff σ α} {g : List β → Nat → Eff τ β} (hf : CbRel S (List.Forall₂ R) R f g) {s : Serie α}
    {t : Serie β} (h : SRel R s t) : EffRel S (SRel R) (mapVS f s) (mapVS g t) := by
  unfold mapVS
  rw [h.count]
  exact numLoop_rel h.getA hf _ _

section zero

variable [Zero α] [Zero β]

theorem arrLoop_rel (h0 : R 0 0) {get : Nat → Res γ} {get' : Nat → Res δ} {P : γ → δ → Prop} (hg : ∀ i, ResRel P (get i) (get' i))
    {f : γ → Nat → Eff σ (List α)} {g : δ → Nat → Eff τ (List β)} (hf : CbRel S P (List.Forall₂ R) f g) (n : Nat) :
    EffRel S (SRel R) (if n = 0 then pure (Serie.zeros 0 0) else do
      let x0 ← Eff.lift (get 0)
      let first ← f x0 0
      let itemSize := first.length
      let flattened ← forLoop (fun i r => do
        let x ← Eff.lift (get i)
        let y ← f x i
        if y.length ≠ itemSize then Eff.throw .runtimeError else pure (r ++ y)) 1 (n - 1) first
      Eff.lift (Serie.ofArray (u32 itemSize) flattened)) (if n = 0 then pure (Serie.zeros 0 0) else do
      let x0 ← Eff.lift (get' 0)
      let first ← g x0 0
      let itemSize := first.length
      let flattened ← forLoop (fun i r => do
        let x ← Eff.lift (get' i)
        let y ← g x i
        if y.length ≠ itemSize then Eff.throw .runtimeError else pure (r ++ y)) 1 (n - 1) first
      Eff.lift (Serie.ofArray (u32 itemSize) flattened)) := by
  split
  · exact EffRel.pure (SRel.zeros h0 0 0 3)
  · refine (EffRel.lift (hg 0)).bind fun v w hv => ?_
    refine (hf v w hv 0).bind fun v1 w1 h1 => ?_
    dsimp only
    rw [h1.length_eq]
    refine (EffRel.forLoop _ 1 h1 fun i a b hab => ?_).bind fun a b hab => EffRel.lift (SRel.ofArray _ hab _)
    refine (EffRel.lift (hg i)).bind fun v w hv => (hf v w hv i).bind fun v2 w2 h2 => ?_
    rw [h2.length_eq]
    split
    · exact EffRel.throw _
    · exact EffRel.pure (Forall₂.append hab h2)

theorem mapSV_rel (h0 : R 0 0) {f : α → Nat → Eff σ (List α)} {g : β → Nat → Eff τ (List β)} (hf : CbRel S R (List.Forall₂ R) f g)
    {s : Serie α} {t : Serie β} (h : SRel R s t) : EffRel S (SRel R) (mapSV f s) (mapSV g t) := by
  unfold mapSV
  rw [h.count]
  exact arrLoop_rel h0 h.getD hf _

theorem mapVV_rel (h0 : R 0 0) {f : List α → Nat → Eff σ (List α)} {g : List β → Nat → Eff τ (List β)}
    (hf : CbRel S (List.Forall₂ R) (List.Forall₂ R) f g) {s : Serie α} {t : Serie β} (h : SRel R s t) :
    EffRel S (SRel R) (mapVV f s) (mapVV g t) := by
  unfold mapVV
  rw [h.count]
  exact arrLoop_rel h0 h.getA hf _

/-! ## filter, reject, findAll, partition, check -/

omit [Zero α] [Zero β] in
theorem collect_rel {get : Nat → Res γ} {get' : Nat → Res δ} {P : γ → δ → Prop} (hg : ∀ i, ResRel P (get i) (get' i))
    {f : γ → Nat → Eff σ Bool} {g : δ → Nat → Eff τ Bool} (hf : CbRel S P (· = ·) f g) (n : Nat) :
    EffRel S (· = ·) (collect get n f) (collect get' n g) := by
  unfold collect
  refine EffRel.forLoop (Q := fun a b : List Nat => a = b) _ 0 rfl fun i a b hab => ?_
  refine (EffRel.lift (hg i)).bind fun x y hx => (hf x y hx i).bind fun c d e => EffRel.pure ?_
  rw [e, hab]

omit [Zero α] [Zero β] in
theorem collectNot_rel {get : Nat → Res γ} {get' : Nat → Res δ} {P : γ → δ → Prop} (hg : ∀ i, ResRel P (get i) (get' i))
    {f : γ → Nat → Eff σ Bool} {g : δ → Nat → Eff τ Bool} (hf : CbRel S P (· = ·) f g) (n : Nat) :
    EffRel S (· = ·) (collectNot get n f) (collectNot get' n g) := by
  unfold collectNot
  refine EffRel.forLoop (Q := fun a b : List Nat => a = b) _ 0 rfl fun i a b hab => ?_
  refine (EffRel.lift (hg i)).bind fun x y hx => (hf x y hx i).bind fun c d e => EffRel.pure ?_
  rw [e, hab]

omit [Zero α] [Zero β] in
theorem collectBoth_rel {get : Nat → Res γ} {get' : Nat → Res δ} {P : γ → δ → Prop} (hg : ∀ i, ResRel P (get i) (get' i))
    {f : γ → Nat → Eff σ Bool} {g : δ → Nat → Eff τ Bool} (hf : CbRel S P (· = ·) f g) (n : Nat) :
    EffRel S (· = ·) (collectBoth get n f) (collectBoth get' n g) := by
  unfold collectBoth
  refine EffRel.forLoop (Q := fun a b : List Nat × List Nat => a = b) _ 0 rfl fun i a b hab => ?_
  refine (EffRel.lift (hg i)).bind fun x y hx => (hf x y hx i).bind fun c d e => EffRel.pure ?_
  rw [e, hab]

theorem gatherD_rel (h0 : R 0 0) {s : Serie α} {t : Serie β} (h : SRel R s t) (idx : List Nat) :
    ResRel (SRel R) (gatherD s idx) (gatherD t idx) := by
  unfold gatherD
  refine ResRel.forLoop _ 0 (SRel.zeros h0 _ _ _) fun i r r' hr => (ResRel.refl_eq _).bind fun j _ e => ?_
  subst e
  exact (h.getD j).bind fun _ _ hx => hr.putD i hx

theorem gatherA_rel (h0 : R 0 0) {s : Serie α} {t : Serie β} (h : SRel R s t) (idx : List Nat) :
    ResRel (SRel R) (gatherA s idx) (gatherA t idx) := by
  unfold gatherA
  rw [h.itemSize]
  refine ResRel.forLoop _ 0 (SRel.zeros h0 _ _ _) fun i r r' hr => (ResRel.refl_eq _).bind fun j _ e => ?_
  subst e
  exact (h.getA j).bind fun _ _ hx => hr.putA i hx

theorem gatherFind_rel (h0 : R 0 0) {s : Serie α} {t : Serie β} (h : SRel R s t) (idx : List Nat) :
    ResRel (SRel R) (gatherFind s idx) (gatherFind t idx) := by
  unfold gatherFind
  rw [h.itemSize]
  refine ResRel.forLoop _ 0 (SRel.zeros h0 _ _ _) fun i r r' hr => ?_
  split
  · refine (ResRel.refl_eq _).bind fun j _ e => ?_
    subst e
    exact (h.getD j).bind fun _ _ hx => hr.putD i hx
  · refine (ResRel.refl_eq _).bind fun j _ e => ?_
    subst e
    exact (h.getA j).bind fun _ _ hx => hr.putA i hx

section predicates

variable {s : Serie α} {t : Serie β}

theorem filterS_effRel (h0 : R 0 0) {f : α → Nat → Eff σ Bool} {g : β → Nat → Eff τ Bool} (hf : CbRel S R (· = ·) f g) (h : SRel R s t) :
    EffRel S (SRel R) (filterS f s) (filterS g t) := by
  unfold filterS
  rw [h.count]
  exact (collect_rel h.getD hf _).bind fun a b e => e ▸ EffRel.lift (gatherD_rel h0 h _)

theorem filterV_effRel (h0 : R 0 0) {f : List α → Nat → Eff σ Bool} {g : List β → Nat → Eff τ Bool}
    (hf : CbRel S (List.Forall₂ R) (· = ·) f g) (h : SRel R s t) : EffRel S (SRel R) (filterV f s) (filterV g t) := by
  unfold filterV
  rw [h.count]
  exact (collect_rel h.getA hf _).bind fun a b e => e ▸ EffRel.lift (gatherA_rel h0 h _)

theorem rejectS_effRel (h0 : R 0 0) {f : α → Nat → Eff σ Bool} {g : β → Nat → Eff τ Bool} (hf : CbRel S R (· = ·) f g) (h : SRel R s t) :
    EffRel S (SRel R) (rejectS f s) (rejectS g t) := by
  unfold rejectS
  rw [h.count]
  exact (collectNot_rel h.getD hf _).bind fun a b e => e ▸ EffRel.lift (gatherD_rel h0 h _)

theorem rejectV_effRel (h0 : R 0 0) {f : List α → Nat → Eff σ Bool} {g : List β → Nat → Eff τ Bool}
    (hf : CbRel S (List.Forall₂ R) (· = ·) f g) (h : SRel R s t) : EffRel S (SRel R) (rejectV f s) (rejectV g t) := by
  unfold rejectV
  rw [h.count]
  exact (collectNot_rel h.getA hf _).bind fun a b e => e ▸ EffRel.lift (gatherA_rel h0 h _)

theorem findAllS_effRel (h0 : R 0 0) {f : α → Nat → Eff σ Bool} {g : β → Nat → Eff τ Bool} (hf : CbRel S R (· = ·) f g) (h : SRel R s t) :
    EffRel S (SRel R) (findAllS f s) (findAllS g t) := by
  unfold findAllS
  rw [h.count]
  exact (collect_rel h.getD hf _).bind fun a b e => e ▸ EffRel.lift (gatherFind_rel h0 h _)

theorem findAllV_effRel (h0 : R 0 0) {f : List α → Nat → Eff σ Bool} {g : List β → Nat → Eff τ Bool}
    (hf : CbRel S (List.Forall₂ R) (· = ·) f g) (h : SRel R s t) : EffRel S (SRel R) (findAllV f s) (findAllV g t) := by
  unfold findAllV
  rw [h.count]
  exact (collect_rel h.getA hf _).bind fun a b e => e ▸ EffRel.lift (gatherFind_rel h0 h _)

theorem partitionS_effRel (h0 : R 0 0) {f : α → Nat → Eff σ Bool} {g : β → Nat → Eff τ Bool} (hf : CbRel S R (· = ·) f g) (h : SRel R s t) :
    EffRel S (fun p q => SRel R p.1 q.1 ∧ SRel R p.2 q.2) (partitionS f s) (partitionS g t) := by
  unfold partitionS
  rw [h.itemSize, h.count]
  split
  · exact EffRel.throw _
  · refine (collectBoth_rel h.getD hf _).bind fun a b e => ?_
    subst e
    exact (EffRel.lift (gatherD_rel h0 h _)).bind fun _ _ h1 => (EffRel.lift (gatherD_rel h0 h _)).bind fun _ _ h2 => EffRel.pure ⟨h1, h2⟩

theorem partitionV_effRel (h0 : R 0 0) {f : List α → Nat → Eff σ Bool} {g : List β → Nat → Eff τ Bool}
    (hf : CbRel S (List.Forall₂ R) (· = ·) f g) (h : SRel R s t) :
    EffRel S (fun p q => SRel R p.1 q.1 ∧ SRel R p.2 q.2) (partitionV f s) (partitionV g t) := by
  unfold partitionV
  rw [h.count]
  refine (collectBoth_rel h.getA hf _).bind fun a b e => ?_
  subst e
  exact (EffRel.lift (gatherA_rel h0 h _)).bind fun _ _ h1 => (EffRel.lift (gatherA_rel h0 h _)).bind fun _ _ h2 => EffRel.pure ⟨h1, h2⟩

theorem checkS_effRel [One α] [One β] (h0 : R 0 0) (h1 : R 1 1) {f : α → Nat → Eff σ Bool} {g : β → Nat → Eff τ Bool}
    (hf : CbRel S R (· = ·) f g) (h : SRel R s t) : EffRel S (SRel R) (checkS s f) (checkS t g) := by
  unfold checkS
  rw [h.count]
  refine (EffRel.forLoop (Q := List.Forall₂ R) _ 0 .nil fun i a b hab => ?_).bind fun a b hab => EffRel.lift (SRel.ofArray _ hab _)
  refine (EffRel.lift (h.getD i)).bind fun v w hv => (hf v w hv i).bind fun a b e => EffRel.pure (Forall₂.append hab (.cons ?_ .nil))
  subst e
  cases a
  · exact h0
  · exact h1

theorem checkV_effRel [One α] [One β] (h0 : R 0 0) (h1 : R 1 1) {f : List α → Nat → Eff σ Bool} {g : List β → Nat → Eff τ Bool}
    (hf : CbRel S (List.Forall₂ R) (· = ·) f g) (h : SRel R s t) : EffRel S (SRel R) (checkV s f) (checkV t g) := by
  unfold checkV
  rw [h.count]
  refine (EffRel.forLoop (Q := List.Forall₂ R) _ 0 .nil fun i a b hab => ?_).bind fun a b hab => EffRel.lift (SRel.ofArray _ hab _)
  refine (EffRel.lift (h.getA i)).bind fun v w hv => (hf v w hv i).bind fun a b e => EffRel.pure (Forall₂.append hab (.cons ?_ .nil))
  subst e
  cases a
  · exact h0
  · exact h1

end predicates

/-! ## Several Series -/

section several

variable {l : List (Serie α)} {m : List (Serie β)}

omit [Zero α] [Zero β] in
theorem map_same {ι : Type} {f : Serie α → ι} {g : Serie β → ι} (hf : ∀ s t, SRel R s t → f s = g t) (h : List.Forall₂ (SRel R) l m) :
    l.map f = m.map g := by
  induction h with
  | nil => rfl
  | cons h1 _ ih => rw [List.map_cons, List.map_cons, hf _ _ h1, ih]

omit [Zero α] [Zero β] in
theorem foldl_same {ι : Type} {f : ι → Serie α → ι} {g : ι → Serie β → ι} (hf : ∀ a s t, SRel R s t → f a s = g a t)
    (h : List.Forall₂ (SRel R) l m) (x : ι) : l.foldl f x = m.foldl g x :=
  Forall₂.foldl (S := (· = ·)) h rfl fun a _ e s t hs => e ▸ hf a s t hs

omit [Zero α] [Zero β] in
theorem counts_rel (h : List.Forall₂ (SRel R) l m) : countAndCheck l = countAndCheck m := by
  unfold countAndCheck
  rw [map_same (fun s t hs => hs.count) h]

omit [Zero α] [Zero β] in
theorem getRow_rel (h : List.Forall₂ (SRel R) l m) (i : Nat) :
    ResRel (List.Forall₂ (List.Forall₂ R)) (getRow l i) (getRow m i) := ResRel.mapM h fun _ _ hs => hs.getA i

theorem filterMulti_rel (h0 : R 0 0) {f : List (List α) → Nat → Eff σ Bool} {g : List (List β) → Nat → Eff τ Bool}
    (hf : CbRel S (List.Forall₂ (List.Forall₂ R)) (· = ·) f g) (h : List.Forall₂ (SRel R) l m) :
    EffRel S (List.Forall₂ (SRel R)) (filterMulti f l) (filterMulti g m) := by
  unfold filterMulti
  rw [counts_rel h]
  refine (EffRel.lift (ResRel.refl_eq _)).bind fun a _ e => ?_
  subst e
  refine (EffRel.lift (ResRel.refl_eq _)).bind fun c d e => ?_
  subst e
  exact (collect_rel (getRow_rel h) hf _).bind fun a b e => e ▸ EffRel.lift (ResRel.mapM h fun _ _ hs => gatherA_rel h0 hs _)

theorem rejectMulti_rel (h0 : R 0 0) {f : List (List α) → Nat → Eff σ Bool} {g : List (List β) → Nat → Eff τ Bool}
    (hf : CbRel S (List.Forall₂ (List.Forall₂ R)) (· = ·) f g) (h : List.Forall₂ (SRel R) l m) :
    EffRel S (List.Forall₂ (SRel R)) (rejectMulti f l) (rejectMulti g m) := by
  unfold rejectMulti
  rw [counts_rel h]
  refine (EffRel.lift (ResRel.refl_eq _)).bind fun a _ e => ?_
  subst e
  refine (EffRel.lift (ResRel.refl_eq _)).bind fun c d e => ?_
  subst e
  exact (collectNot_rel (getRow_rel h) hf _).bind fun a b e => e ▸ EffRel.lift (ResRel.mapM h fun _ _ hs => gatherA_rel h0 hs _)

/-- The Serie being filled and the running index. -/
def FillRel (R : α → β → Prop) (p : Serie α × Nat) (q : Serie β × Nat) : Prop := SRel R p.1 q.1 ∧ p.2 = q.2

omit [Zero α] [Zero β] in
theorem pushItem_rel {p : Serie α × Nat} {q : Serie β × Nat} (h : FillRel R p q) {v : List α} {w : List β} (hv : List.Forall₂ R v w) :
    ResRel (FillRel R) (pushItem p v) (pushItem q w) := by
  unfold pushItem
  rw [h.2]
  exact (h.1.putA _ hv).bind fun _ _ hr => .ok ⟨hr, rfl⟩

omit [Zero α] [Zero β] in
theorem pushAll_rel {s : Serie α} {t : Serie β} (h : SRel R s t) {p : Serie α × Nat} {q : Serie β × Nat} (hp : FillRel R p q) :
    ResRel (FillRel R) (pushAll s p) (pushAll t q) := by
  unfold pushAll
  rw [h.count]
  exact ResRel.forLoop _ 0 hp fun i a b hab => (h.getA i).bind fun _ _ hv => pushItem_rel hab hv

omit [Zero α] [Zero β] in
theorem pushAt_rel (i : Nat) {s : Serie α} {t : Serie β} (h : SRel R s t) {p : Serie α × Nat} {q : Serie β × Nat} (hp : FillRel R p q) :
    ResRel (FillRel R) (pushAt i s p) (pushAt i t q) := by
  unfold pushAt
  rw [h.count]
  split
  · exact (h.getA i).bind fun _ _ hv => pushItem_rel hp hv
  · exact .ok hp

theorem merge2_rel (h0 : R 0 0) {s a : Serie α} {t b : Serie β} (h : SRel R s t) (h' : SRel R a b) (c : Bool) :
    ResRel (SRel R) (merge2 s a c) (merge2 t b c) := by
  unfold merge2
  rw [h.itemSize, h'.itemSize, h.count, h'.count]
  split
  · exact .throw _
  · have hz : FillRel R (Serie.zeros t.itemSize (u32 (t.count + b.count)), 0) (Serie.zeros t.itemSize (u32 (t.count + b.count)), 0) :=
      ⟨SRel.zeros h0 _ _ _, rfl⟩
    dsimp only
    split
    · exact (pushAll_rel h hz).bind fun _ _ h1 => (pushAll_rel h' h1).bind fun _ _ h2 => .ok h2.1
    · refine (ResRel.forLoop _ 0 hz fun i p q hp => ?_).bind fun _ _ h2 => .ok h2.1
      exact (pushAt_rel i h hp).bind fun _ _ h1 => pushAt_rel i h' h1

theorem mergeN_rel (h0 : R 0 0) (h : List.Forall₂ (SRel R) l m) (c : Bool) : ResRel (SRel R) (mergeN c l) (mergeN c m) := by
  cases h with
  | nil => exact .ub
  | @cons s t l' m' h1 h2 =>
    have h : List.Forall₂ (SRel R) (s :: l') (t :: m') := .cons h1 h2
    unfold mergeN
    dsimp only
    rw [map_same (f := fun x : Serie α => x.itemSize) (g := fun x : Serie β => x.itemSize) (fun _ _ hs => hs.itemSize) h,
      foldl_same (f := fun n (x : Serie α) => u32 (n + x.count)) (g := fun n (x : Serie β) => u32 (n + x.count))
        (fun a s t hs => by rw [hs.count]) h 0,
      foldl_same (f := fun n (x : Serie α) => max n x.count) (g := fun n (x : Serie β) => max n x.count)
        (fun a s t hs => by rw [hs.count]) h 0, h1.itemSize]
    split
    · exact .throw _
    · split
      · exact (ResRel.foldlM (S := FillRel R) h ⟨SRel.zeros h0 _ _ _, rfl⟩ fun _ _ hp _ _ hs => pushAll_rel hs hp).bind fun _ _ h2 => .ok h2.1
      · refine (ResRel.forLoop (S := FillRel R) _ 0 ⟨SRel.zeros h0 _ _ _, rfl⟩ fun i p q hp => ?_).bind fun _ _ h2 => .ok h2.1
        exact ResRel.foldlM h hp fun _ _ hp _ _ hs => pushAt_rel i hs hp

theorem concat_rel (h0 : R 0 0) (h : List.Forall₂ (SRel R) l m) : ResRel (SRel R) (concat l) (concat m) := by
  cases h with
  | nil => exact .throw _
  | @cons s t l' m' h1 h2 =>
    have h : List.Forall₂ (SRel R) (s :: l') (t :: m') := .cons h1 h2
    unfold concat
    dsimp only
    refine (ResRel.foldlM (S := (· = ·)) h rfl fun a b e x y hx => ?_).bind fun a b e => ?_
    · rw [hx.isValid, hx.itemSize, h1.itemSize, hx.count, e]
      exact ResRel.refl_eq _
    · rw [e, h1.itemSize]
      exact (ResRel.foldlM (S := FillRel R) h ⟨SRel.zeros h0 _ _ _, rfl⟩ fun _ _ hp _ _ hs => pushAll_rel hs hp).bind fun _ _ h2 => .ok h2.1

theorem foldSeries_rel (h0 : R 0 0) {f : Serie α → Serie α → Res (Serie α)} {g : Serie β → Serie β → Res (Serie β)}
    (hf : ∀ a b, SRel R a b → ∀ c d, SRel R c d → ResRel (SRel R) (f a c) (g b d)) (h : List.Forall₂ (SRel R) l m) :
    ResRel (SRel R) (foldSeries f l) (foldSeries g m) := by
  cases h with
  | nil => exact .throw _
  | @cons s t l' m' h1 h2 =>
    have h : List.Forall₂ (SRel R) (s :: l') (t :: m') := .cons h1 h2
    unfold foldSeries
    dsimp only
    rw [counts_rel h, h1.itemSize, h1.count]
    refine (ResRel.refl_eq _).bind fun _ _ _ => ?_
    exact ResRel.foldlM h (SRel.zeros h0 _ _ _) fun a b hab c d hcd => (hf _ _ hab _ _ hcd).bind fun _ _ hr => hr.assign hab

omit [Zero α] [Zero β] in
theorem SRel.putScalar {s : Serie α} {t : Serie β} (h : SRel R s t) (i : Nat) {x : α} {y : β} (hx : R x y) :
    ResRel (SRel R) (s.putScalar i x) (t.putScalar i y) := h.setScalar i hx

omit [Zero α] [Zero β] in
theorem SRel.putValue {s : Serie α} {t : Serie β} (h : SRel R s t) (i : Nat) {v : List α} {w : List β}
    (hv : List.Forall₂ R v w) : ResRel (SRel R) (s.putValue i v) (t.putValue i w) := by
  apply exec_rel
  unfold Serie.setValue
  rw [h.count, h.itemSize, hv.length_eq]
  split
  · exact ⟨.throw _, h⟩
  · split
    · exact ⟨.throw _, h⟩
    · refine (EffRel.forLoop (S := SRel R) (Q := fun _ _ => True) _ 0 trivial fun j _ _ _ => ?_) s t h
      exact (EffRel.lift (Forall₂.rd hv j)).bind fun x y hxy => show EffRel _ _ (Serie.write _ _) (Serie.write _ _) from
        fun s t hs => hs.write _ hxy

omit [Zero α] [Zero β] in
theorem zipCopy_rel {s : Serie α} {t : Serie β} (h : SRel R s t) (n off : Nat) {r : Serie α} {r' : Serie β} (hr : SRel R r r') :
    ResRel (SRel R) (zipCopy s n off r) (zipCopy t n off r') := by
  unfold zipCopy
  rw [h.itemSize]
  refine ResRel.forLoop _ 0 hr fun i a b hab => ?_
  split
  · rw [hab.itemSize]
    exact (h.scalar i).bind fun _ _ hx => hab.putScalar _ hx
  · refine (h.value i).bind fun _ _ hv => ResRel.forLoop _ 0 hab fun j a b hab => ?_
    rw [hab.itemSize]
    exact (Forall₂.rd hv j).bind fun _ _ hx => hab.putScalar _ hx

omit [Zero α] [Zero β] in
theorem allValid_same (h : List.Forall₂ (SRel R) l m) : l.all (·.isValid) = m.all (·.isValid) := by
  induction h with
  | nil => rfl
  | cons h1 _ ih => rw [List.all_cons, List.all_cons, h1.isValid, ih]

theorem zip_rel (h0 : R 0 0) (h : List.Forall₂ (SRel R) l m) : ResRel (SRel R) (zip l) (zip m) := by
  unfold zip
  rw [allValid_same h, counts_rel h,
    foldl_same (f := fun n (x : Serie α) => u32 (n + x.itemSize)) (g := fun n (x : Serie β) => u32 (n + x.itemSize))
      (fun a s t hs => by rw [hs.itemSize]) h 0]
  split
  · exact .throw _
  · refine (ResRel.refl_eq _).bind fun a _ e => ?_
    subst e
    refine (ResRel.refl_eq _).bind fun c d e => ?_
    subst e
    refine (ResRel.foldlM (S := FillRel R) h ⟨SRel.zeros h0 _ _ _, rfl⟩ fun p q hp x y hx => ?_).bind fun _ _ h2 => .ok h2.1
    rw [hx.count, hp.2, hx.itemSize]
    exact (zipCopy_rel hx _ _ hp.1).bind fun _ _ hr => .ok ⟨hr, rfl⟩

theorem unzipOne_rel (h0 : R 0 0) {s : Serie α} {t : Serie β} (h : SRel R s t) (k off : Nat) :
    ResRel (SRel R) (unzipOne s k off) (unzipOne t k off) := by
  unfold unzipOne
  rw [h.count, h.itemSize]
  refine ResRel.forLoop _ 0 (SRel.zeros h0 _ _ _) fun i a b hab => ?_
  split
  · exact (h.scalar _).bind fun _ _ hx => hab.putScalar _ hx
  · refine (ResRel.forLoop (S := List.Forall₂ R) _ 0 (Forall₂.replicate _ h0) fun j v w hv => ?_).bind fun _ _ hv => hab.putValue i hv
    exact (h.scalar _).bind fun _ _ hx => Forall₂.wr hv j hx

theorem unzip_rel (h0 : R 0 0) {s : Serie α} {t : Serie β} (h : SRel R s t) (sizes : List Nat) :
    ResRel (List.Forall₂ (SRel R)) (unzip s sizes) (unzip t sizes) := by
  unfold unzip
  rw [h.itemSize]
  split
  · exact .throw _
  · split
    · exact .throw _
    · refine (ResRel.foldlM (S := fun (p : List (Serie α) × Nat) (q : List (Serie β) × Nat) => List.Forall₂ (SRel R) p.1 q.1 ∧ p.2 = q.2)
        (T := (· = ·)) (List.forall₂_eq_eq_eq ▸ rfl) ⟨.nil, rfl⟩ fun p q hp k _ e => ?_).bind fun _ _ h2 => .ok h2.1
      subst e
      rw [hp.2]
      exact (unzipOne_rel h0 h _ _).bind fun _ _ hr => .ok ⟨Forall₂.append hp.1 (.cons hr .nil), rfl⟩

theorem slice_rel (h0 : R 0 0) {s : Serie α} {t : Serie β} (h : SRel R s t) (start n : Nat) :
    ResRel (SRel R) (slice s start n) (slice t start n) := by
  unfold slice
  rw [h.itemSize]
  exact ResRel.forLoop _ 0 (SRel.zeros h0 _ _ _) fun i a b hab => (h.getA _).bind fun _ _ hv => hab.putA i hv

theorem partLoop_rel (h0 : R 0 0) {s : Serie α} {t : Serie β} (h : SRel R s t) (base rem total rest : Nat) :
    ∀ (i start : Nat) {p : List (Serie α)} {q : List (Serie β)}, List.Forall₂ (SRel R) p q →
      ResRel (List.Forall₂ (SRel R)) (partLoop s base rem total rest i start p) (partLoop t base rem total rest i start q) := by
  induction rest with
  | zero => intro i start p q hp; exact .ok hp
  | succ rest ih =>
    intro i start p q hp
    unfold partLoop
    refine (slice_rel h0 h _ _).bind fun a b hab => ?_
    dsimp only
    generalize u32 (start + u32 (base + if i < rem then 1 else 0)) = next
    split
    · exact .ok (Forall₂.append hp (.cons hab .nil))
    · exact ih _ _ (Forall₂.append hp (.cons hab .nil))

theorem partitionN_rel (h0 : R 0 0) {s : Serie α} {t : Serie β} (h : SRel R s t) (n : Nat) :
    ResRel (List.Forall₂ (SRel R)) (partitionN n s) (partitionN n t) := by
  unfold partitionN
  rw [h.count]
  split
  · exact .ub
  · exact partLoop_rel h0 h _ _ _ _ _ _ .nil

end several

end zero

end DF
