import Verif.Lemmas.ParamFlow
import Verif.Lemmas.Zeros
import Verif.Spec.Twin

/-!
# The same program on two kinds of numbers: proofs
-/

namespace DF

open Spec

variable {σ τ α β γ δ γ' δ' : Type}

theorem rel_of_outcomes {Q : γ → δ → Prop} {x : Res γ} {y : Res δ} (h : Outcomes Q x y) : ResRel Q x y := by
  cases x <;> cases y <;> try exact absurd h id
  · exact .ok h
  · cases (show _ = _ from h); exact .throw _
  · exact .ub

theorem cbRel {S : σ → τ → Prop} {P : γ → δ → Prop} {Q : γ' → δ' → Prop} {f : γ → Nat → Eff σ γ'} {g : δ → Nat → Eff τ δ'}
    (h : AnswerAlike S P Q f g) : CbRel S P Q f g := fun x y hxy i s t hs => ⟨rel_of_outcomes (h x y hxy i s t hs).1, (h x y hxy i s t hs).2⟩

variable {R : α → β → Prop} {S : σ → τ → Prop}

theorem at_rel {l : List (Serie α)} {m : List (Serie β)} (h : List.Forall₂ (SRel R) l m) (j : Nat) :
    ResRel (SRel R) (at? l j) (at? m j) := by
  unfold at?
  induction h generalizing j with
  | nil => exact .throw _
  | cons h1 _ ih =>
    cases j with
    | zero => exact .ok h1
    | succ j => simpa using ih j

variable [Zero α] [One α] [Add α] [Sub α] [Mul α] [Div α] [Neg α] [LT α] [DecidableLT α] [LE α] [DecidableLE α] [BEq α] [OfScientific α]
  [Zero β] [One β] [Add β] [Sub β] [Mul β] [Div β] [Neg β] [LT β] [DecidableLT β] [LE β] [DecidableLE β] [BEq β] [OfScientific β]

theorem call1_twin (h0 : R 0 0) {f : Call1 σ α} {g : Call1 τ β} (hk : ∀ u ∈ f.uses, Kept R u) (h : f.Twin R S g) {s : Serie α}
    {t : Serie β} (hs : SRel R s t) : EffRel S (SRel R) (f.run s) (g.run t) := by
  cases h with
  | scale h => exact EffRel.lift (scale_rel h0 (hk .product (by simp [Call1.uses])) hs h)
  | scaleBy h => exact EffRel.lift (scaleBy_rel h0 (hk .product (by simp [Call1.uses])) hs h)
  | negate => exact EffRel.lift (negate_rel h0 (hk .minusOne (by simp [Call1.uses])) (hk .product (by simp [Call1.uses])) hs)
  | addNum h => exact EffRel.lift (addNum_rel (hk .addition (by simp [Call1.uses])) hs h)
  | subNum h => exact EffRel.lift (subNum_rel (hk .subtraction (by simp [Call1.uses])) hs h)
  | multNum h => exact EffRel.lift (mult_rel h0 (hk .product (by simp [Call1.uses])) hs h)
  | divNum h => exact EffRel.lift (divNum_rel h0 (fun a b hab => hk .division (by simp [Call1.uses]) a b hab _ _ h) hs)
  | mapNumbers h => exact mapSS_rel (cbRel h) hs
  | mapToNumbers h => exact mapVS_rel (cbRel h) hs
  | mapToArrays h => exact mapSV_rel h0 (cbRel h) hs
  | mapArrays h => exact mapVV_rel h0 (cbRel h) hs
  | filterNumbers h => exact filterS_effRel h0 (cbRel h) hs
  | filterArrays h => exact filterV_effRel h0 (cbRel h) hs
  | rejectNumbers h => exact rejectS_effRel h0 (cbRel h) hs
  | rejectArrays h => exact rejectV_effRel h0 (cbRel h) hs
  | findNumbers h => exact findAllS_effRel h0 (cbRel h) hs
  | findArrays h => exact findAllV_effRel h0 (cbRel h) hs
  | checkNumbers h => exact checkS_effRel h0 (hk .one (by simp [Call1.uses])) (cbRel h) hs
  | checkArrays h => exact checkV_effRel h0 (hk .one (by simp [Call1.uses])) (cbRel h) hs
  | @partitionNumbers b _ _ h =>
    refine (partitionS_effRel h0 (cbRel h) hs).bind fun p q hp => EffRel.pure ?_
    cases b
    · exact hp.1
    · exact hp.2
  | @partitionArrays b _ _ h =>
    refine (partitionV_effRel h0 (cbRel h) hs).bind fun p q hp => EffRel.pure ?_
    cases b
    · exact hp.1
    · exact hp.2
  | part => exact EffRel.lift ((partitionN_rel h0 hs _).bind fun _ _ h => at_rel h _)
  | unzipped => exact EffRel.lift ((unzip_rel h0 hs _).bind fun _ _ h => at_rel h _)
  | transpose => exact EffRel.lift (transpose_rel h0 hs)
  | inv =>
    have hi := hk .guardedInverse (by simp [Call1.uses])
    exact EffRel.lift (inv_rel h0 (hk .addition (by simp [Call1.uses])) (hk .subtraction (by simp [Call1.uses]))
      (hk .product (by simp [Call1.uses])) hi.1 hi.2 hs)

theorem call2_twin (h0 : R 0 0) {f : Call2 α} {g : Call2 β} (hk : ∀ u ∈ f.uses, Kept R u) (h : f.Twin R g) {s s' : Serie α}
    {t t' : Serie β} (hs : SRel R s t) (hs' : SRel R s' t') : ResRel (SRel R) (f.run s s') (g.run t t') := by
  cases h with
  | add => exact binOp_rel h0 (hk .addition (by simp [Call2.uses])) hs hs'
  | sub => exact binOp_rel h0 (hk .subtraction (by simp [Call2.uses])) hs hs'
  | mult => exact multSerie_rel h0 (hk .product (by simp [Call2.uses])) hs hs'
  | div =>
    have hd := hk .guardedDivision (by simp [Call2.uses])
    exact divSerie_rel h0 hd.1 hd.2 hs hs'
  | mask => exact maskWith_rel h0 (hk .one (by simp [Call2.uses])) (hk .equality (by simp [Call2.uses])) hs hs'
  | nearMask h =>
    have hc := hk .closeness (by simp [Call2.uses])
    exact maskWith_rel h0 (hk .one (by simp [Call2.uses])) (fun a b hab c d hcd => decide_eq_decide.2 (hc _ _ h a b hab c d hcd)) hs hs'
  | merge => exact merge2_rel h0 hs hs' _

theorem callN_twin (h0 : R 0 0) {f : CallN σ α} {g : CallN τ β} (hk : ∀ u ∈ f.uses, Kept R u) (h : f.Twin R S g) {l : List (Serie α)}
    {m : List (Serie β)} (hs : List.Forall₂ (SRel R) l m) : EffRel S (SRel R) (f.run l) (g.run m) := by
  cases h with
  | add => exact EffRel.lift (foldSeries_rel h0 (fun _ _ h _ _ h' => binOp_rel h0 (hk .addition (by simp [CallN.uses])) h h') hs)
  | addList => exact EffRel.lift (opList_rel h0 (hk .addition (by simp [CallN.uses])) hs)
  | subList => exact EffRel.lift (opList_rel h0 (hk .subtraction (by simp [CallN.uses])) hs)
  | weightedSum h =>
    exact EffRel.lift (weightedSum_rel h0 (hk .addition (by simp [CallN.uses])) (hk .product (by simp [CallN.uses])) hs h)
  | merge => exact EffRel.lift (mergeN_rel h0 hs _)
  | concat => exact EffRel.lift (concat_rel h0 hs)
  | zip => exact EffRel.lift (zip_rel h0 hs)
  | filtered h => exact (filterMulti_rel h0 (cbRel h) hs).bind fun _ _ h => EffRel.lift (at_rel h _)
  | rejected h => exact (rejectMulti_rel h0 (cbRel h) hs).bind fun _ _ h => EffRel.lift (at_rel h _)

theorem program_twin (h0 : R 0 0) {p : Program σ α} {q : Program τ β} (h : p.Twin R S q) :
    (∀ u, p.Uses u → Kept R u) → EffRel S (SRel R) p.run q.run := by
  induction h with
  | given h => exact fun _ => EffRel.pure (each_iff.1 h)
  | call1 h _ ih =>
    intro hk
    exact (ih fun u hu => hk u (.inr hu)).bind fun _ _ hs => call1_twin h0 (fun u hu => hk u (.inl hu)) h hs
  | call2 h _ _ ih ih' =>
    intro hk
    exact (ih fun u hu => hk u (.inr (.inl hu))).bind fun _ _ hs => (ih' fun u hu => hk u (.inr (.inr hu))).bind fun _ _ hs' =>
      EffRel.lift (call2_twin h0 (fun u hu => hk u (.inl hu)) h hs hs')
  | callN h _ ih =>
    intro hk
    exact (EffRel.mapM_same _ fun i => ih i fun u hu => hk u (.inr ⟨i, hu⟩)).bind fun _ _ hs =>
      callN_twin h0 (fun u hu => hk u (.inl hu)) h hs

end DF
