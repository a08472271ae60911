import Verif.Lemmas.DigitsEigen
import Verif.Props.Stats

/-!
# Statistics under a change of unit by an exact factor
-/

namespace DF

open Spec

/-! ## filter and check -/

section

variable {α β : Type} [Zero α] [Zero β] {S T : α → β → Prop}

theorem filterS_rel (h0 : S 0 0) {f : α → Bool} {g : β → Bool} (hf : ∀ a b, S a b → f a = g b) {s : Serie α} {t : Serie β}
    (h : SRel S s t) : ResRel (SRel S) (filterS (σ := Unit) (fun v _ => pure (f v)) s ()).1
      (filterS (σ := Unit) (fun v _ => pure (g v)) t ()).1 := by
  have key : EffRel (fun _ _ : Unit => True) (SRel S) (filterS (σ := Unit) (fun v _ => pure (f v)) s)
      (filterS (σ := Unit) (fun v _ => pure (g v)) t) := by
    unfold filterS collect
    rw [h.count]
    refine (EffRel.forLoop (Q := fun a b : List Nat => a = b) _ 0 rfl fun i a b hab => ?_).bind fun a b hab => ?_
    · refine (EffRel.lift (h.getD i)).bind fun x y hx => (EffRel.pure (hf x y hx)).bind fun c d e => EffRel.pure ?_
      rw [e, hab]
    · subst hab
      refine EffRel.lift ?_
      unfold gatherD
      refine ResRel.forLoop _ 0 (SRel.zeros h0 _ _ _) fun i r r' hr => (ResRel.refl_eq _).bind fun j _ e => ?_
      subst e
      exact (h.getD j).bind fun _ _ hx => hr.putD i hx
  exact (key () () trivial).1

theorem checkS_rel [One α] [One β] (h0 : T 0 0) (h1 : T 1 1) {f : α → Bool} {g : β → Bool} (hf : ∀ a b, S a b → f a = g b)
    {s : Serie α} {t : Serie β} (h : SRel S s t) : ResRel (SRel T) (checkS (σ := Unit) s (fun v _ => pure (f v)) ()).1
      (checkS (σ := Unit) t (fun v _ => pure (g v)) ()).1 := by
  have key : EffRel (fun _ _ : Unit => True) (SRel T) (checkS (σ := Unit) s (fun v _ => pure (f v)))
      (checkS (σ := Unit) t (fun v _ => pure (g v))) := by
    unfold checkS
    rw [h.count]
    refine (EffRel.forLoop (Q := List.Forall₂ T) _ 0 .nil fun i a b hab => ?_).bind fun a b hab => EffRel.lift (SRel.ofArray _ hab _)
    refine (EffRel.lift (h.getD i)).bind fun x y hx => (EffRel.pure (hf x y hx)).bind fun c d e => EffRel.pure ?_
    subst e
    refine Forall₂.append hab (.cons ?_ .nil)
    cases c
    · exact h0
    · exact h1
  exact (key () () trivial).1

end

variable {p : Nat} {R : Rounding p} {k : ℝ}

theorem SRel.wf {α β : Type} {S : α → β → Prop} {s : Serie α} {t : Serie β} (h : SRel S s t) (hw : WF s) : WF t :=
  ⟨h.itemSize ▸ hw.pos, h.itemSize ▸ hw.int, by rw [← h.count, ← h.itemSize, ← h.data.length_eq]; exact hw.fits,
    h.data.length_eq ▸ hw.small⟩

theorem SRel.scalars {α β : Type} {S : α → β → Prop} {s : Serie α} {t : Serie β} (h : SRel S s t) :
    List.Forall₂ S (scalars s) (scalars t) := by
  unfold Spec.scalars
  rw [h.count]
  exact List.forall₂_take _ h.data

/-! ## minMax, normalize -/

/-- `k` times a number, for an exact factor. -/
noncomputable def timesDbl (hk : ExactFactor R k) (x : Dbl R) : Dbl R := ⟨k * x.val, by
  have := hk x.val
  rw [R.exact x.rep] at this
  rw [← this]
  exact R.rep _⟩

theorem times_iff (hk : ExactFactor R k) {x y : Dbl R} : Times k x y ↔ y = timesDbl hk x :=
  ⟨fun h => Dbl.ext h, fun h => by subst h; rfl⟩

theorem times_list (hk : ExactFactor R k) {l m : List (Dbl R)} : List.Forall₂ (Times k) l m ↔ m = l.map (timesDbl hk) := by
  constructor
  · intro h
    induction h with
    | nil => rfl
    | cons h _ ih => rw [List.map_cons, ← ih, (times_iff hk).1 h]
  · rintro rfl
    induction l with
    | nil => exact .nil
    | cons x l ih => exact .cons ((times_iff hk).2 rfl) ih

theorem times_least (hk : ExactFactor R k) (h0 : 0 < k) {l m : List (Dbl R)} (h : List.Forall₂ (Times k) l m) {a b : Dbl R}
    (ha : Least a l) (hb : Least b m) : Times k a b := by
  rw [times_list hk] at h
  subst h
  obtain ⟨x, hx, rfl⟩ := List.mem_map.1 hb.1
  have h1 := (times_le h0 ((times_iff hk).2 rfl) ((times_iff hk).2 rfl)).2 (hb.2 _ (List.mem_map_of_mem ha.1))
  rw [le_antisymm (ha.2 _ hx) h1]
  exact (times_iff hk).2 rfl

theorem times_greatest (hk : ExactFactor R k) (h0 : 0 < k) {l m : List (Dbl R)} (h : List.Forall₂ (Times k) l m) {a b : Dbl R}
    (ha : Greatest a l) (hb : Greatest b m) : Times k a b := by
  rw [times_list hk] at h
  subst h
  obtain ⟨x, hx, rfl⟩ := List.mem_map.1 hb.1
  have h1 := (times_le h0 ((times_iff hk).2 rfl) ((times_iff hk).2 rfl)).2 (hb.2 _ (List.mem_map_of_mem ha.1))
  rw [le_antisymm h1 (ha.2 _ hx)]
  exact (times_iff hk).2 rfl

variable [Limits (Dbl R)]

theorem minMax_times (hk : ExactFactor R k) (h0 : 0 < k) {s t : Serie (Dbl R)} (hw : WF s) (h : SRel (Times k) s t)
    (hs : s.itemSize = 1 → ∀ x ∈ scalars s, Limits.lowest ≤ x ∧ x ≤ Limits.highest)
    (ht : s.itemSize = 1 → ∀ x ∈ scalars t, Limits.lowest ≤ x ∧ x ≤ Limits.highest) :
    ResRel (fun p q => List.Forall₂ (Times k) p.1 q.1 ∧ List.Forall₂ (Times k) p.2 q.2) (minMax s) (minMax t) := by
  by_cases h1 : s.itemSize = 1
  · by_cases c : s.count = 0
    · have c' := h.count ▸ c
      unfold minMax
      rw [h.isValid, if_pos c, if_pos c']
      split
      · exact .throw _
      · exact .ok ⟨.nil, .nil⟩
    · obtain ⟨a, b, e, ha, hb⟩ := minMax_scalar hw (by omega) h1 (hs h1)
      obtain ⟨a', b', e', ha', hb'⟩ := minMax_scalar (h.wf hw) (by rw [← h.count]; omega) (h.itemSize ▸ h1) (ht h1)
      rw [e, e']
      exact .ok ⟨.cons (times_least hk h0 h.scalars ha ha') .nil, .cons (times_greatest hk h0 h.scalars hb hb') .nil⟩
  · have h1' : t.itemSize ≠ 1 := h.itemSize ▸ h1
    have hl : ∀ a b : Dbl R, Times k a b → ∀ c d, Times k c d → (a < c ↔ b < d) := fun a b x c d y => times_lt h0 x y
    unfold minMax
    rw [h.isValid, h.count, if_neg h1, if_neg h1']
    split
    · exact .throw _
    · split
      · exact .ok ⟨.nil, .nil⟩
      · refine (h.getA 0).bind fun v w hv => ?_
        refine ResRel.forLoop (S := fun p q : _ × _ => List.Forall₂ (Times k) p.1 q.1 ∧ List.Forall₂ (Times k) p.2 q.2) _ 1 ⟨hv, hv⟩
          fun i p q hp => ?_
        refine (h.getA i).bind fun v w hv => ?_
        rw [hv.length_eq]
        refine ResRel.forLoop (S := fun p q : _ × _ => List.Forall₂ (Times k) p.1 q.1 ∧ List.Forall₂ (Times k) p.2 q.2) _ 0 hp
          fun j p q hp => ?_
        exact (Forall₂.rd hv j).bind fun _ _ hx => (Forall₂.rd hp.1 j).bind fun _ _ ha => (Forall₂.rd hp.2 j).bind fun _ _ hb =>
          (Forall₂.wr hp.1 j (minv_rel hl _ _ ha _ _ hx)).bind fun _ _ h1 =>
            (Forall₂.wr hp.2 j (maxv_rel hl _ _ hb _ _ hx)).bind fun _ _ h2 => .ok ⟨h1, h2⟩

theorem normalize_times (hk : ExactFactor R k) (h0 : 0 < k) {s t : Serie (Dbl R)} (hw : WF s) (h : SRel (Times k) s t)
    (hs : s.itemSize = 1 → ∀ x ∈ scalars s, Limits.lowest ≤ x ∧ x ≤ Limits.highest)
    (ht : s.itemSize = 1 → ∀ x ∈ scalars t, Limits.lowest ≤ x ∧ x ≤ Limits.highest) :
    ResRel (SRel (Times 1)) (normalize s) (normalize t) := by
  have hd : ∀ {a b : Dbl R}, Times k a b → Times (1 / k) (1 / a) (1 / b) := fun h => times_div exact_one hk (times_refl 1) h
  have hM := minMax_times hk h0 hw h hs ht
  unfold normalize
  rw [h.isValid, h.itemSize]
  split
  · exact .throw _
  · split
    · refine hM.bind fun p q hp => ?_
      obtain ⟨mn, mx⟩ := p
      obtain ⟨mn', mx'⟩ := q
      refine (Forall₂.rd hp.2 0).bind fun hi hi' hh => (Forall₂.rd hp.1 0).bind fun lo lo' hl => ?_
      refine mapNum_rel2 h fun v w hv _ => (Forall₂.rd hp.1 0).bind fun _ _ hl' => .ok ?_
      have := times_mul (exact_div exact_one hk) hk (hd (times_sub hk _ _ hh _ _ hl)) (times_sub hk _ _ hv _ _ hl')
      rwa [one_div_mul_cancel h0.ne'] at this
    · refine mapArr_rel2 times_zero h fun v w hv _ => .ok (Forall₂.map hv fun _ _ hx => ?_)
      have := times_sqrt hk h0.le (Forall₂.foldl (S := Times (k * k)) hv times_zero fun _ _ hx _ _ hy =>
        times_add (exact_mul hk hk) _ _ hx _ _ (times_mul hk hk hy hy))
      have := times_mul hk (exact_div exact_one hk) hx (hd this)
      rwa [mul_one_div_cancel h0.ne'] at this

/-! ## bins -/

omit [Limits (Dbl R)] in
theorem binsIn_times (hk : ExactFactor R k) (h0 : k ≠ 0) {s t : Serie (Dbl R)} (h : SRel (Times k) s t) (nb : Nat)
    {a b a' b' : Dbl R} (ha : Times k a a') (hb : Times k b b') :
    ResRel (SRel (Times 1)) (binsIn s nb a b) (binsIn t nb a' b') := by
  unfold binsIn
  rw [h.itemSize]
  split
  · exact .throw _
  · split
    · exact .ok (SRel.empty times_zero)
    · have hz := times_divSame hk (times_sub hk _ _ hb _ _ ha) ((nb : Nat) : Dbl R)
      have key : EffRel (fun l m : List (Dbl R) => l = m) (fun _ _ : Unit => True)
          (forEachS (fun v _ => binOne nb a ((b - a) / (nb : Dbl R)) v) s)
          (forEachS (fun v _ => binOne nb a' ((b' - a') / (nb : Dbl R)) v) t) := by
        unfold forEachS
        rw [h.itemSize, h.count]
        split
        · exact EffRel.throw _
        · refine EffRel.forLoop _ 0 trivial fun i _ _ _ => (EffRel.lift (h.getD i)).bind fun v w hv => ?_
          have e : binOne nb a ((b - a) / (nb : Dbl R)) v = binOne nb a' ((b' - a') / (nb : Dbl R)) w := by
            unfold binOne
            have e1 : ((b - a) / (nb : Dbl R) == 0) = ((b' - a') / (nb : Dbl R) == 0) := by
              rw [Bool.eq_iff_iff, beq_iff_eq, beq_iff_eq]
              exact times_eq_zero h0 hz
            have e2 : (v - a) / ((b - a) / (nb : Dbl R)) = (w - a') / ((b' - a') / (nb : Dbl R)) := by
              have := times_div hk hk (times_sub hk _ _ hv _ _ ha) hz
              rw [div_self h0] at this
              exact times_one.1 this
            rw [e1, e2]
          show EffRel _ _ (binOne nb a ((b - a) / (nb : Dbl R)) v) (binOne nb a' ((b' - a') / (nb : Dbl R)) w)
          rw [e]
          intro l m hl
          subst hl
          refine ⟨?_, rfl⟩
          exact (ResRel.refl_eq _).mono fun _ _ _ => trivial
      have := key (List.replicate nb 0) (List.replicate nb 0) rfl
      exact (exec_rel (S := fun l m : List (Dbl R) => l = m) this).bind fun _ _ hp => SRel.ofArray _ (forall₂_times_one hp) _

theorem bins_times (hk : ExactFactor R k) (h0 : 0 < k) {s t : Serie (Dbl R)} (hw : WF s) (h : SRel (Times k) s t)
    (hs : s.itemSize = 1 → ∀ x ∈ scalars s, Limits.lowest ≤ x ∧ x ≤ Limits.highest)
    (ht : s.itemSize = 1 → ∀ x ∈ scalars t, Limits.lowest ≤ x ∧ x ≤ Limits.highest) (nb : Nat) :
    ResRel (SRel (Times 1)) (bins s nb) (bins t nb) := by
  unfold bins
  refine (minMax_times hk h0 hw h hs ht).bind fun p q hp => ?_
  obtain ⟨mn, mx⟩ := p
  obtain ⟨mn', mx'⟩ := q
  exact (Forall₂.rd hp.1 0).bind fun _ _ h1 => (Forall₂.rd hp.2 0).bind fun _ _ h2 => binsIn_times hk h0.ne' h nb h1 h2

/-! ## quantiles -/

omit [Limits (Dbl R)]

theorem sortDefault_times (hk : ExactFactor R k) (h0 : 0 < k) {srt srt' : StdSort} (hs : srt.Correct) (hs' : srt'.Correct)
    {s t : Serie (Dbl R)} (hw : WF s) (h1 : s.itemSize = 1) (h : SRel (Times k) s t) :
    ResRel (SRel (Times k)) (sortDefault srt s) (sortDefault srt' t) := by
  have h1' := h.itemSize ▸ h1
  unfold sortDefault
  rw [if_pos h1, if_pos h1']
  obtain ⟨xs, e, hp, ho⟩ := sortWith_scalar hs hw h1 (fun _ _ => .ub)
  obtain ⟨ys, e', hp', ho'⟩ := sortWith_scalar hs' (h.wf hw) h1' (fun _ _ => .ub)
  rw [e, e']
  have hx : SortedFrom (xs.map (timesDbl hk)) (scalars t) := by
    refine ⟨?_, ?_⟩
    · rw [(times_list hk).1 h.scalars]; exact hp.map _
    · rw [List.pairwise_map]
      exact ho.imp fun hab => (times_le h0 ((times_iff hk).2 rfl) ((times_iff hk).2 rfl)).1 hab
  have : ys = xs.map (timesDbl hk) := SortedFrom.unique ⟨hp', ho'⟩ hx (List.Perm.refl _)
  subst this
  exact .ok ⟨(List.length_map _).symm, rfl, rfl, (times_list hk).2 rfl⟩

theorem quantile_times (hk : ExactFactor R k) (h0 : 0 < k) {srt srt' : StdSort} (hs : srt.Correct) (hs' : srt'.Correct)
    {s t : Serie (Dbl R)} (hw : WF s) (h : SRel (Times k) s t) (q : Dbl R) :
    ResRel (Times k) (quantile srt s q) (quantile srt' t q) := by
  unfold quantile
  rw [h.isValid, h.itemSize]
  split
  · exact .throw _
  · split
    · exact .throw _
    · rename_i h1
      split
      · exact .throw _
      · refine (sortDefault_times hk h0 hs hs' hw (by rw [h.itemSize]; exact not_not.1 h1) h).bind fun u w hu => ?_
        dsimp only
        rw [hu.data.length_eq]
        refine (ResRel.refl_eq _).bind fun j _ e => ?_
        subst e
        split
        · refine (ResRel.refl_eq _).bind fun i _ e => ?_
          subst e
          exact (Forall₂.rd hu.data _).bind fun _ _ ha => (Forall₂.rd hu.data _).bind fun _ _ hb =>
            .ok (times_add hk _ _ ha _ _ (times_sameMul hk (times_sub hk _ _ hb _ _ ha) _))
        · refine (ResRel.refl_eq _).bind fun i _ e => ?_
          subst e
          exact Forall₂.rd hu.data _

theorem iqr_times (hk : ExactFactor R k) (h0 : 0 < k) {srt srt' : StdSort} (hs : srt.Correct) (hs' : srt'.Correct)
    {s t : Serie (Dbl R)} (hw : WF s) (h : SRel (Times k) s t) : ResRel (Times k) (iqr srt s) (iqr srt' t) :=
  (quantile_times hk h0 hs hs' hw h _).bind fun _ _ ha => (quantile_times hk h0 hs hs' hw h _).bind fun _ _ hb =>
    .ok (times_sub hk _ _ ha _ _ hb)

theorem outlierBounds_times (hk : ExactFactor R k) (h0 : 0 < k) {srt srt' : StdSort} (hs : srt.Correct) (hs' : srt'.Correct)
    {s t : Serie (Dbl R)} (hw : WF s) (h : SRel (Times k) s t) (m : Dbl R) :
    ResRel (fun p q => Times k p.1 q.1 ∧ Times k p.2 q.2) (outlierBounds srt s m) (outlierBounds srt' t m) :=
  (quantile_times hk h0 hs hs' hw h _).bind fun _ _ ha => (quantile_times hk h0 hs hs' hw h _).bind fun _ _ hb => by
    have hd := times_sameMul hk (times_sub hk _ _ hb _ _ ha) m
    exact .ok ⟨times_sub hk _ _ ha _ _ hd, times_add hk _ _ hb _ _ hd⟩

theorem outside_times (h0 : 0 < k) {p q : Dbl R × Dbl R} (hp : Times k p.1 q.1 ∧ Times k p.2 q.2) {a b : Dbl R} (h : Times k a b) :
    (decide (a < p.1) || decide (a > p.2)) = (decide (b < q.1) || decide (b > q.2)) := by
  rw [decide_eq_decide.2 (times_lt h0 h hp.1), show decide (a > p.2) = decide (b > q.2) from decide_eq_decide.2 (times_lt h0 hp.2 h)]

theorem inside_times (h0 : 0 < k) {p q : Dbl R × Dbl R} (hp : Times k p.1 q.1 ∧ Times k p.2 q.2) {a b : Dbl R} (h : Times k a b) :
    (decide (a ≥ p.1) && decide (a ≤ p.2)) = (decide (b ≥ q.1) && decide (b ≤ q.2)) := by
  rw [decide_eq_decide.2 (times_le h0 h hp.2), show decide (a ≥ p.1) = decide (b ≥ q.1) from decide_eq_decide.2 (times_le h0 hp.1 h)]

theorem outliers_times (hk : ExactFactor R k) (h0 : 0 < k) {srt srt' : StdSort} (hs : srt.Correct) (hs' : srt'.Correct)
    {s t : Serie (Dbl R)} (hw : WF s) (h : SRel (Times k) s t) (m : Dbl R) :
    ResRel (SRel (Times k)) (outliers srt s m) (outliers srt' t m) ∧ ResRel (SRel (Times k)) (notOutliers srt s m) (notOutliers srt' t m)
      ∧ ResRel (SRel (Times 1)) (isOutliers srt s m) (isOutliers srt' t m) := by
  have hb := outlierBounds_times hk h0 hs hs' hw h m
  refine ⟨hb.bind fun p q hp => ?_, hb.bind fun p q hp => ?_, hb.bind fun p q hp => ?_⟩
  · exact filterS_rel (S := Times k) (f := fun v => decide (v < p.1) || decide (v > p.2)) (g := fun v => decide (v < q.1) || decide (v > q.2))
      times_zero (fun _ _ h => outside_times h0 hp h) h
  · exact filterS_rel (S := Times k) (f := fun v => decide (v ≥ p.1) && decide (v ≤ p.2)) (g := fun v => decide (v ≥ q.1) && decide (v ≤ q.2))
      times_zero (fun _ _ h => inside_times h0 hp h) h
  · exact checkS_rel (S := Times k) (f := fun v => decide (v < p.1) || decide (v > p.2)) (g := fun v => decide (v < q.1) || decide (v > q.2))
      times_zero (times_refl 1) (fun _ _ h => outside_times h0 hp h) h

/-! ## inv and div, whose thresholds are absolute -/

/-- If both computations return, their results are related. -/
def Lax {γ δ : Type} (S : γ → δ → Prop) (x : Res γ) (y : Res δ) : Prop := ∀ a b, x = .ok a → y = .ok b → S a b

theorem Lax.of_rel {γ δ : Type} {S : γ → δ → Prop} {x : Res γ} {y : Res δ} (h : ResRel S x y) : Lax S x y := by
  rintro a b rfl rfl
  cases h with
  | ok h => exact h

theorem Lax.bind {γ δ γ' δ' : Type} {S : γ → δ → Prop} {T : γ' → δ' → Prop} {x : Res γ} {y : Res δ} {f : γ → Res γ'}
    {g : δ → Res δ'} (h : Lax S x y) (hf : ∀ a b, S a b → Lax T (f a) (g b)) : Lax T (x >>= f) (y >>= g) := by
  intro c d hc hd
  cases x with
  | throw e => cases hc
  | ub => cases hc
  | ok a =>
    cases y with
    | throw e => cases hd
    | ub => cases hd
    | ok b => exact hf a b (h a b rfl rfl) c d hc hd

/-- The same for computations with a state nothing depends on. -/
def LaxE {γ δ : Type} (S : γ → δ → Prop) (x : Eff Unit γ) (y : Eff Unit δ) : Prop := Lax S (x ()).1 (y ()).1

theorem LaxE.bind {γ δ γ' δ' : Type} {S : γ → δ → Prop} {T : γ' → δ' → Prop} {x : Eff Unit γ} {y : Eff Unit δ} {f : γ → Eff Unit γ'}
    {g : δ → Eff Unit δ'} (h : LaxE S x y) (hf : ∀ a b, S a b → LaxE T (f a) (g b)) : LaxE T (x >>= f) (y >>= g) := by
  unfold LaxE at *
  rw [Eff.bind_def, Eff.bind_def]
  dsimp only
  revert h
  rcases x () with ⟨a, s⟩
  rcases y () with ⟨b, t⟩
  intro h
  cases a with
  | throw e => intro c d hc; cases hc
  | ub => intro c d hc; cases hc
  | ok a =>
    cases b with
    | throw e => intro c d _ hd; cases hd
    | ub => intro c d _ hd; cases hd
    | ok b => exact hf a b (h a b rfl rfl)

theorem LaxE.forLoop {γ δ : Type} {S : γ → δ → Prop} {f : Nat → γ → Eff Unit γ} {g : Nat → δ → Eff Unit δ} (n : Nat) :
    ∀ (lo : Nat) {x : γ} {y : δ}, S x y → (∀ i, ∀ a b, S a b → LaxE S (f i a) (g i b)) →
      LaxE S (DF.forLoop f lo n x) (DF.forLoop g lo n y) := by
  induction n with
  | zero => intro lo x y h _ a b ha hb; cases ha; cases hb; exact h
  | succ n ih => intro lo x y h hf; exact (hf lo x y h).bind fun a b hab => ih _ hab hf

theorem mapArr_lax {α β : Type} [Zero α] [Zero β] {S T : α → β → Prop} (h0 : T 0 0) {f : List α → Nat → Res (List α)}
    {g : List β → Nat → Res (List β)} {s : Serie α} {t : Serie β} (h : SRel S s t)
    (hf : ∀ v w, List.Forall₂ S v w → ∀ i, Lax (List.Forall₂ T) (f v i) (g w i)) : Lax (SRel T) (mapArr f s) (mapArr g t) := by
  show LaxE (SRel T) (mapVV (σ := Unit) (fun v i => Eff.lift (f v i)) s) (mapVV (σ := Unit) (fun v i => Eff.lift (g v i)) t)
  unfold mapVV
  rw [h.count]
  split
  · exact Lax.of_rel (.ok (SRel.zeros h0 0 0 3))
  · refine LaxE.bind (x := Eff.lift (s.getA 0)) (y := Eff.lift (t.getA 0)) (Lax.of_rel (h.getA 0)) fun v w hv => ?_
    refine LaxE.bind (x := Eff.lift (f v 0)) (y := Eff.lift (g w 0)) (hf v w hv 0) fun v1 w1 h1 => ?_
    dsimp only
    rw [h1.length_eq]
    refine (LaxE.forLoop _ 1 h1 fun i a b hab => ?_).bind fun a b hab => Lax.of_rel (SRel.ofArray _ hab _)
    refine LaxE.bind (x := Eff.lift (s.getA i)) (y := Eff.lift (t.getA i)) (Lax.of_rel (h.getA i)) fun v w hv =>
      LaxE.bind (x := Eff.lift (f v i)) (y := Eff.lift (g w i)) (hf v w hv i) fun v2 w2 h2 => ?_
    rw [h2.length_eq]
    split
    · intro c d hc; cases hc
    · exact Lax.of_rel (.ok (Forall₂.append hab h2))

theorem times_minor (hk : ExactFactor R k) {a a' c c' b b' d d' : Dbl R} (x : Times k a b) (y : Times k a' b') (z : Times k c d)
    (w : Times k c' d') : Times (k * k) (a * a' - c * c') (b * b' - d * d') :=
  times_sub (exact_mul hk hk) _ _ (times_mul hk hk x y) _ _ (times_mul hk hk z w)

theorem times_cofactor (hk : ExactFactor R k) (h0 : k ≠ 0) {a b c d : Dbl R} (x : Times (k * k) a b) (y : Times (k * (k * k)) c d) :
    Times k⁻¹ (a * (1 / c)) (b * (1 / d)) := by
  have := times_mul (exact_mul hk hk) (exact_div exact_one (exact_mul hk (exact_mul hk hk))) x
    (times_div exact_one (exact_mul hk (exact_mul hk hk)) (times_refl 1) y)
  rwa [show k * k * (1 / (k * (k * k))) = k⁻¹ by field_simp] at this

theorem invSym_times (hk : ExactFactor R k) (h0 : k ≠ 0) {v w : List (Dbl R)} (h : List.Forall₂ (Times k) v w) :
    Lax (List.Forall₂ (Times k⁻¹)) (invSym v) (invSym w) := by
  unfold invSym
  refine (Lax.of_rel (Forall₂.rd h 0)).bind fun _ _ xx => (Lax.of_rel (Forall₂.rd h 1)).bind fun _ _ xy =>
    (Lax.of_rel (Forall₂.rd h 2)).bind fun _ _ xz => (Lax.of_rel (Forall₂.rd h 3)).bind fun _ _ yy =>
    (Lax.of_rel (Forall₂.rd h 4)).bind fun _ _ yz => (Lax.of_rel (Forall₂.rd h 5)).bind fun _ _ zz => ?_
  have c : ∀ {a a' c c' b b' d d' : Dbl R}, Times k a b → Times k a' b' → Times k c d → Times k c' d' →
      Times (k * k) (a * a' - c * c') (b * b' - d * d') := fun x y z w => times_minor hk x y z w
  have hk3 := exact_mul hk (exact_mul hk hk)
  have hm : ∀ {a b c d : Dbl R}, Times k a b → Times (k * k) c d → Times (k * (k * k)) (a * c) (b * d) :=
    fun x y => times_mul hk (exact_mul hk hk) x y
  have D := times_add hk3 _ _ (times_sub hk3 _ _ (hm xx (c yy zz yz yz)) _ _ (hm xy (c xy zz yz xz))) _ _ (hm xz (c xy yz yy xz))
  dsimp only at D ⊢
  intro r r' hr hr'
  split at hr
  · cases hr
  · split at hr'
    · cases hr'
    · cases hr
      cases hr'
      have I : ∀ {a b : Dbl R}, Times (k * k) a b → _ := fun {a b} x => times_cofactor hk h0 x D
      exact .cons (I (c yy zz yz yz)) (.cons (I (c xz yz xy zz)) (.cons (I (c xy yz xz yy))
        (.cons (I (c xx zz xz xz)) (.cons (I (c xy xz xx yz)) (.cons (I (c xx yy xy xy)) .nil)))))

theorem invFull_times (hk : ExactFactor R k) (h0 : k ≠ 0) {v w : List (Dbl R)} (h : List.Forall₂ (Times k) v w) :
    Lax (List.Forall₂ (Times k⁻¹)) (invFull v) (invFull w) := by
  unfold invFull
  refine (Lax.of_rel (Forall₂.rd h 0)).bind fun _ _ xx => (Lax.of_rel (Forall₂.rd h 1)).bind fun _ _ xy =>
    (Lax.of_rel (Forall₂.rd h 2)).bind fun _ _ xz => (Lax.of_rel (Forall₂.rd h 3)).bind fun _ _ yx =>
    (Lax.of_rel (Forall₂.rd h 4)).bind fun _ _ yy => (Lax.of_rel (Forall₂.rd h 5)).bind fun _ _ yz =>
    (Lax.of_rel (Forall₂.rd h 6)).bind fun _ _ zx => (Lax.of_rel (Forall₂.rd h 7)).bind fun _ _ zy =>
    (Lax.of_rel (Forall₂.rd h 8)).bind fun _ _ zz => ?_
  have c : ∀ {a a' c c' b b' d d' : Dbl R}, Times k a b → Times k a' b' → Times k c d → Times k c' d' →
      Times (k * k) (a * a' - c * c') (b * b' - d * d') := fun x y z w => times_minor hk x y z w
  have hk3 := exact_mul hk (exact_mul hk hk)
  have hm : ∀ {a b c d : Dbl R}, Times k a b → Times (k * k) c d → Times (k * (k * k)) (a * c) (b * d) :=
    fun x y => times_mul hk (exact_mul hk hk) x y
  have D := times_add hk3 _ _ (times_sub hk3 _ _ (hm xx (c yy zz yz zy)) _ _ (hm xy (c yx zz yz zx))) _ _ (hm xz (c yx zy yy zx))
  dsimp only at D ⊢
  intro r r' hr hr'
  split at hr
  · cases hr
  · split at hr'
    · cases hr'
    · cases hr
      cases hr'
      have I : ∀ {a b : Dbl R}, Times (k * k) a b → _ := fun {a b} x => times_cofactor hk h0 x D
      exact .cons (I (c yy zz yz zy)) (.cons (I (c xz zy xy zz)) (.cons (I (c xy yz xz yy))
        (.cons (I (c yz zx yx zz)) (.cons (I (c xx zz xz zx)) (.cons (I (c zx xy xx zy))
        (.cons (I (c yx zy yy zx)) (.cons (I (c xy zx xx zy)) (.cons (I (c xx yy xy yx)) .nil))))))))

theorem inv_times (hk : ExactFactor R k) (h0 : k ≠ 0) {s t : Serie (Dbl R)} (h : SRel (Times k) s t) :
    Lax (SRel (Times k⁻¹)) (inv s) (inv t) := by
  unfold inv
  rw [h.isValid, h.itemSize, h.dimension]
  split
  · exact Lax.of_rel (.ok (SRel.empty times_zero))
  · split
    · exact Lax.of_rel (.ok (SRel.empty times_zero))
    · split
      · exact mapArr_lax times_zero h fun _ _ hv _ => invSym_times hk h0 hv
      · exact mapArr_lax times_zero h fun _ _ hv _ => invFull_times hk h0 hv

end DF
