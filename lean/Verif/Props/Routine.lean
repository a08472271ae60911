import Verif.Spec.Routine
import Verif.Props.Twin

/-!
# C167: routines with variables, loops and handlers
-/

namespace DF

open Spec

variable {σ τ α β : Type} {n : Nat}

/-! ## Helpers -/

section

variable [Zero α] [One α] [Add α] [Sub α] [Mul α] [Div α] [Neg α] [LT α] [DecidableLT α] [LE α] [DecidableLE α] [BEq α] [OfScientific α]

/-- All variables fit. -/
def VarsFit (n : Nat) (e : Vars α) : Prop := ∀ v, Fit n (e v)

/-- No undefined behaviour from variables that fit in `n`, and then they fit in `m`. -/
def GrowsTo {γ : Type} (n m : Nat) (x : Eff (σ × Vars α) γ) : Prop :=
  ∀ st e, VarsFit n e → (x (st, e)).1 ≠ .ub ∧ VarsFit m (x (st, e)).2.2

omit [Zero α] [One α] [Add α] [Sub α] [Mul α] [Div α] [Neg α] [LT α] [DecidableLT α] [LE α] [DecidableLE α] [BEq α] [OfScientific α] in
theorem VarsFit.mono {m : Nat} {e : Vars α} (h : VarsFit n e) (hn : n ≤ m) : VarsFit m e := fun v => (h v).mono hn

omit [Zero α] [One α] [Add α] [Sub α] [Mul α] [Div α] [Neg α] [LT α] [DecidableLT α] [LE α] [DecidableLE α] [BEq α] [OfScientific α] in
theorem VarsFit.set {e : Vars α} (h : VarsFit n e) {s : Serie α} (hs : Fit n s) (v : Nat) : VarsFit n (e.set v s) := by
  intro w
  unfold Vars.set
  split
  · exact hs
  · exact h w

omit [Zero α] [One α] [Add α] [Sub α] [Mul α] [Div α] [Neg α] [LT α] [DecidableLT α] [LE α] [DecidableLE α] [BEq α] [OfScientific α] in
theorem grows_assign {m : Nat} (hm : n ≤ m) (v : Nat) {call : Vars α → Eff σ (Serie α)}
    (h : ∀ e, VarsFit n e → SafeE (fun _ => True) (Fit m) (call e)) : GrowsTo n m (assign v call) := by
  intro st e he
  have := (h e he st trivial).1
  unfold assign
  simp only
  rcases hx : call e st with ⟨r | x | _, st'⟩
  · rw [hx] at this
    exact ⟨nofun, (he.mono hm).set this v⟩
  · exact ⟨nofun, he.mono hm⟩
  · rw [hx] at this
    exact this.elim

omit [Zero α] [One α] [Add α] [Sub α] [Mul α] [Div α] [Neg α] [LT α] [DecidableLT α] [LE α] [DecidableLE α] [BEq α] [OfScientific α] in
theorem grows_ask {test : Vars α → Eff σ Bool} (h : ∀ e st, (test e st).1 ≠ .ub) : GrowsTo n n (ask test) :=
  fun st e he => ⟨h e st, he⟩

omit [Zero α] [One α] [Add α] [Sub α] [Mul α] [Div α] [Neg α] [LT α] [DecidableLT α] [LE α] [DecidableLE α] [BEq α] [OfScientific α] in
theorem grows_bind {γ δ : Type} {m k : Nat} {x : Eff (σ × Vars α) γ} {f : γ → Eff (σ × Vars α) δ} (hk : m ≤ k) (h : GrowsTo n m x)
    (hf : ∀ b, GrowsTo m k (f b)) : GrowsTo n k (x >>= f) := by
  intro st e he
  obtain ⟨h1, h2⟩ := h st e he
  rcases hx : x (st, e) with ⟨r | y | _, st', e'⟩
  · rw [hx] at h2
    rw [Eff.bind_ok hx]; exact hf r st' e' h2
  · rw [hx] at h2
    rw [Eff.bind_throw hx]; exact ⟨nofun, h2.mono hk⟩
  · exact absurd (by rw [hx]) h1

omit [Zero α] [One α] [Add α] [Sub α] [Mul α] [Div α] [Neg α] [LT α] [DecidableLT α] [LE α] [DecidableLE α] [BEq α] [OfScientific α] in
theorem grows_handle {m k : Nat} {x y : Eff (σ × Vars α) Unit} (hk : m ≤ k) (h : GrowsTo n m x) (hy : GrowsTo m k y) :
    GrowsTo n k (handle x y) := by
  intro st e he
  obtain ⟨h1, h2⟩ := h st e he
  unfold handle
  rcases hx : x (st, e) with ⟨r | y | _, st', e'⟩
  · rw [hx] at h2
    exact ⟨nofun, h2.mono hk⟩
  · rw [hx] at h2
    cases y with
    | nonStd _ => exact ⟨nofun, h2.mono hk⟩
    | _ => exact hy st' e' h2
  · exact absurd (by rw [hx]) h1

omit [Zero α] [One α] [Add α] [Sub α] [Mul α] [Div α] [Neg α] [LT α] [DecidableLT α] [LE α] [DecidableLE α] [BEq α] [OfScientific α] in
theorem le_routine_room : ∀ (p : Routine σ α) (n : Nat), n ≤ p.room n
  | .given _ s, n => by simp only [Routine.room]; omega
  | .copy _ _, n => le_rfl
  | .call1 _ f _, n => by
    cases f <;> first | exact le_rfl | exact Nat.le_mul_of_pos_right _ (Nat.succ_pos _)
  | .call2 _ f _ _, n => by
    cases f <;> first | exact le_rfl | exact Nat.le_add_right _ _
  | .callN _ f _ as, n => by
    cases f <;> first | exact le_rfl | exact Nat.le_mul_of_pos_right _ (Nat.succ_pos _)
  | .seq p q, n => (le_routine_room p n).trans (le_routine_room q _)
  | .branch _ p q, n => (le_routine_room p n).trans (le_max_left _ _)
  | .loop most _ p, n => by
    show n ≤ p.room^[most] n
    induction most generalizing n with
    | zero => exact le_rfl
    | succ k ih => rw [Function.iterate_succ_apply]; exact (le_routine_room p n).trans (ih _)
  | .attempt p q, n => (le_routine_room p n).trans (le_routine_room q _)

theorem call2_fit_same (v a b : Nat) (f : Call2 α) {s t : Serie α} (hs : Fit n s) (ht : Fit n t) (h1 : 1 ≤ n)
    (hr : (Routine.call2 (σ := σ) v f a b).room n < 2 ^ 31) : Safe (Fit ((Routine.call2 (σ := σ) v f a b).room n)) (f.run s t) := by
  cases f with
  | add => exact Safe.binOpFit _ hs ht hr hr
  | sub => exact Safe.binOpFit _ hs ht hr hr
  | mult => exact Safe.multSerieFit hs ht h1 hr hr
  | div => exact Safe.divSerieFit ht h1 hr
  | mask => exact Safe.maskWithFit _ hs ht h1 hr hr
  | nearMask eps => exact Safe.maskWithFit _ hs ht h1 hr hr
  | merge c => exact Safe.merge2Fit hs ht hr c

omit [Zero α] [One α] [Add α] [Sub α] [Mul α] [Div α] [Neg α] [LT α] [DecidableLT α] [LE α] [DecidableLE α] [BEq α] [OfScientific α] in
theorem fits_same {ss : List (Serie α)} (h : ∀ s ∈ ss, Fit n s) : Safe.Fits (n * ss.length) ss := by
  have := fits_of (r := fun _ : Serie α => n) (l := ss) (ss := ss) (List.forall₂_same.2 h)
  rwa [List.map_const', List.sum_replicate, smul_eq_mul, Nat.mul_comm] at this

omit [One α] [Div α] [Neg α] [LT α] [DecidableLT α] [LE α] [DecidableLE α] [BEq α] [OfScientific α] in
theorem callN_fit_same (v a : Nat) (as : List Nat) (f : CallN σ α) {s : Serie α} {ss : List (Serie α)} (hl : ss.length = as.length)
    (h : ∀ u ∈ s :: ss, Fit n u) (hr : (Routine.callN v f a as).room n < 2 ^ 31) (hf : f.Fair) :
    SafeE (fun _ => True) (Fit ((Routine.callN v f a as).room n)) (f.run (s :: ss)) := by
  have hrow : (∀ u ∈ s :: ss, u.count = s.count) → n < 2 ^ 31 → ∀ i < s.count, Safe (fun _ => True) (getRow (s :: ss) i) :=
    fun hc hn i hi => rows_fit h hn fun u hu => by rw [hc u hu]; exact hi
  have hfits : Safe.Fits (n * (as.length + 1)) (s :: ss) := by
    have := fits_same h
    rwa [List.length_cons, hl] at this
  cases f with
  | add => exact SafeE.lift (Safe.foldSeriesFit h hr)
  | addList => exact SafeE.lift (Safe.opListFit _ h hr)
  | subList => exact SafeE.lift (Safe.opListFit _ h hr)
  | weightedSum ws => exact SafeE.lift (Safe.weightedSumFit h hr ws)
  | merge c => exact SafeE.lift (Safe.mergeNFit hfits hr c)
  | concat => exact SafeE.lift (Safe.concatFit hfits hr)
  | zip => exact SafeE.lift (Safe.zipFit hfits hr)
  | filtered p j =>
    have hn : n < 2 ^ 31 := hr
    refine SafeE.bind (P := fun v => ∀ q ∈ v, Fit n q) ?_ fun v hv => SafeE.lift (Safe.atFit hv j)
    exact safe_counts fun hc => (SafeE.collect (hrow hc hn) fun x i _ _ => safeE_of hf x i).bind fun idx hi => SafeE.lift (gathers_fit h hn hc hi)
  | rejected p j =>
    have hn : n < 2 ^ 31 := hr
    refine SafeE.bind (P := fun v => ∀ q ∈ v, Fit n q) ?_ fun v hv => SafeE.lift (Safe.atFit hv j)
    exact safe_counts fun hc => (SafeE.collectNot (hrow hc hn) fun x i _ _ => safeE_of hf x i).bind fun idx hi => SafeE.lift (gathers_fit h hn hc hi)

theorem routine_grows : ∀ (p : Routine σ α) (n : Nat), p.Fair → 1 ≤ n → p.room n < 2 ^ 31 → GrowsTo n (p.room n) p.run
  | .given v s, n, hf, _, _ => by
    refine grows_assign (le_routine_room _ _) v fun e he => SafeE.pure ⟨hf.exact, ?_, ?_, hf.item⟩ <;> simp only [Routine.room] <;> omega
  | .copy v a, n, _, _, _ => grows_assign le_rfl v fun e he => SafeE.pure (he a)
  | .call1 v f a, n, hf, h1, hr => by
    have hg : (Routine.call1 v f a).room n = f.grow n := by cases f <;> rfl
    rw [hg] at hr ⊢
    have hle := le_grow f n
    exact grows_assign hle v fun e he => call1_fit f (he a) h1 (by omega) hr hf
  | .call2 v f a b, n, _, h1, hr =>
    grows_assign (le_routine_room _ _) v fun e he => SafeE.lift (call2_fit_same v a b f (he a) (he b) h1 hr)
  | .callN v f a as, n, hf, h1, hr =>
    grows_assign (le_routine_room _ _) v fun e he => callN_fit_same v a as f (List.length_map ..) (fun u hu => by
      rcases List.mem_cons.1 hu with rfl | hu
      · exact he a
      · obtain ⟨w, _, rfl⟩ := List.mem_map.1 hu
        exact he w) hr hf
  | .seq p q, n, hf, h1, hr => by
    have hr' : q.room (p.room n) < 2 ^ 31 := hr
    have hp := le_routine_room p n
    have hq := le_routine_room q (p.room n)
    exact grows_bind hq (routine_grows p n hf.1 h1 (by omega)) fun _ => routine_grows q _ hf.2 (by omega) hr'
  | .branch test p q, n, hf, h1, hr => by
    have hr' : max (p.room n) (q.room n) < 2 ^ 31 := hr
    have hp := le_max_left (p.room n) (q.room n)
    have hq := le_max_right (p.room n) (q.room n)
    refine grows_bind ((le_routine_room p n).trans hp) (grows_ask hf.1) fun b => ?_
    cases b with
    | true => exact fun st e he => ⟨(routine_grows p n hf.2.1 h1 (by omega) st e he).1, (routine_grows p n hf.2.1 h1 (by omega) st e he).2.mono hp⟩
    | false => exact fun st e he => ⟨(routine_grows q n hf.2.2 h1 (by omega) st e he).1, (routine_grows q n hf.2.2 h1 (by omega) st e he).2.mono hq⟩
  | .loop most test p, n, hf, h1, hr => by
    have ihp := fun k => routine_grows p k hf.2
    show GrowsTo n (p.room^[most] n) (repeatWhile (ask test) p.run most)
    have hr' : p.room^[most] n < 2 ^ 31 := hr
    clear hr
    induction most generalizing n with
    | zero => exact fun st e he => ⟨nofun, he⟩
    | succ k ih =>
      have hn := le_routine_room p n
      have hk : p.room n ≤ p.room^[k] (p.room n) := le_routine_room (.loop k test p) (p.room n)
      rw [Function.iterate_succ_apply] at hr' ⊢
      refine grows_bind (hn.trans hk) (grows_ask hf.1) fun b => ?_
      cases b with
      | true => exact grows_bind hk (ihp n h1 (by omega)) fun _ => ih _ hf (by omega) hr'
      | false => exact fun st e he => ⟨nofun, he.mono (hn.trans hk)⟩
  | .attempt p q, n, hf, h1, hr => by
    have hr' : q.room (p.room n) < 2 ^ 31 := hr
    have hp := le_routine_room p n
    have hq := le_routine_room q (p.room n)
    exact grows_handle hq (routine_grows p n hf.1 h1 (by omega)) (routine_grows q _ hf.2 (by omega) hr')

/-! ## C167 -/

/-- C167: a routine of any length and nesting, with loops, choices, and handlers of exceptions, has no undefined behaviour: it ends
normally or with an exception, and in both cases every variable holds a Serie with exactly the numbers of its items. -/
theorem C167_routines (p : Routine σ α) (hf : p.Fair) {n : Nat} (h1 : 0 < n) (hr : p.room n < 2 ^ 31) {vars : Vars α}
    (hv : ∀ v, Neat (vars v) ∧ (vars v).data.length ≤ n ∧ (vars v).itemSize ≤ n) (st : σ) :
    (p.run (st, vars)).1 ≠ .ub ∧ ∀ v, Neat ((p.run (st, vars)).2.2 v) ∧ ((p.run (st, vars)).2.2 v).data.length ≤ p.room n := by
  have := routine_grows p n hf h1 hr st vars fun v => ⟨(hv v).1.exact, (hv v).2.1, (hv v).2.2, (hv v).1.item⟩
  exact ⟨this.1, fun v => ⟨(this.2 v).neat, (this.2 v).len⟩⟩

/-- C167: a loop whose body makes no longer Series may run any number of times. -/
theorem C167_loops (p : Routine σ α) {test : Vars α → Eff σ Bool} (hf : p.Fair) (ht : ∀ e st, (test e st).1 ≠ .ub) {n : Nat} (h1 : 0 < n)
    (hn : n < 2 ^ 31) (hp : p.room n = n) (most : Nat) {vars : Vars α}
    (hv : ∀ v, Neat (vars v) ∧ (vars v).data.length ≤ n ∧ (vars v).itemSize ≤ n) (st : σ) :
    ((Routine.loop most test p).run (st, vars)).1 ≠ .ub ∧
      ∀ v, Neat (((Routine.loop most test p).run (st, vars)).2.2 v) ∧ (((Routine.loop most test p).run (st, vars)).2.2 v).data.length ≤ n := by
  have hr : (Routine.loop most test p).room n = n := Function.iterate_fixed hp most
  have := C167_routines (.loop most test p) ⟨ht, hf⟩ h1 (by rw [hr]; exact hn) hv st
  rwa [hr] at this

/-! ## Twins -/

variable [Zero β] [One β] [Add β] [Sub β] [Mul β] [Div β] [Neg β] [LT β] [DecidableLT β] [LE β] [DecidableLE β] [BEq β] [OfScientific β]
  {R : α → β → Prop} {S : σ → τ → Prop}

/-- Related captured variables, related Series in the variables. -/
def StateRel (R : α → β → Prop) (S : σ → τ → Prop) (a : σ × Vars α) (b : τ × Vars β) : Prop :=
  S a.1 b.1 ∧ ∀ v, SRel R (a.2 v) (b.2 v)

omit [Zero α] [One α] [Add α] [Sub α] [Mul α] [Div α] [Neg α] [LT α] [DecidableLT α] [LE α] [DecidableLE α] [BEq α] [OfScientific α]
  [Zero β] [One β] [Add β] [Sub β] [Mul β] [Div β] [Neg β] [LT β] [DecidableLT β] [LE β] [DecidableLE β] [BEq β] [OfScientific β] in
theorem assign_rel (v : Nat) {f : Vars α → Eff σ (Serie α)} {g : Vars β → Eff τ (Serie β)}
    (h : ∀ e e', (∀ v, SRel R (e v) (e' v)) → EffRel S (SRel R) (f e) (g e')) :
    EffRel (StateRel R S) (fun _ _ => True) (assign v f) (assign v g) := by
  rintro ⟨s, e⟩ ⟨t, e'⟩ ⟨hs, he⟩
  obtain ⟨h1, h2⟩ := h e e' he s t hs
  dsimp only [assign]
  rcases hx : f e s with ⟨r, s'⟩
  rcases hy : g e' t with ⟨r', t'⟩
  rw [hx, hy] at h1 h2
  cases h1 with
  | ok h1 =>
    refine ⟨.ok trivial, h2, fun w => ?_⟩
    simp only [Vars.set]
    split
    · exact h1
    · exact he w
  | throw e => exact ⟨.throw e, h2, he⟩
  | ub => exact ⟨.ub, h2, he⟩

omit [Zero α] [One α] [Add α] [Sub α] [Mul α] [Div α] [Neg α] [LT α] [DecidableLT α] [LE α] [DecidableLE α] [BEq α] [OfScientific α]
  [Zero β] [One β] [Add β] [Sub β] [Mul β] [Div β] [Neg β] [LT β] [DecidableLT β] [LE β] [DecidableLE β] [BEq β] [OfScientific β] in
theorem ask_rel {f : Vars α → Eff σ Bool} {g : Vars β → Eff τ Bool} (h : AskAlike R S f g) : EffRel (StateRel R S) (· = ·) (ask f) (ask g) := by
  rintro ⟨s, e⟩ ⟨t, e'⟩ ⟨hs, he⟩
  have := h e e' (fun v => each_iff.2 (he v)) s t hs
  exact ⟨rel_of_outcomes this.1, this.2, he⟩

theorem repeat_rel {T : σ → τ → Prop} {f : Eff σ Bool} {g : Eff τ Bool} {x : Eff σ Unit} {y : Eff τ Unit} (h : EffRel T (· = ·) f g)
    (hx : EffRel T (fun _ _ => True) x y) : ∀ n, EffRel T (fun _ _ => True) (repeatWhile f x n) (repeatWhile g y n)
  | 0 => EffRel.pure trivial
  | n + 1 => by
    refine h.bind fun a b hab => ?_
    subst hab
    cases a with
    | true => exact hx.bind fun _ _ _ => repeat_rel h hx n
    | false => exact EffRel.pure trivial

theorem handle_rel {T : σ → τ → Prop} {x x' : Eff σ Unit} {y y' : Eff τ Unit} (h : EffRel T (fun _ _ => True) x y)
    (h' : EffRel T (fun _ _ => True) x' y') : EffRel T (fun _ _ => True) (handle x x') (handle y y') := by
  intro s t hs
  obtain ⟨h1, h2⟩ := h s t hs
  unfold handle
  rcases hx : x s with ⟨r, s'⟩
  rcases hy : y t with ⟨r', t'⟩
  rw [hx, hy] at h1 h2
  cases h1 with
  | ok h1 => exact ⟨.ok trivial, h2⟩
  | throw e =>
    cases e with
    | nonStd k => exact ⟨.throw _, h2⟩
    | _ => exact h' _ _ h2
  | ub => exact ⟨.ub, h2⟩

theorem routine_rel (h0 : R 0 0) {p : Routine σ α} {q : Routine τ β} (h : p.Twin R S q) :
    (∀ u, p.Uses u → Kept R u) → EffRel (StateRel R S) (fun _ _ => True) p.run q.run := by
  induction h with
  | given h => exact fun _ => assign_rel _ fun _ _ _ => EffRel.pure (each_iff.1 h)
  | copy => exact fun _ => assign_rel _ fun _ _ he => EffRel.pure (he _)
  | call1 h => exact fun hk => assign_rel _ fun _ _ he => call1_twin h0 hk h (he _)
  | call2 h => exact fun hk => assign_rel _ fun _ _ he => EffRel.lift (call2_twin h0 hk h (he _) (he _))
  | @callN v f g a as h =>
    refine fun hk => assign_rel _ fun e e' he => callN_twin h0 hk h (.cons (he a) ?_)
    exact List.forall₂_map_left_iff.2 (List.forall₂_map_right_iff.2 (List.forall₂_same.2 fun w _ => he w))
  | seq _ _ ih ih' => exact fun hk => (ih fun u hu => hk u (.inl hu)).bind fun _ _ _ => ih' fun u hu => hk u (.inr hu)
  | branch hf _ _ ih ih' =>
    refine fun hk => (ask_rel hf).bind fun a b hab => ?_
    subst hab
    cases a with
    | true => exact ih fun u hu => hk u (.inl hu)
    | false => exact ih' fun u hu => hk u (.inr hu)
  | loop hf _ ih => exact fun hk => repeat_rel (ask_rel hf) (ih hk) _
  | attempt _ _ ih ih' => exact fun hk => handle_rel (ih fun u hu => hk u (.inl hu)) (ih' fun u hu => hk u (.inr hu))

/-- C167: twin routines, on two kinds of numbers related by `R`, end the same way, with the same exception if any, and with related Series
in all their variables, if the relation holds between the zeros and is kept by the uses of numbers that the routine makes. -/
theorem C167_twins (h0 : R 0 0) {p : Routine σ α} {q : Routine τ β} (h : p.Twin R S q) (hk : ∀ u, p.Uses u → Kept R u) {s : σ} {t : τ}
    (hs : S s t) {vars : Vars α} {vars' : Vars β} (hv : ∀ v, Each R (vars v) (vars' v)) :
    Outcomes (fun _ _ => True) (p.run (s, vars)).1 (q.run (t, vars')).1 ∧ S (p.run (s, vars)).2.1 (q.run (t, vars')).2.1 ∧
      ∀ v, Each R ((p.run (s, vars)).2.2 v) ((q.run (t, vars')).2.2 v) := by
  obtain ⟨h1, h2, h3⟩ := routine_rel h0 h hk (s, vars) (t, vars') ⟨hs, fun v => each_iff.1 (hv v)⟩
  refine ⟨?_, h2, fun v => each_iff.2 (h3 v)⟩
  cases hp : (p.run (s, vars)).1 <;> cases hq : (q.run (t, vars')).1 <;> rw [hp, hq] at h1 <;> cases h1 <;> trivial

end

/-! ## Examples -/

/-- Variables 0, 1 and 2 hold `x`, `b` and the last step; they start with Series of two numbers. -/
def exVars : Vars Rat := fun v => if v = 1 then ⟨[3, 4], 2, 1, 3⟩ else ⟨[0, 0], 2, 1, 3⟩

theorem exVars_fit (v : Nat) : Neat (exVars v) ∧ (exVars v).data.length ≤ 2 ∧ (exVars v).itemSize ≤ 2 := by
  unfold exVars
  split <;> exact ⟨⟨by decide, by decide⟩, by decide, by decide⟩

/-- `step = scale(sub(b, x), 1/2); x = add(x, step)`, counting the steps. -/
def exStep : Routine Nat Rat :=
  .seq (.call2 2 .sub 1 0) (.seq (.call1 2 (.scale (1 / 2)) 2) (.call2 0 .add 0 2))

/-- Is a number of the step large? The tests are counted. -/
def exLarge (e : Vars Rat) : Eff Nat Bool := fun n => (.ok (n = 0 || (e 2).data.any (1 / 4 < ·)), n + 1)

/-- The loop, then a call that throws and is handled. -/
def exSolve (most : Nat) : Routine Nat Rat :=
  .seq (.loop most exLarge exStep) (.attempt (.seq (.given 3 ⟨[1], 1, 1, 3⟩) (.call2 0 .add 0 3)) (.copy 4 0))

theorem exSolve_fair (most : Nat) : (exSolve most).Fair :=
  ⟨⟨fun _ _ => nofun, trivial, trivial, trivial⟩, ⟨⟨by decide, by decide⟩, trivial⟩, trivial⟩

theorem exSolve_room (most : Nat) : (exSolve most).room 2 = 4 := by
  have : (Routine.loop most exLarge exStep).room 2 = 2 := Function.iterate_fixed rfl most
  show Routine.room (.attempt _ _) ((Routine.loop most exLarge exStep).room 2) = 4
  rw [this]
  rfl

/-- The loop stops after four steps of the hundred allowed, the handler keeps the last `x`. -/
example : ((exSolve 100).run (0, exVars)).1 = .ok () ∧ ((exSolve 100).run (0, exVars)).2.1 = 5 ∧
    ((exSolve 100).run (0, exVars)).2.2 4 = ⟨[45 / 16, 15 / 4], 2, 1, 3⟩ := by decide +kernel

example (most : Nat) : ((exSolve most).run (7, exVars)).1 ≠ .ub :=
  (C167_routines (exSolve most) (exSolve_fair most) (n := 2) (by decide) (by rw [exSolve_room]; decide) exVars_fit 7).1

example (most : Nat) : ((Routine.loop most exLarge exStep).run (0, exVars)).1 ≠ .ub :=
  (C167_loops exStep (test := exLarge) ⟨trivial, trivial, trivial⟩ (fun _ _ => nofun) (n := 2) (by decide) (by decide) rfl most exVars_fit 0).1

/-- The same variables and the same step in real numbers. -/
noncomputable def exVarsR : Vars ℝ := fun v => if v = 1 then ⟨[3, 4], 2, 1, 3⟩ else ⟨[0, 0], 2, 1, 3⟩

noncomputable def exStepR : Routine Nat ℝ :=
  .seq (.call2 2 .sub 1 0) (.seq (.call1 2 (.scale (1 / 2)) 2) (.call2 0 .add 0 2))

example (most : Nat) : ∀ v, Each (fun (x : ℚ) (y : ℝ) => (x : ℝ) = y)
    (((Routine.loop most (fun _ n => (.ok true, n + 1)) exStep).run (0, exVars)).2.2 v)
    (((Routine.loop most (fun _ n => (.ok true, n + 1)) exStepR).run (0, exVarsR)).2.2 v) := by
  refine (C167_twins (R := fun (x : ℚ) (y : ℝ) => (x : ℝ) = y) (S := fun a b : Nat => a = b) Rat.cast_zero
    (.loop (f := fun _ n => (.ok true, n + 1)) (g := fun _ n => (.ok true, n + 1)) (fun _ _ _ s t hs => ⟨rfl, congrArg (· + 1) hs⟩)
      (.seq (.call2 .sub) (.seq (.call1 (.scale (by norm_num))) (.call2 .add)))) (fun u _ => kept_cast u) rfl fun v => ?_).2.2
  unfold exVars exVarsR
  split
  · exact ⟨rfl, rfl, rfl, .cons (by norm_num) (.cons (by norm_num) .nil)⟩
  · exact ⟨rfl, rfl, rfl, .cons (by norm_num) (.cons (by norm_num) .nil)⟩

end DF
