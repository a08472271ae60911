import Verif.Lemmas.PipelineMore
import Verif.Props.Safe

/-!
# C151: programs made of calls to the library
-/

namespace DF

open Spec

variable {α σ : Type} {s t : Serie α} {n m : Nat}

theorem upTo_room {γ : Type} {k : Nat} {cb : γ → Nat → Eff σ (List α)} (h : ReturnsUpTo k cb) (hc : s.count ≤ n) (h1 : 1 ≤ n) (x : γ) (i : Nat) :
    SafeE (fun _ => True) (SafeE.Room s.count (n * (k + 1))) (cb x i) := by
  refine fun st _ => ⟨?_, trivial⟩
  cases e : (cb x i st).1 with
  | ok v =>
    obtain ⟨h2, h3⟩ := h.2 x i st v e
    refine ⟨h2, ?_, Nat.mul_le_mul hc (by omega)⟩
    exact (show v.length ≤ 1 * (k + 1) by omega).trans (Nat.mul_le_mul_right _ h1)
  | throw _ => trivial
  | ub => exact h.1 x i st e

theorem rows_fit {ss : List (Serie α)} (h : ∀ s ∈ ss, Fit n s) (hn : n < 2 ^ 31) {i : Nat} (hi : ∀ s ∈ ss, i < s.count) :
    Safe (fun _ => True) (getRow ss i) :=
  (Safe.mapM (P := fun _ => True) ss fun s hs =>
    (Safe.getA ((h s hs).wf hn (Nat.zero_lt_of_lt (hi s hs))) (hi s hs)).mono fun _ _ => trivial).mono fun _ _ => trivial

theorem gathers_fit [Zero α] {ss : List (Serie α)} (h : ∀ s ∈ ss, Fit n s) (hn : n < 2 ^ 31) {c : Nat} {idx : List Nat} (hc : ∀ s ∈ ss, s.count = c)
    (hi : SafeE.Idx c idx) : Safe (fun v => ∀ p ∈ v, Fit n p) (ss.mapM (fun s => gatherA s idx)) :=
  (Safe.mapM (P := Fit n) ss fun s hs => Safe.gatherAFit (h s hs) hn (by rw [hc s hs]; exact hi)).mono fun _ h => h.2

section

variable [Zero α] [One α] [Add α] [Sub α] [Mul α] [Div α] [Neg α] [LT α] [DecidableLT α] [LE α] [DecidableLE α] [BEq α] [OfScientific α]

/-- The room of a call with one Serie. -/
def Spec.Call1.grow (n : Nat) : Call1 σ α → Nat
  | .mapToArrays k _ => n * (k + 1)
  | .mapArrays k _ => n * (k + 1)
  | _ => n

omit [LE α] [DecidableLE α] [BEq α] in
theorem call1_fit (f : Call1 σ α) (hs : Fit n s) (h1 : 1 ≤ n) (hn : n < 2 ^ 31) (hg : f.grow n < 2 ^ 31) (hf : f.Fair) :
    SafeE (fun _ => True) (Fit (f.grow n)) (f.run s) := by
  have hc := hs.count_le
  have hgA : ∀ i < s.count, Safe (fun _ => True) (s.getA i) := fun i hi => (Safe.getA (hs.wf hn (by omega)) hi).mono fun _ _ => trivial
  have hgD : ∀ i < s.count, Safe (fun _ => True) (s.getD i) := fun i hi => (Safe.getD s i).mono fun _ _ => trivial
  have hpick : ∀ (second : Bool) (q : Serie α × Serie α), Fit n q.1 ∧ Fit n q.2 → Fit n (if second then q.2 else q.1) := by
    rintro ⟨⟩ q h
    · exact h.1
    · exact h.2
  cases f with
  | scale x => exact SafeE.lift (Safe.scaledFit hs hn fun _ _ _ => trivial)
  | scaleBy xs => exact SafeE.lift (Safe.ite (fun _ => trivial) fun h => Safe.scaledFit hs hn fun k hk _ => (Safe.rd (by omega)).bind fun _ _ => trivial)
  | negate => exact SafeE.lift (Safe.scaledFit hs hn fun _ _ _ => trivial)
  | addNum x => exact SafeE.lift (Safe.ite (fun _ => trivial) fun _ => Safe.mapNumFit hs h1 hn fun _ _ _ => trivial)
  | subNum x => exact SafeE.lift (Safe.ite (fun _ => trivial) fun _ => Safe.mapNumFit hs h1 hn fun _ _ _ => trivial)
  | multNum x => exact SafeE.lift (Safe.scaledAllFit hs hn fun _ _ _ => trivial)
  | divNum x => exact SafeE.lift (Safe.scaledAllFit hs hn fun _ _ _ => trivial)
  | mapNumbers cb => exact SafeE.mapSSFit hs h1 hn fun x i _ => safeE_of hf x i
  | mapToNumbers cb => exact SafeE.mapVSFit hs h1 hn (safeE_of hf)
  | mapToArrays k cb => exact SafeE.mapSVFit hg fun x i _ => upTo_room hf hc h1 x i
  | mapArrays k cb => exact SafeE.mapVVFit hs hn hg fun x i _ _ => upTo_room hf hc h1 x i
  | filterNumbers p =>
    exact (SafeE.collect hgD fun x i _ _ => safeE_of hf x i).bind fun idx hi => SafeE.lift (Safe.gatherDFit hs h1 hn hi)
  | filterArrays p =>
    exact (SafeE.collect hgA fun x i _ _ => safeE_of hf x i).bind fun idx hi => SafeE.lift (Safe.gatherAFit hs hn hi)
  | rejectNumbers p =>
    exact (SafeE.collectNot hgD fun x i _ _ => safeE_of hf x i).bind fun idx hi => SafeE.lift (Safe.gatherDFit hs h1 hn hi)
  | rejectArrays p =>
    exact (SafeE.collectNot hgA fun x i _ _ => safeE_of hf x i).bind fun idx hi => SafeE.lift (Safe.gatherAFit hs hn hi)
  | findNumbers p =>
    exact (SafeE.collect hgD fun x i _ _ => safeE_of hf x i).bind fun idx hi => SafeE.lift (Safe.gatherFindFit hs hn hi)
  | findArrays p =>
    exact (SafeE.collect hgA fun x i _ _ => safeE_of hf x i).bind fun idx hi => SafeE.lift (Safe.gatherFindFit hs hn hi)
  | checkNumbers p => exact SafeE.checkSFit hs h1 hn (safeE_of hf)
  | checkArrays p => exact SafeE.checkVFit hs h1 hn (safeE_of hf)
  | partitionNumbers second p =>
    refine SafeE.bind (P := fun q : Serie α × Serie α => Fit n q.1 ∧ Fit n q.2) ?_ fun q hq => SafeE.pure (hpick second q hq)
    refine SafeE.ite (fun _ => SafeE.throw _) fun _ => (SafeE.collectBoth hgD fun x i _ _ => safeE_of hf x i).bind fun idx hi => ?_
    exact (SafeE.lift (Safe.gatherDFit hs h1 hn hi.1)).bind fun a ha => (SafeE.lift (Safe.gatherDFit hs h1 hn hi.2)).bind fun b hb => SafeE.pure ⟨ha, hb⟩
  | partitionArrays second p =>
    refine SafeE.bind (P := fun q : Serie α × Serie α => Fit n q.1 ∧ Fit n q.2) ?_ fun q hq => SafeE.pure (hpick second q hq)
    refine (SafeE.collectBoth hgA fun x i _ _ => safeE_of hf x i).bind fun idx hi => ?_
    exact (SafeE.lift (Safe.gatherAFit hs hn hi.1)).bind fun a ha => (SafeE.lift (Safe.gatherAFit hs hn hi.2)).bind fun b hb => SafeE.pure ⟨ha, hb⟩
  | part k j => exact SafeE.lift ((Safe.partitionNFit hs hn hf).bind fun v hv => Safe.atFit hv j)
  | unzipped sizes j => exact SafeE.lift ((Safe.unzipFit hs hn hf.1 hf.2).bind fun v hv => Safe.atFit hv j)
  | transpose => exact SafeE.lift (Safe.transposeFit hs hn)
  | inv => exact SafeE.lift (Safe.invFit hs hn)

theorem call2_fit (f : Call2 α) (hs : Fit n s) (ht : Fit m t) (h1 : 1 ≤ n) (h1' : 1 ≤ m) (hn : n + m < 2 ^ 31) : Safe (Fit (n + m)) (f.run s t) := by
  have hn' : n < 2 ^ 31 := by omega
  have hm' : m < 2 ^ 31 := by omega
  have hle : ∀ r : Serie α, Fit n r → Fit (n + m) r := fun r hr => hr.mono (Nat.le_add_right _ _)
  cases f with
  | add => exact (Safe.binOpFit _ hs ht hn' hm').mono hle
  | sub => exact (Safe.binOpFit _ hs ht hn' hm').mono hle
  | mult => exact (Safe.multSerieFit hs ht h1 hn' hm').mono hle
  | div => exact (Safe.divSerieFit ht h1' hm').mono fun r hr => hr.mono (Nat.le_add_left _ _)
  | mask => exact (Safe.maskWithFit _ hs ht h1 hn' hm').mono hle
  | nearMask eps => exact (Safe.maskWithFit _ hs ht h1 hn' hm').mono hle
  | merge c => exact Safe.merge2Fit hs ht hn c

omit [One α] [Div α] [Neg α] [LT α] [DecidableLT α] [LE α] [DecidableLE α] [BEq α] [OfScientific α] in
theorem callN_fit (f : CallN σ α) {a : Serie α} {ss : List (Serie α)} (h : Safe.Fits n (a :: ss)) (hn : n < 2 ^ 31) (hf : f.Fair) :
    SafeE (fun _ => True) (Fit n) (f.run (a :: ss)) := by
  have hrow : (∀ s ∈ a :: ss, s.count = a.count) → ∀ i < a.count, Safe (fun _ => True) (getRow (a :: ss) i) :=
    fun hc i hi => rows_fit h.each hn fun s hs => by rw [hc s hs]; exact hi
  cases f with
  | add => exact SafeE.lift (Safe.foldSeriesFit h.each hn)
  | addList => exact SafeE.lift (Safe.opListFit _ h.each hn)
  | subList => exact SafeE.lift (Safe.opListFit _ h.each hn)
  | weightedSum ws => exact SafeE.lift (Safe.weightedSumFit h.each hn ws)
  | merge c => exact SafeE.lift (Safe.mergeNFit h hn c)
  | concat => exact SafeE.lift (Safe.concatFit h hn)
  | zip => exact SafeE.lift (Safe.zipFit h hn)
  | filtered p j =>
    refine SafeE.bind (P := fun v => ∀ q ∈ v, Fit n q) ?_ fun v hv => SafeE.lift (Safe.atFit hv j)
    exact safe_counts fun hc => (SafeE.collect (hrow hc) fun x i _ _ => safeE_of hf x i).bind fun idx hi => SafeE.lift (gathers_fit h.each hn hc hi)
  | rejected p j =>
    refine SafeE.bind (P := fun v => ∀ q ∈ v, Fit n q) ?_ fun v hv => SafeE.lift (Safe.atFit hv j)
    exact safe_counts fun hc => (SafeE.collectNot (hrow hc) fun x i _ _ => safeE_of hf x i).bind fun idx hi => SafeE.lift (gathers_fit h.each hn hc hi)

omit [Zero α] [One α] [Add α] [Sub α] [Mul α] [Div α] [Neg α] [LT α] [DecidableLT α] [LE α] [DecidableLE α] [BEq α] [OfScientific α] in
theorem room_call1 (f : Call1 σ α) (a : Program σ α) : (Program.call1 f a).room = f.grow a.room := by cases f <;> rfl

omit [Zero α] [One α] [Add α] [Sub α] [Mul α] [Div α] [Neg α] [LT α] [DecidableLT α] [LE α] [DecidableLE α] [BEq α] [OfScientific α] in
theorem le_grow (f : Call1 σ α) (k : Nat) : k ≤ f.grow k := by
  cases f <;> first | exact le_rfl | exact Nat.le_mul_of_pos_right _ (Nat.succ_pos _)

omit [Zero α] [One α] [Add α] [Sub α] [Mul α] [Div α] [Neg α] [LT α] [DecidableLT α] [LE α] [DecidableLE α] [BEq α] [OfScientific α] in
theorem room_callN {k : Nat} (f : CallN σ α) (args : Fin (k + 1) → Program σ α) :
    (Program.callN f args).room = ((List.finRange (k + 1)).map fun i => (args i).room).sum :=
  congrArg List.sum (List.ofFn_eq_map ..)

omit [Zero α] [One α] [Add α] [Sub α] [Mul α] [Div α] [Neg α] [LT α] [DecidableLT α] [LE α] [DecidableLE α] [BEq α] [OfScientific α] in
theorem room_pos : ∀ p : Program σ α, 1 ≤ p.room
  | .given s => Nat.le_add_left _ _
  | .call1 f a => by rw [room_call1]; exact (room_pos a).trans (le_grow f _)
  | .call2 f a b => (room_pos a).trans (Nat.le_add_right _ _)
  | .callN f args => by
    rw [room_callN]
    exact (room_pos (args 0)).trans (List.single_le_sum (by simp) _ (List.mem_map.2 ⟨0, List.mem_finRange 0, rfl⟩))

theorem safeE_mapM {γ β : Type} {I : σ → Prop} {P : γ → β → Prop} {f : γ → Eff σ β} : ∀ l : List γ, (∀ x ∈ l, SafeE I (P x) (f x)) →
    SafeE I (fun ys => List.Forall₂ P l ys) (l.mapM f)
  | [], _ => by rw [List.mapM_nil]; exact SafeE.pure .nil
  | x :: l, h => by
    rw [List.mapM_cons]
    exact (h x (List.mem_cons_self ..)).bind fun y hy => (safeE_mapM l fun z hz => h z (List.mem_cons_of_mem _ hz)).bind fun ys hys =>
      SafeE.pure (.cons hy hys)

omit [Zero α] [One α] [Add α] [Sub α] [Mul α] [Div α] [Neg α] [LT α] [DecidableLT α] [LE α] [DecidableLE α] [BEq α] [OfScientific α] in
theorem fits_of {γ : Type} {r : γ → Nat} {l : List γ} {ss : List (Serie α)} (h : List.Forall₂ (fun i s => Fit (r i) s) l ss) :
    Safe.Fits (l.map r).sum ss := by
  induction h with
  | nil => exact ⟨fun _ h => (List.not_mem_nil h).elim, le_rfl, le_rfl, le_rfl⟩
  | cons h _ ih =>
    simp only [List.map_cons, List.sum_cons]
    refine ⟨fun s hs => ?_, ?_, ?_, ?_⟩
    · rcases List.mem_cons.1 hs with rfl | hs
      · exact h.mono (Nat.le_add_right _ _)
      · exact (ih.each s hs).mono (Nat.le_add_left _ _)
    · rw [List.map_cons, List.sum_cons]; exact Nat.add_le_add h.len ih.len
    · rw [List.map_cons, List.sum_cons]; exact Nat.add_le_add h.width ih.width
    · rw [List.map_cons, List.sum_cons]; exact Nat.add_le_add h.count_le ih.counts

theorem program_fit : ∀ p : Program σ α, p.Fair → p.room < 2 ^ 31 → SafeE (fun _ => True) (Fit p.room) p.run
  | .given s, hf, _ => SafeE.pure ⟨hf.exact, by show _ ≤ _ + _ + _; omega, by show _ ≤ _ + _ + _; omega, hf.item⟩
  | .call1 f a, hf, hr => by
    rw [room_call1] at hr ⊢
    have hle := le_grow f a.room
    exact (program_fit a hf.2 (by omega)).bind fun s hs => call1_fit f hs (room_pos a) (by omega) hr hf.1
  | .call2 f a b, hf, hr => by
    have hr' : a.room + b.room < 2 ^ 31 := hr
    exact (program_fit a hf.1 (by omega)).bind fun s hs => (program_fit b hf.2 (by omega)).bind fun t ht =>
      SafeE.lift (call2_fit f hs ht (room_pos a) (room_pos b) hr')
  | @Program.callN _ _ k f args, hf, hr => by
    rw [room_callN] at hr ⊢
    have hle : ∀ i, (args i).room ≤ ((List.finRange (k + 1)).map fun i => (args i).room).sum := fun i =>
      List.single_le_sum (by simp) _ (List.mem_map.2 ⟨i, List.mem_finRange i, rfl⟩)
    refine (safeE_mapM (P := fun i s => Fit (args i).room s) _ fun i _ => program_fit (args i) (hf.2 i) (by have := hle i; omega)).bind fun ss hss => ?_
    have hfit := fits_of hss
    cases ss with
    | nil => exact absurd hss.length_eq (by simp)
    | cons a ss => exact callN_fit f hfit hr hf.1

/-- C151: a program of any size and depth, made of calls to the functions listed by `Call1`, `Call2` and `CallN` on Series that contain
exactly the numbers of their items, has no undefined behaviour, whatever the captured variables: it returns, or throws. What it returns
is again such a Serie, of at most `room` numbers. -/
theorem C151_programs_partial (p : Program σ α) (hf : p.Fair) (hr : p.room < 2 ^ 31) (st : σ) :
    (p.run st).1 ≠ .ub ∧ ∀ s, (p.run st).1 = .ok s → Neat s ∧ s.data.length ≤ p.room := by
  have h := (program_fit p hf hr st trivial).1
  refine ⟨h.ne, fun s hs => ?_⟩
  rw [hs] at h
  exact ⟨h.neat, h.len⟩

end

/-- Scalars, doubled while counting the calls. -/
def exDouble (x : Rat) (_ : Nat) : Eff Nat Rat := fun st => (.ok (2 * x), st + 1)

/-- `zip(map(double, a), filter(aboveOne, merge(b, c)))`. -/
def exCalls : Program Nat Rat :=
  .callN (n := 1) .zip fun i => if i = 0 then .call1 (.mapNumbers exDouble) (.given ⟨[1, 2, 3], 3, 1, 3⟩)
    else .call1 (.filterNumbers fun x _ => pure (decide (1 < x))) (.call2 (.merge true) (.given ⟨[1, 2], 2, 1, 3⟩) (.given ⟨[3, 4], 2, 1, 3⟩))

theorem exCalls_fair : exCalls.Fair ∧ exCalls.room < 2 ^ 31 := by
  have hs : ∀ s : Serie Rat, s.data.length = s.count → s.itemSize = 1 → Neat s := fun s h1 h2 => ⟨by rw [h2, h1, Nat.mul_one], .inl (by rw [h2]; decide)⟩
  refine ⟨⟨trivial, fun i => ?_⟩, by decide⟩
  match i with
  | 0 => exact ⟨fun _ _ _ h => (nomatch h), hs _ rfl rfl⟩
  | 1 => exact ⟨fun _ _ _ h => (nomatch h), hs _ rfl rfl, hs _ rfl rfl⟩

/-- The program returns a Serie of three items of two numbers, and calls the first callback three times. -/
example : exCalls.run 0 = (.ok ⟨[2, 2, 4, 3, 6, 4], 3, 2, 3⟩, 3) := by decide +kernel

example : (exCalls.run 7).1 ≠ .ub := (C151_programs_partial exCalls exCalls_fair.1 exCalls_fair.2 7).1

/-- C151, violation: `normalize`, or `map` over several Series, after a `filter` that keeps no item. -/
theorem C151_others_violated [Limits Int] [Sqrt Int] :
    (do
      let s ← filterS (σ := Unit) (fun x _ => pure (decide (10 < x))) (⟨[1, 2, 3], 3, 1, 3⟩ : Serie Int)
      Eff.lift (normalize s)) () = (.ub, ()) ∧
    (do
      let s ← filterS (σ := Unit) (fun x _ => pure (decide (10 < x))) (⟨[1, 2, 3], 3, 1, 3⟩ : Serie Int)
      mapMultiS (fun _ _ => pure 0) [s, s]) () = (.ub, ()) := ⟨rfl, rfl⟩

end DF
