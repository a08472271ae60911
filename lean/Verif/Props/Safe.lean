import Verif.Lemmas.SafeMore
import Verif.Spec.Safe

/-!
# C148: no undefined behaviour on well-formed Series

The numbers are of any type, with any operations: nothing is assumed of `+`, `*`, `<`, so the theorems hold for exact numbers, for rounded
numbers and in the presence of NaN.
-/

namespace DF

open Spec

variable {α σ : Type} {s t : Serie α}

theorem safeE_of {γ δ : Type} {cb : γ → Nat → Eff σ δ} (h : Harmless cb) : SafeE.Cb (fun _ => True) cb :=
  fun x i st _ => ⟨Safe.of_ne (h x i st), trivial⟩

theorem safeE_arrays {γ : Type} {cb : γ → Nat → Eff σ (List α)} (h : HarmlessArrays cb) (x : γ) (i : Nat) :
    SafeE (fun _ => True) SafeE.Item (cb x i) := by
  refine fun st _ => ⟨?_, trivial⟩
  have h1 := h.1 x i st
  have h2 := h.2 x i st
  cases hr : (cb x i st).1 with
  | ok v => exact h2 v hr
  | throw e => trivial
  | ub => exact (h1 hr).elim

/-- The well-formed Serie of the examples: the items (0), (1), (2). -/
def exSafe : Serie Int := ⟨[0, 1, 2], 3, 1, 3⟩

theorem exSafe_wf : WF exSafe := ⟨by decide, by decide, by decide, by decide⟩

/-- The items (1,2,3), (4,5,6). -/
def exSafe3 : Serie Int := ⟨[1, 2, 3, 4, 5, 6], 2, 3, 3⟩

theorem exSafe3_wf : WF exSafe3 := ⟨by decide, by decide, by decide, by decide⟩

/-! ## arithmetic -/

/-- C148: `add` and `sub` of two Series, of a Serie and a number, of several Series, by the list or by the variadic functions. -/
theorem C148_add_sub [Zero α] [Add α] [Sub α] (hs : WF s) (ht : WF t) {ss : List (Serie α)} (hss : ∀ u ∈ ss, WF u) (x : α) :
    add2 s t ≠ .ub ∧ sub2 s t ≠ .ub ∧ addNum s x ≠ .ub ∧ subNum s x ≠ .ub ∧ addN ss ≠ .ub ∧ addN_subh ss ≠ .ub ∧
      (ss ≠ [] → addList ss ≠ .ub ∧ subList ss ≠ .ub) := by
  refine ⟨(Safe.binOp _ hs ht).ne, (Safe.binOp _ hs ht).ne, (Safe.addNum x).ne, (Safe.subNum x).ne, ?_, ?_, fun h => ?_⟩
  · cases ss with
    | nil => exact fun h => nomatch h
    | cons a l => exact (Safe.foldSeries hss).ne
  · cases ss with
    | nil => exact fun h => nomatch h
    | cons a l => exact (Safe.foldSeries hss).ne
  · cases ss with
    | nil => exact (h rfl).elim
    | cons a l => exact ⟨(Safe.opList _ hss).ne, (Safe.opList _ hss).ne⟩

/-- C148: `scale`, `negate`, `mult`, `div`, `weightedSum`. -/
theorem C148_products [Zero α] [One α] [Add α] [Neg α] [Mul α] [Div α] [LT α] [DecidableLT α] [OfScientific α] (hs : WF s) (t : Serie α)
    {ss : List (Serie α)} (hss : ∀ u ∈ ss, WF u) (x : α) (xs : List α) :
    scale s x ≠ .ub ∧ scaleBy s xs ≠ .ub ∧ negate s ≠ .ub ∧ mult s x ≠ .ub ∧ divNum x s ≠ .ub ∧ divSerie t s ≠ .ub ∧
      (ss ≠ [] → weightedSum ss xs ≠ .ub) := by
  refine ⟨(Safe.scaled hs le_rfl fun _ _ _ => (by exact trivial)).ne, (Safe.ite (fun _ => (by exact trivial)) fun h => Safe.scaled hs le_rfl fun k hk y => ?_).ne,
    (Safe.scaled hs le_rfl fun _ _ _ => (by exact trivial)).ne, (Safe.scaledAll hs fun _ _ _ => (by exact trivial)).ne, (Safe.scaledAll hs fun _ _ _ => (by exact trivial)).ne,
    (Safe.divSerie hs).ne, fun h => ?_⟩
  · exact (Safe.rd (by omega)).bind fun _ _ => (by exact trivial)
  · cases ss with
    | nil => exact (h rfl).elim
    | cons a l => exact (Safe.weightedSum hss xs).ne

/-- C148: `mult` of two Series of numbers reads the second Serie up to the length of the array of the first one: undefined behaviour when the
array of the first one has spare numbers that the second one has not. This is the only case. -/
theorem C148_mult_partial [Zero α] [Mul α] (hs : WF s) (ht : WF t) :
    multSerie s t = .ub ↔ s.count = t.count ∧ s.itemSize = 1 ∧ t.itemSize = 1 ∧ t.data.length < s.data.length := by
  constructor
  · intro h
    by_contra hc
    by_cases h0 : s.count = t.count
    · refine (Safe.multSerie hs ht fun h1 h2 => ?_).ne h
      by_contra h3
      exact hc ⟨h0, h1, h2, by omega⟩
    · unfold multSerie at h
      rw [if_pos h0] at h
      cases h
  · rintro ⟨h0, h1, h2, h3⟩
    unfold multSerie
    rw [if_neg (not_not.2 h0), if_pos h1, if_neg (not_not.2 h2)]
    obtain ⟨n, hn⟩ : ∃ n, s.data.length = t.data.length + (n + 1) := ⟨s.data.length - t.data.length - 1, by omega⟩
    have hrun : ∀ n lo (m : List α), m.length = s.data.length → lo + n = t.data.length →
        ∃ m', forLoop (fun i a3 => do
          let x ← rd s.data i
          let y ← rd t.data i
          wr a3 i (x * y)) lo n m = (.ok m' : Res (List α)) := by
      intro n
      induction n with
      | zero => exact fun lo m _ _ => ⟨m, rfl⟩
      | succ n ih =>
        intro lo m hm hl
        rw [forLoop_succ, rd_of_lt (show lo < s.data.length by omega), rd_of_lt (show lo < t.data.length by omega)]
        have hw : wr m lo (s.data[lo]'(by omega) * t.data[lo]'(by omega)) = .ok (m.set lo (s.data[lo]'(by omega) * t.data[lo]'(by omega))) :=
          if_pos (by omega)
        simp only [Res.ok_bind, hw]
        exact ih (lo + 1) _ (by rw [List.length_set, hm]) (by omega)
    obtain ⟨m', hm'⟩ := hrun t.data.length 0 (List.replicate s.data.length 0) List.length_replicate (by omega)
    have hub : ∀ i (a3 : List α), i = t.data.length → (do
          let x ← rd s.data i
          let y ← rd t.data i
          wr a3 i (x * y) : Res (List α)) = .ub := by
      rintro i a3 rfl
      rw [rd_of_lt (show t.data.length < s.data.length by omega)]
      have hr : rd t.data t.data.length = .ub := by unfold rd; rw [List.getElem?_eq_none le_rfl]
      rw [Res.ok_bind, hr]
      rfl
    have : forLoop (fun i a3 => do
          let x ← rd s.data i
          let y ← rd t.data i
          wr a3 i (x * y)) 0 s.data.length (List.replicate s.data.length 0) = (.ub : Res (List α)) := by
      conv_lhs => arg 3; rw [hn]
      rw [forLoop_add, hm', Res.ok_bind, forLoop_succ, hub _ _ (by omega)]
      rfl
    rw [this]
    rfl

/-- C148, violation: two well-formed Series of one number, the first one having a spare number. -/
theorem C148_mult_violated : WF (⟨[1, 2], 1, 1, 3⟩ : Serie Int) ∧ WF (⟨[5], 1, 1, 3⟩ : Serie Int) ∧
    multSerie (⟨[1, 2], 1, 1, 3⟩ : Serie Int) ⟨[5], 1, 1, 3⟩ = .ub :=
  ⟨⟨by decide, by decide, by decide, by decide⟩, ⟨by decide, by decide, by decide, by decide⟩, rfl⟩

example : add2 exSafe3 exSafe3 = .ok ⟨[2, 4, 6, 8, 10, 12], 2, 3, 3⟩ ∧ add2 exSafe3 exSafe3 ≠ .ub :=
  ⟨rfl, (C148_add_sub exSafe3_wf exSafe3_wf (ss := []) (by simp) 0).1⟩
example : addList [exSafe, exSafe] ≠ .ub :=
  ((C148_add_sub exSafe_wf exSafe_wf (ss := [exSafe, exSafe]) (by simp [exSafe_wf]) 0).2.2.2.2.2.2 (by simp)).1
example : addList ([] : List (Serie Int)) = .ub := rfl

/-- C148: `minMax`, the equality masks, `random`. -/
theorem C148_compare [Zero α] [One α] [Neg α] [Sub α] [LT α] [DecidableLT α] [LE α] [DecidableLE α] [BEq α] [Limits α] (hs : WF s) (ht : WF t)
    (eps : α) (next : Nat → α) {c k : Nat} (h0 : 0 < k) (h1 : k < 2 ^ 31) (h2 : c * k < 2 ^ 32) :
    minMax s ≠ .ub ∧ equalityMask s t ≠ .ub ∧ approximateEqualityMask s t eps ≠ .ub ∧ random next c k ≠ .ub ∧
      (s.data.length ≤ t.data.length → approximatelyEquals s t eps ≠ .ub) := by
  refine ⟨(Safe.minMax hs).ne, (Safe.maskWith _ hs ht).ne, (Safe.maskWith _ hs ht).ne, (Safe.random next h0 h1 h2).ne, fun h => ?_⟩
  refine (Safe.ite (P := fun _ => True) (fun _ => (by exact trivial)) fun _ => Safe.ite (fun _ => (by exact trivial)) fun _ => Safe.ite (fun _ => (by exact trivial)) fun _ =>
    Safe.ite (fun _ => (by exact trivial)) fun _ => Safe.stdEqual _ _ _ h).ne

/-- C148: `normalize` has undefined behaviour on Series of numbers without items, and in no other case. -/
theorem C148_normalize_partial [Zero α] [One α] [Add α] [Sub α] [Mul α] [Div α] [LT α] [DecidableLT α] [Limits α] [Sqrt α] (hs : WF s) :
    normalize s = .ub ↔ s.itemSize = 1 ∧ s.count = 0 := by
  constructor
  · intro h
    by_contra hc
    exact (Safe.normalize hs fun h1 => Nat.pos_of_ne_zero fun h0 => hc ⟨h1, h0⟩).ne h
  · rintro ⟨h1, h0⟩
    unfold normalize minMax
    simp only [hs.valid, Bool.not_true, Bool.false_eq_true, if_false, if_pos h1, if_pos h0]
    rfl

local instance exLimitsInt : Limits Int := ⟨1000, -1000⟩

example : minMax exSafe3 = .ok ([1, 2, 3], [4, 5, 6]) ∧ minMax exSafe3 ≠ .ub :=
  ⟨rfl, (C148_compare exSafe3_wf exSafe3_wf 0 (fun _ => 0) (c := 1) (k := 1) (by decide) (by decide) (by decide)).1⟩

/-! ## statistics -/

/-- C148: `mean` and `covariance`. -/
theorem C148_stats [Zero α] [Add α] [Sub α] [Mul α] [Div α] [NatCast α] (hs : WF s) (ht : WF t) : mean s ≠ .ub ∧ covariance s t ≠ .ub :=
  ⟨(Safe.mean hs).ne, (Safe.covariance hs ht).ne⟩

example : mean exSafe = .ok (.number 1) ∧ covariance exSafe exSafe3 ≠ .ub := ⟨rfl, (C148_stats exSafe_wf exSafe3_wf).2⟩

/-! ## callbacks -/

/-- C148: `map` with callbacks on numbers and on arrays. -/
theorem C148_map [Zero α] (hs : WF s) {f : α → Nat → Eff σ α} {g : List α → Nat → Eff σ α} {p : α → Nat → Eff σ (List α)}
    {q : List α → Nat → Eff σ (List α)} (hf : Harmless f) (hg : Harmless g) (hp : HarmlessArrays p) (hq : HarmlessArrays q) (st : σ) :
    (mapSS f s st).1 ≠ .ub ∧ (mapVS g s st).1 ≠ .ub ∧ (mapSV p s st).1 ≠ .ub ∧ (mapVV q s st).1 ≠ .ub :=
  ⟨(SafeE.mapSS (safeE_of hf) st trivial).1.ne, (SafeE.mapVS hs (fun v i _ _ => safeE_of hg v i) st trivial).1.ne,
    (SafeE.mapSV (safeE_arrays hp) st trivial).1.ne, (SafeE.mapVV hs (fun v i _ _ => safeE_arrays hq v i) st trivial).1.ne⟩

/-- C148: `filter`, `reject`, `find`, `findAll`, `partition`, `check` with predicates on numbers. -/
theorem C148_numbers [Zero α] [One α] (hs : WF s) {p : α → Nat → Eff σ Bool} (hp : Harmless p) (st : σ) :
    (filterS p s st).1 ≠ .ub ∧ (rejectS p s st).1 ≠ .ub ∧ (findS p s st).1 ≠ .ub ∧ (findAllS p s st).1 ≠ .ub ∧ (partitionS p s st).1 ≠ .ub ∧
      (checkS s p st).1 ≠ .ub := by
  have hg : ∀ i < s.count, Safe (· ∈ s.data) (s.getD i) := fun i _ => Safe.getD s i
  have hc := fun x i (_ : x ∈ s.data) (_ : i < s.count) => safeE_of hp x i
  refine ⟨?_, ?_, ?_, ?_, ?_, (SafeE.checkS (safeE_of hp) st trivial).1.ne⟩
  · exact (((SafeE.collect hg hc).bind fun idx hi => SafeE.lift (SafeE.gatherD hs hi)) st trivial).1.ne
  · exact (((SafeE.collectNot hg hc).bind fun idx hi => SafeE.lift (SafeE.gatherD hs hi)) st trivial).1.ne
  · exact ((SafeE.ite (fun _ => SafeE.throw _) fun _ => SafeE.findLoop _ (safeE_of hp) _ _ fun k _ _ => (Safe.getD s k).mono fun _ _ => trivial) st trivial).1.ne
  · exact (((SafeE.collect hg hc).bind fun idx hi => SafeE.lift (SafeE.gatherFind hs hi)) st trivial).1.ne
  · refine (SafeE.ite (P := fun _ => True) (fun _ => SafeE.throw _) (fun _ => (SafeE.collectBoth hg hc).bind fun idx hi =>
      (SafeE.lift (SafeE.gatherD hs hi.1)).bind fun m _ => (SafeE.lift (SafeE.gatherD hs hi.2)).bind fun u _ => SafeE.pure trivial) st trivial).1.ne

/-- C148: the same with predicates on arrays. -/
theorem C148_arrays [Zero α] [One α] (hs : WF s) {p : List α → Nat → Eff σ Bool} (hp : Harmless p) (st : σ) :
    (filterV p s st).1 ≠ .ub ∧ (rejectV p s st).1 ≠ .ub ∧ (findV p s st).1 ≠ .ub ∧ (findAllV p s st).1 ≠ .ub ∧ (partitionV p s st).1 ≠ .ub ∧
      (checkV s p st).1 ≠ .ub := by
  have hg : ∀ i < s.count, Safe (fun v : List α => v.length = s.itemSize) (s.getA i) := fun i hi => Safe.getA hs hi
  have hc := fun (x : List α) i (_ : x.length = s.itemSize) (_ : i < s.count) => safeE_of hp x i
  refine ⟨?_, ?_, ?_, ?_, ?_, (SafeE.checkV hs (safeE_of hp) st trivial).1.ne⟩
  · exact (((SafeE.collect hg hc).bind fun idx hi => SafeE.lift (SafeE.gatherA hs hi)) st trivial).1.ne
  · exact (((SafeE.collectNot hg hc).bind fun idx hi => SafeE.lift (SafeE.gatherA hs hi)) st trivial).1.ne
  · exact ((SafeE.ite (fun _ => SafeE.throw _) fun _ => SafeE.findLoop _ (safeE_of hp) _ _ fun k _ h => (Safe.getA hs (by omega)).mono fun _ _ => trivial) st trivial).1.ne
  · exact (((SafeE.collect hg hc).bind fun idx hi => SafeE.lift (SafeE.gatherFind hs hi)) st trivial).1.ne
  · exact (((SafeE.collectBoth hg hc).bind fun idx hi => (SafeE.lift (SafeE.gatherA hs hi.1)).bind fun m _ =>
      (SafeE.lift (SafeE.gatherA hs hi.2)).bind fun u _ => SafeE.pure (P := fun _ => True) trivial) st trivial).1.ne

/-- C148: `forEach` and `reduce`. -/
theorem C148_loops (hs : WF s) {f : α → Nat → Eff σ Unit} {g : List α → Nat → Eff σ Unit} (hf : Harmless f) (hg : Harmless g)
    {r : α → α → Nat → Eff σ α} (hr : ∀ a, Harmless (r a)) {q : List α → List α → Nat → Eff σ (List α)} (hq : ∀ a, HarmlessArrays (q a))
    (x : α) {v : List α} (hv : 0 < v.length ∧ v.length < 2 ^ 32) (st : σ) :
    (forEachS f s st).1 ≠ .ub ∧ (forEachV g s st).1 ≠ .ub ∧ (forEachG f g s st).1 ≠ .ub ∧ (reduceS r s x st).1 ≠ .ub ∧ (reduceV q s v st).1 ≠ .ub :=
  ⟨(SafeE.forEachS (fun x i _ => safeE_of hf x i) st trivial).1.ne, (SafeE.forEachV hs (fun x i _ _ => safeE_of hg x i) st trivial).1.ne,
    (SafeE.forEachG hs (safeE_of hf) (safeE_of hg) st trivial).1.ne, (SafeE.reduceS (fun a x i => safeE_of (hr a) x i) x st trivial).1.ne,
    (SafeE.reduceV hs (fun a x i => safeE_arrays (hq a) x i) hv st trivial).1.ne⟩

theorem safe_row {ss : List (Serie α)} (h : ∀ s ∈ ss, WF s) {i : Nat} (hi : ∀ s ∈ ss, i < s.count) : Safe (fun _ => True) (getRow ss i) :=
  (Safe.mapM (P := fun _ => True) ss fun s hs => (Safe.getA (h s hs) (hi s hs)).mono fun _ _ => trivial).mono fun _ _ => trivial

theorem safe_gathers [Zero α] {ss : List (Serie α)} (h : ∀ s ∈ ss, WF s) {n : Nat} {idx : List Nat} (hn : ∀ s ∈ ss, s.count = n) (hi : SafeE.Idx n idx) :
    Safe (fun _ => True) (ss.mapM (fun s => gatherA s idx)) :=
  (Safe.mapM (P := fun _ => True) ss fun s hs => (SafeE.gatherA (h s hs) (by rw [hn s hs]; exact hi)).mono fun _ _ => trivial).mono fun _ _ => trivial

theorem safe_counts {a : Serie α} {ss : List (Serie α)} {γ : Type} {P : γ → Prop} {k : Nat → Eff σ γ}
    (h : (∀ s ∈ a :: ss, s.count = a.count) → SafeE (fun _ => True) P (k a.count)) :
    SafeE (fun _ => True) P (do
      let counts ← Eff.lift (countAndCheck (a :: ss))
      let c0 ← Eff.lift (rd counts 0)
      k c0) := by
  refine (SafeE.lift (Safe.countAndCheck (a :: ss))).bind fun cs hcs => ?_
  obtain ⟨rfl, hc⟩ := hcs
  refine (SafeE.lift (P := fun c => c = a.count) (by exact rfl)).bind fun c hca => ?_
  rw [hca]
  exact h fun s hs => hc s hs a (List.mem_cons_self ..)

/-- C148: the functions on several Series (at least one): `forEach`, `filter`, `filterAll`, `reject`, `rejectAll`. -/
theorem C148_several [Zero α] {ss : List (Serie α)} (h : ∀ s ∈ ss, WF s) (hne : ss ≠ []) {f : List (List α) → Nat → Eff σ Unit}
    {p : List (List α) → Nat → Eff σ Bool} {q : List (List α) → Eff σ Bool} (hf : Harmless f) (hp : Harmless p) (hq : Harmless fun x (_ : Nat) => q x) (st : σ) :
    (forEachMulti f ss st).1 ≠ .ub ∧ (filterMulti p ss st).1 ≠ .ub ∧ (rejectMulti p ss st).1 ≠ .ub ∧ (filterAll q ss st).1 ≠ .ub ∧
      (rejectAll q ss st).1 ≠ .ub := by
  cases ss with
  | nil => exact (hne rfl).elim
  | cons a ss =>
  have hg : (∀ s ∈ a :: ss, s.count = a.count) → ∀ i < a.count, Safe (fun _ => True) (getRow (a :: ss) i) :=
    fun hc i hi => safe_row h fun s hs => by rw [hc s hs]; exact hi
  refine ⟨?_, ?_, ?_, ?_, ?_⟩
  · refine ((safe_counts (P := fun _ => True) (k := fun c0 => forLoop (fun i _ => do
      let row ← Eff.lift (getRow (a :: ss) i)
      f row i) 0 c0 ()) fun hc => SafeE.forLoop _ 0 _ trivial fun i _ _ hi _ => ?_) st trivial).1.ne
    exact (SafeE.lift (hg hc i (by omega))).bind fun row _ => safeE_of hf row i
  · exact ((safe_counts fun hc => (SafeE.collect (hg hc) fun x i _ _ => safeE_of hp x i).bind fun idx hi => SafeE.lift (safe_gathers h hc hi)) st trivial).1.ne
  · exact ((safe_counts fun hc => (SafeE.collectNot (hg hc) fun x i _ _ => safeE_of hp x i).bind fun idx hi => SafeE.lift (safe_gathers h hc hi)) st trivial).1.ne
  · exact ((safe_counts fun hc => (SafeE.collect (hg hc) fun x i _ _ => safeE_of hq x i).bind fun idx hi => SafeE.lift (safe_gathers h hc hi)) st trivial).1.ne
  · exact ((safe_counts fun hc => (SafeE.collectNot (hg hc) fun x i _ _ => safeE_of hq x i).bind fun idx hi => SafeE.lift (safe_gathers h hc hi)) st trivial).1.ne

/-- C148: `map` over several Series; it reads the item 0 without any check, which is why the Series must not be empty. -/
theorem C148_map_several_partial [Zero α] {ss : List (Serie α)} (h : ∀ s ∈ ss, WF s) (hne : ss ≠ []) (hpos : ∀ s ∈ ss, 0 < s.count)
    {f : List (List α) → Nat → Eff σ α} {p : List (List α) → Nat → Eff σ (List α)} (hf : Harmless f) (hp : HarmlessArrays p) (st : σ) :
    (mapMultiS f ss st).1 ≠ .ub ∧ (mapMultiV p ss st).1 ≠ .ub := by
  cases ss with
  | nil => exact (hne rfl).elim
  | cons a ss =>
  have ha := hpos a (List.mem_cons_self ..)
  have hasg : ∀ t : Serie α, Safe (fun _ => True) ((Serie.assign t).exec Serie.empty) := fun _ => trivial
  refine ⟨?_, ?_⟩
  · have : SafeE (fun _ => True) (fun _ => True) (mapMultiS f (a :: ss)) := by
      refine (SafeE.lift (Safe.countAndCheck (a :: ss))).bind fun cs hcs => ?_
      obtain ⟨rfl, hc⟩ := hcs
      have hg : ∀ i < a.count, Safe (fun _ => True) (getRow (a :: ss) i) :=
        fun i hi => safe_row h fun s hs => by rw [hc s hs a (List.mem_cons_self ..)]; exact hi
      refine (SafeE.lift (hg 0 ha)).bind fun r0 _ => (safeE_of hf r0 0).bind fun x _ => ?_
      refine (SafeE.lift (P := fun c => c = a.count) (by exact rfl)).bind fun c hca => ?_
      refine (SafeE.forLoop (J := fun _ => True) _ 1 _ trivial fun i r _ hi _ => ?_).bind fun r _ => (SafeE.ofArr r one_ne_zero).bind fun t _ => SafeE.lift (hasg t)
      exact (SafeE.lift (hg i (by omega))).bind fun row _ => (safeE_of hf row i).bind fun y _ => SafeE.pure trivial
    exact (this st trivial).1.ne
  · have : SafeE (fun _ => True) (fun _ => True) (mapMultiV p (a :: ss)) := by
      refine (SafeE.lift (Safe.countAndCheck (a :: ss))).bind fun cs hcs => ?_
      obtain ⟨rfl, hc⟩ := hcs
      have hg : ∀ i < a.count, Safe (fun _ => True) (getRow (a :: ss) i) :=
        fun i hi => safe_row h fun s hs => by rw [hc s hs a (List.mem_cons_self ..)]; exact hi
      refine (SafeE.lift (hg 0 ha)).bind fun r0 _ => (safeE_arrays hp r0 0).bind fun x hx => ?_
      refine (SafeE.lift (P := fun c => c = a.count) (by exact rfl)).bind fun c hca => ?_
      refine (SafeE.forLoop (J := fun _ => True) _ 1 _ trivial fun i r _ hi _ => ?_).bind fun r _ => (SafeE.ofArr r hx.u32).bind fun t _ => SafeE.lift (hasg t)
      exact (SafeE.lift (hg i (by omega))).bind fun row _ => (safeE_arrays hp row i).bind fun y _ => SafeE.ite (fun _ => SafeE.throw _) fun _ => SafeE.pure trivial
    exact (this st trivial).1.ne

/-- C148, violation: `map` over two Series without items. -/
theorem C148_map_several_violated : WF (⟨[], 0, 2, 3⟩ : Serie Int) ∧
    (mapMultiS (σ := Unit) (fun _ _ => pure 0) [(⟨[], 0, 2, 3⟩ : Serie Int), ⟨[], 0, 2, 3⟩] ()).1 = .ub :=
  ⟨⟨by decide, by decide, by decide, by decide⟩, rfl⟩

/-- A callback that counts its calls and keeps the numbers that are positive. -/
def exCount (x : Int) (_ : Nat) : Eff Nat Bool := fun n => (.ok (decide (0 < x)), n + 1)

theorem exCount_harmless : Harmless exCount := fun _ _ _ h => nomatch h

example : (filterS exCount exSafe 0).1 = .ok ⟨[1, 2], 2, 1, 3⟩ ∧ (filterS exCount exSafe 0).2 = 3 ∧ (filterS exCount exSafe 0).1 ≠ .ub :=
  ⟨rfl, rfl, (C148_numbers exSafe_wf exCount_harmless 0).1⟩

/-! ## merge, concat, partition_n, zip, unzip -/

/-- C148: `merge`, `concat`, when the result has less than 2^32 numbers. -/
theorem C148_merge [Zero α] (hs : WF s) (ht : WF t) (h : (s.count + t.count) * s.itemSize < 2 ^ 32) {ss : List (Serie α)} (hss : ∀ u ∈ ss, WF u)
    (hn : ∀ u ∈ ss, (ss.map (·.count)).sum * u.itemSize < 2 ^ 32) (c : Bool) :
    merge2 s t c ≠ .ub ∧ concat ss ≠ .ub ∧ (ss ≠ [] → mergeN c ss ≠ .ub) := by
  refine ⟨(Safe.merge2 hs ht h c).ne, (Safe.concat hss hn).ne, fun h => ?_⟩
  cases ss with
  | nil => exact (h rfl).elim
  | cons a l => exact (Safe.mergeN hss (hn a (List.mem_cons_self ..)) c).ne

/-- C148: `partition_n` of one Serie has undefined behaviour for zero parts (a division by zero), and in no other case. -/
theorem C148_partition_n_partial [Zero α] (hs : WF s) (n : Nat) : partitionN n s = .ub ↔ n = 0 := by
  constructor
  · intro h
    by_contra hn
    exact (Safe.partitionN hs (Nat.pos_of_ne_zero hn)).ne h
  · rintro rfl
    rfl

/-- C148: `partition_n` of several Series, for any number of parts; `zip`, `zipVector`. -/
theorem C148_zip [Zero α] [DecidableEq α] {ss : List (Serie α)} (hss : ∀ u ∈ ss, WF u) (hne : ss ≠ []) (n : Nat) :
    partitionNMulti n ss ≠ .ub ∧ zip ss ≠ .ub ∧ zipVector ss ≠ .ub := by
  cases ss with
  | nil => exact (hne rfl).elim
  | cons a l => exact ⟨(Safe.partitionNMulti hss n).ne, (Safe.zip hss).ne, (Safe.zipVector hss).ne⟩

/-- C148: `unzip`, for any sizes whose sum is less than 2^32. -/
theorem C148_unzip [Zero α] (hs : WF s) {sizes : List Nat} (h : sizes.sum < 2 ^ 32) : unzip s sizes ≠ .ub := (Safe.unzip hs h).ne

example : unzip exSafe3 [1, 2] = .ok [⟨[1, 4], 2, 1, 3⟩, ⟨[2, 3, 5, 6], 2, 2, 3⟩] ∧ unzip exSafe3 [1, 2] ≠ .ub := ⟨rfl, C148_unzip exSafe3_wf (by decide)⟩
example : merge2 exSafe3 exSafe3 ≠ .ub := (C148_merge exSafe3_wf exSafe3_wf (by decide) (ss := []) (by simp) (by simp) true).1
example : zip [exSafe3, exSafe3] ≠ .ub ∧ partitionN 2 exSafe3 ≠ .ub :=
  ⟨(C148_zip (ss := [exSafe3, exSafe3]) (by simp [exSafe3_wf]) (by simp) 2).2.1, fun h => nomatch (C148_partition_n_partial exSafe3_wf 2).1 h⟩

/-! ## algebra -/

/-- C148: `transpose` and `inv`. -/
theorem C148_matrices [Zero α] [One α] [Add α] [Sub α] [Mul α] [Div α] [Neg α] [LT α] [DecidableLT α] [OfScientific α] (hs : WF s) :
    transpose s ≠ .ub ∧ inv s ≠ .ub := ⟨(Safe.transpose hs).ne, (Safe.inv hs).ne⟩

/-- C148: `det`, except for symmetric matrices (C50_symmetric_violated: undefined behaviour for every Serie of symmetric matrices with items). -/
theorem C148_det_partial [Zero α] [Add α] [Sub α] [Mul α] (hs : WF s) (h2 : ¬ (s.itemSize = 3 ∧ s.dimension = 2))
    (h3 : ¬ (s.itemSize = 6 ∧ s.dimension = 3)) : det s ≠ .ub := (Safe.det hs h2 h3).ne

/-- C148: `cross`, `dot` when the second Serie has at least as many items, with at least as many numbers; `dot` with an array when there is an
item. -/
theorem C148_vectors_partial [Zero α] [Add α] [Sub α] [Mul α] (hs : WF s) (ht : WF t) (b : List α) :
    (s.count ≤ t.count → cross s t ≠ .ub) ∧ (s.count ≤ t.count → s.itemSize ≤ t.itemSize → dot s t ≠ .ub) ∧ (0 < s.count → dotArray s b ≠ .ub) :=
  ⟨fun h => (Safe.cross hs ht h).ne, fun h hk => (Safe.dot hs ht h hk).ne, fun h => (Safe.dotArray hs h b).ne⟩

/-- C148, violation: `cross` and `dot` with a second Serie that has fewer items, `dot` with an array and no item. -/
theorem C148_vectors_violated : WF (⟨[1, 2, 3], 1, 3, 3⟩ : Serie Int) ∧ WF exSafe3 ∧ WF (⟨[], 0, 3, 3⟩ : Serie Int) ∧
    cross exSafe3 ⟨[1, 2, 3], 1, 3, 3⟩ = .ub ∧ dot exSafe3 ⟨[1, 2, 3], 1, 3, 3⟩ = .ub ∧ dotArray (⟨[], 0, 3, 3⟩ : Serie Int) [1, 2, 3] = .ub :=
  ⟨⟨by decide, by decide, by decide, by decide⟩, exSafe3_wf, ⟨by decide, by decide, by decide, by decide⟩, rfl, rfl, rfl⟩

example : cross exSafe3 exSafe3 ≠ .ub := (C148_vectors_partial exSafe3_wf exSafe3_wf []).1 le_rfl
example : det exSafe3 ≠ .ub := C148_det_partial exSafe3_wf (by decide) (by decide)
example : transpose (⟨[1, 2, 3, 4], 1, 4, 2⟩ : Serie Int) = .ok ⟨[1, 3, 2, 4], 1, 4, 3⟩ := rfl

/-! ## geo -/

/-- C148: `fringes`, the grids of less than 2^32 numbers. -/
theorem C148_grids [Zero α] [Add α] [Sub α] [Mul α] [Div α] [Neg α] [NatCast α] [OfNat α 2] [LT α] [DecidableLT α] [Trunc α] (hs : WF s) (x : α)
    {npts : List Nat} (h : npts.prod * 3 < 2 ^ 32) (p q : List α) : fringes s x ≠ .ub ∧ fromPoints npts p q ≠ .ub ∧ fromDims npts p q ≠ .ub :=
  ⟨(Safe.fringes hs x).ne, (Safe.fromPoints h p q).ne, (Safe.fromDims h p q).ne⟩

/-- C148: `insar` of a Serie with items. -/
theorem C148_insar_partial [Zero α] [Add α] [Mul α] (hs : WF s) (h : 0 < s.count) (los : List α) : insar s los ≠ .ub :=
  (Safe.insar hs (fun _ => h) los).ne

/-- C148, violation: `insar` of vectors without items. -/
theorem C148_insar_violated : WF (⟨[], 0, 3, 3⟩ : Serie Int) ∧ insar (⟨[], 0, 3, 3⟩ : Serie Int) [1, 0, 0] = .ub :=
  ⟨⟨by decide, by decide, by decide, by decide⟩, rfl⟩

/-- C148: `normals`, when every index converts to the number of a point. -/
theorem C148_normals [Zero α] [Sub α] [Mul α] [Trunc α] {P I : Serie α} (hP : WF P) (hI : WF I)
    (h : ∀ x ∈ I.data, ∃ i, Trunc.toU32 x = .ok i ∧ i < P.count) : normals P I ≠ .ub := (Safe.normals hP hI h).ne

example : insar exSafe3 [1, 0, 0] = .ok ⟨[1, 4], 2, 1, 3⟩ ∧ insar exSafe3 [1, 0, 0] ≠ .ub := ⟨rfl, C148_insar_partial exSafe3_wf (by decide) _⟩

end DF
