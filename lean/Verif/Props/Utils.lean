import Verif.Lemmas.Utils
import Verif.Props.Combine
import Mathlib.Algebra.Order.Group.Int
import Mathlib.Tactic.Convert

/-!
# Properties of memoize (C26, C27) and sort (C29, C34)
-/

namespace DF

open Spec

variable {α σ : Type}

/-! ## C26 -/

/-- C26, what holds: for any history of calls and clears on which `f` tells apart Series with different numbers only,
every call gives what `f` gives, except that the dimension of a cached result is 3. Missing: the dimension, and
Series with the same numbers but other item sizes (see the violations below). -/
theorem C26_transparent_partial [LinearOrder α] [Zero α] {f : Serie α → Res (Serie α)} (ops : List (MemoOp α)) (x : σ)
    (hw : ∀ s ∈ calls ops, WF s) (hd : ∀ s ∈ calls ops, f s ≠ .ub)
    (hf : ∀ s ∈ calls ops, ∀ t ∈ calls ops, numbers s = numbers t → f s = f t) :
    List.Forall₂ (fun s out => out = f s ∨ ∃ r, f s = .ok r ∧ out = .ok { r with dimension := 3 }) (calls ops)
      (memoRun (fun s => Eff.lift (f s)) ops ([], x)).1 :=
  memoRun_pure comparable_linear (P := fun s => s ∈ calls ops) hw (fun _ _ => trivial) hd (fun s t hs ht => hf s hs t ht) x ops []
    (fun p hp => by simp at hp) (fun _ h => h)

example := C26_transparent_partial (f := fun s : Serie Int => .ok (ofScalars (numbers s).reverse))
  [.call ex41, .clear, .call ex41, .call ex23, .call ex41] () (by decide) (by decide)
  (fun s _ t _ h => by show Res.ok _ = Res.ok _; rw [h])

/-- C26, what holds: when all the Series passed have the same item size, `f` looks at nothing but the items of its
argument, and the results of `f` have the default dimension 3, every call gives exactly what `f` gives, whatever the
history of calls and clears. -/
theorem C26_same_item_size_partial [LinearOrder α] [Zero α] {f : Serie α → Res (Serie α)} {k : Nat}
    (ops : List (MemoOp α)) (x : σ) (hw : ∀ s ∈ calls ops, WF s ∧ s.itemSize = k)
    (hd : ∀ s ∈ calls ops, f s ≠ .ub) (h3 : ∀ s ∈ calls ops, ∀ r, f s = .ok r → r.dimension = 3)
    (hf : ∀ s ∈ calls ops, ∀ t ∈ calls ops, items s = items t → f s = f t) :
    (memoRun (fun s => Eff.lift (f s)) ops ([], x)).1 = (calls ops).map f := by
  have h := C26_transparent_partial ops x (fun s hs => (hw s hs).1) hd
    (fun s hs t ht e => hf s hs t ht (items_of_numbers (hw s hs).1 (hw t ht).1
      ((hw s hs).2.trans (hw t ht).2.symm) e))
  generalize (memoRun (fun s => Eff.lift (f s)) ops ([], x)).1 = outs at h
  generalize calls ops = l at h h3
  induction h with
  | nil => rfl
  | cons h1 _ ih =>
    rw [List.map_cons, ih (fun s hs => h3 s (List.mem_cons_of_mem _ hs))]
    congr 1
    rcases h1 with h1 | ⟨r, hr, h1⟩
    · exact h1
    · have := h3 _ (List.mem_cons_self ..) r hr
      rw [h1, hr]; congr 1; cases r; simp_all

example := C26_same_item_size_partial (k := 3) (f := fun s : Serie Int => .ok (ofItems 3 (items s).reverse))
  [.call ex23, .clear, .call exTail, .call ex23] () (by decide) (by decide)
  (fun _ _ _ h => by cases h; rfl) (fun s _ t _ h => by show Res.ok _ = Res.ok _; rw [h])

example : (∀ s ∈ calls [.call ex41, .clear, .call ex41, .call (ofScalars [1, 2]), .call ex41], WF s ∧ s.itemSize = 1) ∧
    (memoRun (σ := Unit) (fun s => Eff.lift (Res.ok (ofScalars (scalars s).reverse)))
      [.call ex41, .clear, .call ex41, .call (ofScalars [1, 2]), .call ex41] ([], ())).1 =
      [.ok (ofScalars [11, 9, 7, 5]), .ok (ofScalars [11, 9, 7, 5]), .ok (ofScalars [2, 1]),
       .ok (ofScalars [11, 9, 7, 5])] := by
  refine ⟨?_, by decide +kernel⟩
  intro s hs
  simp only [calls, List.mem_cons, List.not_mem_nil, or_false] at hs
  rcases hs with rfl | rfl | rfl | rfl
  · exact ⟨ex41_WF, rfl⟩
  · exact ⟨ex41_WF, rfl⟩
  · exact ⟨WF_ofScalars (by decide), rfl⟩
  · exact ⟨ex41_WF, rfl⟩

/-- C26 is violated: the key ignores the item size. The number of items of `[1,2]` taken as one vector, then as two
numbers: the second call answers 1 instead of 2. -/
theorem C26_item_size_violated :
    ∃ (f : Serie Int → Serie Int) (a b : Serie Int), WF a ∧ WF b ∧ a.dimension = 3 ∧ b.dimension = 3 ∧
      (memoRun (σ := Unit) (fun s => Eff.lift (.ok (f s))) [.call a, .call b] ([], ())).1 =
        [.ok (ofScalars [1]), .ok (ofScalars [1])] ∧ f b = ofScalars [2] := by
  refine ⟨fun s => ofScalars [(s.count : Int)], ofItems 2 [[1, 2]], ofScalars [1, 2], ?_, ?_, rfl, rfl, ?_, rfl⟩
  · exact WF_ofItems (by decide) (by decide) (by decide) (by decide)
  · exact WF_ofScalars (by decide)
  · decide +kernel

/-- C26 is violated: the second call on the same Serie answers with another dimension. -/
theorem C26_dimension_violated :
    ∃ (f : Serie Int → Serie Int) (a : Serie Int), WF a ∧ (f a).dimension = 2 ∧
      ∃ r, (memoRun (σ := Unit) (fun s => Eff.lift (.ok (f s))) [.call a, .call a] ([], ())).1 =
        [.ok (f a), .ok r] ∧ r.dimension = 3 :=
  ⟨id, exTail, exTail_WF, rfl, { exTail with dimension := 3 }, by decide +kernel, rfl⟩

/-! ## C27 -/

/-- C27: from an empty cache (a new object, or after `clear_cache`), along any history of calls without clear, once an
invocation of `f` has returned no later invocation gets the same numbers. `log0` stands for the invocations made before. -/
theorem C27_at_most_once [LinearOrder α] [Zero α] {f : Serie α → Eff σ (Serie α)} (ops : List (MemoOp α))
    (hc : MemoOp.clear ∉ ops) (hw : ∀ s ∈ calls ops, WF s) (log0 : List (Serie α × Bool)) (x : σ) :
    ∃ log, (memoRun (traced f) ops ([], (log0, x))).2.2.1 = log0 ++ log ∧
      log.Pairwise (fun a b => numbers a.1 = numbers b.1 → a.2 = false) := by
  have := memoRun_traced comparable_linear (f := f) ops [] log0 [] x hc (fun s hs => ⟨hw s hs, trivial⟩) (by simp [KeysIn]) (by simp) (by simp)
  simpa using this

example := C27_at_most_once (f := fun s : Serie Int => fun (n : Nat) => (if n = 1 then .throw .runtimeError else .ok s, n + 1))
  [.call ex41, .call ex23, .call ex41, .call ex23] (by simp) (by decide) [] 0

/-- C27: when `f` never throws, the arrays of numbers it is invoked on are all different. -/
theorem C27_at_most_once_total [LinearOrder α] [Zero α] {f : Serie α → Eff σ (Serie α)} (ops : List (MemoOp α))
    (hc : MemoOp.clear ∉ ops) (hw : ∀ s ∈ calls ops, WF s) (log0 : List (Serie α × Bool)) (x : σ) :
    ∃ log, (memoRun (traced f) ops ([], (log0, x))).2.2.1 = log0 ++ log ∧
      ((∀ p ∈ log, p.2 = true) → (log.map (fun p => numbers p.1)).Nodup) := by
  obtain ⟨log, h1, h2⟩ := C27_at_most_once (f := f) ops hc hw log0 x
  refine ⟨log, h1, fun ht => ?_⟩
  rw [List.Nodup, List.pairwise_map]
  refine h2.imp_of_mem ?_
  intro a b ha _ h e
  have := h e
  rw [ht a ha] at this; cases this

example := C27_at_most_once_total (f := fun s : Serie Int => fun (n : Nat) => (.ok (ofScalars (numbers s)), n + 1))
  [.call ex41, .call ex23, .call ex41, .call ex23] (by simp) (by decide) [] 0

/-- C27: after a call that returned, a call with the same numbers changes nothing, neither the cache nor the state
`f` works on, so it does not invoke `f`; and it returns the same Serie up to the dimension. -/
theorem C27_repeat_invokes_nothing [LinearOrder α] [Zero α] {f : Serie α → Eff σ (Serie α)} {s t : Serie α}
    (hs : WF s) (ht : WF t) (hn : numbers t = numbers s) {st st' : Cache α × σ} {r : Serie α}
    (h : memoCall f s st = (.ok r, st')) (g : Serie α → Eff σ (Serie α)) :
    ∃ r', memoCall g t st' = (.ok r', st') ∧ r'.data = r.data ∧ r'.count = r.count ∧ r'.itemSize = r.itemSize := by
  obtain ⟨c, x⟩ := st
  rcases cacheFind_cases comparable_linear (c := c) (fun _ _ => trivial) (key := numbers s) trivial with
    ⟨hl, hno⟩ | ⟨r0, hl, hm⟩
  · rcases hfs : f s x with ⟨r1 | e | _, y⟩
    · rw [memoCall_ok hs hl hfs] at h
      simp only [Prod.mk.injEq, Res.ok.injEq] at h
      obtain ⟨rfl, rfl⟩ := h
      refine ⟨{ r1 with dimension := 3 }, memoCall_hit ht ?_, rfl, rfl, rfl⟩
      rw [hn, cacheFind_eq comparable_linear (fun _ _ => trivial) trivial, List.find?_cons_of_pos]
      · rfl
      · exact (comparable_linear.same _ _ trivial trivial).2 rfl
    · rw [memoCall_throw hs hl hfs] at h; simp at h
    · rw [memoCall_ub hs hl hfs] at h; simp at h
  · rw [memoCall_hit hs (st := (c, x)) hl] at h
    simp only [Prod.mk.injEq, Res.ok.injEq] at h
    obtain ⟨rfl, rfl⟩ := h
    exact ⟨_, memoCall_hit ht (by rw [hn]; exact hl), rfl, rfl, rfl⟩

example := C27_repeat_invokes_nothing ex23_WF exTail_WF (by decide)
  (f := fun s : Serie Int => fun (n : Nat) => (.ok (ofScalars (numbers s)), n + 1)) (st := ([], 0))
  (r := ⟨[1, 2, 3, 4, 5, 6], 6, 1, 3⟩) (by rfl) (fun _ => fun n => (.throw .runtimeError, n))

/-- C27: a call that throws leaves the cache as it was; the next call with the same numbers invokes `f` again. -/
theorem C27_throw_caches_nothing [LinearOrder α] [Zero α] {f : Serie α → Eff σ (Serie α)} {s : Serie α}
    (hs : WF s) {st st' : Cache α × σ} {e : Err} (h : memoCall f s st = (.throw e, st')) :
    st'.1 = st.1 ∧ f s st.2 = (.throw e, st'.2) ∧
    ∀ g : Serie α → Eff σ (Serie α), (memoCall g s st').1 = (g s st'.2).1 ∧ (memoCall g s st').2.2 = (g s st'.2).2 := by
  obtain ⟨c, x⟩ := st
  rcases cacheFind_cases comparable_linear (c := c) (fun _ _ => trivial) (key := numbers s) trivial with
    ⟨hl, hno⟩ | ⟨r0, hl, hm⟩
  · rcases hfs : f s x with ⟨r1 | e | _, y⟩
    · rw [memoCall_ok hs hl hfs] at h; simp at h
    · rw [memoCall_throw hs hl hfs] at h
      simp only [Prod.mk.injEq, Res.throw.injEq] at h
      obtain ⟨rfl, rfl⟩ := h
      refine ⟨rfl, rfl, fun g => ?_⟩
      rcases hgs : g s y with ⟨r1 | e | _, z⟩
      · rw [memoCall_ok hs hl hgs]; simp
      · rw [memoCall_throw hs hl hgs]; simp
      · rw [memoCall_ub hs hl hgs]; simp
    · rw [memoCall_ub hs hl hfs] at h; simp at h
  · rw [memoCall_hit hs (st := (c, x)) hl] at h; simp at h

example := C27_throw_caches_nothing ex23_WF (f := fun _ : Serie Int => fun (n : Nat) => (.throw .runtimeError, n + 1))
  (st := ([], 0)) (by rfl)

/-- C27: the first call after `clear_cache` invokes `f`, whatever was cached, and gives what `f` gives. -/
theorem C27_clear_then_invokes [LinearOrder α] [Zero α] (f : Serie α → Eff σ (Serie α)) {s : Serie α} (hs : WF s)
    (st : Cache α × σ) :
    (memoRun f [.clear, .call s] st).1 = [(f s st.2).1] ∧ (memoRun f [.clear, .call s] st).2.2 = (f s st.2).2 := by
  have hl : cacheFind ([] : Cache α) (numbers s) = .ok none := by
    rcases cacheFind_cases comparable_linear (c := ([] : Cache α)) (fun _ _ => trivial) (key := numbers s) trivial with
      h | ⟨r, _, h⟩
    · exact h.1
    · simp at h
  obtain ⟨c, x⟩ := st
  rcases hf : f s x with ⟨r | e | _, y⟩
  · simp [memoRun, memoClear, memoCall_ok hs hl hf]
  · simp [memoRun, memoClear, memoCall_throw hs hl hf]
  · simp [memoRun, memoClear, memoCall_ub hs hl hf]

example := C27_clear_then_invokes (fun s : Serie Int => fun (n : Nat) => (.ok (ofScalars (numbers s)), n + 1)) ex23_WF
  (memoRun (fun s : Serie Int => fun (n : Nat) => (.ok (ofScalars (numbers s)), n + 1)) [.call ex23, .call ex41] ([], 0)).2

/-- A concrete history for C27: the second `ex41` is answered from the cache; the throwing call is made twice. -/
example : (memoRun (traced (σ := Unit) (fun s => Eff.lift (if s.itemSize = 3 then .throw .runtimeError else .ok s)))
      [.call ex41, .call ex23, .call ex41, .call ex23] ([], ([], ()))).2.2.1 =
      [(ex41, true), (ex23, false), (ex23, false)] := by decide +kernel

/-! ## C29 -/

/-- C29: on a Serie of vectors, `sort(s, comp)` is a permutation of the items, ordered by `comp`: no item compares
less than an earlier one. -/
theorem C29_sort_comparator [LT α] [DecidableLT α] [Zero α] {srt : StdSort} (hs : srt.Correct) {s : Serie α}
    (hw : WF s) (h1 : s.itemSize ≠ 1) {lt : List α → List α → Bool} (hlt : StrictWeak lt (items s)) :
    ∃ its, sortWith srt s (fun a b => .ok (lt a b)) = .ok (ofItems s.itemSize its) ∧ its.Perm (items s) ∧
      its.Pairwise (fun a b => lt b a = false) :=
  sortWith_items hs hw h1 (fun _ _ _ _ => rfl) hlt

/-- C29: on a Serie of numbers, `sort(s)` is a permutation of the numbers, in ascending order. -/
theorem C29_sort_numbers [LinearOrder α] [Zero α] {srt : StdSort} (hs : srt.Correct) {s : Serie α} (hw : WF s)
    (h1 : s.itemSize = 1) :
    ∃ xs, sortDefault srt s = .ok (ofScalars xs) ∧ xs.Perm (scalars s) ∧ xs.Pairwise (· ≤ ·) := by
  unfold sortDefault
  rw [if_pos h1]
  exact sortWith_scalar hs hw h1 _

/-- C29: on a Serie of vectors, `sort(s)` is a permutation of the items, in ascending lexicographic order. -/
theorem C29_sort_vectors [LinearOrder α] [Zero α] {srt : StdSort} (hs : srt.Correct) {s : Serie α} (hw : WF s)
    (h1 : s.itemSize ≠ 1) :
    ∃ its, sortDefault srt s = .ok (ofItems s.itemSize its) ∧ its.Perm (items s) ∧ its.Pairwise (· ≤ ·) := by
  unfold sortDefault
  rw [if_neg h1]
  obtain ⟨its, h, hp, ho⟩ := sortWith_items hs hw h1 (comp := lexLess) (lt := fun a b => decide (a < b))
    (fun a ha b hb => lexLess_eq ((hw.item_length ha).trans (hw.item_length hb).symm))
    (by convert strictWeak_of_linear (items s))
  exact ⟨its, h, hp, ho.imp (fun h => by simpa using h)⟩

/-- C29: the default order leaves no choice: two correct implementations of `std::sort` give the same Serie. -/
theorem C29_deterministic [LinearOrder α] [Zero α] {srt srt' : StdSort} (hs : srt.Correct) (hs' : srt'.Correct)
    {s : Serie α} (hw : WF s) : sortDefault srt s = sortDefault srt' s := by
  by_cases h1 : s.itemSize = 1
  · obtain ⟨xs, e, p, o⟩ := C29_sort_numbers hs hw h1
    obtain ⟨ys, e', p', o'⟩ := C29_sort_numbers hs' hw h1
    rw [e, e', (p.trans p'.symm).eq_of_pairwise (fun _ _ _ _ => le_antisymm) o o']
  · obtain ⟨xs, e, p, o⟩ := C29_sort_vectors hs hw h1
    obtain ⟨ys, e', p', o'⟩ := C29_sort_vectors hs' hw h1
    rw [e, e', (p.trans p'.symm).eq_of_pairwise (fun _ _ _ _ => le_antisymm) o o']

/-- C29: sorting a sorted Serie changes nothing. -/
theorem C29_idempotent [LinearOrder α] [Zero α] {srt : StdSort} (hs : srt.Correct) {s : Serie α} (hw : WF s) :
    ∃ t, sortDefault srt s = .ok t ∧ t.count = s.count ∧ t.itemSize = s.itemSize ∧ WF t ∧ sortDefault srt t = .ok t := by
  have hfit := hw.fits
  have hsm := hw.small
  by_cases h1 : s.itemSize = 1
  · obtain ⟨xs, e, p, o⟩ := C29_sort_numbers hs hw h1
    have hlen : xs.length = s.count := p.length_eq.trans hw.scalars_length
    have hwt : WF (ofScalars xs) := WF_ofScalars (by have := hw.count_lt; omega)
    obtain ⟨ys, e', p', o'⟩ := C29_sort_numbers hs hwt rfl
    rw [scalars_ofScalars] at p'
    refine ⟨_, e, hlen, h1.symm, hwt, ?_⟩
    rw [e', p'.eq_of_pairwise (fun _ _ _ _ => le_antisymm) o' o]
  · obtain ⟨xs, e, p, o⟩ := C29_sort_vectors hs hw h1
    have hlen : xs.length = s.count := p.length_eq.trans (items_length s)
    have hit : ∀ v ∈ xs, v.length = s.itemSize := fun v hv => hw.item_length (p.mem_iff.1 hv)
    have hwt : WF (ofItems s.itemSize xs) := WF_ofItems hw.pos hw.int hit (by rw [hlen]; omega)
    obtain ⟨ys, e', p', o'⟩ := C29_sort_vectors hs hwt h1
    rw [items_ofItems hit] at p'
    refine ⟨_, e, hlen, rfl, hwt, ?_⟩
    rw [e', p'.eq_of_pairwise (fun _ _ _ _ => le_antisymm) o' o]
    rfl

/-- The contract assumed of `std::sort` can be met: merge sort meets it. -/
theorem stdSort_exists : ∃ srt : StdSort, srt.Correct := by
  refine ⟨fun {γ} comp l =>
    .ok ((l.attach.mergeSort (fun a b => !(decide (comp b.1 a.1 = .ok true)))).map (·.1)), ?_⟩
  intro γ comp lt l hc hw
  refine ⟨_, rfl, ?_, ?_⟩
  · have := (List.mergeSort_perm l.attach (fun a b => !(decide (comp b.1 a.1 = .ok true)))).map (·.1)
    simpa using this
  · rw [List.pairwise_map]
    have hle : (fun a b : {x // x ∈ l} => !(decide (comp b.1 a.1 = .ok true))) = fun a b => !(lt b.1 a.1) := by
      funext a b
      rw [hc b.1 b.2 a.1 a.2]
      cases lt b.1 a.1 <;> simp
    rw [hle]
    refine (List.pairwise_mergeSort (le := fun a b : {x // x ∈ l} => !(lt b.1 a.1)) ?_ ?_ l.attach).imp ?_
    · rintro ⟨a, ha⟩ ⟨b, hb⟩ ⟨c, hcm⟩ h1 h2
      simp only [Bool.not_eq_true'] at *
      -- `¬ b < a`, `¬ c < b`; suppose `c < a`
      rcases h : lt c a with _ | _
      · rfl
      rcases hab : lt a b with _ | _
      · rcases hbc : lt b c with _ | _
        · have := (hw.incomp a ha b hb c hcm hab h1 hbc h2).2
          rw [h] at this; cases this
        · have := hw.trans b hb c hcm a ha hbc h
          rw [h1] at this; cases this
      · have := hw.trans c hcm a ha b hb h hab
        rw [h2] at this; cases this
    · rintro ⟨a, ha⟩ ⟨b, hb⟩
      simp only [Bool.or_eq_true, Bool.not_eq_true']
      rcases hab : lt b a with _ | _
      · exact .inl rfl
      · right
        rcases h : lt a b with _ | _
        · rfl
        · have := hw.trans a ha b hb a ha h hab
          rw [hw.irrefl a ha] at this; cases this
    · rintro ⟨a, ha⟩ ⟨b, hb⟩ h
      simpa using h

example := C29_sort_comparator stdSort_exists.choose_spec ex23_WF (by decide)
  (lt := fun a b => decide (b.getD 1 0 < a.getD 1 0)) ⟨by decide, by decide, by decide⟩
example := C29_sort_numbers stdSort_exists.choose_spec (s := (⟨[3, 1, 2, 1], 4, 1, 3⟩ : Serie Int)) (by decide) rfl
example := C29_sort_vectors stdSort_exists.choose_spec (s := (⟨[3, 1, 2, 1], 2, 2, 3⟩ : Serie Int)) (by decide) (by decide)
example := C29_deterministic stdSort_exists.choose_spec stdSort_exists.choose_spec
  (s := (⟨[3, 1, 2, 1], 2, 2, 3⟩ : Serie Int)) (by decide)
example := C29_idempotent stdSort_exists.choose_spec (s := (⟨[3, 1, 2, 1], 2, 2, 3⟩ : Serie Int)) (by decide)

/-- A comparator other than the default one: by the second component, descending. It is a strict weak order. -/
example : StrictWeak (fun a b : List Int => decide (b.getD 1 0 < a.getD 1 0)) (items ex23) :=
  ⟨by decide, by decide, by decide⟩

/-! ## C34 -/

/-- C34 is violated: with the comparator "greater than" the numbers 1, 2 come out in ascending order. -/
theorem C34_comparator_violated {srt : StdSort} (hs : srt.Correct) :
    ∃ (s : Serie Int) (lt : Int → Int → Bool), WF s ∧ s.itemSize = 1 ∧ StrictWeak lt (scalars s) ∧
      ∃ xs, sortWith srt s (fun a b => do
          let x ← rd a 0
          let y ← rd b 0
          pure (lt x y)) = .ok (ofScalars xs) ∧ ¬ xs.Pairwise (fun a b => lt b a = false) := by
  have hw : WF (ofScalars [1, 2] : Serie Int) := WF_ofScalars (by decide)
  refine ⟨ofScalars [1, 2], fun a b => decide (b < a), hw, rfl, ⟨by decide, by decide, by decide⟩, ?_⟩
  obtain ⟨xs, e, p, o⟩ := sortWith_scalar hs hw rfl (fun a b => do
          let x ← rd a 0
          let y ← rd b 0
          pure (decide (y < x)))
  refine ⟨xs, e, ?_⟩
  rw [scalars_ofScalars] at p
  have : xs = [1, 2] := p.eq_of_pairwise (fun _ _ _ _ => le_antisymm) o (by decide)
  rw [this]; decide

example := C34_comparator_violated stdSort_exists.choose_spec

/-- C34, what holds: whatever the comparator, the result is the same as without comparator, a permutation in ascending
order. It is therefore ordered by `comp` exactly when ascending order is. -/
theorem C34_comparator_partial [LinearOrder α] [Zero α] {srt : StdSort} (hs : srt.Correct) {s : Serie α} (hw : WF s)
    (h1 : s.itemSize = 1) (comp : List α → List α → Res Bool) (lt : α → α → Bool) :
    ∃ xs, sortWith srt s comp = .ok (ofScalars xs) ∧ sortDefault srt s = .ok (ofScalars xs) ∧ xs.Perm (scalars s) ∧
      xs.Pairwise (· ≤ ·) ∧
      ((∀ a ∈ scalars s, ∀ b ∈ scalars s, a ≤ b → lt b a = false) → xs.Pairwise (fun a b => lt b a = false)) := by
  obtain ⟨xs, e, p, o⟩ := sortWith_scalar hs hw h1 comp
  obtain ⟨ys, e', p', o'⟩ := C29_sort_numbers hs hw h1
  have : ys = xs := (p'.trans p.symm).eq_of_pairwise (fun _ _ _ _ => le_antisymm) o' o
  subst this
  refine ⟨_, e, e', p, o, fun h => o.imp_of_mem ?_⟩
  intro a b ha hb hab
  exact h a (p.mem_iff.1 ha) b (p.mem_iff.1 hb) hab

example := C34_comparator_partial stdSort_exists.choose_spec ex41_WF rfl (fun a b => do
  let x ← rd a 0
  let y ← rd b 0
  pure (decide (x < y))) (fun a b => decide (a < b))

end DF
