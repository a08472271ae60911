import Verif.Model.ParallelMemo
import Verif.Props.Parallel
import Verif.Props.Utils

/-!
# Properties of parallel_execute with a memoized functor (C105)

`ParallelObject call s n dur obj r obj'`: some interleaving of `parallel_execute(fct, s, n)` ends with outcome `r`, the caller's
functor object being in state `obj` before and `obj'` after. For a memoized function the state is the cache and the state
of the function.
-/

namespace DF

open Spec

variable {α σ τ : Type}

theorem ParallelExecute_congr [Zero α] {f g : Serie α → Res (Serie α)} {s : Serie α} (h : WF s) {n : Nat}
    (he : ∀ p, WF p → p.itemSize = s.itemSize → g p = f p) {dur : Nat → Nat} {r : Res (Serie α)} :
    ParallelExecute g s n dur r ↔ ParallelExecute f s n dur r := by
  unfold ParallelExecute
  by_cases h0 : n < 1
  · simp [h0]
  by_cases h1 : n = 1
  · simp [h1, he s h rfl]
  obtain ⟨parts, p1, _, p3, _⟩ := C23_partition h (n := n) (by omega)
  have hj : parts.map (parJob g) = parts.map (parJob f) :=
    List.map_congr_left (fun p hp => by unfold parJob; rw [he p (p3 p hp).1 (p3 p hp).2])
  simp only [h0, h1, if_false, p1, ParReaches, hj]

/-- The cache after any history holds results of `f`. -/
theorem memoRun_cacheOf {K : List α → Prop} [LinearOrder α] [Zero α] (hK : Comparable K) {f : Serie α → Res (Serie α)}
    {P : Serie α → Prop} (hw : ∀ s, P s → WF s) (hPK : ∀ s, P s → K (numbers s)) (x : σ) :
    ∀ (ops : List (MemoOp α)) (c : Cache α), CacheOf f P c → (∀ s ∈ calls ops, P s) →
    CacheOf f P (memoRun (fun s => Eff.lift (f s)) ops (c, x)).2.1 ∧
      (memoRun (fun s => Eff.lift (f s)) ops (c, x)).2.2 = x := by
  intro ops
  induction ops with
  | nil => intro c h _; exact ⟨h, rfl⟩
  | cons op ops ih =>
    intro c hc hP
    have hcK : KeysIn K c := fun p hp => by
      obtain ⟨s, _, hs, hn, _⟩ := hc p hp
      rw [← hn]; exact hPK s hs
    cases op with
    | clear => exact ih [] (fun p hp => by simp at hp) hP
    | call s =>
      have hs : P s := hP s (by simp [calls])
      have hP' : ∀ s ∈ calls ops, P s := fun t ht => hP t (by simp [calls, ht])
      rcases cacheFind_cases hK hcK (hPK s hs) with ⟨hl, _⟩ | ⟨r, hl, hm⟩
      · rcases hfs : f s with r | e | _
        · have := memoCall_ok (f := fun s => Eff.lift (f s)) (σ := σ) (hw s hs) (t := x) (t' := x) (r := r) hl (by simp [Eff.lift, hfs])
          simp only [memoRun, this]
          refine ih _ ?_ hP'
          intro p hp
          rcases List.mem_cons.1 hp with rfl | hp
          · exact ⟨s, r, hs, rfl, hfs, rfl⟩
          · exact hc p hp
        · have := memoCall_throw (f := fun s => Eff.lift (f s)) (σ := σ) (hw s hs) (t := x) (t' := x) (e := e) hl (by simp [Eff.lift, hfs])
          simp only [memoRun, this]
          exact ih _ hc hP'
        · have := memoCall_ub (f := fun s => Eff.lift (f s)) (σ := σ) (hw s hs) (t := x) (t' := x) hl (by simp [Eff.lift, hfs])
          simp only [memoRun, this]
          exact ⟨hc, trivial⟩
      · have := memoCall_hit (f := fun s => Eff.lift (f s)) (σ := σ) (hw s hs) (st := (c, x)) hl
        simp only [memoRun, this]
        exact ih _ hc hP'

/-- C105: whatever the history of the memoized object, for an item-wise function that looks at nothing but the items of its
argument and whose results have the default dimension, every schedule of `parallel_execute(memoize(f), s, n)` gives `f(s)`;
some schedule ends. -/
theorem C105_same_result [LinearOrder α] [Zero α] {f : Serie α → Res (Serie α)} {s t : Serie α} (h : WF s)
    (h0 : 0 < s.count) (hf : ItemWise f s) (ht : f s = .ok t)
    (hi : ∀ p q, WF p → WF q → p.itemSize = s.itemSize → items p = items q → p.itemSize = q.itemSize → f p = f q)
    (hd : ∀ p, WF p → p.itemSize = s.itemSize → f p ≠ .ub)
    (h3 : ∀ p r, WF p → p.itemSize = s.itemSize → f p = .ok r → r.dimension = 3)
    (ops : List (MemoOp α)) (ho : ∀ p ∈ calls ops, WF p ∧ p.itemSize = s.itemSize) (x : σ) {n : Nat} (hn : 0 < n)
    (dur : Nat → Nat) :
    (∀ r obj', ParallelObject (memoCall (fun p => Eff.lift (f p))) s n dur
        (memoRun (fun p => Eff.lift (f p)) ops ([], x)).2 r obj' → r = f s) ∧
    ∃ r obj', ParallelObject (memoCall (fun p => Eff.lift (f p))) s n dur
        (memoRun (fun p => Eff.lift (f p)) ops ([], x)).2 r obj' := by
  set P : Serie α → Prop := fun p => WF p ∧ p.itemSize = s.itemSize with hP
  obtain ⟨hc, hx⟩ := memoRun_cacheOf (σ := σ) (f := f) (comparable_linear (α := α)) (P := P) (fun p hp => hp.1) (fun _ _ => trivial) x
    ops [] (fun p hp => by simp at hp) ho
  generalize (memoRun (fun p => Eff.lift (f p)) ops ([], x)).2 = obj at hc hx
  obtain ⟨c, y⟩ := obj
  have key : ∀ p, WF p → p.itemSize = s.itemSize → (memoCall (fun p => Eff.lift (f p)) p (c, y)).1 = f p := by
    intro p hw hk
    have := memoRun_pure (σ := σ) (f := f) (comparable_linear (α := α)) (P := P) (fun p hp => hp.1) (fun _ _ => trivial)
      (fun p hp => hd p hp.1 hp.2)
      (fun p q hp hq e => hi p q hp.1 hq.1 hp.2 (items_of_numbers hp.1 hq.1 (hp.2.trans hq.2.symm) e) (hp.2.trans hq.2.symm))
      y [.call p] c hc (by simpa [calls] using ⟨hw, hk⟩)
    simp only [calls, memoRun] at this
    rcases hm : memoCall (fun p => Eff.lift (f p)) p (c, y) with ⟨r | e | _, st⟩
    all_goals
      rw [hm] at this
      cases this with
      | cons hh _ =>
        rcases hh with hh | ⟨r', h1, h2⟩
        · exact hh
        · rw [h2, h1, ← h3 p r' hw hk h1]
  have c24 := C24_parallel_is_sequential h h0 hf ht hn dur
  constructor
  · intro r obj' hr
    unfold ParallelObject at hr
    split at hr
    · rw [← key s h rfl, hr]
    · exact c24.1 r ((ParallelExecute_congr h key).1 hr.1)
  · obtain ⟨r, hr⟩ := c24.2
    by_cases h1 : n = 1
    · exact ⟨_, _, by unfold ParallelObject; rw [if_pos h1]⟩
    · exact ⟨r, (c, y), by unfold ParallelObject; rw [if_neg h1]; exact ⟨(ParallelExecute_congr h key).2 hr, rfl⟩⟩

/-- C105, what is kept with one core: after a call that returns, calling the memoized object on a Serie with the same
numbers, directly or through `parallel_execute` with one core, invokes nothing (`g` in place of `f` gives the same). -/
theorem C105_one_core_keeps [LinearOrder α] [Zero α] {f : Serie α → Eff σ (Serie α)} {s : Serie α} (h : WF s)
    {dur dur' : Nat → Nat} {obj obj' : Cache α × σ} {r : Serie α} (hr : ParallelObject (memoCall f) s 1 dur obj (.ok r) obj')
    (g : Serie α → Eff σ (Serie α)) :
    ∃ r', ParallelObject (memoCall g) s 1 dur' obj' (.ok r') obj' ∧ items r' = items r := by
  have h1 : memoCall f s obj = (.ok r, obj') := by simpa [ParallelObject] using hr
  obtain ⟨r', e, hd, hc, hk⟩ := C27_repeat_invokes_nothing h h rfl h1 g
  refine ⟨r', by simpa [ParallelObject] using e, ?_⟩
  simp only [items, hd, hc, hk]

/-- C105 is violated: with two cores or more nothing is kept. Two runs of `parallel_execute` on the same Serie with the same
memoized object, at first empty, invoke the function on every part, and the second run does so again. For all functions
(here recorded by `traced`), Series, numbers of cores ≥ 2 and schedules. -/
theorem C105_nothing_kept_violated [LinearOrder α] [Zero α] (f : Serie α → Eff σ (Serie α)) {s : Serie α} (h : WF s)
    {n : Nat} (hn : 2 ≤ n) {parts : List (Serie α)} (hp : partitionN n s = .ok parts) {dur : Nat → Nat} {x : σ}
    {r : Res (Serie α)} {obj' : Cache α × (List (Serie α × Bool) × σ)}
    (hr : ParallelObject (memoCall (traced f)) s n dur ([], ([], x)) r obj') :
    (jobObjects (memoCall (traced f)) parts ([], ([], x))).map (fun o => o.2.1.map (·.1)) = parts.map (fun p => [p]) ∧
    (jobObjects (memoCall (traced f)) parts obj').map (fun o => o.2.1.map (·.1)) = parts.map (fun p => [p]) := by
  have e : obj' = ([], ([], x)) := by
    unfold ParallelObject at hr
    rw [if_neg (by omega)] at hr
    exact hr.2
  rw [e]
  obtain ⟨parts', p1, _, p3, _⟩ := C23_partition h (n := n) (by omega)
  obtain rfl : parts = parts' := by rw [hp] at p1; injection p1
  have key : (jobObjects (memoCall (traced f)) parts ([], ([], x))).map (fun o => o.2.1.map (·.1)) = parts.map (fun p => [p]) := by
    unfold jobObjects
    rw [List.map_map]
    refine List.map_congr_left (fun p hpp => ?_)
    have hw := (p3 p hpp).1
    have hl : cacheFind ([] : Cache α) (numbers p) = .ok none := by
      rcases cacheFind_cases comparable_linear (c := ([] : Cache α)) (fun _ _ => trivial) (key := numbers p) trivial with
        hh | ⟨q, _, hh⟩
      · exact hh.1
      · simp at hh
    simp only [Function.comp]
    rcases ht : traced f p ([], x) with ⟨q | e | _, y⟩
    · rw [memoCall_ok hw hl ht]
      simp only [traced, Prod.mk.injEq] at ht
      rw [← ht.2]; rfl
    · rw [memoCall_throw hw hl ht]
      simp only [traced, Prod.mk.injEq] at ht
      rw [← ht.2]; rfl
    · rw [memoCall_ub hw hl ht]
      simp only [traced, Prod.mk.injEq] at ht
      rw [← ht.2]; rfl
  exact ⟨key, key⟩

/-- C105: with two cores or more the caller's object is left as it was, whatever the functor. -/
theorem C105_caller_untouched [Zero α] {call : Serie α → Eff τ (Serie α)} {s : Serie α} {n : Nat} (hn : n ≠ 1)
    {dur : Nat → Nat} {obj obj' : τ} {r : Res (Serie α)} (hr : ParallelObject call s n dur obj r obj') : obj' = obj := by
  unfold ParallelObject at hr
  rw [if_neg hn] at hr
  exact hr.2

/-- C105 for a memoized map over the numbers of a scalar Serie: all the hypotheses above hold for it. -/
theorem C105_map_numbers [LinearOrder α] [Zero α] (g : α → α) {s : Serie α} (h : WF s) (h1 : s.itemSize = 1) (h0 : 0 < s.count)
    (ops : List (MemoOp α)) (ho : ∀ p ∈ calls ops, WF p ∧ p.itemSize = s.itemSize) (x : σ) {n : Nat} (hn : 0 < n)
    (dur : Nat → Nat) {r : Res (Serie α)} {obj' : Cache α × σ}
    (hr : ParallelObject (memoCall (fun p => Eff.lift (mapSS (pureCb (σ := Unit) fun x _ => g x) p ()).1)) s n dur
      (memoRun (fun p => Eff.lift (mapSS (pureCb (σ := Unit) fun x _ => g x) p ()).1) ops ([], x)).2 r obj') :
    r = .ok (ofScalars ((scalars s).map g)) := by
  have hmap : ∀ p : Serie α, WF p →
      (mapSS (pureCb (σ := Unit) fun x _ => g x) p ()).1 = .ok (ofScalars ((scalars p).map g)) := by
    intro p hp
    rw [mapSS_eq hp, callAll_pure, pure_bind, List.mapIdx_eq_zipIdx_map]
    show Res.ok _ = _
    rw [show (fun p : α × Nat => g p.1) = g ∘ Prod.fst from rfl, ← List.map_map, List.zipIdx_map_fst]
  have := (C105_same_result (f := fun p => (mapSS (pureCb (σ := Unit) fun x _ => g x) p ()).1) h h0
    (C24_map_numbers h h1 g) (hmap s h)
    (fun p q hp hq hk e hk2 => by
      have hq1 : p.itemSize = 1 := hk.trans h1
      show (mapSS _ p ()).1 = (mapSS _ q ()).1
      rw [hmap p hp, hmap q hq]
      rw [items_scalar hq1 hp.count_le, items_scalar (hk2.symm.trans hq1) hq.count_le] at e
      rw [List.map_injective_iff.2 (fun a b hab => by simpa using hab) e])
    (fun p hp _ => by show (mapSS _ p ()).1 ≠ _; rw [hmap p hp]; simp)
    (fun p r hp _ e => by
      change (mapSS _ p ()).1 = _ at e
      rw [hmap p hp] at e
      injection e with e
      rw [← e]; rfl)
    ops ho x hn dur).1 r obj' hr
  rw [this]; exact hmap s h

/-! ## The hypotheses can be met -/

theorem parallelObject_ends [Zero α] (call : Serie α → Eff τ (Serie α)) (s : Serie α) (n : Nat) (dur : Nat → Nat) (obj : τ) :
    ∃ r obj', ParallelObject call s n dur obj r obj' := by
  by_cases h1 : n = 1
  · exact ⟨(call s obj).1, (call s obj).2, by unfold ParallelObject; rw [if_pos h1]⟩
  suffices h : ∃ r, ParallelExecute (fun p => (call p obj).1) s n dur r by
    obtain ⟨r, h⟩ := h
    exact ⟨r, obj, by unfold ParallelObject; rw [if_neg h1]; exact ⟨h, rfl⟩⟩
  by_cases h0 : n < 1
  · exact ⟨_, by unfold ParallelExecute; rw [if_pos h0]⟩
  cases hp : partitionN n s with
  | ok parts =>
    obtain ⟨k, jobs, r, h⟩ := (C25_terminates (fun p => (call p obj).1) s parts dur).2.2
    exact ⟨r, by unfold ParallelExecute; rw [if_neg h0, if_neg h1, hp]; exact ⟨k, jobs, h⟩⟩
  | throw e => exact ⟨.throw e, by unfold ParallelExecute; rw [if_neg h0, if_neg h1, hp]⟩
  | ub => exact ⟨.ub, by unfold ParallelExecute; rw [if_neg h0, if_neg h1, hp]⟩

/-- The functor of the examples: add one to every number. -/
def exSucc (p : Serie Int) : Res (Serie Int) := (mapSS (pureCb (σ := Unit) fun x _ => x + 1) p ()).1

/-- Some calls made before. -/
def exOps : List (MemoOp Int) := [.call (ofScalars [1, 2]), .clear, .call (ofScalars [3])]

example : ∃ r obj', ParallelObject (memoCall (fun p => Eff.lift (exSucc p))) (ofScalars [1, 2, 3]) 2 (fun _ => 5)
    (memoRun (fun p => Eff.lift (exSucc p)) exOps ([], ())).2 r obj' ∧ r = .ok (ofScalars [2, 3, 4]) := by
  obtain ⟨r, obj', h⟩ := parallelObject_ends (memoCall (fun p => Eff.lift (exSucc p))) (ofScalars [1, 2, 3]) 2 (fun _ => 5)
    (memoRun (fun p => Eff.lift (exSucc p)) exOps ([], ())).2
  exact ⟨r, obj', h, C105_map_numbers (fun x => x + 1) (by decide) rfl (by decide) exOps (by decide) () (by decide) _ h⟩

example : ∃ obj', ParallelObject (memoCall (fun p => Eff.lift (exSucc p))) (ofScalars [1, 2, 3]) 2 (fun _ => 5)
    ([], ()) (exSucc (ofScalars [1, 2, 3])) obj' := by
  have h := C105_same_result (f := exSucc) (s := ofScalars [1, 2, 3]) (by decide) (by decide)
    (C24_map_numbers (by decide) rfl (fun x => x + 1)) (t := ofScalars [2, 3, 4]) (by decide)
    (fun p q hp hq hk hi hk' => by
      have := C24_map_numbers hp hk (fun x => x + 1)
      have hmap : ∀ p : Serie Int, WF p → exSucc p = .ok (ofScalars ((scalars p).map (· + 1))) := by
        intro p hp
        show (mapSS _ p ()).1 = _
        rw [mapSS_eq hp, callAll_pure, pure_bind, List.mapIdx_eq_zipIdx_map]
        show Res.ok _ = _
        rw [show (fun p : Int × Nat => p.1 + 1) = (· + 1) ∘ Prod.fst from rfl, ← List.map_map, List.zipIdx_map_fst]
      rw [items_scalar hk hp.count_le, items_scalar (hk'.symm.trans hk) hq.count_le] at hi
      rw [hmap p hp, hmap q hq, List.map_injective_iff.2 (fun a b hab => by simpa using hab) hi])
    (fun p hp _ => by show (mapSS _ p ()).1 ≠ _; rw [mapSS_eq hp, callAll_pure, pure_bind]; nofun)
    (fun p r hp _ e => by
      change (mapSS _ p ()).1 = _ at e
      rw [mapSS_eq hp, callAll_pure, pure_bind] at e
      change Res.ok _ = _ at e
      injection e with e
      rw [← e]; rfl)
    [] (by decide) () (n := 2) (by decide) (fun _ => 5)
  obtain ⟨r, obj', hr⟩ := h.2
  exact ⟨obj', (h.1 r obj' hr) ▸ hr⟩

example := C105_one_core_keeps (s := ofScalars [1, 2, 3]) (by decide) (dur := fun _ => 5) (dur' := fun _ => 5)
  (f := fun p => Eff.lift (exSucc p)) (obj := ([], ())) (r := ofScalars [2, 3, 4])
  (obj' := (memoCall (fun p => Eff.lift (exSucc p)) (ofScalars [1, 2, 3]) ([], ())).2) (by rfl)
  (fun _ => Eff.lift (.throw .runtimeError))

example : ∃ obj' : Cache Int × (List (Serie Int × Bool) × Unit),
    (jobObjects (memoCall (traced fun p => Eff.lift (exSucc p))) [ofScalars [1, 2], ofScalars [3]] obj').map
      (fun o => o.2.1.map (·.1)) = [[ofScalars [1, 2]], [ofScalars [3]]] := by
  obtain ⟨r, obj', h⟩ := parallelObject_ends (memoCall (traced fun p => Eff.lift (exSucc p))) (ofScalars [1, 2, 3]) 2
    (fun _ => 5) ([], ([], ()))
  exact ⟨obj', (C105_nothing_kept_violated _ (by decide) (by decide) (by decide +kernel) h).2⟩

example : ∃ r, ParallelObject (fun (p : Serie Int) => fun (n : Nat) => (exSucc p, n + 1)) ex41 3 (fun _ => 5) 0 r 0 := by
  obtain ⟨r, obj', h⟩ := parallelObject_ends (fun (p : Serie Int) => fun (n : Nat) => (exSucc p, n + 1)) ex41 3 (fun _ => 5) 0
  exact ⟨r, C105_caller_untouched (by decide) h ▸ h⟩

end DF
