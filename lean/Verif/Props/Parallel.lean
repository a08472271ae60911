import Verif.Lemmas.Parallel
import Verif.Props.Combine

/-!
# Properties of parallel_execute (C24, C25)

`ParallelExecute fct s n dur r`: some interleaving of `parallel_execute(fct, s, n)` ends with outcome `r`; `dur` says how
many steps each job takes (arbitrary). `ParReaches fct s parts dur k st`: after `k` steps of some interleaving the
process is in state `st`.
-/

namespace DF

open Spec

variable {α : Type}

/-- `f` works item by item on `s`: applied to the parts of any cutting of `s` and concatenated it gives `f s`, and it
returns as many items as it gets. -/
structure ItemWise [Zero α] (f : Serie α → Res (Serie α)) (s : Serie α) : Prop where
  cut : ∀ parts : List (Serie α), parts ≠ [] → (∀ p ∈ parts, WF p ∧ p.itemSize = s.itemSize ∧ 0 < p.count) →
    (parts.map items).flatten = items s → (parts.mapM f >>= concat) = f s
  count : ∀ p q : Serie α, WF p → 0 < p.count → f p = .ok q → q.count = p.count

/-- The outcome does not depend on the schedule: all interleavings, for any durations of the jobs, end alike. -/
theorem C25_deterministic [Zero α] (fct : Serie α → Res (Serie α)) (s : Serie α) (n : Nat) (dur dur' : Nat → Nat)
    (r r' : Res (Serie α)) (h : ParallelExecute fct s n dur r) (h' : ParallelExecute fct s n dur' r') : r = r' := by
  unfold ParallelExecute at h h'
  split at h
  · rename_i hn; rw [if_pos hn] at h'; rw [h, h']
  · rename_i hn
    rw [if_neg hn] at h'
    split at h
    · rename_i h1; rw [if_pos h1] at h'; rw [h, h']
    · rename_i h1
      rw [if_neg h1] at h'
      cases hp : partitionN n s with
      | throw e => rw [hp] at h h'; rw [h, h']
      | ub => rw [hp] at h h'; rw [h, h']
      | ok parts =>
        rw [hp] at h h'
        obtain ⟨k, jobs, hk⟩ := h
        obtain ⟨k', jobs', hk'⟩ := h'
        have key : ∀ {k jobs r dur}, ParReaches fct s parts dur k ⟨jobs, .ret r⟩ →
            r = Par.outcome (parts.map (parJob fct)) (parFinish s) := by
          intro k jobs r dur hk
          rcases (Par.Steps.inv hk).main with ⟨h1, h2⟩ | ⟨_, _, h3⟩
          · unfold Par.outcome
            rw [if_pos h2, h1]
          · exact h3
        rw [key hk, key hk']

theorem mapM_map_id {β γ : Type} (f : β → Res γ) (l : List β) : (l.map f).mapM id = l.mapM f := by
  induction l with
  | nil => rfl
  | cons p l ih => rw [List.map_cons, List.mapM_cons, List.mapM_cons, ih]; rfl

/-- C25: the outcome of `parallel_execute` with `nbCores ≥ 2` on parts whose jobs are free of undefined behaviour. -/
theorem par_outcome [Zero α] {fct : Serie α → Res (Serie α)} {s : Serie α} {n : Nat} {dur : Nat → Nat}
    {r : Res (Serie α)} {parts : List (Serie α)} (hn : 2 ≤ n) (hp : partitionN n s = .ok parts)
    (h : ParallelExecute fct s n dur r) (hub : ∀ p ∈ parts, fct p ≠ .ub) :
    r = (parts.mapM (parJob fct) >>= parFinish s) := by
  unfold ParallelExecute at h
  rw [if_neg (by omega), if_neg (by omega), hp] at h
  obtain ⟨k, jobs, hk⟩ := h
  have hnub : ¬ ∃ i : Nat, (parts.map (parJob fct))[i]? = some .ub := by
    rintro ⟨i, hi⟩
    rw [List.getElem?_map, Option.map_eq_some_iff] at hi
    obtain ⟨p, hp, hj⟩ := hi
    have := hub p (List.mem_of_getElem? hp)
    unfold parJob at hj
    cases hf : fct p with
    | ok q => rw [hf] at hj; simp only at hj; split at hj <;> cases hj
    | throw e => rw [hf] at hj; simp only at hj; split at hj <;> cases hj
    | ub => exact this hf
  have hr : r = Par.outcome (parts.map (parJob fct)) (parFinish s) := by
    rcases (Par.Steps.inv hk).main with ⟨_, h2⟩ | ⟨_, _, h3⟩
    · exact absurd h2 hnub
    · exact h3
  rw [hr]
  unfold Par.outcome
  rw [if_neg hnub]
  rw [mapM_map_id]

theorem mapM_throw {β γ : Type} {f : β → Res γ} : ∀ (l : List β) (k : Nat) (e : Err),
    (∀ i (hi : i < l.length), i < k → ∃ y, f l[i] = .ok y) → (∃ h : k < l.length, f l[k] = .throw e) →
    l.mapM f = .throw e := by
  intro l
  induction l with
  | nil => rintro k e _ ⟨h, _⟩; simp at h
  | cons a l ih =>
    rintro k e h1 ⟨hk, h2⟩
    rw [List.mapM_cons]
    cases k with
    | zero => simp only [List.getElem_cons_zero] at h2; rw [h2]; rfl
    | succ k =>
      obtain ⟨y, hy⟩ := h1 0 (by simp) (by omega)
      simp only [List.getElem_cons_zero] at hy
      rw [hy, Res.ok_bind, ih k e (fun i hi hik => by
        have := h1 (i + 1) (by simpa using hi) (by omega)
        simpa using this) ⟨by simpa using hk, by simpa using h2⟩]
      rfl

/-- C25: when the jobs before part `k` succeed and part `k` throws or returns a wrong count, `parallel_execute` throws
`invalid_argument` (a thrown object not derived from `std::exception` passes through), under every schedule. -/
theorem C25_first_failure [Zero α] {fct : Serie α → Res (Serie α)} {s : Serie α} {n : Nat} {dur : Nat → Nat}
    {r : Res (Serie α)} {parts : List (Serie α)} (hn : 2 ≤ n) (hp : partitionN n s = .ok parts)
    (h : ParallelExecute fct s n dur r) (hub : ∀ p ∈ parts, fct p ≠ .ub) {k : Nat} (hk : k < parts.length)
    (hbefore : ∀ i (hi : i < parts.length), i < k → ∃ q, fct parts[i] = .ok q ∧ q.count = parts[i].count) :
    (∀ e, StdError e → fct parts[k] = .throw e → r = .throw .invalidArgument) ∧
    (∀ m, fct parts[k] = .throw (.nonStd m) → r = .throw (.nonStd m)) ∧
    (∀ q, fct parts[k] = .ok q → q.count ≠ parts[k].count → r = .throw .invalidArgument) := by
  have hr := par_outcome hn hp h hub
  have hb : ∀ i (hi : i < parts.length), i < k → ∃ y, parJob fct parts[i] = .ok y := by
    intro i hi hik
    obtain ⟨q, h1, h2⟩ := hbefore i hi hik
    exact ⟨q, by simp [parJob, h1, h2]⟩
  refine ⟨?_, ?_, ?_⟩
  · intro e hn he
    rw [hr, mapM_throw parts k .invalidArgument hb ⟨hk, by
      cases e <;> first | exact absurd rfl (hn _) | simp [parJob, he, Err.isStd]⟩]
    rfl
  · intro m he
    rw [hr, mapM_throw parts k (.nonStd m) hb ⟨hk, by simp [parJob, he, Err.isStd]⟩]
    rfl
  · intro q hq hc
    rw [hr, mapM_throw parts k .invalidArgument hb ⟨hk, by simp [parJob, hq, hc]⟩]
    rfl

/-- C25: there is no infinite execution, and no reachable state is stuck before the call has returned or thrown;
hence every execution ends, and at least one does. -/
theorem C25_terminates [Zero α] (fct : Serie α → Res (Serie α)) (s : Serie α) (parts : List (Serie α))
    (dur : Nat → Nat) :
    (∃ bound, ∀ k st, ParReaches fct s parts dur k st → k ≤ bound) ∧
    (∀ k st, ParReaches fct s parts dur k st → (∀ r, st.main ≠ .ret r) →
      ∃ st', Par.Step (parts.map (parJob fct)) dur (parFinish s) st st') ∧
    (∃ k jobs r, ParReaches fct s parts dur k ⟨jobs, .ret r⟩) := by
  refine ⟨⟨Par.measure (parts.map (parJob fct)) dur (Par.init : Par.State (Serie α) (Serie α)), ?_⟩, ?_, ?_⟩
  · intro k st h
    have := (Par.Steps.bound h Par.Inv.init).1
    omega
  · intro k st h hr
    exact Par.progress (Par.Steps.inv h) hr
  · exact Par.reaches_ret _ _ 0 (Nat.le_refl _) Par.Inv.init (.refl _)

/-- A functor that rejects Series containing a number above 8, and some execution of it on `5, 7, 9, 11` with three cores. -/
def exReject (s : Serie Int) : Res (Serie Int) := if ∃ x ∈ s.data, 8 < x then .throw .runtimeError else .ok s

theorem exReject_runs : ∃ k jobs r, ParReaches exReject ex41 [⟨[5, 7], 2, 1, 3⟩, ⟨[9], 1, 1, 3⟩, ⟨[11], 1, 1, 3⟩] (fun _ => 5) k
    ⟨jobs, .ret r⟩ :=
  (C25_terminates _ _ _ _).2.2

theorem exReject_executes : ∃ r, ParallelExecute exReject ex41 3 (fun _ => 5) r := by
  obtain ⟨k, jobs, r, h⟩ := exReject_runs
  exact ⟨r, k, jobs, h⟩

example : ∃ r, ParallelExecute exReject ex41 3 (fun _ => 5) r ∧ r = .throw .invalidArgument := by
  obtain ⟨r, h⟩ := exReject_executes
  refine ⟨r, h, (C25_first_failure (by decide) (by rfl) h (by decide) (k := 1) (by decide) ?_).1 .runtimeError (by intro m h; cases h) (by rfl)⟩
  intro i _ hi
  obtain rfl : i = 0 := by omega
  exact ⟨_, by rfl, rfl⟩

example : ∃ r, ParallelExecute exReject ex41 3 (fun _ => 5) r ∧ ∀ r', ParallelExecute exReject ex41 3 (fun i => 7 * i) r' → r' = r :=
  exReject_executes.elim fun r h => ⟨r, h, fun r' h' => C25_deterministic exReject ex41 3 _ _ r' r h' h⟩

/-- C25: when the call has returned or thrown, every job has been launched and has finished. -/
theorem C25_no_job_left [Zero α] {fct : Serie α → Res (Serie α)} {s : Serie α} {parts : List (Serie α)}
    {dur : Nat → Nat} {k : Nat} {jobs : List (Par.Job (Serie α))} {r : Res (Serie α)} (hub : ∀ p ∈ parts, fct p ≠ .ub)
    (h : ParReaches fct s parts dur k ⟨jobs, .ret r⟩) :
    jobs.length = parts.length ∧ ∀ j ∈ jobs, ∃ o, j = .done o := by
  rcases (Par.Steps.inv h).main with ⟨_, i, h2⟩ | ⟨h1, h2, _⟩
  · exfalso
    rw [List.getElem?_map, Option.map_eq_some_iff] at h2
    obtain ⟨p, hp, hj⟩ := h2
    have := hub p (List.mem_of_getElem? hp)
    unfold parJob at hj
    cases hf : fct p with
    | ok q => rw [hf] at hj; simp only at hj; split at hj <;> cases hj
    | throw e => rw [hf] at hj; simp only at hj; split at hj <;> cases hj
    | ub => exact this hf
  · simp only [List.length_map] at h1 h2
    refine ⟨h1, ?_⟩
    intro j hj
    obtain ⟨i, hi, rfl⟩ := List.getElem_of_mem hj
    obtain ⟨o, ho⟩ := h2 i (by omega)
    exact ⟨o, by rw [List.getElem?_eq_getElem hi] at ho; simpa using ho⟩

example : ∃ k jobs r, ParReaches exReject ex41 [⟨[5, 7], 2, 1, 3⟩, ⟨[9], 1, 1, 3⟩, ⟨[11], 1, 1, 3⟩] (fun _ => 5) k
    ⟨jobs, .ret r⟩ ∧ jobs.length = 3 := by
  obtain ⟨k, jobs, r, h⟩ := exReject_runs
  exact ⟨k, jobs, r, h, (C25_no_job_left (by decide) h).1⟩

/-- C25: zero cores are refused. -/
theorem C25_zero_cores [Zero α] (fct : Serie α → Res (Serie α)) (s : Serie α) (dur : Nat → Nat) (r : Res (Serie α))
    (h : ParallelExecute fct s 0 dur r) : r = .throw .invalidArgument := h

example := C25_zero_cores exReject ex41 (fun _ => 5) _ rfl

/-! ## C24 -/

/-- C24: for an item-wise functor, every schedule of `parallel_execute(f, s, n)` gives `f(s)`; some schedule ends. -/
theorem C24_parallel_is_sequential [Zero α] {f : Serie α → Res (Serie α)} {s t : Serie α} (h : WF s)
    (h0 : 0 < s.count) (hf : ItemWise f s) (ht : f s = .ok t) {n : Nat} (hn : 0 < n) (dur : Nat → Nat) :
    (∀ r, ParallelExecute f s n dur r → r = f s) ∧ ∃ r, ParallelExecute f s n dur r := by
  by_cases h1 : n = 1
  · subst h1
    exact ⟨fun r hr => hr, f s, rfl⟩
  obtain ⟨parts, p1, p2, p3, p4, p5, _⟩ := C23_partition h hn
  have hne : parts ≠ [] := by
    intro he; subst he; simp at p2; omega
  have hpos : ∀ p ∈ parts, 0 < p.count := by
    intro p hp
    obtain ⟨i, hi, rfl⟩ := List.getElem_of_mem hp
    rw [p5 i hi]
    by_cases hc : n ≤ s.count
    · have := Nat.div_pos hc hn; omega
    · rw [if_pos (by rw [Nat.mod_eq_of_lt (by omega)]; omega)]
      exact Nat.succ_pos _
  have hcut := hf.cut parts hne (fun p hp => ⟨(p3 p hp).1, (p3 p hp).2, hpos p hp⟩) p4
  constructor
  · intro r hr
    rw [ht] at hcut
    cases hm : parts.mapM f with
    | throw e => rw [hm] at hcut; cases hcut
    | ub => rw [hm] at hcut; cases hcut
    | ok rs =>
      rw [hm, Res.ok_bind] at hcut
      -- each part succeeds with as many items
      have hall : ∀ (l : List (Serie α)) (rs : List (Serie α)), (∀ p ∈ l, p ∈ parts) → l.mapM f = .ok rs →
          l.mapM (parJob f) = .ok rs ∧ (rs.map (·.count)) = (l.map (·.count)) ∧ ∀ p ∈ l, f p ≠ .ub := by
        intro l
        induction l with
        | nil =>
          intro rs _ h
          cases h
          exact ⟨rfl, rfl, by simp⟩
        | cons p l ih =>
          intro rs hl h
          rw [List.mapM_cons] at h
          cases hfp : f p with
          | throw e => rw [hfp] at h; cases h
          | ub => rw [hfp] at h; cases h
          | ok q =>
            rw [hfp, Res.ok_bind] at h
            cases hfl : l.mapM f with
            | throw e => rw [hfl] at h; cases h
            | ub => rw [hfl] at h; cases h
            | ok qs =>
              rw [hfl] at h
              cases h
              obtain ⟨a, b, c⟩ := ih qs (fun p hp => hl p (by simp [hp])) hfl
              have hpp := hl p (by simp)
              have hc := hf.count p q (p3 p hpp).1 (hpos p hpp) hfp
              refine ⟨?_, by simp [b, hc], ?_⟩
              · rw [List.mapM_cons, a]
                simp [parJob, hfp, hc]
              · intro p' hp'
                rcases List.mem_cons.1 hp' with rfl | hp'
                · rw [hfp]; simp
                · exact c p' hp'
      obtain ⟨a, b, c⟩ := hall parts rs (fun p hp => hp) hm
      rw [par_outcome (by omega) p1 hr c, a, Res.ok_bind, ht, ← hcut]
      unfold parFinish
      rw [if_neg]
      rw [b, ← flatten_items_length, p4]; simp
  · obtain ⟨k, jobs, r, hk⟩ := (C25_terminates f s parts dur).2.2
    refine ⟨r, ?_⟩
    unfold ParallelExecute
    rw [if_neg (by omega), if_neg h1, p1]
    exact ⟨k, jobs, hk⟩

theorem le_sum_of_mem {x : Nat} {l : List Nat} (h : x ∈ l) : x ≤ l.sum := by
  induction l with
  | nil => simp at h
  | cons a l ih =>
    rw [List.sum_cons]
    rcases List.mem_cons.1 h with rfl | h
    · omega
    · have := ih h; omega

theorem flatten_singletons : ∀ l : List α, (l.map (fun x => [x])).flatten = l := by
  intro l; induction l <;> simp_all

theorem items_ofScalars (xs : List α) (d : Nat) : items (ofScalars xs d) = xs.map (fun x => [x]) := by
  rw [items_scalar (s := ofScalars xs d) rfl (Nat.le_refl _)]; simp

theorem scalars_parts {s : Serie α} (h : WF s) (h1 : s.itemSize = 1) {parts : List (Serie α)}
    (hp : ∀ p ∈ parts, WF p ∧ p.itemSize = s.itemSize) (hfl : (parts.map items).flatten = items s) :
    (parts.map scalars).flatten = scalars s := by
  have hi : ∀ p ∈ parts, items p = (scalars p).map (fun x => [x]) := fun p hpp =>
    items_scalar (by rw [(hp p hpp).2, h1]) (hp p hpp).1.count_le
  have e1 : parts.map items = (parts.map scalars).map (fun l => l.map (fun x => [x])) := by
    rw [List.map_map]; exact List.map_congr_left hi
  rw [e1, items_scalar h1 h.count_le, ← List.map_flatten] at hfl
  have := congrArg List.flatten hfl
  rwa [flatten_singletons, flatten_singletons] at this

/-- C24: mapping a function over the numbers of a scalar Serie is item-wise, so `parallel_execute` may be used for it. -/
theorem C24_map_numbers [Zero α] {s : Serie α} (h : WF s) (h1 : s.itemSize = 1) (g : α → α) :
    ItemWise (fun s => (mapSS (pureCb (σ := Unit) fun x _ => g x) s ()).1) s := by
  have hmap : ∀ p : Serie α, WF p →
      (mapSS (pureCb (σ := Unit) fun x _ => g x) p ()).1 = .ok (ofScalars ((scalars p).map g)) := by
    intro p hp
    rw [mapSS_eq hp, callAll_pure, pure_bind, List.mapIdx_eq_zipIdx_map]
    show Res.ok _ = _
    rw [show (fun p : α × Nat => g p.1) = g ∘ Prod.fst from rfl, ← List.map_map, List.zipIdx_map_fst]
  refine ⟨?_, ?_⟩
  · intro parts hne hp hfl
    have hm : parts.mapM (fun s => (mapSS (pureCb (σ := Unit) fun x _ => g x) s ()).1) =
        .ok (parts.map (fun p => ofScalars ((scalars p).map g))) :=
      mapM_ok parts (fun p hpp => hmap p (hp p hpp).1)
    have hcount : (parts.map (·.count)).sum = s.count := by
      rw [← flatten_items_length, hfl]; simp
    have hsc := scalars_parts h h1 (fun p hpp => ⟨(hp p hpp).1, (hp p hpp).2.1⟩) hfl
    rw [hm, Res.ok_bind, hmap s h, concat_eq (k := 1) (by simpa using hne)]
    · congr 1
      rw [← hsc, List.map_map]
      have e4 : (parts.map (items ∘ fun p => ofScalars ((scalars p).map g))).flatten =
          ((parts.map scalars).flatten.map g).map (fun x => [x]) := by
        rw [List.map_flatten, List.map_flatten, List.map_map, List.map_map]
        congr 1
        apply List.map_congr_left
        intro p _
        simp [items_ofScalars]
      rw [e4]
      simp only [ofItems, ofScalars, flatten_singletons, List.length_map]
    · intro q hq
      obtain ⟨p, hpp, rfl⟩ := List.mem_map.1 hq
      refine ⟨WF_ofScalars ?_, rfl⟩
      have := (hp p hpp).1
      rw [List.length_map, this.scalars_length]; exact this.count_lt
    · rw [List.map_map]
      have : parts.map ((fun x : Serie α => x.count) ∘ fun p => ofScalars ((scalars p).map g)) =
          parts.map (·.count) := by
        apply List.map_congr_left
        intro p hpp
        simp [ofScalars, (hp p hpp).1.scalars_length]
      rw [this, hcount, Nat.mul_one]
      exact h.count_lt
  · intro p q hp _ hq
    simp only [hmap p hp] at hq
    cases hq
    simp [ofScalars, hp.scalars_length]

/-- C24: mapping a function from arrays to arrays of a fixed size `k` is item-wise. -/
theorem C24_map_arrays [Zero α] {s : Serie α} (h : WF s) (h0 : 0 < s.count) {k : Nat} (hk : 0 < k) (hk' : k < 2 ^ 31)
    (hfit : s.count * k < 2 ^ 32) (g : List α → List α) (hg : ∀ v, (g v).length = k) :
    ItemWise (fun s => (mapVV (pureCb (σ := Unit) fun v _ => g v) s ()).1) s := by
  have hmap : ∀ p : Serie α, WF p → 0 < p.count →
      (mapVV (pureCb (σ := Unit) fun v _ => g v) p ()).1 = .ok (ofItems k ((items p).map g)) := by
    intro p hp hp0
    rw [mapVV_eq hp, sizedMap_pure (f := fun v _ => g v) (by
      intro he
      have := items_length p
      rw [he] at this; simp at this; omega) hk hk' (fun v _ _ => hg v) (by rw [items_length]; exact hp.count_lt)]
    show Res.ok _ = _
    rw [List.mapIdx_eq_zipIdx_map, show (fun p : List α × Nat => g p.1) = g ∘ Prod.fst from rfl, ← List.map_map,
      List.zipIdx_map_fst]
  have hl : ∀ p : Serie α, ∀ v ∈ (items p).map g, v.length = k := by
    intro p v hv
    obtain ⟨w, _, rfl⟩ := List.mem_map.1 hv
    exact hg w
  refine ⟨?_, ?_⟩
  · intro parts hne hp hfl
    have hm : parts.mapM (fun s => (mapVV (pureCb (σ := Unit) fun v _ => g v) s ()).1) =
        .ok (parts.map (fun p => ofItems k ((items p).map g))) :=
      mapM_ok parts (fun p hpp => hmap p (hp p hpp).1 (hp p hpp).2.2)
    have hcount : (parts.map (·.count)).sum = s.count := by
      rw [← flatten_items_length, hfl]; simp
    rw [hm, Res.ok_bind, hmap s h h0, concat_eq (k := k) (by simpa using hne)]
    · congr 2
      rw [← hfl, List.map_map, List.map_flatten, List.map_map]
      congr 1
      apply List.map_congr_left
      intro p _
      simp only [Function.comp]
      exact items_ofItems (hl p)
    · intro q hq
      obtain ⟨p, hpp, rfl⟩ := List.mem_map.1 hq
      refine ⟨WF_ofItems hk hk' (hl p) ?_, rfl⟩
      rw [List.length_map, items_length]
      refine Nat.lt_of_le_of_lt (Nat.mul_le_mul_right _ ?_) hfit
      rw [← hcount]
      exact le_sum_of_mem (List.mem_map.2 ⟨p, hpp, rfl⟩)
    · rw [List.map_map]
      have : parts.map ((fun x : Serie α => x.count) ∘ fun p => ofItems k ((items p).map g)) =
          parts.map (·.count) := by
        apply List.map_congr_left
        intro p hpp
        simp [ofItems]
      rw [this, hcount]
      exact hfit
  · intro p q hp hp0 hq
    simp only [hmap p hp hp0] at hq
    cases hq
    simp [ofItems]

example := C24_map_arrays exTail_WF (by decide) (k := 2) (by decide) (by decide) (by decide)
  (fun v => [v.sum, v.headD 0]) (fun _ => rfl)

example : ∃ r, ParallelExecute (fun s => (mapSS (pureCb (σ := Unit) fun x _ => x + 1) s ()).1) ex41 3 (fun _ => 5) r ∧
    r = .ok ⟨[6, 8, 10, 12], 4, 1, 3⟩ := by
  have := C24_parallel_is_sequential (n := 3) ex41_WF (by decide) (C24_map_numbers ex41_WF rfl (fun x => x + 1))
    (t := ⟨[6, 8, 10, 12], 4, 1, 3⟩) (by rfl) (by omega) (fun _ => 5)
  obtain ⟨r, hr⟩ := this.2
  exact ⟨r, hr, this.1 r hr⟩

end DF
