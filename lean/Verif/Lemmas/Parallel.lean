import Verif.Model.Parallel
import Verif.Lemmas.Combine

/-! # Invariants of the parallel_execute transition system -/

namespace DF.Par

variable {β γ : Type} {outs : List (Res β)} {dur : Nat → Nat} {finish : List β → Res γ}

/-- What the calling thread must end with: undefined behaviour if a job has it, else the exception of the first failing
job, else the result of `finish`. -/
noncomputable def outcome (outs : List (Res β)) (finish : List β → Res γ) : Res γ :=
  open Classical in if (∃ i : Nat, outs[i]? = some .ub) then .ub else (outs.mapM id >>= finish)

/-- Invariant of all reachable states. -/
structure Inv (outs : List (Res β)) (finish : List β → Res γ) (s : State β γ) : Prop where
  le : s.jobs.length ≤ outs.length
  stored : ∀ (i : Nat) (r : Res β), s.jobs[i]? = some (.done r) → outs[i]? = some r ∧ r ≠ .ub
  main : match s.main with
    | .launch => True
    | .collect rs => s.jobs.length = outs.length ∧ rs.length ≤ outs.length ∧
        (∀ (i : Nat) (h : i < rs.length), s.jobs[i]? = some (.done (.ok rs[i])))
    | .unwind e next => s.jobs.length = outs.length ∧ next ≤ outs.length ∧
        (∃ (k : Nat) (rs : List β), rs.length = k ∧ k < next ∧ (∀ (i : Nat) (h : i < rs.length), s.jobs[i]? = some (.done (.ok rs[i]))) ∧
          s.jobs[k]? = some (.done (.throw e))) ∧ (∀ i : Nat, i < next → ∃ r, s.jobs[i]? = some (.done r))
    | .ret r => (r = .ub ∧ ∃ i : Nat, outs[i]? = some .ub) ∨
        (s.jobs.length = outs.length ∧ (∀ i : Nat, i < outs.length → ∃ r, s.jobs[i]? = some (.done r)) ∧
          r = outcome outs finish)

theorem mapM_id_ok : ∀ (outs : List (Res β)) (rs : List β), rs.length = outs.length →
    (∀ (i : Nat) (h : i < rs.length), outs[i]? = some (.ok rs[i])) → outs.mapM id = .ok rs := by
  intro outs
  induction outs with
  | nil => intro rs h _; simp at h; subst h; rfl
  | cons o outs ih =>
    intro rs h h2
    cases rs with
    | nil => simp at h
    | cons r rs =>
      have h0 := h2 0 (by simp)
      simp at h0
      subst h0
      rw [List.mapM_cons]
      simp only [id, Res.ok_bind]
      rw [ih rs (by simpa using h) (fun i hi => by
        have := h2 (i + 1) (by simpa using hi)
        simpa using this)]
      rfl

theorem mapM_id_throw : ∀ (outs : List (Res β)) (rs : List β) (e : Err),
    (∀ (i : Nat) (h : i < rs.length), outs[i]? = some (.ok rs[i])) → outs[rs.length]? = some (.throw e) →
    outs.mapM id = .throw e := by
  intro outs
  induction outs with
  | nil => intro rs e _ h; simp at h
  | cons o outs ih =>
    intro rs e h2 h
    cases rs with
    | nil => simp at h; subst h; rfl
    | cons r rs =>
      have h0 := h2 0 (by simp)
      simp at h0
      subst h0
      rw [List.mapM_cons]
      simp only [id, Res.ok_bind]
      rw [ih rs e (fun i hi => by
        have := h2 (i + 1) (by simpa using hi)
        simpa using this) (by simpa using h)]
      rfl

theorem set_done_mono {jobs : List (Job β)} {i : Nat} {n : Nat} {j : Job β} (h : jobs[i]? = some (.running n))
    {k : Nat} {r : Res β} (hk : jobs[k]? = some (.done r)) : (jobs.set i j)[k]? = some (.done r) := by
  rw [List.getElem?_set]
  split
  · rename_i he; subst he; rw [h] at hk; simp at hk
  · exact hk

/-- The main part of the invariant only speaks of stored outcomes, so it survives worker steps. -/
theorem Inv.worker {jobs : List (Job β)} {main : Main β γ} (h : Inv outs finish ⟨jobs, main⟩) {i n : Nat} {j : Job β}
    (hm : ∀ r, main ≠ .ret r)
    (hi : jobs[i]? = some (.running n)) (hj : ∀ r, j = .done r → outs[i]? = some r ∧ r ≠ .ub) :
    Inv outs finish ⟨jobs.set i j, main⟩ := by
  have hmono : ∀ (k : Nat) (r : Res β), jobs[k]? = some (.done r) → (jobs.set i j)[k]? = some (.done r) :=
    fun k r hk => set_done_mono hi hk
  refine ⟨by simpa using h.le, ?_, ?_⟩
  · intro k r hk
    simp only at hk
    rw [List.getElem?_set] at hk
    split at hk
    · rename_i he
      subst he
      split at hk
      · simp at hk; exact hj r hk
      · simp at hk
    · exact h.stored k r hk
  · have hh := h.main
    cases main with
    | launch => trivial
    | collect rs =>
      simp only at hh ⊢
      obtain ⟨a, b, c⟩ := hh
      exact ⟨by simpa using a, b, fun k hk => hmono k _ (c k hk)⟩
    | unwind e next =>
      simp only at hh ⊢
      obtain ⟨a, b, ⟨k, rs, c1, c2, c3, c4⟩, d⟩ := hh
      exact ⟨by simpa using a, b, ⟨k, rs, c1, c2, fun i hi => hmono i _ (c3 i hi), hmono k _ c4⟩,
        fun i hi => by obtain ⟨r, hr⟩ := d i hi; exact ⟨r, hmono i r hr⟩⟩
    | ret r => exact absurd rfl (hm r)

theorem no_ub {jobs : List (Job β)} {main : Main β γ} (h : Inv outs finish ⟨jobs, main⟩)
    (hall : ∀ i : Nat, i < outs.length → ∃ r, jobs[i]? = some (.done r)) : ¬ ∃ i : Nat, outs[i]? = some .ub := by
  rintro ⟨i, hi⟩
  have hlt : i < outs.length := by
    rw [List.getElem?_eq_some_iff] at hi
    exact hi.1
  obtain ⟨r, hr⟩ := hall i hlt
  obtain ⟨a, b⟩ := h.stored i r hr
  rw [hi] at a
  exact b (by simpa using a.symm)

theorem Inv.step {s t : State β γ} (h : Inv outs finish s) (hs : Step outs dur finish s t) : Inv outs finish t := by
  cases hs with
  | @launch jobs hl =>
    refine ⟨by simp; omega, ?_, trivial⟩
    intro i r hi
    simp only [List.getElem?_append] at hi
    split at hi
    · exact h.stored i r hi
    · rw [List.getElem?_singleton] at hi
      split at hi <;> simp at hi
  | @launched jobs hl => exact ⟨h.le, h.stored, hl, by simp, by simp⟩
  | @work jobs main i n hm hi => exact h.worker hm hi (by intro r hr; cases hr)
  | @store jobs main i o hm hi ho hub =>
    exact h.worker hm hi (by intro r hr; cases hr; exact ⟨ho, hub⟩)
  | @bad jobs main i hm hi ho => exact ⟨h.le, h.stored, Or.inl ⟨rfl, i, ho⟩⟩
  | @get jobs rs b hg =>
    obtain ⟨a, b', c⟩ := h.main
    have hlt : rs.length < outs.length := by
      have : rs.length < jobs.length := by
        rw [List.getElem?_eq_some_iff] at hg; exact hg.1
      have hle := h.le
      simp only at hle; omega
    refine ⟨h.le, h.stored, a, by simp; omega, ?_⟩
    intro i hi
    simp only [List.length_append, List.length_singleton] at hi
    by_cases he : i < rs.length
    · rw [List.getElem_append_left he]; exact c i he
    · have : i = rs.length := by omega
      subst this
      rw [hg]; simp
  | @getThrow jobs rs e hg =>
    obtain ⟨a, b', c⟩ := h.main
    have hlt : rs.length < outs.length := by
      have : rs.length < jobs.length := by
        rw [List.getElem?_eq_some_iff] at hg; exact hg.1
      have hle := h.le
      simp only at hle; omega
    refine ⟨h.le, h.stored, a, by omega, ⟨rs.length, rs, rfl, by omega, c, hg⟩, ?_⟩
    intro i hi
    by_cases he : i < rs.length
    · exact ⟨_, c i he⟩
    · have : i = rs.length := by omega
      subst this
      exact ⟨_, hg⟩
  | @finish jobs rs hl =>
    obtain ⟨a, b, c⟩ := h.main
    have hall : ∀ i : Nat, i < outs.length → ∃ r, jobs[i]? = some (.done r) :=
      fun i hi => ⟨_, c i (by omega)⟩
    refine ⟨h.le, h.stored, Or.inr ⟨a, hall, ?_⟩⟩
    unfold outcome
    rw [if_neg (no_ub h hall), mapM_id_ok outs rs hl (fun i hi => (h.stored i _ (c i hi)).1)]
    rfl
  | @join jobs e next r hg =>
    obtain ⟨a, b, ⟨k, rs, c1, c2, c3, c4⟩, d⟩ := h.main
    have hlt : next < jobs.length := by
      rw [List.getElem?_eq_some_iff] at hg; exact hg.1
    have hle := h.le
    simp only at hle
    refine ⟨h.le, h.stored, a, by omega, ⟨k, rs, c1, by omega, c3, c4⟩, ?_⟩
    intro i hi
    by_cases he : i < next
    · exact d i he
    · have : i = next := by omega
      subst this; exact ⟨_, hg⟩
  | @rethrow jobs e next hn =>
    obtain ⟨a, b, ⟨k, rs, c1, c2, c3, c4⟩, d⟩ := h.main
    subst hn
    refine ⟨h.le, h.stored, Or.inr ⟨a, d, ?_⟩⟩
    unfold outcome
    subst c1
    rw [if_neg (no_ub h d), mapM_id_throw outs rs e (fun i hi => (h.stored i _ (c3 i hi)).1) (h.stored _ _ c4).1]
    rfl

theorem Inv.init : Inv outs finish (init : State β γ) := ⟨by simp [Par.init], by simp [Par.init], trivial⟩

theorem Steps.inv {n : Nat} {s : State β γ} (h : Steps outs dur finish n init s) : Inv outs finish s := by
  generalize hi : (Par.init : State β γ) = a at h
  induction h with
  | refl => subst hi; exact Inv.init
  | step _ h' ih => exact (ih hi).step h'

/-! ## Progress -/

theorem progress {s : State β γ} (h : Inv outs finish s) (hm : ∀ r, s.main ≠ .ret r) :
    ∃ t, Step outs dur finish s t := by
  obtain ⟨jobs, main⟩ := s
  simp only at hm
  -- a job that is not done can work
  have hrun : ∀ i n : Nat, jobs[i]? = some (.running n) → ∃ t, Step outs dur finish ⟨jobs, main⟩ t := by
    intro i n hi
    have hlt : i < outs.length := by
      have : i < jobs.length := by rw [List.getElem?_eq_some_iff] at hi; exact hi.1
      have := h.le
      simp only at this; omega
    cases n with
    | succ n => exact ⟨_, .work hm hi⟩
    | zero =>
      by_cases hub : outs[i] = .ub
      · exact ⟨_, .bad hm hi (by rw [List.getElem?_eq_getElem hlt, hub])⟩
      · exact ⟨_, .store hm hi (List.getElem?_eq_getElem hlt) hub⟩
  have hle := h.le
  simp only at hle
  cases main with
  | launch =>
    by_cases hl : jobs.length < outs.length
    · exact ⟨_, .launch hl⟩
    · exact ⟨_, .launched (by omega)⟩
  | collect rs =>
    obtain ⟨a, b, c⟩ := h.main
    by_cases hl : rs.length = outs.length
    · exact ⟨_, .finish hl⟩
    · have hlt : rs.length < jobs.length := by simp only at a; omega
      have hg := List.getElem?_eq_getElem hlt
      cases hj : jobs[rs.length] with
      | running n => exact hrun _ n (by rw [hg, hj])
      | done r =>
        rw [hj] at hg
        cases r with
        | ok b => exact ⟨_, .get hg⟩
        | throw e => exact ⟨_, .getThrow hg⟩
        | ub => exact absurd rfl (h.stored _ _ hg).2
  | unwind e next =>
    obtain ⟨a, b, _, _⟩ := h.main
    by_cases hl : next = outs.length
    · exact ⟨_, .rethrow hl⟩
    · have hlt : next < jobs.length := by simp only at a; omega
      have hg := List.getElem?_eq_getElem hlt
      cases hj : jobs[next] with
      | running n => exact hrun _ n (by rw [hg, hj])
      | done r => rw [hj] at hg; exact ⟨_, .join hg⟩
  | ret r => exact absurd rfl (hm r)

/-! ## Termination -/

/-- Steps left in a job. -/
def Job.left : Job β → Nat
  | .running n => n + 1
  | .done _ => 0

/-- Steps that can still be made. -/
def measure (outs : List (Res β)) (dur : Nat → Nat) (s : State β γ) : Nat :=
  match s.main with
  | .ret _ => 0
  | .launch => (s.jobs.map Job.left).sum + 2 * outs.length + 3 +
      ((List.range' s.jobs.length (outs.length - s.jobs.length)).map (fun i => dur i + 2)).sum
  | .collect rs => (s.jobs.map Job.left).sum + 2 * (outs.length - rs.length) + 2
  | .unwind _ next => (s.jobs.map Job.left).sum + (outs.length - next) + 1

theorem sum_set_lt : ∀ (jobs : List (Job β)) (i : Nat) (a b : Job β), jobs[i]? = some a → b.left < a.left →
    ((jobs.set i b).map Job.left).sum < (jobs.map Job.left).sum := by
  intro jobs
  induction jobs with
  | nil => intro i a b h; simp at h
  | cons j jobs ih =>
    intro i a b h hlt
    cases i with
    | zero => simp at h; subst h; simp; omega
    | succ i =>
      have := ih i a b (by simpa using h) hlt
      simp only [List.set_cons_succ, List.map_cons, List.sum_cons]; omega

theorem measure_lt {s t : State β γ} (h : Inv outs finish s) (hs : Step outs dur finish s t) :
    measure outs dur t < measure outs dur s := by
  have key : ∀ {jobs : List (Job β)} {main : Main β γ} {i n : Nat} {j : Job β}, (∀ r, main ≠ .ret r) →
      jobs[i]? = some (.running n) → j.left < n + 1 →
      measure outs dur (⟨jobs.set i j, main⟩ : State β γ) < measure outs dur ⟨jobs, main⟩ := by
    intro jobs main i n j hm hi hj
    have := sum_set_lt jobs i (.running n) j hi hj
    cases main with
    | ret r => exact absurd rfl (hm r)
    | launch => simp only [measure, List.length_set]; omega
    | collect rs => simp only [measure]; omega
    | unwind e next => simp only [measure]; omega
  cases hs with
  | @launch jobs hl =>
    simp only [measure, List.map_append, List.sum_append, List.map_cons, List.map_nil, List.sum_cons, List.sum_nil,
      List.length_append, List.length_cons, List.length_nil, Job.left]
    rw [show outs.length - jobs.length = (outs.length - (jobs.length + 1)) + 1 by omega, List.range'_succ]
    simp only [List.map_cons, List.sum_cons, Nat.zero_add]
    omega
  | @launched jobs hl => simp only [measure, List.length_nil]; omega
  | @work jobs main i n hm hi => exact key hm hi (by simp [Job.left])
  | @store jobs main i o hm hi ho hub => exact key hm hi (by simp [Job.left])
  | @bad jobs main i hm hi ho =>
    cases main with
    | ret r => exact absurd rfl (hm r)
    | launch => simp only [measure]; omega
    | collect rs => simp only [measure]; omega
    | unwind e next => simp only [measure]; omega
  | @get jobs rs b hg =>
    obtain ⟨a, _, _⟩ := h.main
    have hlt : rs.length < jobs.length := by
      rw [List.getElem?_eq_some_iff] at hg; exact hg.1
    simp only at a
    simp only [measure, List.length_append, List.length_singleton]; omega
  | @getThrow jobs rs e hg =>
    obtain ⟨a, _, _⟩ := h.main
    have hlt : rs.length < jobs.length := by
      rw [List.getElem?_eq_some_iff] at hg; exact hg.1
    simp only at a
    simp only [measure]; omega
  | @finish jobs rs hl => simp only [measure]; omega
  | @join jobs e next r hg =>
    obtain ⟨a, _, _⟩ := h.main
    have hlt : next < jobs.length := by
      rw [List.getElem?_eq_some_iff] at hg; exact hg.1
    simp only at a
    simp only [measure]; omega
  | @rethrow jobs e next hn => simp only [measure]; omega

theorem Steps.bound {n : Nat} {s t : State β γ} (h : Steps outs dur finish n s t) (hi : Inv outs finish s) :
    n + measure outs dur t ≤ measure outs dur s ∧ Inv outs finish t := by
  induction h with
  | refl => exact ⟨by omega, hi⟩
  | step _ h' ih =>
    obtain ⟨a, b⟩ := ih hi
    have := measure_lt b h'
    exact ⟨by omega, b.step h'⟩

/-- Some execution goes on to the end. -/
theorem reaches_ret : ∀ (n : Nat) (s : State β γ) (k : Nat), measure outs dur s ≤ n → Inv outs finish s →
    Steps outs dur finish k init s → ∃ k' jobs r, Steps outs dur finish k' init (⟨jobs, .ret r⟩ : State β γ) := by
  intro n
  induction n with
  | zero =>
    intro s k hm hi hk
    by_cases hr : ∃ r, s.main = .ret r
    · obtain ⟨r, hr⟩ := hr
      obtain ⟨jobs, main⟩ := s
      simp only at hr; subst hr
      exact ⟨k, jobs, r, hk⟩
    · obtain ⟨t, ht⟩ := progress (dur := dur) hi (fun r h => hr ⟨r, h⟩)
      have := measure_lt hi ht; omega
  | succ n ih =>
    intro s k hm hi hk
    by_cases hr : ∃ r, s.main = .ret r
    · obtain ⟨r, hr⟩ := hr
      obtain ⟨jobs, main⟩ := s
      simp only at hr; subst hr
      exact ⟨k, jobs, r, hk⟩
    · obtain ⟨t, ht⟩ := progress (dur := dur) hi (fun r h => hr ⟨r, h⟩)
      have := measure_lt hi ht
      exact ih t (k + 1) (by omega) (hi.step ht) (hk.step ht)

end DF.Par
