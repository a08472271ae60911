import Verif.Model.Combine

/-!
# parallel_execute as a transition system

include/dataframe/functional/utils/parallel_execute.h:63-128. The calling thread launches one `std::async` job per part,
collects the futures in index order and concatenates. One step of the system is one step of the calling thread or of
one worker; any enabled step may be taken, so the executions are all the interleavings.

Simplifications: a job takes a finite number of steps (`dur i`, arbitrary) before its outcome is stored in its future;
the functor neither blocks nor touches data shared between the jobs (its outcome is a function of the part);
`std::async` does not fail to create a thread.
-/

namespace DF.Par

variable {β γ : Type}

/-- State of a worker and its future.
Source: include/dataframe/functional/utils/parallel_execute.h:89-104. -/
inductive Job (β : Type)
  | running (left : Nat)
  | done (r : Res β)

/-- Where the calling thread is.
Source: include/dataframe/functional/utils/parallel_execute.h:84-120. -/
inductive Main (β γ : Type)
  /-- include/dataframe/functional/utils/parallel_execute.h:92-108 -/
  | launch
  /-- include/dataframe/functional/utils/parallel_execute.h:114-116; results obtained so far -/
  | collect (rs : List β)
  /-- an exception leaves the function: the destructors of the futures from index `next` on are still to run, each
  waits for its job ([futures.async]) -/
  | unwind (e : Err) (next : Nat)
  /-- the call has returned or thrown; `.ub` when some thread ran into undefined behaviour -/
  | ret (r : Res γ)

/-- State of the system: the jobs launched so far, in index order, and the calling thread.
Source: include/dataframe/functional/utils/parallel_execute.h:84-120. -/
structure State (β γ : Type) where
  jobs : List (Job β)
  main : Main β γ

/-- Steps. `outs[i]` is the outcome of job `i`, `finish` what the calling thread does with the collected results.
Source: include/dataframe/functional/utils/parallel_execute.h:84-120. -/
inductive Step (outs : List (Res β)) (dur : Nat → Nat) (finish : List β → Res γ) : State β γ → State β γ → Prop
  /-- include/dataframe/functional/utils/parallel_execute.h:93-107 -/
  | launch {jobs : List (Job β)} (h : jobs.length < outs.length) :
      Step outs dur finish ⟨jobs, .launch⟩ ⟨jobs ++ [.running (dur jobs.length)], .launch⟩
  /-- include/dataframe/functional/utils/parallel_execute.h:92, end of the loop -/
  | launched {jobs : List (Job β)} (h : jobs.length = outs.length) :
      Step outs dur finish ⟨jobs, .launch⟩ ⟨jobs, .collect []⟩
  /-- a worker goes on -/
  | work {jobs : List (Job β)} {main : Main β γ} {i n : Nat} (hm : ∀ r, main ≠ .ret r) (h : jobs[i]? = some (.running (n + 1))) :
      Step outs dur finish ⟨jobs, main⟩ ⟨jobs.set i (.running n), main⟩
  /-- a worker stores its outcome, include/dataframe/functional/utils/parallel_execute.h:96-106 -/
  | store {jobs : List (Job β)} {main : Main β γ} {i : Nat} {o : Res β} (hm : ∀ r, main ≠ .ret r) (h : jobs[i]? = some (.running 0))
      (ho : outs[i]? = some o) (hub : o ≠ .ub) : Step outs dur finish ⟨jobs, main⟩ ⟨jobs.set i (.done o), main⟩
  /-- a worker runs into undefined behaviour -/
  | bad {jobs : List (Job β)} {main : Main β γ} {i : Nat} (hm : ∀ r, main ≠ .ret r) (h : jobs[i]? = some (.running 0)) (ho : outs[i]? = some .ub) :
      Step outs dur finish ⟨jobs, main⟩ ⟨jobs, .ret .ub⟩
  /-- `future.get()` returns, include/dataframe/functional/utils/parallel_execute.h:115 -/
  | get {jobs : List (Job β)} {rs : List β} {b : β} (h : jobs[rs.length]? = some (.done (.ok b))) :
      Step outs dur finish ⟨jobs, .collect rs⟩ ⟨jobs, .collect (rs ++ [b])⟩
  /-- `future.get()` throws, include/dataframe/functional/utils/parallel_execute.h:115 -/
  | getThrow {jobs : List (Job β)} {rs : List β} {e : Err} (h : jobs[rs.length]? = some (.done (.throw e))) :
      Step outs dur finish ⟨jobs, .collect rs⟩ ⟨jobs, .unwind e (rs.length + 1)⟩
  /-- everything collected, include/dataframe/functional/utils/parallel_execute.h:118-127 -/
  | finish {jobs : List (Job β)} {rs : List β} (h : rs.length = outs.length) :
      Step outs dur finish ⟨jobs, .collect rs⟩ ⟨jobs, .ret (finish rs)⟩
  /-- the destructor of a future returns -/
  | join {jobs : List (Job β)} {e : Err} {next : Nat} {r : Res β} (h : jobs[next]? = some (.done r)) :
      Step outs dur finish ⟨jobs, .unwind e next⟩ ⟨jobs, .unwind e (next + 1)⟩
  /-- all futures destroyed: the exception leaves the function -/
  | rethrow {jobs : List (Job β)} {e : Err} {next : Nat} (h : next = outs.length) :
      Step outs dur finish ⟨jobs, .unwind e next⟩ ⟨jobs, .ret (.throw e)⟩

/-- Before the first launch.
Source: include/dataframe/functional/utils/parallel_execute.h:89. -/
def init : State β γ := ⟨[], .launch⟩

/-- `n` steps.
Source: iteration of `Step`. -/
inductive Steps (outs : List (Res β)) (dur : Nat → Nat) (finish : List β → Res γ) :
    Nat → State β γ → State β γ → Prop
  | refl (s) : Steps outs dur finish 0 s s
  | step {n s t u} (h : Steps outs dur finish n s t) (h' : Step outs dur finish t u) :
      Steps outs dur finish (n + 1) s u

end DF.Par

namespace DF

variable {α : Type}

/-- The body of a job, include/dataframe/functional/utils/parallel_execute.h:96-106: std exceptions and wrong counts become `invalid_argument`; other
thrown objects pass through. -/
def parJob (fct : Serie α → Res (Serie α)) (part : Serie α) : Res (Serie α) :=
  match fct part with
  | .ok r => if r.count ≠ part.count then .throw .invalidArgument else .ok r
  | .throw e => if e.isStd then .throw .invalidArgument else .throw e
  | .ub => .ub

/-- include/dataframe/functional/utils/parallel_execute.h:118-127. -/
def parFinish [Zero α] (s : Serie α) (results : List (Serie α)) : Res (Serie α) :=
  if (results.map (·.count)).sum ≠ s.count then .throw .runtimeError else concat results

/-- A state of the calling process during `parallel_execute` with `nbCores ≥ 2` can be reached.
Source: include/dataframe/functional/utils/parallel_execute.h:60-131. -/
def ParReaches [Zero α] (fct : Serie α → Res (Serie α)) (s : Serie α) (parts : List (Serie α)) (dur : Nat → Nat)
    (k : Nat) (st : Par.State (Serie α) (Serie α)) : Prop :=
  Par.Steps (parts.map (parJob fct)) dur (parFinish s) k Par.init st

/-- `parallel_execute(fct, serie, nbCores)` may end with outcome `r`, include/dataframe/functional/utils/parallel_execute.h:63-128. -/
def ParallelExecute [Zero α] (fct : Serie α → Res (Serie α)) (s : Serie α) (nbCores : Nat) (dur : Nat → Nat)
    (r : Res (Serie α)) : Prop :=
  if nbCores < 1 then r = .throw .invalidArgument
  else if nbCores = 1 then r = fct s
  else match partitionN nbCores s with
    | .ok parts => ∃ k jobs, ParReaches fct s parts dur k ⟨jobs, .ret r⟩
    | .throw e => r = .throw e
    | .ub => r = .ub

end DF
