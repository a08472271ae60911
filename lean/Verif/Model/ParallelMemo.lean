import Verif.Model.Parallel
import Verif.Model.Utils

/-!
# parallel_execute with a functor that has a state

include/dataframe/functional/utils/parallel_execute.h:63-128 with a functor object whose call operator changes the object, as
`Memoized::operator()` (include/dataframe/functional/utils/memoize.h:36-45) does with its mutable cache.

Simplification: the state is part of the object, so that copying the object copies it (no state shared through a reference
or a pointer).
-/

namespace DF

variable {α τ : Type}

/-- `parallel_execute(fct, serie, nbCores)` may end with outcome `r` and the caller's `fct` in state `obj'`; `call p obj` is
`fct(p)` when `fct` is in state `obj`. With `nbCores == 1` the caller's object is called (parallel_execute.h:71-73); otherwise each job
calls its own copy, captured by value (parallel_execute.h:94-97), and the caller's object is never called.
Source: include/dataframe/functional/utils/parallel_execute.h:63-128. -/
def ParallelObject [Zero α] (call : Serie α → Eff τ (Serie α)) (s : Serie α) (nbCores : Nat) (dur : Nat → Nat)
    (obj : τ) (r : Res (Serie α)) (obj' : τ) : Prop :=
  if nbCores = 1 then call s obj = (r, obj')
  else ParallelExecute (fun p => (call p obj).1) s nbCores dur r ∧ obj' = obj

/-- The objects the jobs leave behind: each job has called its own copy of `fct` on its part. They are destroyed with the
jobs. Source: include/dataframe/functional/utils/parallel_execute.h:92-108. -/
def jobObjects (call : Serie α → Eff τ (Serie α)) (parts : List (Serie α)) (obj : τ) : List τ :=
  parts.map (fun p => (call p obj).2)

end DF
