import Verif.Spec.Functional
import Verif.Model.Utils

/-!
# Specification vocabulary for memoize
-/

namespace DF.Spec

variable {α σ : Type}

/-- All the numbers of a Serie, in order. -/
def numbers (s : Serie α) : List α := (items s).flatten

/-- The Series a program passes to a memoized function. -/
def calls : List (MemoOp α) → List (Serie α)
  | [] => []
  | .call s :: ops => s :: calls ops
  | .clear :: ops => calls ops

/-- Did the computation return? -/
def returned {β : Type} : Res β → Bool
  | .ok _ => true
  | _ => false

/-- `f`, recording each of its invocations and whether it returned. -/
def traced (f : Serie α → Eff σ (Serie α)) : Serie α → Eff (List (Serie α × Bool) × σ) (Serie α) :=
  fun s st => ((f s st.2).1, (st.1 ++ [(s, returned (f s st.2).1)], (f s st.2).2))

end DF.Spec
