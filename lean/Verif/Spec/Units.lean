import Verif.Spec.Stats

/-!
# Specification vocabulary for changes of unit
-/

namespace DF.Spec

variable {α : Type}

/-- The scalar Serie `t` holds the numbers of `s` in another unit: `a x + b` for each number `x`. -/
def Rescaled [Field α] (a b : α) (s t : Serie α) : Prop :=
  WF t ∧ t.itemSize = 1 ∧ scalars t = (scalars s).map (fun x => a * x + b)

end DF.Spec
