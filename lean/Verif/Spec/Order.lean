import Verif.Spec.Stats

/-!
# Specification vocabulary for the order of the items
-/

namespace DF.Spec

variable {α : Type}

/-- The Serie `t` has the items of `s`, in some order. -/
def Reordered (s t : Serie α) : Prop := WF t ∧ t.itemSize = s.itemSize ∧ (items s).Perm (items t)

end DF.Spec
