import Verif.Spec.Zeros

/-!
# Specification vocabulary for the sign of results
-/

namespace DF.Spec

variable {D : Machine}

/-- The sign bit is set: the negative zero, the negative infinity or a number below zero. -/
def Negative (x : Double D) : Prop := x = .nzero ∨ x = .val .ninf ∨ ∃ u : Num D, x = .val (.fin u) ∧ u.val < 0

/-- Exactly one of them is negative. -/
def SignsDiffer (x y : Double D) : Prop := ¬ (Negative x ↔ Negative y)

end DF.Spec
