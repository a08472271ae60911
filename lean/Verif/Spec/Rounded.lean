import Verif.Spec.Ieee
import Verif.Spec.Extended

/-!
# Specification vocabulary for correctly rounded operations
-/

namespace DF.Spec

variable {D : Machine}

/-- The extended real number a `double` stands for; none for NaN. -/
noncomputable def extended : Ext (Num D) → Option EReal
  | .fin x => some (x.val : EReal)
  | .pinf => some ⊤
  | .ninf => some ⊥
  | .nan => none

/-- `z` is what an operation must deliver when its exact result is `e`: NaN if there is no result, the infinity if it is infinite,
and otherwise a number nearest to it, unless it is beyond the largest number, and then possibly the infinity on that side. -/
def Delivers (z : Ext (Num D)) (e : Option EReal) : Prop :=
  (e = none → z = .nan) ∧ (e = some ⊤ → z = .pinf) ∧ (e = some ⊥ → z = .ninf) ∧
  ∀ x : ℝ, e = some (x : EReal) → InRange D z x ∧ ∀ r : Num D, z = .fin r → ∀ y : Num D, |r.val - x| ≤ |y.val - x|

end DF.Spec
