import Verif.Model.Ieee
import Verif.Spec.Float
import Verif.Spec.Special

/-!
# Specification vocabulary for machine numbers with a limited range
-/

namespace DF.Spec

/-- The format `double`: 53 binary digits, numbers from `2^-1074` to `(2^53 - 1) 2^971`. -/
def IsDouble (D : Machine) : Prop := D.p = 53 ∧ D.emin = -1074 ∧ D.top = (2 ^ 53 - 1) * (2 : ℝ) ^ 971

variable {D : Machine}

/-- The number represented by a value that is not special. -/
def real : Ext (Num D) → ℝ
  | .fin x => x.val
  | _ => 0

/-- The numbers represented. -/
def reals (l : List (Ext (Num D))) : List ℝ := l.map real

/-- Their absolute values. -/
def absReals (l : List (Ext (Num D))) : List ℝ := l.map fun x => |real x|

/-- The relative error of one rounding. -/
noncomputable def ulp (D : Machine) : ℝ := unit D.p

/-- The absolute error of one rounding near zero: half the smallest positive number. -/
noncomputable def tiny (D : Machine) : ℝ := (2 : ℝ) ^ D.emin / 2

/-- The outcome of an operation whose exact result is `x`: a finite number unless `x` is beyond the largest number, and
then the infinity with the sign of `x`. -/
def InRange (D : Machine) (z : Ext (Num D)) (x : ℝ) : Prop :=
  IsFinite z ∨ z = .pinf ∧ D.top < x ∨ z = .ninf ∧ x < -D.top

/-- A finite number that is zero or neither very small nor very large. -/
def Moderate (x : Ext (Num D)) : Prop :=
  IsFinite x ∧ (real x = 0 ∨ 1 / 2 ^ 400 ≤ |real x| ∧ |real x| ≤ 2 ^ 400)

end DF.Spec
