import Verif.Model.Float
import Mathlib.LinearAlgebra.Matrix.Permanent

/-!
# Specification vocabulary for rounded arithmetic
-/

namespace DF.Spec

variable {p : Nat} {R : Rounding p}

/-- The unit roundoff `2^-p`: half the distance between 1 and the next number (`2^-53` for `double`). -/
noncomputable def unit (p : Nat) : ℝ := (2 : ℝ)⁻¹ ^ p

/-- The relative error that `n` roundings in a row can make: `(1 + 2^-p)^n - 1`, close to `n 2^-p`. -/
noncomputable def growth (p n : Nat) : ℝ := (1 + unit p) ^ n - 1

/-- The real numbers represented. -/
def vals (l : List (Dbl R)) : List ℝ := l.map Dbl.val

/-- Their absolute values. -/
def absVals (l : List (Dbl R)) : List ℝ := l.map fun x => |x.val|

/-- A whole number. -/
def Whole (x : Dbl R) : Prop := ∃ m : ℤ, x.val = (m : ℝ)

/-- The sum of the absolute values of the products in the expansion of the entry `(i, j)` of the adjugate of a matrix: the
permanent of the absolute values without row `j` and column `i`. -/
noncomputable def absAdjugate (M : Matrix (Fin 3) (Fin 3) ℝ) (i j : Fin 3) : ℝ :=
  ((M.map fun x => |x|).submatrix j.succAbove i.succAbove).permanent

end DF.Spec
