import Verif.Spec.Eigen
import Verif.Spec.TrueValues
import Verif.Spec.FloatEigen

/-!
# Specification vocabulary for the laws of eigen values
-/

namespace DF.Spec

/-- How far the numbers returned for `A` may be from the eigen values of `A`: the iteration stops when the sum of the squares of
the entries above the diagonal has been divided by 100000 (see C131). -/
noncomputable def tolerance {n : Nat} (A : Matrix (Fin n) (Fin n) ℝ) : ℝ := √(2 * (0.00001 * offDiag A))

/-- The number `x · A x`: with `x` of length 1, the component of `A x` along `x`. -/
noncomputable def along {n : Nat} (A : Matrix (Fin n) (Fin n) ℝ) (x : Fin n → ℝ) : ℝ := x ⬝ᵥ A.mulVec x

end DF.Spec
