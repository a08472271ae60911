import Verif.Spec.Eigen
import Verif.Spec.Float

/-!
# Specification vocabulary for eigen values and vectors in rounded arithmetic
-/

namespace DF.Spec

variable {p : Nat} {R : Rounding p}

/-- `M_PI`, `std::atan`, `std::sin` and `std::cos` are exact up to `ε`. -/
structure AccurateTrig (R : Rounding p) [Trig (Dbl R)] (ε : ℝ) : Prop where
  pi : |(Trig.pi : Dbl R).val - Real.pi| ≤ ε
  atan : ∀ x : Dbl R, |(Trig.atan x).val - Real.arctan x.val| ≤ ε
  sin : ∀ x : Dbl R, |(Trig.sin x).val - Real.sin x.val| ≤ ε
  cos : ∀ x : Dbl R, |(Trig.cos x).val - Real.cos x.val| ≤ ε

/-- The norm of a matrix: the square root of the sum of the squares of its entries. -/
noncomputable def frob {n : Nat} (A : Matrix (Fin n) (Fin n) ℝ) : ℝ := Real.sqrt (∑ i, ∑ j, A i j ^ 2)

/-- The rows of the `n × n` array `w` are orthonormal vectors up to `δ`. -/
def NearlyOrthonormal (n : Nat) (w : List ℝ) (δ : ℝ) : Prop :=
  w.length = n * n ∧
    ∀ k l : Fin n, |∑ i, fullMatrix n w k i * fullMatrix n w l i - if k = l then 1 else 0| ≤ δ

end DF.Spec
