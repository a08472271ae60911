import Verif.Spec.Algebra
import Verif.Model.Eigen
import Mathlib.Analysis.SpecialFunctions.Trigonometric.Arctan
import Mathlib.LinearAlgebra.Matrix.Trace

/-!
# Specification vocabulary for eigen values and vectors
-/

namespace DF.Spec

/-- The trigonometric functions of the code, taken as the exact ones. -/
structure ExactTrig [Trig ℝ] : Prop where
  pi : (Trig.pi : ℝ) = Real.pi
  atan : ∀ x : ℝ, Trig.atan x = Real.arctan x
  sin : ∀ x : ℝ, Trig.sin x = Real.sin x
  cos : ∀ x : ℝ, Trig.cos x = Real.cos x

/-- Symmetric matrix of an item with the storage of the library, in dimension 2 or 3. -/
def symMatrix : (n : Nat) → List ℝ → Matrix (Fin n) (Fin n) ℝ
  | 2, t => symMatrix2 t
  | 3, t => symMatrix3 t
  | _, _ => 0

/-- Sum of the squares of the entries above the diagonal. -/
def offDiag {n : Nat} (A : Matrix (Fin n) (Fin n) ℝ) : ℝ := ∑ i, ∑ j, if i < j then A i j ^ 2 else 0

/-- The rows of the `n × n` array `w` are orthonormal vectors. -/
def Orthonormal (n : Nat) (w : List ℝ) : Prop :=
  w.length = n * n ∧ ∀ k l : Fin n, ∑ i, fullMatrix n w k i * fullMatrix n w l i = if k = l then 1 else 0

/-- `∑ₖ |A vₖ - eₖ vₖ|²` for the vectors stored in `w` and the numbers `e`. -/
def residualSq {n : Nat} (A : Matrix (Fin n) (Fin n) ℝ) (e w : List ℝ) : ℝ :=
  ∑ k : Fin n, ∑ i, (A.mulVec (fullMatrix n w k) i - num e k * fullMatrix n w k i) ^ 2

/-- The two shapes that the eigen functions accept. -/
def EigenShape {α : Type} (n : Nat) (s : Serie α) : Prop :=
  s.dimension = n ∧ ((n = 2 ∧ s.itemSize = 3) ∨ (n = 3 ∧ s.itemSize = 6))

end DF.Spec
