import Verif.Spec.FloatEigen
import Mathlib.LinearAlgebra.Matrix.Charpoly.Basic

/-!
# Specification vocabulary: the true eigen values of a matrix
-/

namespace DF.Spec

open Matrix

/-- The numbers `l` are the eigen values of `A`, each repeated with its multiplicity, in decreasing order: the roots of
the characteristic polynomial of Mathlib. -/
def TrueValues {n : Nat} (A : Matrix (Fin n) (Fin n) ℝ) (l : Fin n → ℝ) : Prop :=
  Antitone l ∧ A.charpoly = ∏ k, (Polynomial.X - Polynomial.C (l k))

/-- The symmetric matrices `A` and `B` describe the same thing in two orthonormal frames. -/
def SameUpToFrame {n : Nat} (A B : Matrix (Fin n) (Fin n) ℝ) : Prop := ∃ Q, Q * Qᵀ = 1 ∧ B = Q * A * Qᵀ

end DF.Spec
