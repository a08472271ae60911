import Verif.Spec.Math
import Mathlib.LinearAlgebra.Matrix.Determinant.Basic
import Mathlib.LinearAlgebra.Matrix.Notation
import Mathlib.LinearAlgebra.CrossProduct

/-!
# Specification vocabulary for matrices and vectors stored in Series

Determinants, products, transposes and cross products are those of Mathlib.
-/

namespace DF.Spec

variable {α : Type}

/-- Number `k` of an array (`0` beyond its end; only used for arrays of a known length). -/
def num [Zero α] (t : List α) (k : Nat) : α := (t[k]?).getD 0

/-- The `n × n` matrix stored row after row. -/
def fullMatrix [Zero α] (n : Nat) (t : List α) : Matrix (Fin n) (Fin n) α := fun i j => num t (i * n + j)

/-- The symmetric matrix stored as `xx, xy, yy`. -/
def symMatrix2 [Zero α] (t : List α) : Matrix (Fin 2) (Fin 2) α :=
  !![num t 0, num t 1;
     num t 1, num t 2]

/-- The symmetric matrix stored as `xx, xy, xz, yy, yz, zz`. -/
def symMatrix3 [Zero α] (t : List α) : Matrix (Fin 3) (Fin 3) α :=
  !![num t 0, num t 1, num t 2;
     num t 1, num t 3, num t 4;
     num t 2, num t 4, num t 5]

/-- The vector with the given `n` components. -/
def vec [Zero α] (n : Nat) (t : List α) : Fin n → α := fun i => num t i

/-- Dot product of two arrays. -/
def dotL [Zero α] [Add α] [Mul α] (u v : List α) : α := (List.zipWith (· * ·) u v).sum

/-- Item by item relation between the items of two Series (in particular they have as many items). -/
def ItemWise (R : List α → List α → Prop) (s r : Serie α) : Prop := List.Forall₂ R (items s) (items r)

/-- Item by item relation between the items of three Series. -/
def ItemWise3 (R : List α → List α → List α → Prop) (a b r : Serie α) : Prop :=
  a.count = b.count ∧ List.Forall₂ (fun p w => R p.1 p.2 w) ((items a).zip (items b)) (items r)

end DF.Spec
