import Verif.Spec.Algebra
import Verif.Model.Algebra
import Verif.Model.Math

/-!
# Specification vocabulary for a change of frame

The same vectors and matrices can be written in two orthonormal frames; `A` is the matrix that gives the new components.
-/

namespace DF.Spec

variable {α : Type}

/-- What the items of a Serie stand for. -/
inductive Kind
  | scalar
  | vector
  | matrix
  | symmetric
deriving DecidableEq

/-- How many numbers an item has. -/
def Kind.size : Kind → Nat
  | .scalar => 1
  | .vector => 3
  | .matrix => 9
  | .symmetric => 6

/-- `u` is `t` written in the frame given by `A`. -/
def InFrame [CommRing α] (A : Matrix (Fin 3) (Fin 3) α) : Kind → List α → List α → Prop
  | .scalar, t, u => u = t
  | .vector, t, u => vec 3 u = A.mulVec (vec 3 t)
  | .matrix, t, u => fullMatrix 3 u = A * fullMatrix 3 t * A.transpose
  | .symmetric, t, u => symMatrix3 u = A * symMatrix3 t * A.transpose

/-- A Serie of `n` items of kind `k` in dimension 3, with no other numbers. -/
structure HasKind (k : Kind) (n : Nat) (s : Serie α) : Prop where
  wf : WF s
  size : s.itemSize = k.size
  dim : s.dimension = 3
  count : s.count = n
  full : s.data.length = s.count * s.itemSize

/-- `s'` is `s` written in the frame given by `A`. -/
structure Reframed [CommRing α] (A : Matrix (Fin 3) (Fin 3) α) (k : Kind) (n : Nat) (s s' : Serie α) : Prop where
  old : HasKind k n s
  new : HasKind k n s'
  each : ItemWise (InFrame A k) s s'

/-- Both calculations give Series, and the second Serie is the first one written in the frame given by `A`; or both throw the same exception. -/
def Alike [CommRing α] (A : Matrix (Fin 3) (Fin 3) α) (k : Kind) (n : Nat) (x y : Res (Serie α)) : Prop :=
  (∃ r r', x = .ok r ∧ y = .ok r' ∧ Reframed A k n r r') ∨ ∃ e, x = .throw e ∧ y = .throw e

/-- Formulas made of calls to the library. `input k i` is the Serie number `i` of kind `k`. -/
inductive Formula (α : Type) : Kind → Type
  | input (k : Kind) (i : Nat) : Formula α k
  | add {k : Kind} (e f : Formula α k) : Formula α k
  | sub {k : Kind} (e f : Formula α k) : Formula α k
  | scale {k : Kind} (e : Formula α k) (c : α) : Formula α k
  | negate {k : Kind} (e : Formula α k) : Formula α k
  | mult {k : Kind} (e : Formula α k) (f : Formula α .scalar) : Formula α k
  | dot (e f : Formula α .vector) : Formula α .scalar
  | cross (e f : Formula α .vector) : Formula α .vector
  | det (e : Formula α .matrix) : Formula α .scalar
  | transpose (e : Formula α .matrix) : Formula α .matrix
  | inv (e : Formula α .symmetric) : Formula α .symmetric

/-- The Series that a formula computes. -/
def Formula.value [Field α] [LinearOrder α] (inputs : Kind → Nat → Serie α) : {k : Kind} → Formula α k → Res (Serie α)
  | _, .input k i => .ok (inputs k i)
  | _, .add e f => do let x ← e.value inputs; let y ← f.value inputs; add2 x y
  | _, .sub e f => do let x ← e.value inputs; let y ← f.value inputs; sub2 x y
  | _, .scale e c => do let x ← e.value inputs; DF.scale x c
  | _, .negate e => do let x ← e.value inputs; DF.negate x
  | _, .mult e f => do let x ← e.value inputs; let y ← f.value inputs; multSerie x y
  | _, .dot e f => do let x ← e.value inputs; let y ← f.value inputs; DF.dot x y
  | _, .cross e f => do let x ← e.value inputs; let y ← f.value inputs; DF.cross x y
  | _, .det e => do let x ← e.value inputs; DF.det x
  | _, .transpose e => do let x ← e.value inputs; DF.transpose x
  | _, .inv e => do let x ← e.value inputs; DF.inv x

/-- The formula has no cross product. -/
def Formula.NoCross : {k : Kind} → Formula α k → Prop
  | _, .input _ _ => True
  | _, .add e f => e.NoCross ∧ f.NoCross
  | _, .sub e f => e.NoCross ∧ f.NoCross
  | _, .scale e _ => e.NoCross
  | _, .negate e => e.NoCross
  | _, .mult e f => e.NoCross ∧ f.NoCross
  | _, .dot e f => e.NoCross ∧ f.NoCross
  | _, .cross _ _ => False
  | _, .det e => e.NoCross
  | _, .transpose e => e.NoCross
  | _, .inv e => e.NoCross

end DF.Spec
