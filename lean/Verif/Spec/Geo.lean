import Verif.Spec.Algebra
import Mathlib.Geometry.Euclidean.Angle.Unoriented.Affine
import Mathlib.Analysis.InnerProductSpace.PiL2

/-!
# Specification vocabulary for meshes and grids
-/

namespace DF.Spec

variable {α : Type}

/-- Point number `i` of a Serie of 3D points. -/
def pointAt [Zero α] (s : Serie α) (i : Nat) : Fin 3 → α := vec 3 (((items s)[i]?).getD [])

/-- `t` is the triangle with the vertices number `a`, `b`, `c`. -/
def Triangle [NatCast α] (t : List α) (a b c : Nat) : Prop := t = [(a : α), (b : α), (c : α)]

/-- A mesh: 3D points, and triangles given by numbers of existing points. -/
structure Mesh [NatCast α] (positions indices : Serie α) : Prop where
  pos : WF positions
  tri : WF indices
  pos3 : positions.itemSize = 3
  tri3 : indices.itemSize = 3
  inRange : ∀ t ∈ items indices, ∃ a b c, Triangle t a b c ∧ a < positions.count ∧ b < positions.count ∧
    c < positions.count

/-- Area of a triangle of the Euclidean space: half the product of two sides and of the sine of their angle. -/
noncomputable def triangleArea (A B C : EuclideanSpace ℝ (Fin 3)) : ℝ :=
  1 / 2 * (dist A B * dist A C * Real.sin (EuclideanGeometry.angle B A C))

/-- Number of points of a grid along axis `a`. -/
def axisCount (npts : List Nat) (a : Nat) : Nat := (npts[a]?).getD 1

/-- Point number `i` of `n` points equally spaced from `lo` to `hi`; a single point is at `lo`. -/
def axisPoint [DivisionRing α] (n : Nat) (lo hi : α) (i : Nat) : α := lo + (hi - lo) * ((i : α) / ((n : α) - 1))

end DF.Spec
