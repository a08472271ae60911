import Verif.Spec.Routine
import Verif.Spec.Ieee

/-!
# Error bounds that notice overflow (independent specification)

A kind of numbers for which a program can be run next to the values of `double` the library computes with: either nothing is known of
the value, or it is finite and within a bound of an exact number. `ulp D` is the relative error of a rounding, `tiny D` the absolute one
near zero, `D.top` the largest number.
-/

namespace DF.Spec

/-- What is known of a value of `double`. -/
inductive Ranged (D : Machine)
  | unknown
  | known (exact error : ℝ)

variable {D : Machine}

/-- The value is as told. -/
def Ranged.Holds (x : Ext (Num D)) : Ranged D → Prop
  | unknown => True
  | known y e => IsFinite x ∧ |real x - y| ≤ e

/-- The exact number is the one told. -/
def Ranged.Exactly (a : Ranged D) (y : ℝ) : Prop :=
  match a with
  | unknown => True
  | known z _ => z = y

namespace Ranged

/-- The exact result `y`, computed from numbers whose errors add up to `d`, then rounded with an absolute error `t` near zero. Nothing is
known when this may be more than the largest number. -/
noncomputable def rounded (t y d : ℝ) : Ranged D :=
  open Classical in if |y| + d ≤ D.top then known y (d + (ulp D * (|y| + d) + t)) else unknown

noncomputable instance : Zero (Ranged D) := ⟨known 0 0⟩
noncomputable instance : One (Ranged D) := ⟨known 1 0⟩
noncomputable instance : NatCast (Ranged D) := ⟨fun n => rounded (tiny D) n 0⟩
noncomputable instance : Neg (Ranged D) := ⟨fun
  | known y e => known (-y) e
  | unknown => unknown⟩
noncomputable instance : Add (Ranged D) := ⟨fun
  | known y e, known z f => rounded 0 (y + z) (e + f)
  | _, _ => unknown⟩
noncomputable instance : Sub (Ranged D) := ⟨fun
  | known y e, known z f => rounded 0 (y - z) (e + f)
  | _, _ => unknown⟩
noncomputable instance : Mul (Ranged D) := ⟨fun
  | known y e, known z f => rounded (tiny D) (y * z) (|y| * f + e * |z| + e * f)
  | _, _ => unknown⟩
/-- Nothing is known when the divisor may be zero. -/
noncomputable instance : Div (Ranged D) := ⟨fun
  | known y e, known z f => open Classical in if f < |z| then rounded (tiny D) (y / z) ((e + |y / z| * f) / (|z| - f)) else unknown
  | _, _ => unknown⟩
/-! Not used by the theorems: -/
instance : LT (Ranged D) := ⟨fun _ _ => False⟩
instance : LE (Ranged D) := ⟨fun _ _ => False⟩
instance : DecidableLT (Ranged D) := fun _ _ => .isFalse id
instance : DecidableLE (Ranged D) := fun _ _ => .isFalse id
instance : BEq (Ranged D) := ⟨fun _ _ => false⟩
instance : OfScientific (Ranged D) := ⟨fun _ _ _ => unknown⟩

end Ranged

end DF.Spec
