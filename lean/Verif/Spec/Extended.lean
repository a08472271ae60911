import Verif.Spec.Special
import Mathlib.Data.EReal.Operations
import Mathlib.Data.EReal.Inv

/-!
# Specification vocabulary for calculations with infinities

The values of `double` are read as extended real numbers (`EReal` of Mathlib), NaN as the absence of a number.
-/

namespace DF.Spec

/-- The extended real number a `double` stands for; none for NaN. -/
noncomputable def toE : Ext ℝ → Option EReal
  | .fin x => some (x : EReal)
  | .pinf => some ⊤
  | .ninf => some ⊥
  | .nan => none

/-- `∞ - ∞` has no value. -/
def Opposite (x y : EReal) : Prop := (x = ⊤ ∧ y = ⊥) ∨ (x = ⊥ ∧ y = ⊤)

/-- An infinite number. -/
def IsInf (x : EReal) : Prop := x = ⊤ ∨ x = ⊥

open Classical in
/-- The sum, where it is determined. -/
noncomputable def addE : Option EReal → Option EReal → Option EReal
  | some x, some y => if Opposite x y then none else some (x + y)
  | _, _ => none

open Classical in
/-- The difference, where it is determined. -/
noncomputable def subE : Option EReal → Option EReal → Option EReal
  | some x, some y => if IsInf x ∧ x = y then none else some (x - y)
  | _, _ => none

open Classical in
/-- The product, where it is determined. -/
noncomputable def mulE : Option EReal → Option EReal → Option EReal
  | some x, some y => if (x = 0 ∧ IsInf y) ∨ (IsInf x ∧ y = 0) then none else some (x * y)
  | _, _ => none

open Classical in
/-- The quotient, where it is determined; a non-zero number divided by zero is infinite, with the sign of the number. -/
noncomputable def divE : Option EReal → Option EReal → Option EReal
  | some x, some y =>
    if (x = 0 ∧ y = 0) ∨ (IsInf x ∧ IsInf y) then none
    else if y = 0 then some (if 0 < x then ⊤ else ⊥)
    else some (x / y)
  | _, _ => none

open Classical in
/-- The sum of several numbers: determined unless one of them is missing or both infinities are among them. -/
noncomputable def sumE (l : List (Option EReal)) : Option EReal :=
  if none ∈ l ∨ (some ⊤ ∈ l ∧ some ⊥ ∈ l) then none else some (l.map (·.getD 0)).sum

/-- The distance of two numbers is at most `e`: determined unless both are the same infinity. -/
def Within (e x y : Option EReal) : Prop := ∃ d c, subE x y = some d ∧ e = some c ∧ d ≤ c ∧ -d ≤ c

end DF.Spec
