import Verif.Model.Special

/-!
# Specification vocabulary for special values
-/

namespace DF.Spec

variable {α : Type}

/-- Neither an infinity nor NaN. -/
def IsFinite (x : Ext α) : Prop := ∃ y, x = .fin y

/-- Not an infinity: a finite number or NaN. -/
def NotInf (x : Ext α) : Prop := x ≠ .pinf ∧ x ≠ .ninf

/-- The finite numbers of a list, the rest is left out. -/
def finites (l : List (Ext α)) : List α := l.filterMap fun
  | .fin x => some x
  | _ => none

/-- A Serie of finite numbers, as a Serie of `double`. -/
def embed (s : Serie α) : Serie (Ext α) := { s with data := s.data.map .fin }

end DF.Spec
