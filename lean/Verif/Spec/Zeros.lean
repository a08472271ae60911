import Verif.Model.Zeros
import Verif.Model.Ieee

/-!
# Specification vocabulary for signed zeros
-/

namespace DF.Spec

variable {β γ δ : Type}

/-- The numbers of the format `D` with their infinities, NaN and both zeros: for `IsDouble D`, the values of `double`. -/
abbrev Double (D : Machine) : Type := Signed (Ext (Num D))

/-- A zero of either sign. -/
def IsZero [Zero β] (x : Signed β) : Prop := x = .val 0 ∨ x = .nzero

/-- The same number up to the sign of zeros. -/
def Same [Zero β] (x y : Signed β) : Prop := x = y ∨ (IsZero x ∧ IsZero y)

/-- The same number up to the sign of zeros, the second one in arithmetic with a single zero. -/
def Stands [Zero β] (x : Signed β) (y : β) : Prop := x = .val y ∨ (x = .nzero ∧ y = 0)

/-- Two Series of the same shape whose numbers are in the relation `S`, one by one. -/
def Each (S : γ → δ → Prop) (s : Serie γ) (t : Serie δ) : Prop :=
  s.count = t.count ∧ s.itemSize = t.itemSize ∧ s.dimension = t.dimension ∧ List.Forall₂ S s.data t.data

/-- Both runs return, with results in the relation `S`, or both throw the same exception, or both are undefined. -/
def Outcomes (S : γ → δ → Prop) : Res γ → Res δ → Prop
  | .ok x, .ok y => S x y
  | .throw e, .throw f => e = f
  | .ub, .ub => True
  | _, _ => False

/-- The results of `mean`, number by number. -/
def Means (S : γ → δ → Prop) : Tuple γ → Tuple δ → Prop
  | .number x, .number y => S x y
  | .array l, .array m => List.Forall₂ S l m
  | _, _ => False

end DF.Spec
