import Verif.Spec.Functional
import Verif.Model.Math

/-!
# Specification vocabulary for the arithmetic functions
-/

namespace DF.Spec

variable {α : Type}

/-- Number `j` of item `i`, if there is one. -/
def cell (s : Serie α) (i j : Nat) : Option α := (items s)[i]?.bind (·[j]?)

/-- The Serie with `f` applied to every number. -/
def onNumbers (f : α → α) (s : Serie α) : Serie α := ofItems s.itemSize ((items s).map (List.map f))

/-- The Serie with `op` applied to the numbers of `a` and `b` at the same place. -/
def pointwise (op : α → α → α) (a b : Serie α) : Serie α :=
  ofItems a.itemSize (List.zipWith (List.zipWith op) (items a) (items b))

/-- Two Series with the same number of items of the same size. -/
def SameShape (a b : Serie α) : Prop := a.itemSize = b.itemSize ∧ a.count = b.count

/-- The numbers at component `j`, item after item. -/
def component (s : Serie α) (j : Nat) : List α := (items s).filterMap (·[j]?)

/-- `a` is the smallest number of `l`. -/
def Least [LE α] (a : α) (l : List α) : Prop := a ∈ l ∧ ∀ y ∈ l, a ≤ y

/-- `a` is the largest number of `l`. -/
def Greatest [LE α] (a : α) (l : List α) : Prop := a ∈ l ∧ ∀ y ∈ l, y ≤ a

end DF.Spec
