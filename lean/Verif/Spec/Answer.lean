import Verif.Model.Attributes
import Verif.Spec.Serie

/-!
# Specification: what a Manager may rely on
-/

namespace DF.Spec

variable {α : Type}

/-- The number of an item read for each ending of a name, for Series of dimension 3. -/
def readBy : List (String × Nat) :=
  [("x", 0), ("y", 1), ("z", 2), ("xx", 0), ("xy", 1), ("xz", 2), ("yx", 3), ("yy", 3), ("yz", 4), ("zx", 6), ("zy", 7), ("zz", 5)]

/-- Whenever the name is a stored name followed by one of these endings, the items of the Serie stored have the number read. -/
def HasParts (d : Dataframe α) (x : String) : Prop :=
  ∀ e ∈ d.series, ∀ p ∈ readBy, x = e.1 ++ p.1 → p.2 < e.2.itemSize

/-- The decomposer, asked for this name and this item size, has no undefined behaviour. -/
def Answers (dc : Decomposer α) (d : Dataframe α) (k : Nat) (x : String) : Prop := dc.serie d k x ≠ .ub

/-- A Serie of the item size asked for, in which all items can be read; or an invalid one. -/
def Fitting (k : Nat) (r : Serie α) : Prop := r.isValid = true → WF r ∧ r.itemSize = k

end DF.Spec
