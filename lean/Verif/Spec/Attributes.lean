import Verif.Model.Attributes
import Verif.Spec.Geo

/-!
# Specification vocabulary for the attributes
-/

namespace DF.Spec

variable {α : Type}

/-- A Dataframe obtained with the operations of the class. -/
def ReachableFrame [Zero α] (d : Dataframe α) : Prop := ∃ count ops, d = Dataframe.history count ops

/-- Serie `s` is stored in `d` under the name `n` (the entries seen when iterating). -/
def Stored (d : Dataframe α) (n : String) (s : Serie α) : Prop := (n, s) ∈ d.series

/-- The names offered by the decomposers of `m` for item size `k`. -/
def Offered (m : Manager α) (k : Nat) (x : String) : Prop :=
  ∃ n s, Stored m.df n s ∧ ∃ dc ∈ m.ds, ∃ l, dc.names m.df k s (.stored n) n = .ok l ∧ x ∈ l

/-- The names of the axes. -/
def axisName : Fin 3 → String := ![ "x", "y", "z" ]

/-- The names of the components of items with `k` numbers: axes for vectors, pairs of axes for tensors, numbers for other
items. -/
def componentNames (k : Nat) : List String :=
  if k = 3 then ["x", "y", "z"]
  else if k = 6 then ["xx", "xy", "xz", "yy", "yz", "zz"]
  else if k = 9 then ["xx", "xy", "xz", "yx", "yy", "yz", "zx", "zy", "zz"]
  else (List.range k).map toString

/-- No stored name is another stored name followed by the name of a component. -/
def NoClash (d : Dataframe α) : Prop :=
  ∀ n s m t, Stored d n s → Stored d m t →
    ∀ x ∈ ["x", "y", "z", "xx", "xy", "xz", "yx", "yy", "yz", "zx", "zy", "zz", "0"], m ≠ n ++ x

end DF.Spec
