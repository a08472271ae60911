import Verif.Spec.Functional

/-!
# Specification vocabulary for the columns of a table
-/

namespace DF.Spec

variable {α : Type}

/-- Columns that `zip` can put side by side: at least one, all with `n` items, and a result that is not too large. -/
structure Packable (ss : List (Serie α)) (n : Nat) : Prop where
  some : ss ≠ []
  wf : ∀ s ∈ ss, WF s
  count : ∀ s ∈ ss, s.count = n
  width : (ss.map (·.itemSize)).sum < 2 ^ 31
  small : n * (ss.map (·.itemSize)).sum < 2 ^ 32

end DF.Spec
