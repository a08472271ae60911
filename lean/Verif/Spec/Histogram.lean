import Verif.Spec.Stats

/-!
# Specification vocabulary for reading a histogram
-/

namespace DF.Spec

variable {α : Type}

/-- The middle of bin `i`, for bins of width `w` from `start` on. -/
def middle [Field α] (start w : α) (i : Nat) : α := start + ((i : α) + 1 / 2) * w

/-- The mean read from a histogram: as if all values of a bin were at its middle. -/
def meanOfBins [Field α] (start w : α) (counts : List α) : α :=
  (counts.mapIdx fun i c => middle start w i * c).sum / counts.sum

end DF.Spec
