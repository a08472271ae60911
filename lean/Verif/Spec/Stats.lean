import Verif.Spec.Math
import Verif.Model.Stats

/-!
# Specification vocabulary for the statistics
-/

namespace DF.Spec

variable {α : Type}

/-- Number `j` of a mean: a plain number has only number 0. -/
def tupleAt : Tuple α → Nat → Option α
  | .number x, j => [x][j]?
  | .array a, j => a[j]?

/-- The arithmetic mean of a list. -/
def average [Field α] (l : List α) : α := l.sum / (l.length : α)

/-- `xs` are the numbers of `l` in ascending order. -/
def SortedFrom [LE α] (xs l : List α) : Prop := xs.Perm l ∧ xs.Pairwise (· ≤ ·)

/-- `v` is the linear interpolation of the numbers `xs` at the fraction `q` of the way from the first to the last:
`(n - 1) q = k + r` with `0 ≤ r < 1`, and `v` lies at fraction `r` between number `k` and number `k + 1`. -/
def Interpolates [Field α] [LinearOrder α] (xs : List α) (q v : α) : Prop :=
  ∃ (k : Nat) (r a b : α), 0 ≤ r ∧ r < 1 ∧ ((xs.length : α) - 1) * q = (k : α) + r ∧
    xs[k]? = some a ∧ (xs[k + 1]? = some b ∨ r = 0) ∧ v = a + r * (b - a)

/-- `v` belongs to bin `i` of `nb` bins of width `w` from `start`: `[start + i w, start + (i+1) w)`, without upper bound
for the last bin. -/
def InBin [Field α] [LinearOrder α] (start w : α) (nb i : Nat) (v : α) : Prop :=
  start + (i : α) * w ≤ v ∧ (i + 1 < nb → v < start + ((i : α) + 1) * w)

instance [Field α] [LinearOrder α] (start w : α) (nb i : Nat) : DecidablePred (InBin start w nb i) :=
  fun _ => inferInstanceAs (Decidable (_ ∧ _))

end DF.Spec
