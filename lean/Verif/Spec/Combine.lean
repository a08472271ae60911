import Verif.Spec.Functional

/-!
# Specification vocabulary for merge, concat, partition_n, zip
-/

namespace DF.Spec

variable {α γ : Type}

/-- Alternate two lists; the rest of the longer one comes at the end. -/
def interleave : List γ → List γ → List γ
  | x :: xs, y :: ys => x :: y :: interleave xs ys
  | xs, [] => xs
  | [], ys => ys

/-- Round robin: the first elements of all lists, then the second elements, ...; exhausted lists are skipped. -/
def roundRobin (ls : List (List γ)) : List γ :=
  (List.range (ls.foldl (fun m l => max m l.length) 0)).flatMap (fun i => ls.filterMap (fun l => l[i]?))

end DF.Spec
