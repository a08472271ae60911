import Verif.Spec.Stats

/-!
# Specification vocabulary for what the statistics are best at
-/

namespace DF.Spec

variable {α : Type}

/-- The sum of the squares of the distances from `c` to the numbers of `l`. -/
def squares [Field α] (l : List α) (c : α) : α := (l.map fun x => (x - c) ^ 2).sum

/-- The sum of the distances from `c` to the numbers of `l`. -/
def distances [Field α] [LinearOrder α] (l : List α) (c : α) : α := (l.map fun x => |x - c|).sum

/-- The sum of the squares of the errors made when number `y` of `ys` is predicted by `a + b x`, `x` the number of `xs` at the same place. -/
def misfit [Field α] (xs ys : List α) (a b : α) : α := (List.zipWith (fun x y => (y - (a + b * x)) ^ 2) xs ys).sum

end DF.Spec
