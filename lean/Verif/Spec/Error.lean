import Verif.Spec.Routine
import Mathlib.Data.Real.Basic
import Mathlib.Algebra.Order.Group.Abs
import Mathlib.Algebra.Order.Ring.Abs

/-!
# Numbers that know how wrong they are (independent specification)

Two kinds of numbers for which a program can be run, next to the rounded numbers the library computes with. Both hold the exact number;
`Counted` also holds a count of roundings, `Bounded u` a bound on the error when each operation has a relative error of at most `u`.
The definitions below give addition, subtraction and product; the other operations are not used by any theorem.
-/

namespace DF.Spec

/-- An exact number, with a count of roundings: a sum has one more than the worse of its terms, a product one more than both its factors. -/
structure Counted where
  exact : ℝ
  roundings : ℕ

/-- An exact number, with a bound on the error of the number computed in its place. -/
@[ext] structure Bounded (u : ℝ) where
  exact : ℝ
  error : ℝ

namespace Counted

noncomputable instance : Zero Counted := ⟨⟨0, 0⟩⟩
noncomputable instance : One Counted := ⟨⟨1, 0⟩⟩
noncomputable instance : Add Counted := ⟨fun a b => ⟨a.exact + b.exact, max a.roundings b.roundings + 1⟩⟩
noncomputable instance : Mul Counted := ⟨fun a b => ⟨a.exact * b.exact, a.roundings + b.roundings + 1⟩⟩
/-! Not used by the theorems: -/
noncomputable instance : Sub Counted := ⟨fun a b => ⟨a.exact - b.exact, 0⟩⟩
noncomputable instance : Neg Counted := ⟨fun a => ⟨-a.exact, a.roundings⟩⟩
noncomputable instance : Div Counted := ⟨fun a b => ⟨a.exact / b.exact, a.roundings + b.roundings + 1⟩⟩
instance : LT Counted := ⟨fun a b => a.exact < b.exact⟩
instance : LE Counted := ⟨fun a b => a.exact ≤ b.exact⟩
noncomputable instance : DecidableLT Counted := fun _ _ => Classical.dec _
noncomputable instance : DecidableLE Counted := fun _ _ => Classical.dec _
noncomputable instance : BEq Counted := ⟨fun a b => open Classical in decide (a.exact = b.exact)⟩
noncomputable instance : OfScientific Counted := ⟨fun m s e => ⟨OfScientific.ofScientific m s e, 1⟩⟩

end Counted

namespace Bounded

variable {u : ℝ}

/-- The number `y`, computed from terms with a total error of `d` and then rounded. -/
def rounded (y d : ℝ) : Bounded u := ⟨y, d + u * (|y| + d)⟩

noncomputable instance : Zero (Bounded u) := ⟨⟨0, 0⟩⟩
noncomputable instance : One (Bounded u) := ⟨⟨1, 0⟩⟩
noncomputable instance : Neg (Bounded u) := ⟨fun a => ⟨-a.exact, a.error⟩⟩
noncomputable instance : Add (Bounded u) := ⟨fun a b => rounded (a.exact + b.exact) (a.error + b.error)⟩
noncomputable instance : Sub (Bounded u) := ⟨fun a b => rounded (a.exact - b.exact) (a.error + b.error)⟩
noncomputable instance : Mul (Bounded u) :=
  ⟨fun a b => rounded (a.exact * b.exact) (|a.exact| * b.error + a.error * |b.exact| + a.error * b.error)⟩
/-! Not used by the theorems: -/
noncomputable instance : Div (Bounded u) := ⟨fun a b => ⟨a.exact / b.exact, 0⟩⟩
instance : LT (Bounded u) := ⟨fun a b => a.exact < b.exact⟩
instance : LE (Bounded u) := ⟨fun a b => a.exact ≤ b.exact⟩
noncomputable instance : DecidableLT (Bounded u) := fun _ _ => Classical.dec _
noncomputable instance : DecidableLE (Bounded u) := fun _ _ => Classical.dec _
noncomputable instance : BEq (Bounded u) := ⟨fun a b => open Classical in decide (a.exact = b.exact)⟩
noncomputable instance : OfScientific (Bounded u) := ⟨fun m s e => ⟨OfScientific.ofScientific m s e, 0⟩⟩

end Bounded

end DF.Spec
