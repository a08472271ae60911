import Verif.Model.Special

/-!
# Signed zeros

`double` (`Array` in include/dataframe/types.h:29) has two zeros, which are equal but give opposite infinities when something is
divided by them. `Signed β` adds a negative zero to a type `β` of numbers with a single zero, such as `Ext α` or `Ext (Num D)`; the
definitions of the other files are used as they are, with numbers of type `Signed β`.

Simplification: there is a single NaN. `absv` of the negative zero is the negative zero and not the positive one as in
`std::abs`; the library only compares the results of `std::abs`.
-/

namespace DF

/-- The values of `double`, include/dataframe/types.h:29: the zero of `β` is the positive one. -/
inductive Signed (β : Type)
  | val (x : β)
  | nzero
  deriving DecidableEq, Repr

namespace Signed

variable {β : Type}

/-- The number without the sign of the zeros.
Source: include/dataframe/types.h:29, what comparisons of `double` see. -/
def forget [Zero β] : Signed β → β
  | val x => x
  | nzero => 0

/-- The sign bit (of numbers other than NaN).
Source: include/dataframe/types.h:29. -/
def neg? [Zero β] [LT β] [DecidableLT β] : Signed β → Bool
  | val x => decide (x < 0)
  | nzero => true

instance [Zero β] : Zero (Signed β) := ⟨val 0⟩
instance [One β] : One (Signed β) := ⟨val 1⟩
/-- Conversion of an integer to `double`, src/functional/stats/mean.cxx:40. -/
instance [NatCast β] : NatCast (Signed β) := ⟨fun n => val n⟩
/-- Literals such as `1e-10`, src/functional/math/div.cxx:63. -/
instance [OfScientific β] : OfScientific (Signed β) := ⟨fun m s e => val (OfScientific.ofScientific m s e)⟩
/-- `numeric_limits<double>::max()` and `lowest()`, src/functional/math/minMax.cxx:40-41. -/
instance [Limits β] : Limits (Signed β) := ⟨val Limits.highest, val Limits.lowest⟩

/-- `a < b` does not see the sign of zeros, src/functional/math/minMax.cxx:45-46. -/
instance [Zero β] [LT β] : LT (Signed β) := ⟨fun a b => a.forget < b.forget⟩
instance [Zero β] [LT β] [DecidableLT β] : DecidableLT (Signed β) := fun a b => inferInstanceAs (Decidable (a.forget < b.forget))
/-- `a <= b` does not see the sign of zeros, include/dataframe/functional/math/equals.h:69. -/
instance [Zero β] [LE β] : LE (Signed β) := ⟨fun a b => a.forget ≤ b.forget⟩
instance [Zero β] [LE β] [DecidableLE β] : DecidableLE (Signed β) := fun a b => inferInstanceAs (Decidable (a.forget ≤ b.forget))
/-- `a == b` does not see the sign of zeros, include/dataframe/functional/math/equals.h:47, 130. -/
instance [Zero β] [BEq β] : BEq (Signed β) := ⟨fun a b => a.forget == b.forget⟩

/-- `-a` ([IEEE 754], 5.5.1). Source: src/functional/math/negate.cxx:34. -/
instance [Zero β] [BEq β] [Neg β] : Neg (Signed β) := ⟨fun
  | val x => if x == 0 then nzero else val (-x)
  | nzero => val 0⟩

/-- `a + b` ([IEEE 754], 6.3: a zero result is negative when both zeros are). Source: src/functional/math/add.cxx:57. -/
instance [Zero β] [Add β] : Add (Signed β) := ⟨fun
  | nzero, nzero => nzero
  | a, b => val (a.forget + b.forget)⟩

/-- `a - b` ([IEEE 754], 6.3). Source: src/functional/math/sub.cxx:57. -/
instance [Zero β] [BEq β] [Sub β] : Sub (Signed β) := ⟨fun
  | nzero, val y => if y == 0 then nzero else val (0 - y)
  | a, b => val (a.forget - b.forget)⟩

/-- The result `x` of a product or quotient of numbers with different signs (`d`) or not: a zero result has the sign of the product
of the signs ([IEEE 754], 6.3). Source: src/functional/math/mult.cxx:33. -/
def withSign [Zero β] [BEq β] (d : Bool) (x : β) : Signed β := if x == 0 then (if d then nzero else val 0) else val x

/-- `a * b`, src/functional/math/mult.cxx:33. -/
instance [Zero β] [LT β] [DecidableLT β] [BEq β] [Mul β] : Mul (Signed β) := ⟨fun a b =>
  withSign (a.neg? != b.neg?) (a.forget * b.forget)⟩

/-- `a / b`, src/functional/math/div.cxx:33; the quotients by the negative zero are the opposites of those by the positive one. -/
instance [Zero β] [LT β] [DecidableLT β] [BEq β] [Neg β] [Div β] : Div (Signed β) := ⟨fun a b =>
  match b with
  | val y => withSign (a.neg? != b.neg?) (a.forget / y)
  | nzero => val (-(a.forget / 0))⟩

/-- `std::sqrt` leaves the zeros as they are, src/functional/math/normalize.cxx:55. -/
instance [Sqrt β] : Sqrt (Signed β) := ⟨fun
  | val x => val (Sqrt.sqrt x)
  | nzero => nzero⟩

end Signed

end DF
