import Verif.Model.Stats

/-!
# Special values

`double` (`Array` in include/dataframe/types.h:29) has infinities and NaN besides the finite numbers. `Ext α` adds them to
a type `α` of finite numbers; the definitions of the other files are used as they are, with numbers of type `Ext α`.

Simplifications: the operations on finite numbers are those of `α` and never overflow; there is a single NaN and a single
zero, which counts as positive when something is divided by it.
-/

namespace DF

/-- The values of `double`, include/dataframe/types.h:29. -/
inductive Ext (α : Type)
  | fin (x : α)
  | pinf
  | ninf
  | nan
  deriving Repr

namespace Ext

variable {α : Type}

instance [Zero α] : Zero (Ext α) := ⟨fin 0⟩
instance [One α] : One (Ext α) := ⟨fin 1⟩
/-- Conversion of an integer to `double`, src/functional/stats/mean.cxx:40. -/
instance [NatCast α] : NatCast (Ext α) := ⟨fun n => fin n⟩
/-- Literals such as `1e-10`, src/functional/math/div.cxx:63. -/
instance [OfScientific α] : OfScientific (Ext α) := ⟨fun m s e => fin (OfScientific.ofScientific m s e)⟩
/-- `numeric_limits<double>::max()` and `lowest()` are finite, src/functional/math/minMax.cxx:40-41. -/
instance [Limits α] : Limits (Ext α) := ⟨fin Limits.highest, fin Limits.lowest⟩

/-- `a < b`: false as soon as one of them is NaN. Source: `std::min`, `std::max` in src/functional/math/minMax.cxx:45-46. -/
def lt [LT α] : Ext α → Ext α → Prop
  | fin x, fin y => x < y
  | fin _, pinf => True
  | ninf, fin _ => True
  | ninf, pinf => True
  | _, _ => False

/-- `a <= b`: false as soon as one of them is NaN. Source: include/dataframe/functional/math/equals.h:69. -/
def le [LE α] : Ext α → Ext α → Prop
  | fin x, fin y => x ≤ y
  | fin _, pinf => True
  | pinf, pinf => True
  | ninf, fin _ => True
  | ninf, pinf => True
  | ninf, ninf => True
  | _, _ => False

instance [LT α] : LT (Ext α) := ⟨lt⟩
instance [LE α] : LE (Ext α) := ⟨le⟩
instance [LT α] [DecidableLT α] : DecidableLT (Ext α) := fun a b => by
  show Decidable (lt a b)
  cases a <;> cases b <;> unfold lt <;> infer_instance
instance [LE α] [DecidableLE α] : DecidableLE (Ext α) := fun a b => by
  show Decidable (le a b)
  cases a <;> cases b <;> unfold le <;> infer_instance

/-- `a == b`: false as soon as one of them is NaN. Source: include/dataframe/functional/math/equals.h:47, 130. -/
instance [DecidableEq α] : BEq (Ext α) := ⟨fun a b => match a, b with
  | fin x, fin y => decide (x = y)
  | pinf, pinf => true
  | ninf, ninf => true
  | _, _ => false⟩

/-- `a + b`, src/functional/math/add.cxx:57. -/
def add [Add α] : Ext α → Ext α → Ext α
  | fin x, fin y => fin (x + y)
  | fin _, pinf => pinf
  | pinf, fin _ => pinf
  | pinf, pinf => pinf
  | fin _, ninf => ninf
  | ninf, fin _ => ninf
  | ninf, ninf => ninf
  | _, _ => nan

/-- `-a`. Source: src/functional/math/negate.cxx:34. -/
def neg [Neg α] : Ext α → Ext α
  | fin x => fin (-x)
  | pinf => ninf
  | ninf => pinf
  | nan => nan

/-- `a - b`, src/functional/math/sub.cxx:57. -/
def sub [Sub α] : Ext α → Ext α → Ext α
  | fin x, fin y => fin (x - y)
  | fin _, pinf => ninf
  | pinf, fin _ => pinf
  | pinf, ninf => pinf
  | fin _, ninf => pinf
  | ninf, fin _ => ninf
  | ninf, pinf => ninf
  | _, _ => nan

/-- An infinity times `x`. Source: src/functional/math/mult.cxx:33. -/
def infTimes [Zero α] [LT α] [DecidableLT α] (x : α) : Ext α := if 0 < x then pinf else if x < 0 then ninf else nan

/-- A negative infinity times `x`. Source: src/functional/math/mult.cxx:33. -/
def ninfTimes [Zero α] [LT α] [DecidableLT α] (x : α) : Ext α := if 0 < x then ninf else if x < 0 then pinf else nan

/-- `a * b`, src/functional/math/mult.cxx:33. -/
def mul [Zero α] [LT α] [DecidableLT α] [Mul α] : Ext α → Ext α → Ext α
  | fin x, fin y => fin (x * y)
  | fin x, pinf => infTimes x
  | pinf, fin x => infTimes x
  | fin x, ninf => ninfTimes x
  | ninf, fin x => ninfTimes x
  | pinf, pinf => pinf
  | pinf, ninf => ninf
  | ninf, pinf => ninf
  | ninf, ninf => pinf
  | _, _ => nan

/-- `a / b`, src/functional/math/div.cxx:33. -/
def div [Zero α] [LT α] [DecidableLT α] [DecidableEq α] [Div α] : Ext α → Ext α → Ext α
  | fin x, fin y => if y = 0 then infTimes x else fin (x / y)
  | fin _, pinf => fin 0
  | fin _, ninf => fin 0
  | pinf, fin y => if y < 0 then ninf else pinf
  | ninf, fin y => if y < 0 then pinf else ninf
  | _, _ => nan

/-- `std::sqrt`, src/functional/math/normalize.cxx:55. -/
def sqrt [Zero α] [LT α] [DecidableLT α] [Sqrt α] : Ext α → Ext α
  | fin x => if x < 0 then nan else fin (Sqrt.sqrt x)
  | pinf => pinf
  | _ => nan

/-- `std::floor` leaves the special values as they are (src/functional/stats/quantile.cxx:49). -/
def floor [Trunc α] : Ext α → Ext α
  | fin x => fin (Trunc.floor x)
  | x => x

/-- The conversion of a special value to `uint32_t` is undefined behaviour (src/functional/stats/bins.cxx:51). -/
def toU32 [Trunc α] : Ext α → Res Nat
  | fin x => Trunc.toU32 x
  | _ => .ub

instance [Trunc α] : Trunc (Ext α) := ⟨floor, toU32⟩
instance [Add α] : Add (Ext α) := ⟨add⟩
instance [Neg α] : Neg (Ext α) := ⟨neg⟩
instance [Sub α] : Sub (Ext α) := ⟨sub⟩
instance [Zero α] [LT α] [DecidableLT α] [Mul α] : Mul (Ext α) := ⟨mul⟩
instance [Zero α] [LT α] [DecidableLT α] [DecidableEq α] [Div α] : Div (Ext α) := ⟨div⟩
instance [Zero α] [LT α] [DecidableLT α] [Sqrt α] : Sqrt (Ext α) := ⟨sqrt⟩

end Ext

end DF
