import Verif.Model.Float
import Verif.Model.Special

/-!
# Machine numbers with a limited range

`Array` is `std::vector<double>`, include/dataframe/types.h:29. Here the exponents are limited: results that are too large
become infinities, small ones are rounded to a multiple of the smallest positive number. The definitions of the other files
are used as they are, with numbers of type `Ext (Num D)`.

Simplification: there is a single NaN and a single zero, which counts as positive when something is divided by it.
-/

namespace DF

/-- A number with `p` binary digits and an exponent of at least `emin`: include/dataframe/types.h:29, the values of `double`
(without limit on large numbers). -/
def RepMin (p : Nat) (emin : ℤ) (x : ℝ) : Prop := ∃ m e : ℤ, |m| ≤ 2 ^ p ∧ emin ≤ e ∧ x = m * (2 : ℝ) ^ e

/-- A floating-point format with its rounding to nearest ([IEEE 754], 3.3 and 4.3.1): `p` binary digits, the smallest
positive number `2^emin`, the largest one `top`. For `double` (include/dataframe/types.h:29) `p = 53`, `emin = -1074`,
`top = (2^53 - 1) 2^971`. `fl` rounds as if there were no largest number; ties are broken in any way. -/
structure Machine where
  p : Nat
  emin : ℤ
  top : ℝ
  emin_le : emin ≤ 0
  top_le : 1 ≤ top
  top_rep : RepMin p emin top
  fl : ℝ → ℝ
  rep : ∀ x, RepMin p emin (fl x)
  near : ∀ x y, RepMin p emin y → |fl x - x| ≤ |y - x|

/-- The finite values of the format: include/dataframe/types.h:29, a `double` that is not an infinity or NaN. -/
structure Num (D : Machine) where
  /-- the number represented -/
  val : ℝ
  rep : RepMin D.p D.emin val
  le : |val| ≤ D.top

namespace Num

variable {D : Machine}

theorem val_injective : Function.Injective (Num.val (D := D)) := by
  intro a b h; cases a; cases b; cases h; rfl

/-- The comparisons `a < b`, `a <= b`: those of the numbers represented, src/functional/math/minMax.cxx:45-46. -/
noncomputable instance : LinearOrder (Num D) := LinearOrder.lift' Num.val val_injective

instance : Zero (Num D) := ⟨0, ⟨0, 0, by simp, D.emin_le, by simp⟩, by simpa using le_trans zero_le_one D.top_le⟩
instance : One (Num D) := ⟨1, ⟨1, 0, by simp [one_le_pow₀], D.emin_le, by simp⟩, by simpa using D.top_le⟩
/-- `numeric_limits<double>::max()` and `lowest()`, src/functional/math/minMax.cxx:40-41. -/
instance : Limits (Num D) := ⟨⟨D.top, D.top_rep, by rw [abs_of_nonneg (le_trans zero_le_one D.top_le)]⟩, ⟨-D.top, by
  obtain ⟨m, e, h, h1, hx⟩ := D.top_rep
  exact ⟨-m, e, by simpa using h, h1, by rw [hx]; push_cast; ring⟩, by
  rw [abs_neg, abs_of_nonneg (le_trans zero_le_one D.top_le)]⟩⟩
/-- `-a`: exact. Source: src/functional/math/negate.cxx:34. -/
instance : Neg (Num D) := ⟨fun a => ⟨-a.val, by
  obtain ⟨m, e, h, h1, hx⟩ := a.rep
  exact ⟨-m, e, by simpa using h, h1, by rw [hx]; push_cast; ring⟩, by simpa using a.le⟩⟩

end Num

namespace Ext

variable {D : Machine}

/-- The exact result `x` rounded, or an infinity when that is too large ([IEEE 754], 7.4); used by every operation on
`double` in src/ and include/. -/
noncomputable def ofReal (D : Machine) (x : ℝ) : Ext (Num D) :=
  open Classical in
  if h : |D.fl x| ≤ D.top then fin ⟨D.fl x, D.rep x, h⟩ else if 0 < x then pinf else ninf

/-- Conversion of an integer to `double`, src/functional/stats/mean.cxx:40. -/
noncomputable instance : NatCast (Ext (Num D)) := ⟨fun n => ofReal D n⟩
/-- Literals such as `1e-10`: the nearest number. Source: src/functional/math/div.cxx:63. -/
noncomputable instance : OfScientific (Ext (Num D)) := ⟨fun m s e => ofReal D (OfScientific.ofScientific m s e)⟩

/-- `a + b`, src/functional/math/add.cxx:57. -/
noncomputable instance : Add (Ext (Num D)) := ⟨fun
  | fin x, fin y => ofReal D (x.val + y.val)
  | fin _, pinf => pinf
  | pinf, fin _ => pinf
  | pinf, pinf => pinf
  | fin _, ninf => ninf
  | ninf, fin _ => ninf
  | ninf, ninf => ninf
  | _, _ => nan⟩

/-- `a - b`, src/functional/math/sub.cxx:57. -/
noncomputable instance : Sub (Ext (Num D)) := ⟨fun
  | fin x, fin y => ofReal D (x.val - y.val)
  | fin _, pinf => ninf
  | pinf, fin _ => pinf
  | pinf, ninf => pinf
  | fin _, ninf => pinf
  | ninf, fin _ => ninf
  | ninf, pinf => ninf
  | _, _ => nan⟩

/-- `a * b`, src/functional/math/mult.cxx:33. -/
noncomputable instance : Mul (Ext (Num D)) := ⟨fun
  | fin x, fin y => ofReal D (x.val * y.val)
  | fin x, pinf => infTimes x
  | pinf, fin x => infTimes x
  | fin x, ninf => ninfTimes x
  | ninf, fin x => ninfTimes x
  | pinf, pinf => pinf
  | pinf, ninf => ninf
  | ninf, pinf => ninf
  | ninf, ninf => pinf
  | _, _ => nan⟩

/-- `a / b`, src/functional/math/div.cxx:33. -/
noncomputable instance : Div (Ext (Num D)) := ⟨fun
  | fin x, fin y => if y = 0 then infTimes x else ofReal D (x.val / y.val)
  | fin _, pinf => fin 0
  | fin _, ninf => fin 0
  | pinf, fin y => if y < 0 then ninf else pinf
  | ninf, fin y => if y < 0 then pinf else ninf
  | _, _ => nan⟩

/-- `std::sqrt`, src/functional/math/normalize.cxx:55. -/
noncomputable instance : Sqrt (Ext (Num D)) := ⟨fun
  | fin x => if x < 0 then nan else ofReal D (Real.sqrt x.val)
  | pinf => pinf
  | _ => nan⟩

end Ext

end DF
