import Verif.Model.Stats
import Mathlib.Data.Real.Basic
import Mathlib.Analysis.Real.Sqrt
import Mathlib.Algebra.Order.Floor.Ring
import Mathlib.Data.Rat.Cast.OfScientific
import Mathlib.Tactic.Linarith
import Mathlib.Tactic.Positivity

/-!
# Machine numbers

`Array` is `std::vector<double>`, include/dataframe/types.h:29. The operations on `double` give the exact result rounded
to a nearest number with `p` binary digits (`p = 53`); ties are broken in any way.

Simplification: the range of exponents is unlimited, so there is no overflow, no underflow, no infinity, no NaN, and a
single zero. Division by zero has no meaning in the theorems (they all assume a non-zero divisor).
-/

namespace DF

/-- A number with `p` binary digits: include/dataframe/types.h:29, the values of `double` (without limits on the exponent). -/
def Representable (p : Nat) (x : ℝ) : Prop := ∃ m e : ℤ, |m| ≤ 2 ^ p ∧ x = m * (2 : ℝ) ^ e

/-- Rounding to nearest ([IEEE 754], 4.3.1), as used by every operation on `double` in src/ and include/. -/
structure Rounding (p : Nat) where
  /-- the rounded value -/
  fl : ℝ → ℝ
  rep : ∀ x, Representable p (fl x)
  near : ∀ x y, Representable p y → |fl x - x| ≤ |y - x|

variable {p : Nat}

/-- The type `double`, include/dataframe/types.h:29, for a given way of rounding. -/
structure Dbl (R : Rounding p) where
  /-- the number represented -/
  val : ℝ
  rep : Representable p val

variable {R : Rounding p}

namespace Dbl

/-- The exact result `x` rounded; used by every operation on `double` in src/ and include/. -/
def round (R : Rounding p) (x : ℝ) : Dbl R := ⟨R.fl x, R.rep x⟩

instance : Zero (Dbl R) := ⟨0, 0, 0, by simp, by simp⟩
instance : One (Dbl R) := ⟨1, 1, 0, by simp [one_le_pow₀], by simp⟩
/-- Conversion of an integer to `double`, src/functional/stats/mean.cxx:40. -/
noncomputable instance : NatCast (Dbl R) := ⟨fun n => round R n⟩
/-- `a + b`, src/functional/math/add.cxx:57. -/
noncomputable instance : Add (Dbl R) := ⟨fun a b => round R (a.val + b.val)⟩
/-- `a - b`, src/functional/math/sub.cxx:57. -/
noncomputable instance : Sub (Dbl R) := ⟨fun a b => round R (a.val - b.val)⟩
/-- `a * b`, src/functional/math/mult.cxx:33. -/
noncomputable instance : Mul (Dbl R) := ⟨fun a b => round R (a.val * b.val)⟩
/-- `a / b`, src/functional/math/div.cxx:33. -/
noncomputable instance : Div (Dbl R) := ⟨fun a b => round R (a.val / b.val)⟩
/-- `-a`: exact. -/
instance : Neg (Dbl R) := ⟨fun a => ⟨-a.val, by
  obtain ⟨m, e, h, hx⟩ := a.rep
  exact ⟨-m, e, by simpa using h, by rw [hx]; push_cast; ring⟩⟩⟩
/-- `std::sqrt`, src/functional/math/normalize.cxx:55. -/
noncomputable instance : Sqrt (Dbl R) := ⟨fun a => round R (Real.sqrt a.val)⟩
theorem val_injective : Function.Injective (Dbl.val (R := R)) := by
  intro a b h; cases a; cases b; cases h; rfl

/-- The comparisons `a < b`, `a <= b`: those of the numbers represented, src/functional/math/minMax.cxx:45-46. -/
noncomputable instance : LinearOrder (Dbl R) := LinearOrder.lift' Dbl.val val_injective

theorem floor_rep {x : ℝ} (h : Representable p x) : Representable p (⌊x⌋ : ℤ) := by
  obtain ⟨m, e, hm, rfl⟩ := h
  rcases le_or_gt 0 e with he | he
  · obtain ⟨d, rfl⟩ := Int.eq_ofNat_of_zero_le he
    refine ⟨m, d, hm, ?_⟩
    have : (m : ℝ) * (2 : ℝ) ^ (Int.ofNat d) = ((m * 2 ^ d : ℤ) : ℝ) := by push_cast; simp
    show ((⌊(m : ℝ) * (2 : ℝ) ^ (Int.ofNat d)⌋ : ℤ) : ℝ) = _
    rw [this, Int.floor_intCast]
    push_cast; simp
  · refine ⟨⌊(m : ℝ) * (2 : ℝ) ^ e⌋, 0, ?_, by simp⟩
    have h2 : (2 : ℝ) ^ e ≤ 1 := zpow_le_one_of_nonpos₀ (by norm_num) he.le
    have h3 : (0 : ℝ) < (2 : ℝ) ^ e := zpow_pos (by norm_num) _
    rw [abs_le] at hm ⊢
    have hm1 : (-2 ^ p : ℝ) ≤ m := by exact_mod_cast hm.1
    have hm2 : (m : ℝ) ≤ 2 ^ p := by exact_mod_cast hm.2
    have hp : (0 : ℝ) < 2 ^ p := by positivity
    constructor
    · rw [Int.le_floor]; push_cast; nlinarith
    · have := Int.floor_le ((m : ℝ) * (2 : ℝ) ^ e)
      have h4 : ((⌊(m : ℝ) * (2 : ℝ) ^ e⌋ : ℤ) : ℝ) ≤ ((2 ^ p : ℤ) : ℝ) := by push_cast; nlinarith
      exact_mod_cast h4

/-- `std::floor`, which is exact (src/functional/stats/quantile.cxx:49), and the conversion to `uint32_t`
(src/functional/stats/bins.cxx:51). -/
noncomputable instance : Trunc (Dbl R) := ⟨fun x => ⟨(⌊x.val⌋ : ℤ), floor_rep x.rep⟩, fun x => toU32 x.val⟩

/-- Literals such as `0.25`: the nearest number. Source: src/functional/stats/quantile.cxx:59. -/
noncomputable instance : OfScientific (Dbl R) := ⟨fun m s e => round R (OfScientific.ofScientific m s e)⟩

end Dbl

end DF
