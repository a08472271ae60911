import Verif.Model.Float
import Verif.Model.Stats
import Verif.Spec.Serie

/-!
# Specification vocabulary for changes of unit in rounded arithmetic
-/

namespace DF.Spec

variable {p : Nat} {R : Rounding p}

/-- Rounding to nearest, ties to even ([IEEE 754], 4.3.1): half-way between two consecutive numbers, `m` and `m + 1` in units of
their last place, the result is the even one. Positive and negative numbers are treated alike. -/
def TiesToEven (R : Rounding p) : Prop :=
  ∀ (m : ℕ) (e : ℤ), 2 ^ p ≤ 2 * m → m < 2 ^ p → ∀ s : ℝ, s = 1 ∨ s = -1 →
    R.fl (s * ((m + 1 / 2) * (2 : ℝ) ^ e)) = s * ((if Even m then (m : ℝ) else m + 1) * (2 : ℝ) ^ e)

/-- A factor that commutes with rounding. -/
def ExactFactor (R : Rounding p) (k : ℝ) : Prop := ∀ x, R.fl (k * x) = k * R.fl x

/-- The second number is exactly `k` times the first one. -/
def Times (k : ℝ) (x y : Dbl R) : Prop := y.val = k * x.val

/-- The numbers lie between the limits of `double`; needed for Series of numbers only. -/
def InLimits [Limits (Dbl R)] (s : Serie (Dbl R)) : Prop := s.itemSize = 1 → ∀ x ∈ scalars s, Limits.lowest ≤ x ∧ x ≤ Limits.highest

/-- The numbers of the divider are not below the threshold of `div`. -/
def Divides (s : Serie (Dbl R)) : Prop := ∀ x ∈ s.data, (1e-10 : Dbl R).val ≤ |x.val|

end DF.Spec
