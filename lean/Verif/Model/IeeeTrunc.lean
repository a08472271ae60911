import Verif.Model.Ieee
import Verif.Model.Stats

/-!
# `floor` and conversion to `uint32_t` for machine numbers with a limited range
-/

namespace DF

variable {D : Machine}

/-- `std::floor`, src/functional/stats/quantile.cxx:49: infinities and NaN stay as they are. For `double` the whole part is a value of
the format, so that nothing is rounded; for the other formats of the model it is rounded (simplification).
The conversion to `uint32_t`, src/functional/stats/quantile.cxx:52, is undefined for infinities and NaN. -/
noncomputable instance : Trunc (Ext (Num D)) := ⟨fun
  | .fin x => Ext.ofReal D ((⌊x.val⌋ : ℤ) : ℝ)
  | x => x, fun
  | .fin x => toU32 x.val
  | _ => .ub⟩

end DF
