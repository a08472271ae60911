import Verif.Spec.Eigen
import Verif.Model.Examples
import Mathlib.Analysis.SpecialFunctions.Pow.Real

/-!
# Specification vocabulary for the example programs
-/

namespace DF.Spec

/-- Stress at `d` from a source with displacement `u`, in closed form: with `e = 2 u / r³ - 3 (u · d) d / r⁵` the diagonal is
`2 eᵢ + ∑ e` and the other entries are `-(uᵢ + uⱼ) (1 / r³ + 3 dᵢ dⱼ / r⁵)`. -/
noncomputable def pointStress (d u : Fin 3 → ℝ) : Matrix (Fin 3) (Fin 3) ℝ :=
  let r := √(∑ k, d k ^ 2)
  let e := fun i => 2 * u i / r ^ 3 - 3 * (∑ k, u k * d k) * d i / r ^ 5
  fun i j => if i = j then 2 * e i + ∑ k, e k else -(u i + u j) * (1 / r ^ 3 + 3 * d i * d j / r ^ 5)

/-- Distance of a point from a source. -/
noncomputable def sourceDist (src : Source ℝ) (p : List ℝ) : ℝ := √(∑ k, (vec 3 p k - vec 3 src.pos k) ^ 2)

open Classical in
/-- The stress of a source at a point: zero closer than `1e-10`. -/
noncomputable def sourceStress (src : Source ℝ) (p : List ℝ) : Matrix (Fin 3) (Fin 3) ℝ :=
  if sourceDist src p < 1e-10 then 0 else pointStress (vec 3 p - vec 3 src.pos) (vec 3 src.U)

/-- A source in space: three coordinates, three components of the displacement. -/
def SourceOK (src : Source ℝ) : Prop := src.pos.length = 3 ∧ src.U.length = 3

/-- The numbers of an array in the order given by `σ`. -/
def reorder (σ : Equiv.Perm (Fin 3)) (l : List ℝ) : List ℝ := List.ofFn fun i => num l (σ i)

/-- `xᵀ A x`. -/
def quad {n : Nat} (A : Matrix (Fin n) (Fin n) ℝ) (x : Fin n → ℝ) : ℝ := ∑ i, ∑ j, x i * A i j * x j

end DF.Spec
