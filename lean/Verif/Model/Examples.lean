import Verif.Model.Parallel
import Verif.Model.Geo
import Verif.Model.Eigen
import Verif.Model.Stats

/-!
# The two example programs that compute something

`examples/parallel-postprocess/main.cxx` sums the stress fields of point sources at the points of a grid, in parallel.
`examples/critical-stress/main.cxx` selects stress tensors and computes an index for each.

Not modelled: the texts that the programs print (they go to `std::cerr` and do not change the results).
-/

namespace DF

variable {α : Type}

/-! ## parallel-postprocess -/

/-- `Source`: its position and its displacement. The members `nu` and `mu` always are 0.25 and 1.
Source: examples/parallel-postprocess/main.cxx:62-64, 137-142. -/
structure Source (α : Type) where
  pos : List α
  U : List α

/-- `Source::stress`, examples/parallel-postprocess/main.cxx:65-135. The variables `r4`, `c1`, `nx`, `ny`, `nz` are not used
by the code and left out. -/
def Source.stress [Zero α] [One α] [Add α] [Sub α] [Neg α] [Mul α] [Div α] [LT α] [DecidableLT α] [OfScientific α] [Sqrt α]
    (src : Source α) (at_ : List α) : Res (List α) := do
  let nu : α := 0.25
  let mu : α := 1
  let x ← rd at_ 0
  let y ← rd at_ 1
  let z ← rd at_ 2
  let px ← rd src.pos 0
  let py ← rd src.pos 1
  let pz ← rd src.pos 2
  let dx := x - px
  let dy := y - py
  let dz := z - pz
  let r := Sqrt.sqrt (dx * dx + dy * dy + dz * dz)
  if r < 1e-10 then pure [0, 0, 0, 0, 0, 0] else
  let r2 := r * r
  let r3 := r2 * r
  let r5 := r3 * r2
  let a := 2.0 * mu
  let lambda := a * nu / (1.0 - 2.0 * nu)
  let c2 := 3.0 - 4.0 * nu
  let D1 := (c2 / r3) - (3.0 / r5) * (dx * dx)
  let D2 := (c2 / r3) - (3.0 / r5) * (dy * dy)
  let D3 := (c2 / r3) - (3.0 / r5) * (dz * dz)
  let D4 := -(3.0 / r5) * (dx * dy)
  let D5 := -(3.0 / r5) * (dy * dz)
  let D6 := -(3.0 / r5) * (dx * dz)
  let ux ← rd src.U 0
  let uy ← rd src.U 1
  let uz ← rd src.U 2
  let dux_dx := ux * D1 + uy * D4 + uz * D6
  let dux_dy := ux * D4 + uy * (-1.0 / r3) + uz * 0.0
  let dux_dz := ux * D6 + uy * 0.0 + uz * (-1.0 / r3)
  let duy_dx := uy * D4 + ux * (-1.0 / r3) + uz * 0.0
  let duy_dy := uy * D2 + ux * D4 + uz * D5
  let duy_dz := uy * D5 + ux * 0.0 + uz * (-1.0 / r3)
  let duz_dx := uz * D6 + ux * (-1.0 / r3) + uy * 0.0
  let duz_dy := uz * D5 + ux * 0.0 + uy * (-1.0 / r3)
  let duz_dz := uz * D3 + ux * D6 + uy * D5
  let b := lambda * (dux_dx + duy_dy + duz_dz)
  pure [a * dux_dx + b, mu * (dux_dy + duy_dx), mu * (dux_dz + duz_dx), a * duy_dy + b, mu * (duy_dz + duz_dy),
    a * duz_dz + b]

/-- Lambda of `Model::operator()`: the stresses of the sources are added to six zeros, one source after the other.
Source: examples/parallel-postprocess/main.cxx:156-165. -/
def sumStress [Zero α] [One α] [Add α] [Sub α] [Neg α] [Mul α] [Div α] [LT α] [DecidableLT α] [OfScientific α] [Sqrt α]
    (sources : List (Source α)) (at_ : List α) : Res (List α) :=
  sources.foldlM (fun s src => do
    let st ← src.stress at_
    forLoop (fun i s => do
      let x ← rd s i
      let y ← rd st i
      wr s i (x + y)) 0 6 s) [0, 0, 0, 0, 0, 0]

/-- `Model::operator()`, examples/parallel-postprocess/main.cxx:155-166. -/
def stressModel [Zero α] [One α] [Add α] [Sub α] [Neg α] [Mul α] [Div α] [LT α] [DecidableLT α] [OfScientific α] [Sqrt α]
    (sources : List (Source α)) (points : Serie α) : Res (Serie α) :=
  mapArr (fun at_ _ => sumStress sources at_) points

/-- The constructor of `Model`: `sources_`. The number of sources that is asked for is not used.
Source: examples/parallel-postprocess/main.cxx:148-153. -/
def modelSources [Zero α] [One α] [Add α] [Sub α] [Neg α] [Mul α] [Div α] [NatCast α] (_nbSources : Nat) :
    Res (List (Source α)) := do
  let grid ← fromPoints [100, 100] [-1, -1, -1] [(1 : α), 1, 1]
  Eff.exec (forEachV (fun pos _ => Eff.update fun sources => pure (sources ++ [⟨pos, [1, 0, 0]⟩])) grid) []

/-! ## critical-stress -/

/-- `std::exp`, examples/critical-stress/main.cxx:71. -/
class Exp (α : Type) where
  exp : α → α

/-- Second stage of the pipeline: the indices of the items whose first number is negative, then the copies of these items
of both Series. Source: examples/critical-stress/main.cxx:88-109. -/
def selectCompressed [Zero α] [LT α] [DecidableLT α] (positions stressValues : Serie α) : Res (Serie α × Serie α) := do
  let indices ← forLoop (fun i (idx : List Nat) => do
    let v ← stressValues.getA i
    let x ← rd v 0
    pure (if x < 0 then idx ++ [i] else idx)) 0 stressValues.count []
  let filteredPositions := Serie.zeros positions.itemSize (u32 indices.length)
  let filteredStress := Serie.zeros stressValues.itemSize (u32 indices.length)
  forLoop (fun i (p : Serie α × Serie α) => do
    let k ← rd indices i
    let pos ← positions.getA k
    let fp ← p.2.putA i pos
    let k ← rd indices i
    let val ← stressValues.getA k
    let fs ← p.1.putA i val
    pure (fs, fp)) 0 indices.length (filteredStress, filteredPositions)

/-- `computeCriticalityIndex`, examples/critical-stress/main.cxx:56-75. -/
def criticalityIndex [Zero α] [One α] [Sub α] [Neg α] [Mul α] [Div α] [OfScientific α] [Trig α] [Exp α]
    (cohesion frictionAngle : α) (stress positions : Serie α) : Res (Serie α) :=
  forLoop (fun i (result : Serie α) => do
    let values ← stress.getA i
    let pos ← positions.getA i
    let sigma1 ← rd values 0
    let sigma3 ← rd values 2
    let deviatoric := sigma1 - sigma3
    let criticalStress := 2.0 * cohesion * Trig.cos frictionAngle / (1 - Trig.sin frictionAngle)
    let z ← rd pos 2
    let depthFactor := Exp.exp (-(-z) / 1000.0)
    result.putD i ((deviatoric / criticalStress) * depthFactor)) 0 stress.count (Serie.zeros 1 stress.count)

/-- The pipeline, examples/critical-stress/main.cxx:78-115. -/
def criticalPipeline [Zero α] [One α] [Add α] [Sub α] [Neg α] [Mul α] [Div α] [LT α] [DecidableLT α] [LE α] [DecidableLE α]
    [DecidableEq α] [NatCast α] [OfScientific α] [Trig α] [Exp α] (cohesion frictionAngle : α) (positions stress : Serie α) :
    Res (Serie α) := do
  let vv ← eigenSystem stress
  let fsfp ← selectCompressed positions vv.1
  criticalityIndex cohesion frictionAngle fsfp.1 fsfp.2

end DF
