import Verif.Model.Math
import Verif.Model.Utils
import Mathlib.Algebra.Order.Floor.Defs
import Mathlib.Algebra.Field.Defs

/-!
# `functional/stats`: bins, mean, covariance, quantile, outliers

Sources: src/functional/stats/*.cxx.

Where the code would divide by zero and convert the infinity or NaN to an integer, the model says `ub`.
-/

namespace DF

variable {α : Type}

/-- Run an update of the captured variables.
Source: the lambdas of src/functional/stats/*.cxx and src/functional/math/minMax.cxx:40-66 that capture by reference. -/
def Eff.update {σ : Type} (f : σ → Res σ) : Eff σ Unit := fun s =>
  match f s with
  | .ok s' => (.ok (), s')
  | .throw e => (.throw e, s)
  | .ub => (.ub, s)

/-! ## bins -/

/-- `std::floor` (src/functional/stats/quantile.cxx:49, src/functional/geo/insar.cxx:49) and the conversion of a `double` to
`uint32_t` (src/functional/stats/bins.cxx:51). -/
class Trunc (α : Type) where
  /-- `std::floor` -/
  floor : α → α
  /-- the conversion -/
  toU32 : α → Res Nat

/-- Conversion of a `double` to `uint32_t` (as in src/functional/stats/bins.cxx:51): truncation towards zero, undefined
behaviour when the truncated value does not fit. -/
def toU32 [Ring α] [LinearOrder α] [FloorRing α] (x : α) : Res Nat :=
  if -1 < x ∧ x < 2 ^ 32 then .ok ⌊x⌋.toNat else .ub

/-- The same for exact numbers; src/functional/stats/quantile.cxx:49, src/functional/stats/bins.cxx:51. -/
instance [Ring α] [LinearOrder α] [FloorRing α] : Trunc α := ⟨fun x => ((⌊x⌋ : ℤ) : α), toU32⟩

/-- The lambda of src/functional/stats/bins.cxx:50-61, updating the captured array `b`. The quotient by a `size` of zero
is an infinity or a NaN. -/
def binOne [Zero α] [One α] [Add α] [Sub α] [Div α] [BEq α] [Trunc α] (nb : Nat) (start size v : α) : Eff (List α) Unit := do
  let i ← Eff.lift (if size == 0 then .ub else Trunc.toU32 ((v - start) / size))
  let i := if i ≥ nb then nb - 1 else i
  if i ≥ nb then Eff.throw .invalidArgument
  else Eff.update (fun b => do
    let x ← rd b i
    wr b i (x + 1))

/-- `bins(serie, nb, start, stop)`, src/functional/stats/bins.cxx:37-64. -/
def binsIn [Zero α] [One α] [Add α] [Sub α] [Div α] [NatCast α] [BEq α] [Trunc α] (s : Serie α) (nb : Nat)
    (start stop : α) : Res (Serie α) :=
  if s.itemSize ≠ 1 then .throw .invalidArgument
  else if nb < 1 then pure Serie.empty
  else
    let size := (stop - start) / (nb : α)
    do
      let b ← Eff.exec (forEachS (fun v _ => binOne nb start size v) s) (List.replicate nb 0)
      Serie.ofArray 1 b

/-- `bins(serie, nb)`, src/functional/stats/bins.cxx:32-35. -/
def bins [Zero α] [One α] [Add α] [Sub α] [Div α] [NatCast α] [LT α] [DecidableLT α] [BEq α] [Trunc α] [Limits α]
    (s : Serie α) (nb : Nat) : Res (Serie α) := do
  let (min, max) ← minMax s
  let start ← rd min 0
  let stop ← rd max 0
  binsIn s nb start stop

/-! ## mean, covariance -/

/-- `Tuple`, include/dataframe/types.h:39-43: `number` when `isNumber`, else `array`. Simplification: the other member
(indeterminate, resp. empty) is left out. -/
inductive Tuple (α : Type)
  | number (x : α)
  | array (a : List α)
  deriving DecidableEq, Repr

/-- `mean(serie)`, src/functional/stats/mean.cxx:32-58. -/
def mean [Zero α] [Add α] [Div α] [NatCast α] (s : Serie α) : Res (Tuple α) :=
  if s.itemSize = 1 then do
    let sum ← (reduceS (σ := Unit) (fun prev cur _ => pure (prev + cur)) s 0 ()).1
    pure (.number (sum / (s.count : α)))
  else do
    let b ← Eff.exec (forEachV (fun a _ => Eff.update (fun b => updLoop a.length (fun j x => do
      let y ← rd a j
      pure (x + y)) b)) s) (List.replicate s.itemSize 0)
    pure (.array (b.map (· / (s.count : α))))

/-- `mean(x).number` as read in src/functional/stats/covariance.cxx:47-48: indeterminate for arrays. -/
def Tuple.getNumber : Tuple α → Res α
  | .number x => .ok x
  | .array _ => .ub

/-- `covariance(x, y)`, src/functional/stats/covariance.cxx:34-54. -/
def covariance [Zero α] [Add α] [Sub α] [Mul α] [Div α] [NatCast α] (x y : Serie α) : Res α :=
  if x.count ≠ y.count then .throw .invalidArgument
  else if x.itemSize ≠ 1 then .throw .invalidArgument
  else if y.itemSize ≠ 1 then .throw .invalidArgument
  else do
    let n : α := (x.size : α)
    let xb ← mean x >>= Tuple.getNumber
    let yb ← mean y >>= Tuple.getNumber
    let dx ← subNum x xb
    let dy ← subNum y yb
    let p ← multSerie dx dy
    (reduceS (σ := Unit) (fun acc value _ => pure (acc + value / n)) p 0 ()).1

/-! ## quantile, outliers -/

/-- `quantile(s, q)`, src/functional/stats/quantile.cxx:35-57. `sorted.size() - 1` is computed in `size_t`. -/
def quantile [Zero α] [One α] [Add α] [Sub α] [Mul α] [NatCast α] [LT α] [DecidableLT α] [BEq α] [Trunc α]
    (srt : StdSort) (s : Serie α) (q : α) : Res α :=
  if !s.isValid then .throw .invalidArgument
  else if s.itemSize ≠ 1 then .throw .invalidArgument
  else if q < 0 ∨ q > 1 then .throw .invalidArgument
  else do
    let newSerie ← sortDefault srt s
    let sorted := newSerie.data
    let last : Nat := if sorted.length = 0 then 2 ^ 64 - 1 else sorted.length - 1
    let pos : α := (last : α) * q
    let base : α := Trunc.floor pos
    let rest := pos - base
    let next ← Trunc.toU32 (base + 1)
    if next < sorted.length then do
      let k ← Trunc.toU32 base
      let a ← rd sorted k
      let b ← rd sorted next
      pure (a + rest * (b - a))
    else do
      let k ← Trunc.toU32 base
      rd sorted k

/-- `q25`, src/functional/stats/quantile.cxx:59. -/
def q25 [Zero α] [One α] [Add α] [Sub α] [Mul α] [NatCast α] [LT α] [DecidableLT α] [BEq α] [Trunc α] [OfScientific α]
    (srt : StdSort) (s : Serie α) : Res α := quantile srt s 0.25

/-- `q50`, src/functional/stats/quantile.cxx:61. -/
def q50 [Zero α] [One α] [Add α] [Sub α] [Mul α] [NatCast α] [LT α] [DecidableLT α] [BEq α] [Trunc α] [OfScientific α]
    (srt : StdSort) (s : Serie α) : Res α := quantile srt s 0.5

/-- `q75`, src/functional/stats/quantile.cxx:63. -/
def q75 [Zero α] [One α] [Add α] [Sub α] [Mul α] [NatCast α] [LT α] [DecidableLT α] [BEq α] [Trunc α] [OfScientific α]
    (srt : StdSort) (s : Serie α) : Res α := quantile srt s 0.75

/-- `IQR`, src/functional/stats/quantile.cxx:65. -/
def iqr [Zero α] [One α] [Add α] [Sub α] [Mul α] [NatCast α] [LT α] [DecidableLT α] [BEq α] [Trunc α] [OfScientific α]
    (srt : StdSort) (s : Serie α) : Res α := do
  let a ← quantile srt s 0.75
  let b ← quantile srt s 0.25
  pure (a - b)

/-- `__ouliers__(s, mustache)`, src/functional/stats/quantile.cxx:106-111. -/
def outlierBounds [Zero α] [One α] [Add α] [Sub α] [Mul α] [NatCast α] [LT α] [DecidableLT α] [BEq α] [Trunc α]
    [OfScientific α] (srt : StdSort) (s : Serie α) (mustache : α) : Res (α × α) := do
  let a ← q25 srt s
  let b ← q75 srt s
  let d := b - a
  pure (a - mustache * d, b + mustache * d)

/-- `outliers(serie, mustache)`, src/functional/stats/quantile.cxx:67-74; `cut` is `filter`
(include/dataframe/functional/utils/cut.h:32-34). -/
def outliers [Zero α] [One α] [Add α] [Sub α] [Mul α] [NatCast α] [LT α] [DecidableLT α] [BEq α] [Trunc α]
    [OfScientific α] (srt : StdSort) (s : Serie α) (mustache : α) : Res (Serie α) := do
  let o ← outlierBounds srt s mustache
  (filterS (σ := Unit) (fun v _ => pure (decide (v < o.1) || decide (v > o.2))) s ()).1

/-- `isOutliers(serie, mustache)`, src/functional/stats/quantile.cxx:81-86. -/
def isOutliers [Zero α] [One α] [Add α] [Sub α] [Mul α] [NatCast α] [LT α] [DecidableLT α] [BEq α] [Trunc α]
    [OfScientific α] (srt : StdSort) (s : Serie α) (mustache : α) : Res (Serie α) := do
  let o ← outlierBounds srt s mustache
  (checkS (σ := Unit) s (fun v _ => pure (decide (v < o.1) || decide (v > o.2))) ()).1

/-- `notOutliers(serie, mustache)`, src/functional/stats/quantile.cxx:95-102. -/
def notOutliers [Zero α] [One α] [Add α] [Sub α] [Mul α] [NatCast α] [LT α] [DecidableLT α] [LE α] [DecidableLE α] [BEq α] [Trunc α]
    [OfScientific α] (srt : StdSort) (s : Serie α) (mustache : α) : Res (Serie α) := do
  let o ← outlierBounds srt s mustache
  (filterS (σ := Unit) (fun v _ => pure (decide (v ≥ o.1) && decide (v ≤ o.2))) s ()).1

end DF
