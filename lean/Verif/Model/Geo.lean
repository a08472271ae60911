import Verif.Model.Algebra
import Verif.Model.Stats
import Mathlib.Data.Rat.Cast.OfScientific

/-!
# `functional/geo`

Source: include/dataframe/functional/geo and src/functional/geo. Numbers are exact.
-/

namespace DF

variable {α : Type}

/-! ## normals, areas -/

/-- `create(v1, v2)`, src/functional/geo/normals.cxx:62-64. -/
def edge [Sub α] (v1 v2 : List α) : Res (List α) := do
  let b0 ← rd v2 0
  let a0 ← rd v1 0
  let b1 ← rd v2 1
  let a1 ← rd v1 1
  let b2 ← rd v2 2
  let a2 ← rd v1 2
  pure [b0 - a0, b1 - a1, b2 - a2]

/-- `cross(v, w)`, src/functional/geo/normals.cxx:66-71. -/
def crossArr [Sub α] [Mul α] (v w : List α) : Res (List α) := do
  let v0 ← rd v 0
  let v1 ← rd v 1
  let v2 ← rd v 2
  let w0 ← rd w 0
  let w1 ← rd w 1
  let w2 ← rd w 2
  pure [v1 * w2 - v2 * w1, v2 * w0 - v0 * w2, v0 * w1 - v1 * w0]

/-- `positions.value(t[k])`: the number is converted to `uint32_t`.
Source: src/functional/geo/normals.cxx:51-53. -/
def vertex [Trunc α] (positions : Serie α) (t : List α) (k : Nat) : Res (List α) := do
  let x ← rd t k
  let i ← Trunc.toU32 x
  positions.value i

/-- The normal of one triangle, src/functional/geo/normals.cxx:50-53. -/
def normalOf [Sub α] [Mul α] [Trunc α] (positions : Serie α) (t : List α) : Res (List α) := do
  let v1 ← vertex positions t 0
  let v2 ← vertex positions t 1
  let v3 ← vertex positions t 2
  let a ← edge v1 v2
  let b ← edge v1 v3
  crossArr a b

/-- The lambda of src/functional/geo/normals.cxx:49-57; the captured variables are `data` and `i`. -/
def normalStep [Sub α] [Mul α] [Trunc α] (positions : Serie α) (t : List α) (p : List α × Nat) :
    Res (List α × Nat) := do
  let n ← normalOf positions t
  let n0 ← rd n 0
  let data ← wr p.1 p.2 n0
  let i := u32 (p.2 + 1)
  let n1 ← rd n 1
  let data ← wr data i n1
  let i := u32 (i + 1)
  let n2 ← rd n 2
  let data ← wr data i n2
  pure (data, u32 (i + 1))

/-- `normals(positions, indices)`, src/functional/geo/normals.cxx:36-60. -/
def normals [Zero α] [Sub α] [Mul α] [Trunc α] (positions indices : Serie α) : Res (Serie α) :=
  if !positions.isValid || !indices.isValid then pure Serie.empty
  else if positions.itemSize ≠ 3 ∨ indices.itemSize ≠ 3 then pure Serie.empty
  else do
    let p ← Eff.exec (forEachV (fun t _ => Eff.update (normalStep positions t)) indices)
      (List.replicate (u32 (indices.count * 3)) 0, 0)
    Serie.ofArray 3 p.1

/-- `areas(positions, indices)`, src/functional/geo/areas.cxx:32-37. The call `math::div(norms, 2)` can only be the overload
on two Series (include/dataframe/functional/math/div.h:31-32), the number 2 being converted to the Serie `Serie(2)` of no
items. -/
def areas [Zero α] [Add α] [Sub α] [Mul α] [Div α] [Neg α] [NatCast α] [LT α] [DecidableLT α] [OfScientific α] [Sqrt α]
    [Trunc α] (positions indices : Serie α) :
    Res (Serie α) :=
  if !positions.isValid || !indices.isValid then pure Serie.empty
  else do
    let n ← normals positions indices
    let n ← norm n
    divSerie n (Serie.zeros 2 0)

/-! ## insar, fringes -/

/-- `insar(u, los)`, src/functional/geo/insar.cxx:37-47. -/
def insar [Zero α] [Add α] [Mul α] (u : Serie α) (los : List α) : Res (Serie α) :=
  if !u.isValid || u.itemSize ≠ 3 then pure Serie.empty
  else if los.length ≠ 3 then pure Serie.empty
  else dotArray u los

/-- `frac(val)`, src/functional/geo/insar.cxx:49. -/
def frac [Sub α] [Trunc α] (x : α) : α := x - Trunc.floor x

/-- `fringes(insar, fringeSpacing)`, src/functional/geo/insar.cxx:57-65. The quotient by a spacing of zero is
an infinity or a NaN for the numbers of `Ext` (C144), zero for exact numbers. -/
def fringes [Zero α] [Sub α] [Mul α] [Div α] [Neg α] [LT α] [DecidableLT α] [Trunc α] (s : Serie α) (spacing : α) : Res (Serie α) :=
  if !s.isValid || s.itemSize ≠ 1 then pure Serie.empty
  else mapArr (fun v _ => do
    let x ← rd v 0
    pure [absv (spacing * frac (x / spacing))]) s

/-! ## cartesian grids -/

/-- `total`, include/dataframe/functional/geo/cartesian_grid.h:62-65, 122-125. -/
def gridTotal (npts : List Nat) : Nat := npts.foldl (fun total n => u32 (total * n)) 1

/-- The array `spacing`, resp. `delta`, include/dataframe/functional/geo/cartesian_grid.h:71-74, 131-134; `size i` is `dimensions[i]`, resp.
`p2[i] - p1[i]`. -/
def gridSpacing [Zero α] [Div α] [NatCast α] (npts : List Nat) (size : Nat → Res α) : Res (List α) :=
  forLoop (fun i spacing => do
    let n ← rd npts i
    if n > 1 then do
      let d ← size i
      wr spacing i (d / ((n - 1 : Nat) : α))
    else wr spacing i 0) 0 npts.length [0, 0, 0]

/-- The loops of include/dataframe/functional/geo/cartesian_grid.h:81-90, 141-149. -/
def gridFill (n : List Nat) (point : Nat → Nat → Nat → Res (List α)) (p : Serie α × Nat) :
    Res (Serie α × Nat) := do
  let n0 ← rd n 0
  let n1 ← rd n 1
  let n2 ← rd n 2
  forLoop (fun k p => forLoop (fun j p => forLoop (fun i (p : Serie α × Nat) => do
    let v ← point i j k
    let result ← p.1.putA p.2 v
    pure (result, u32 (p.2 + 1))) 0 n0 p) 0 n1 p) 0 n2 p

/-- `n.resize(3, 1)`, include/dataframe/functional/geo/cartesian_grid.h:77-78, 137-138. -/
def gridCounts (npts : List Nat) : List Nat := (npts ++ [1, 1, 1]).take 3

/-- `from_dims(npts, center, dimensions)`, include/dataframe/functional/geo/cartesian_grid.h:50-93. -/
def fromDims [Zero α] [Add α] [Sub α] [Mul α] [Div α] [NatCast α] [OfNat α 2] (npts : List Nat)
    (center dimensions : List α) : Res (Serie α) :=
  if npts = [] ∨ npts.length > 3 then .throw .invalidArgument
  else if center.length ≠ 3 ∨ dimensions.length ≠ 3 then .throw .invalidArgument
  else do
    let spacing ← gridSpacing npts (rd dimensions)
    let coord (a i : Nat) : Res α := do
      let c ← rd center a
      let d ← rd dimensions a
      let s ← rd spacing a
      pure (c - d / 2 + (i : α) * s)
    let p ← gridFill (gridCounts npts) (fun i j k => do
      let x ← coord 0 i
      let y ← coord 1 j
      let z ← coord 2 k
      pure [x, y, z]) (Serie.zeros 3 (gridTotal npts), 0)
    pure p.1

/-- `from_points(npts, p1, p2)`, include/dataframe/functional/geo/cartesian_grid.h:113-152. -/
def fromPoints [Zero α] [Add α] [Sub α] [Mul α] [Div α] [NatCast α] (npts : List Nat) (p1 p2 : List α) :
    Res (Serie α) :=
  if npts = [] ∨ npts.length > 3 then .throw .invalidArgument
  else if p1.length ≠ 3 ∨ p2.length ≠ 3 then .throw .invalidArgument
  else do
    let delta ← gridSpacing npts (fun i => do
      let b ← rd p2 i
      let a ← rd p1 i
      pure (b - a))
    let coord (a i : Nat) : Res α := do
      let p ← rd p1 a
      let d ← rd delta a
      pure (p + (i : α) * d)
    let p ← gridFill (gridCounts npts) (fun i j k => do
      let x ← coord 0 i
      let y ← coord 1 j
      let z ← coord 2 k
      pure [x, y, z]) (Serie.zeros 3 (gridTotal npts), 0)
    pure p.1

end DF
