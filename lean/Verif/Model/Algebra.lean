import Verif.Model.View

/-!
# `functional/algebra`: transpose, det, inv, cross, dot, norm

Sources: src/functional/algebra/*.cxx.
-/

namespace DF

variable {α : Type}

/-- `{v[k₀], v[k₁], ...}`.
Source: src/functional/algebra/transpose.cxx:40-52. -/
def pick (v : List α) (ks : List Nat) : Res (List α) := ks.mapM (rd v)

/-- `transpose(serie)`, src/functional/algebra/transpose.cxx:32-54. -/
def transpose [Zero α] (s : Serie α) : Res (Serie α) :=
  if s.itemSize ≠ 4 ∧ s.itemSize ≠ 9 then .throw .invalidArgument
  else if s.itemSize = 4 then mapArr (fun item _ => pick item [0, 2, 1, 3]) s
  else mapArr (fun item _ => pick item [0, 3, 6, 1, 4, 7, 2, 5, 8]) s

/-- The expression of src/functional/algebra/det.cxx:40. -/
def det2 [Sub α] [Mul α] (m : MatView α) : Res (List α) := do
  let m00 ← m.at' 0 0
  let m11 ← m.at' 1 1
  let m01 ← m.at' 0 1
  let m10 ← m.at' 1 0
  pure [m00 * m11 - m01 * m10]

/-- The expression of src/functional/algebra/det.cxx:44-49 (each entry is read once here). -/
def det3 [Add α] [Sub α] [Mul α] (m : MatView α) : Res (List α) := do
  let m00 ← m.at' 0 0
  let m01 ← m.at' 0 1
  let m02 ← m.at' 0 2
  let m10 ← m.at' 1 0
  let m11 ← m.at' 1 1
  let m12 ← m.at' 1 2
  let m20 ← m.at' 2 0
  let m21 ← m.at' 2 1
  let m22 ← m.at' 2 2
  pure [m00 * m11 * m22 - m00 * m12 * m21 - m01 * m10 * m22 + m01 * m12 * m20 + m02 * m10 * m21 - m02 * m11 * m20]

/-- `det(s)`, src/functional/algebra/det.cxx:32-53. -/
def det [Zero α] [Add α] [Sub α] [Mul α] (s : Serie α) : Res (Serie α) :=
  if !s.isValid then .throw .invalidArgument
  else mapArr (fun v _ =>
    if (s.itemSize = 3 ∨ s.itemSize = 4) ∧ s.dimension = 2 then
      if v.length = 3 then symSquaredMatrix v >>= det2 else det2 (squaredMatrix v)
    else if (s.itemSize = 6 ∨ s.itemSize = 9) ∧ s.dimension = 3 then
      if v.length = 6 then symSquaredMatrix v >>= det3 else det3 (squaredMatrix v)
    else .throw .invalidArgument) s

/-- The lambda of src/functional/algebra/inv.cxx:41-65 (symmetric tensor). -/
def invSym [Zero α] [One α] [Add α] [Sub α] [Mul α] [Div α] [Neg α] [LT α] [DecidableLT α] [OfScientific α]
    (t : List α) : Res (List α) := do
  let xx ← rd t 0
  let xy ← rd t 1
  let xz ← rd t 2
  let yy ← rd t 3
  let yz ← rd t 4
  let zz ← rd t 5
  let det := xx * (yy * zz - yz * yz) - xy * (xy * zz - yz * xz) + xz * (xy * yz - yy * xz)
  if absv det < (1e-10 : α) then .throw .runtimeError
  else
    let invDet := 1 / det
    pure [(yy * zz - yz * yz) * invDet, (xz * yz - xy * zz) * invDet, (xy * yz - xz * yy) * invDet,
      (xx * zz - xz * xz) * invDet, (xy * xz - xx * yz) * invDet, (xx * yy - xy * xy) * invDet]

/-- The lambda of src/functional/algebra/inv.cxx:69-96 (full tensor). -/
def invFull [Zero α] [One α] [Add α] [Sub α] [Mul α] [Div α] [Neg α] [LT α] [DecidableLT α] [OfScientific α]
    (t : List α) : Res (List α) := do
  let xx ← rd t 0
  let xy ← rd t 1
  let xz ← rd t 2
  let yx ← rd t 3
  let yy ← rd t 4
  let yz ← rd t 5
  let zx ← rd t 6
  let zy ← rd t 7
  let zz ← rd t 8
  let det := xx * (yy * zz - yz * zy) - xy * (yx * zz - yz * zx) + xz * (yx * zy - yy * zx)
  if absv det < (1e-10 : α) then .throw .runtimeError
  else
    let invDet := 1 / det
    pure [(yy * zz - yz * zy) * invDet, (xz * zy - xy * zz) * invDet, (xy * yz - xz * yy) * invDet,
      (yz * zx - yx * zz) * invDet, (xx * zz - xz * zx) * invDet, (zx * xy - xx * zy) * invDet,
      (yx * zy - yy * zx) * invDet, (xy * zx - xx * zy) * invDet, (xx * yy - xy * yx) * invDet]

/-- `inv(serie)`, src/functional/algebra/inv.cxx:29-97. -/
def inv [Zero α] [One α] [Add α] [Sub α] [Mul α] [Div α] [Neg α] [LT α] [DecidableLT α] [OfScientific α]
    (s : Serie α) : Res (Serie α) :=
  if !s.isValid then pure Serie.empty
  else if s.dimension ≠ 3 ∨ (s.itemSize ≠ 6 ∧ s.itemSize ≠ 9) then pure Serie.empty
  else if s.itemSize = 6 then mapArr (fun t _ => invSym t) s
  else mapArr (fun t _ => invFull t) s

/-- The body of the lambda of src/functional/algebra/cross.cxx:45-46. -/
def crossItem [Sub α] [Mul α] (A B : List α) : Res (List α) := do
  let a0 ← rd A 0
  let a1 ← rd A 1
  let a2 ← rd A 2
  let b0 ← rd B 0
  let b1 ← rd B 1
  let b2 ← rd B 2
  pure [a1 * b2 - a2 * b1, a2 * b0 - a0 * b2, a0 * b1 - a1 * b0]

/-- `cross(a, b)`, src/functional/algebra/cross.cxx:29-48. -/
def cross [Zero α] [Sub α] [Mul α] (a b : Serie α) : Res (Serie α) :=
  if !a.isValid then .throw .invalidArgument
  else if !b.isValid then .throw .invalidArgument
  else if a.itemSize ≠ 3 then .throw .invalidArgument
  else if b.itemSize ≠ 3 then .throw .invalidArgument
  else mapArr (fun A i => do
    let B ← b.value i
    crossItem A B) a

/-- The loop of src/functional/algebra/dot.cxx:32-37, 49-53. -/
def dotItem [Zero α] [Add α] [Mul α] (itemSize : Nat) (arr bb : List α) : Res (List α) :=
  forLoop (fun k r => do
    let r0 ← rd r 0
    let x ← rd arr k
    let y ← rd bb k
    wr r 0 (r0 + x * y)) 0 itemSize [0]

/-- `dot(a, b)` of two Series, src/functional/algebra/dot.cxx:29-39. -/
def dot [Zero α] [Add α] [Mul α] (a b : Serie α) : Res (Serie α) :=
  mapArr (fun arr i => do
    let bb ← b.value i
    dotItem a.itemSize arr bb) a

/-- `dot(a, b)` of a Serie and an array, src/functional/algebra/dot.cxx:41-55. -/
def dotArray [Zero α] [Add α] [Mul α] (a : Serie α) (b : List α) : Res (Serie α) := do
  let v ← a.value 0
  if v.length ≠ b.length then pure Serie.empty
  else mapArr (fun arr _ => dotItem a.itemSize arr b) a

/-- `norm2(s)`, src/functional/algebra/norm.cxx:36-58. `createArray(1, s.count())` is one number equal to the count. -/
def norm2 [Zero α] [Add α] [Mul α] [NatCast α] (s : Serie α) : Res (Serie α) :=
  if !s.isValid then pure Serie.empty
  else if s.itemSize = 1 then s.clone
  else do
    let data ← forLoop (fun i data => do
      let v ← s.value i
      let n ← forLoop (fun j n => do
        let w ← rd v j
        pure (n + w * w)) 0 v.length 0
      wr data i n) 0 s.count [(s.count : α)]
    Serie.ofArray 1 data

/-- `norm(s)`, src/functional/algebra/norm.cxx:31-34. -/
def norm [Zero α] [Add α] [Mul α] [NatCast α] [Sqrt α] (s : Serie α) : Res (Serie α) := do
  let n ← norm2 s
  mapArr (fun a _ => do
    let x ← rd a 0
    pure [Sqrt.sqrt x]) n

end DF
