import Verif.Model.Math
import Mathlib.Algebra.Order.Floor.Defs

/-!
# `view/Matrix` and `view/Vector`

Sources: src/view/Matrix.cxx, src/view/Vector.cxx, include/dataframe/view/*.h.

A `df::Vector` owns its array: it is a list. A `df::Matrix` only refers to an array: reading it after the array has been
destroyed is undefined behaviour.
-/

namespace DF

variable {α : Type}

/-! ## Indices -/

/-- `index(i, j, m)`, src/view/Matrix.cxx:29-32, in `uint`. -/
def matIndex (i j m : Nat) : Nat := u32 (i * m + j)

/-- `indexS(i, j, m)`, src/view/Matrix.cxx:34-42. `2 * m - 1 - j` is computed in `uint`; its product with `j` is always
even, so that half of it is an integer. The `double` result is converted to `uint`: undefined behaviour when it does not
fit, exact below. -/
def indexS (i j m : Nat) : Res Nat :=
  let packed (i j : Nat) : Res Nat :=
    let p := j * u32 (2 * m + 2 ^ 33 - 1 - j) / 2 + i
    if p < 2 ^ 32 then .ok p else .ub
  if j < i then packed i j else packed j i

/-! ## Matrix -/

/-- `class Matrix`, include/dataframe/view/Matrix.h:47-49. `v` is the array referred to by `v_`; `none` once that array
has been destroyed. -/
structure MatView (α : Type) where
  v : Option (List α)
  m : Nat
  deriving DecidableEq

namespace MatView

/-- Use of the reference `v_`.
Source: src/view/Matrix.cxx and src/view/Vector.cxx, every access. -/
def deref (M : MatView α) : Res (List α) :=
  match M.v with
  | some v => .ok v
  | none => .ub

/-- `Matrix(v, m)`, src/view/Matrix.cxx:46-48, for an array that outlives the matrix. -/
def of (v : List α) (m : Nat) : MatView α := ⟨some v, m⟩

/-- `return Matrix(t, m)` for a local array `t`: the array is destroyed on return.
Source: src/view/Matrix.cxx:114, 157, 179. -/
def dangling (m : Nat) : MatView α := ⟨none, m⟩

/-- `length()`, src/view/Matrix.cxx:50-53. -/
def length (M : MatView α) : Res Nat := do
  let v ← M.deref
  pure (u32 v.length)

/-- `at(i, j)`, src/view/Matrix.cxx:60-63. -/
def at' (M : MatView α) (i j : Nat) : Res α := do
  let v ← M.deref
  rd v (matIndex i j M.m)

/-- `isSymmetric()`, src/view/Matrix.cxx:65-73; `ok && ...` reads nothing once `ok` is false. -/
def isSymmetric [DecidableEq α] (M : MatView α) : Res Bool :=
  forLoop (fun i ok =>
    forLoop (fun j ok =>
      if ok then do
        let a ← M.at' i j
        let b ← M.at' j i
        pure (decide (a = b))
      else pure false) i (M.m - i) ok) 0 M.m true

/-- `array()`, src/view/Matrix.cxx:75-91. -/
def array [Zero α] [DecidableEq α] (M : MatView α) : Res (List α) := do
  let sym ← M.isSymmetric
  if sym then do
    let (a, _) ← forLoop (fun i (p : List α × Nat) =>
      forLoop (fun j (p : List α × Nat) => do
        let x ← M.at' i j
        let a ← wr p.1 p.2 x
        pure (a, u32 (p.2 + 1))) i (M.m - i) p) 0 M.m (List.replicate (u32 (M.m * (M.m + 1)) / 2) 0, 0)
    pure a
  else M.deref

/-- `trace()`, src/view/Matrix.cxx:93-101. -/
def trace [Zero α] [Add α] (M : MatView α) : Res α :=
  forLoop (fun i t => do
    let x ← M.at' i i
    pure (t + x)) 0 M.m 0

/-- `transpose()`, src/view/Matrix.cxx:103-115: the returned matrix refers to the local array `v`. -/
def transpose [Zero α] (M : MatView α) : Res (MatView α) := do
  let src ← M.deref
  let _ ← forLoop (fun j (p : List α × Nat) =>
    forLoop (fun i (p : List α × Nat) => do
      let x ← M.at' i j
      let v ← wr p.1 p.2 x
      pure (v, u32 (p.2 + 1))) 0 M.m p) 0 M.m (List.replicate src.length 0, 0)
  pure (dangling M.m)

/-- `multVec(v)`, src/view/Matrix.cxx:117-135. -/
def multVec [Zero α] [Add α] [Mul α] (M : MatView α) (a : List α) : Res (List α) :=
  if u32 a.length ≠ M.m then .throw .invalidArgument
  else
    forLoop (fun i t =>
      forLoop (fun j t => do
        let y ← rd t i
        let x ← M.at' i j
        let b ← rd a j
        wr t i (y + x * b)) 0 M.m t) 0 M.m (List.replicate (u32 a.length) 0)

/-- `multMat(m)`, src/view/Matrix.cxx:137-158: the returned matrix refers to the local array `t`. -/
def multMat [Zero α] [Add α] [Mul α] (M N : MatView α) : Res (MatView α) :=
  if N.m ≠ M.m then .throw .invalidArgument
  else do
    let n ← N.length
    let _ ← forLoop (fun i t =>
      forLoop (fun j t =>
        forLoop (fun k t => do
          let y ← rd t (matIndex i j M.m)
          let x ← M.at' i k
          let b ← N.at' k j
          wr t (matIndex i j M.m) (y + x * b)) 0 M.m t) 0 M.m t) 0 M.m (List.replicate n (0 : α))
    pure (dangling M.m)

end MatView

/-- `squaredMatrix(v)`, src/view/Matrix.cxx:162-166: the square root is truncated when converted to `uint`. -/
def squaredMatrix (v : List α) : MatView α := MatView.of v (Nat.sqrt v.length)

/-- The integer part of the `double` variable `m = (sqrt(8 n + 1) - 1) / 2` of src/view/Matrix.cxx:170, which satisfies
`m * m = 2 n - m`. Simplification: `m` is computed exactly. -/
def symDim (n : Nat) : Nat := (Nat.sqrt (8 * n + 1) - 1) / 2

/-- The number of naturals below the `double` variable `m`, src/view/Matrix.cxx:172-174: `m` is an integer when `n` is
`k (k + 1) / 2`. -/
def symBound (n : Nat) : Nat := if symDim n * (symDim n + 1) / 2 = n then symDim n else symDim n + 1

/-- `symSquaredMatrix(v)`, src/view/Matrix.cxx:168-180: the returned matrix refers to the local array `w`. The integer part of
`m * m`, that is of `2 n - m`, is `2 n - symBound n`; the integer part of `m` is given to `index`, `indexS` and `Matrix`. -/
def symSquaredMatrix [Zero α] (v : List α) : Res (MatView α) :=
  let n := v.length
  if 2 ^ 32 ≤ 2 * n - symBound n then .ub
  else do
    let _ ← forLoop (fun i w =>
      forLoop (fun j w => do
        let p ← indexS i j (symDim n)
        let x ← rd v p
        wr w (matIndex j i (symDim n)) x) 0 (symBound n) w) 0 (symBound n) (List.replicate (2 * n - symBound n) (0 : α))
    pure (MatView.dangling (symDim n))

/-! ## Vector -/

/-- Conversion of a `double` to `int` (src/view/Vector.cxx:71, the accumulator of `std::accumulate`): truncation towards
zero, undefined behaviour when the truncated value does not fit. -/
def toI32 [Ring α] [LinearOrder α] [FloorRing α] (x : α) : Res Int :=
  if -2 ^ 31 - 1 < x ∧ x < 2 ^ 31 then .ok (if 0 ≤ x then ⌊x⌋ else ⌈x⌉) else .ub

/-- `Vector::norm()`, src/view/Vector.cxx:67-72: `std::accumulate(begin, end, 0, op)` accumulates in an `int`. -/
def vecNorm [Ring α] [LinearOrder α] [FloorRing α] [Sqrt α] (v : List α) : Res α := do
  let acc ← v.foldlM (fun (acc : Int) x => toI32 ((acc : α) + x * x)) 0
  pure (Sqrt.sqrt (acc : α))

/-- `Vector::normalize()`, src/view/Vector.cxx:58-65. -/
def vecNormalize [Ring α] [Div α] [LinearOrder α] [FloorRing α] [Sqrt α] (v : List α) : Res (List α) := do
  let n ← vecNorm v
  pure (v.map (· / n))

/-- `Vector::mult(s)`, src/view/Vector.cxx:74-80. -/
def vecScale [Mul α] (v : List α) (s : α) : List α := v.map (· * s)

/-- The `std::transform` shared by the next three functions, src/view/Vector.cxx:84-87, 93-96, 102-105: `s[id++]` is read
for each number of the vector. -/
def vecZip (op : α → α → α) : List α → List α → Res (List α)
  | [], _ => .ok []
  | _ :: _, [] => .ub
  | x :: v, y :: s => do
    let r ← vecZip op v s
    pure (op x y :: r)

/-- `Vector::mult(s)` with a vector, src/view/Vector.cxx:82-89. -/
def vecMult [Mul α] (v s : List α) : Res (List α) := vecZip (fun x y => x * y) v s

/-- `Vector::add(s)`, src/view/Vector.cxx:91-98. -/
def vecAdd [Add α] (v s : List α) : Res (List α) := vecZip (fun x y => x + y) v s

/-- `Vector::sub(s)`, src/view/Vector.cxx:100-107. -/
def vecSub [Sub α] (v s : List α) : Res (List α) := vecZip (fun x y => x - y) v s

/-- `Vector::dot(s)`, src/view/Vector.cxx:109-117. Simplification: the `uint32_t` counter would never reach the end of an
array of more than 2^32 numbers; the model follows the loop for shorter arrays. -/
def vecDot [Zero α] [Add α] [Mul α] (v s : List α) : Res α :=
  forLoop (fun i d => do
    let x ← rd v i
    let y ← rd s i
    pure (d + x * y)) 0 v.length 0

end DF
