import Verif.Model.Attributes
import Verif.Model.Utils
import Verif.Model.Combine
import Verif.Model.Eigen
import Mathlib.Algebra.Order.Ring.Rat
import Mathlib.Data.Rat.Floor

/-!
The assertions of the project's own unit tests, /repo/unitTest/*.cxx, replayed on the model. They are tests of the
model, not property theorems: they show that on the inputs the authors chose, the model gives the results the
authors expect of the code. Numbers are rationals; each assertion keeps the tolerance of the C++ one. `std::sqrt`,
`std::atan`, `std::sin` and `std::cos` are replaced by rational approximations to about 15 digits.

Left out: what the tests only print, and the number computed with `std::exp` by a callback of filter.cxx.
-/

namespace DF.UnitTests

/-! ## The helpers of the tests -/

/-- `Serie(k, {...})`. -/
abbrev S (k : Nat) (l : List ℚ) : Serie ℚ := ⟨l, l.length / k, k, 3⟩

/-- What a call without effects gives. -/
def run {β : Type} (e : Eff Unit β) : Res β := (e ()).1

/-- The comparison of `assertArrayEqual`, unitTest/assertions.h:78-94. -/
def near (tol : ℚ) : List ℚ → List ℚ → Bool
  | [], [] => true
  | a :: as, b :: bs => decide (|a - b| ≤ tol) && near tol as bs
  | _, _ => false

/-- `assertSerieEqual(result, array, tol)`, unitTest/assertions.h:96-99. -/
def arrayIs (r : Res (Serie ℚ)) (l : List ℚ) (tol : ℚ := 1e-7) : Bool :=
  match r with
  | .ok s => near tol s.data l
  | _ => false

/-- `assertSerieEqual(result, serie, tol)`, unitTest/assertions.h:101-108. -/
def serieIs (r : Res (Serie ℚ)) (t : Serie ℚ) (tol : ℚ := 1e-7) : Bool :=
  match r with
  | .ok s => s.itemSize == t.itemSize && s.dimension == t.dimension && s.count == t.count && s.size == t.size &&
      near tol s.data t.data
  | _ => false

/-- `assertDoubleEqual(x, y, tol)`, unitTest/assertions.h:69-76. -/
def numberIs (r : Res ℚ) (y : ℚ) (tol : ℚ := 1e-7) : Bool :=
  match r with
  | .ok x => decide (|x - y| ≤ tol)
  | _ => false

/-- `shouldThrowError(cb)`, unitTest/assertions.h:110-123: `std::invalid_argument` is thrown. -/
def throws {β : Type} (r : Res β) : Bool :=
  match r with
  | .throw .invalidArgument => true
  | _ => false

/-- The number of names given by `Manager::names`. -/
def countIs (r : Res (List String)) (n : Nat) : Bool :=
  match r with
  | .ok l => l.length == n
  | _ => false

/-! ## Rational stand-ins for the functions of `<cmath>` and `<limits>` -/

/-- Rounding to 15 digits after the point. -/
def rnd (x : ℚ) : ℚ := mkRat (x.num * 10 ^ 15 / x.den) (10 ^ 15)

/-- The integer square root, bit by bit. -/
def isqrt (n : Nat) : Nat → Nat → Nat
  | 0, r => r
  | k + 1, r => if (r + 2 ^ k) * (r + 2 ^ k) ≤ n then isqrt n k (r + 2 ^ k) else isqrt n k r

/-- `std::sqrt` -/
def sqrtQ (x : ℚ) : ℚ := mkRat (isqrt (x.num.toNat * 10 ^ 30 / x.den) 128 0) (10 ^ 15)

/-- The sum of a power series given by the ratio of a term to the one before. -/
def series (ratio : Nat → ℚ) : Nat → Nat → ℚ → ℚ
  | 0, _, _ => 0
  | n + 1, k, t => t + series ratio n (k + 1) (rnd (t * ratio k))

/-- Half of the angle of tangent `x`, by its tangent. -/
def halfTan (x : ℚ) : ℚ := rnd (x / (1 + sqrtQ (1 + x * x)))

/-- `std::atan` -/
def atanQ (x : ℚ) : ℚ :=
  let y := halfTan (halfTan (halfTan (rnd x)))
  8 * series (fun k => -(y * y) * ((2 * k + 1 : ℕ) : ℚ) / ((2 * k + 3 : ℕ) : ℚ)) 20 0 y

/-- `std::sin` -/
def sinQ (x : ℚ) : ℚ :=
  let y := rnd x
  rnd (series (fun k => -(y * y) / (((2 * k + 2) * (2 * k + 3) : ℕ) : ℚ)) 20 0 y)

/-- `std::cos` -/
def cosQ (x : ℚ) : ℚ :=
  let y := rnd x
  rnd (series (fun k => -(y * y) / (((2 * k + 1) * (2 * k + 2) : ℕ) : ℚ)) 20 0 1)

local instance : Trig ℚ := ⟨3.141592653589793, atanQ, sinQ, cosQ⟩
local instance : Sqrt ℚ := ⟨sqrtQ⟩
local instance : Limits ℚ := ⟨2 ^ 1024, -2 ^ 1024⟩

/-- Insertion in a sorted list. -/
def insertBy {γ : Type} (comp : γ → γ → Res Bool) (x : γ) : List γ → Res (List γ)
  | [] => .ok [x]
  | y :: l => do
    if ← comp y x then do
      let m ← insertBy comp x l
      pure (y :: m)
    else pure (x :: y :: l)

/-- `std::sort`: here an insertion sort, which keeps the order of equal elements. -/
def sortBy : StdSort := fun comp l => l.foldrM (insertBy comp) []

/-! ## addDotNegate.cxx -/

/-- unitTest/addDotNegate.cxx:33-37 -/
abbrev a1 := S 2 [1, 2, 3, 4]
/-- unitTest/addDotNegate.cxx:34 -/
abbrev b1 := S 2 [4, 3, 2, 1]
/-- unitTest/addDotNegate.cxx:35 -/
abbrev c1 := S 2 [2, 2, 1, 1]
/-- unitTest/weigthedSum.cxx:33 -/
abbrev d1 := S 3 [2, 2, 1, 1, 0, 0]
/-- unitTest/weigthedSum.cxx:34 -/
abbrev e1 := S 2 [2, 2, 1, 1, 0, 0]

example : Serie.ofArray 2 [1, 2, 3, 4] = .ok a1 := by decide +kernel
example : arrayIs (addList [a1, b1, c1]) [7, 7, 6, 6] := by decide +kernel
example : arrayIs (addN [a1, b1, c1]) [7, 7, 6, 6] := by decide +kernel
example : arrayIs (dot a1 b1) [10, 10] := by decide +kernel
example : arrayIs (negate a1) [-1, -2, -3, -4] := by decide +kernel
example : arrayIs (do addList [a1, ← negate a1]) [0, 0, 0, 0] := by decide +kernel

/-! ## apply.cxx -/

example : arrayIs (run (mapVV (fun a _ => pure (a.map sqrtQ)) (S 1 [1, 2, 3, 4])))
    [1, 1.414213562, 1.732050808, 2] := by decide +kernel

/-! ## check.cxx -/

example : arrayIs (run (checkS (S 1 [1, -2, 3]) fun v _ => pure (decide (v < 0)))) [0, 1, 0] := by decide +kernel
example : arrayIs (run (checkV (S 3 [1, 2, 3, -4, 5, 6]) fun v _ => do
    let x ← Eff.lift (rd v 0)
    pure (decide (x < 0)))) [0, 1] := by decide +kernel

/-! ## compose.cxx -/

example : compose (m := Res) (.cons (fun x : ℚ => pure (x * 2)) (.two (fun x : ℚ => pure (x + 1))
    fun x : ℚ => pure (x * x))) (3 : ℚ) = .ok 20 := by decide +kernel

/-! ## concat.cxx -/

example : arrayIs (concat [S 2 [1, 2, 3, 4, 5, 6], S 2 [4, 5, 6, 7, 8, 9], S 2 [10, 11, 12, 13, 10, 10]])
    [1, 2, 3, 4, 5, 6, 4, 5, 6, 7, 8, 9, 10, 11, 12, 13, 10, 10] := by decide +kernel

/-! ## cross.cxx -/

example : arrayIs (cross (S 3 [2, 3, 4, 5, 6, 7]) (S 3 [5, 6, 7, -1, 4, 2])) [-3, 6, -3, -16, -17, 26] := by
  decide +kernel

/-! ## div.cxx -/

/-- unitTest/div.cxx:32 -/
abbrev a2 := S 3 [2, 4, 6, 3, 6, 9]

example : serieIs (divSerie (S 1 [2, 3]) a2) (S 3 [1, 2, 3, 1, 2, 3]) := by decide +kernel
example : serieIs (makeOp divSerie (S 1 [2, 3]) a2) (S 3 [1, 2, 3, 1, 2, 3]) := by decide +kernel
example : serieIs (pipe a2 (.one (makeOp divSerie (S 1 [2, 3])))) (S 3 [1, 2, 3, 1, 2, 3]) := by decide +kernel
example : throws (divSerie (S 2 [1, 3, 2, 9]) a2) := by decide +kernel
example : throws (divSerie a2 (S 1 [1, 3, 2])) := by decide +kernel

/-! ## eigen.cxx -/

/-- unitTest/eigen.cxx:35 -/
abbrev stress := S 6 [2, 4, 6, 3, 6, 9, 1, 2, 3, 4, 5, 6, 9, 8, 7, 6, 5, 4]
/-- unitTest/eigen.cxx:36-38 -/
abbrev vals : List ℚ := [16.3328, -0.658031, -1.67482, 11.3448, 0.170914, -0.515728, 20.1911, -0.043142, -1.14795]
/-- unitTest/eigen.cxx:39-44 -/
abbrev vecs : List ℚ :=
  [0.449309, 0.47523, 0.75649, 0.194453, 0.774452, -0.602007, 0.871957, -0.417589, -0.255559,
   0.327985, 0.591009, 0.736977, -0.592113, 0.736484, -0.327099, 0.73609, 0.32909, -0.5915,
   0.688783, 0.553441, 0.468275, 0.15941, -0.745736, 0.64689, -0.707225, 0.370919, 0.601874]

example : arrayIs (eigenValues stress) vals 1e-4 := by decide +kernel
example : arrayIs (eigenVectors stress) vecs 1e-4 := by decide +kernel
example : arrayIs (do pure (← eigenSystem stress).1) vals 1e-4 := by decide +kernel
example : arrayIs (do pure (← eigenSystem stress).2) vecs 1e-4 := by decide +kernel

/-- unitTest/eigen.cxx:80-85 -/
abbrev mngE : Manager ℚ :=
  { df := (Dataframe.make).add "S" stress, ds := [eigenValuesAttr, eigenVectorsAttr], dimension := 3 }

example : countIs (mngE.names 1) 3 := by decide +kernel
example : ∀ n ∈ ["S1", "S2", "S3"], mngE.contains 1 n = .ok true := by decide +kernel
example : countIs (mngE.names 3) 3 := by decide +kernel
example : ∀ n ∈ ["S1", "S2", "S3"], mngE.contains 3 n = .ok true := by decide +kernel
example : countIs (mngE.names 6) 1 := by decide +kernel
example : mngE.contains 6 "S" = .ok true := by decide +kernel

/-! ## equals.cxx (the expected values are in its comments) -/

example : equals (S 1 [1, 2, 3]) (S 1 [1, 2, 3]) = true := by decide +kernel
example : approximatelyEquals (S 1 [1, 2, 3]) (S 1 [1.0000001, 2, 3]) 1e-6 = .ok true := by decide +kernel
example : equalsAll (S 1 [1, 2, 3]) [S 1 [1, 2, 3], S 1 [1, 2, 3]] = true := by decide +kernel
example : serieIs (equalityMask (S 1 [1, 2, 3]) (S 1 [1, 4, 3])) (S 1 [1, 0, 1]) := by decide +kernel
example : serieIs (approximateEqualityMask (S 1 [1, 2, 3]) (S 1 [1.0000001, 4, 3]) 1e-6) (S 1 [1, 0, 1]) := by
  decide +kernel

/-! ## except.cxx -/

example : throws (addList [a1, S 2 [4, 3, 2, 1, 3, 3]]) := by decide +kernel
example : throws (addList [a1, S 3 [4, 3, 2, 1, 3, 3]]) := by decide +kernel

/-! ## filter.cxx -/

example : arrayIs (run (makeOp filterS (fun v _ => pure (decide (v.floor % 2 = 0))) (S 1 [1, 2, 3, 4, 5]))) [2, 4] := by
  decide +kernel
example : arrayIs (run (makeOp filterS (fun v _ => pure (decide (v > 3))) (S 1 [1, 2, 3, 4, 5]))) [4, 5] := by
  decide +kernel

/-- unitTest/filter.cxx:72-77 -/
def normFilter (v : List ℚ) (_ : Nat) : Eff Unit Bool :=
  pure (decide (sqrtQ (v.foldl (fun s x => s + x * x) 0) > 10))

example : arrayIs (run (makeOp filterV normFilter (S 3 [1, 2, 3, 4, 5, 6, 7, 8, 9]))) [7, 8, 9] := by decide +kernel
example : arrayIs (run (makeOp filterV (fun v _ => do
    let x ← Eff.lift (rd v 0)
    pure (decide (x ≥ 4))) (S 3 [1, 2, 3, 4, 5, 6, 7, 8, 9]))) [4, 5, 6, 7, 8, 9] := by decide +kernel
example : arrayIs (run (makeOp filterV normFilter (S 3 [10, 0, 0, 10, 11, 12, 13, 14, 15])))
    [10, 11, 12, 13, 14, 15] := by decide +kernel
example : run (filterAll (fun r => do
    let s ← Eff.lift (rd r 0 >>= fun v => rd v 0)
    let p ← Eff.lift (rd r 1 >>= fun v => rd v 2)
    let m ← Eff.lift (rd r 2 >>= fun v => rd v 0)
    pure (decide (s < 0) && decide (p < 0) && decide (m = 1)))
      [S 6 [-2, 4, 6, -3, 6, -9, 1, 2, 3, 4, 5, 6, 9, 8, 7, 6, 5, 4], S 3 [10, 20, -30, 1, 0, 0, 2, 0, 0],
        S 1 [1, 2, 2]]) =
    .ok [S 6 [-2, 4, 6, -3, 6, -9], S 3 [10, 20, -30], S 1 [1]] := by decide +kernel

/-! ## forEach.cxx -/

example : ((forEachMulti (σ := List (List (List ℚ) × Nat)) (fun r i => Eff.update fun l => .ok (l ++ [(r, i)]))
    [S 1 [10, 20], S 2 [1, 2, 3, 4], S 3 [1, 2, 3, 4, 5, 6]]) []) =
    (.ok (), [([[10], [1, 2], [1, 2, 3]], 0), ([[20], [3, 4], [4, 5, 6]], 1)]) := by decide +kernel

/-! ## inv.cxx -/

example : arrayIs (inv (S 6 [1, 2, 3, 4, 5, 6])) [1, -3, 2, 3, -1, 0] := by decide +kernel
example : arrayIs (inv (S 9 [2, 3, 1, 6, 5, 4, 7, 9, 8]))
    [-0.121212, 0.454545, -0.212121, 0.606061, -0.272727, -0.0909091, -0.575758, -0.0909091, 0.242424] 1e5 := by
  decide +kernel

/-! ## map.cxx -/

example : arrayIs (run (makeOp mapSS (fun v _ => pure (v * 2)) (S 1 [1, 2, 3, 4, 5]))) [2, 4, 6, 8, 10] := by
  decide +kernel
example : arrayIs (run (makeOp mapVS (fun v _ => do
    let x ← Eff.lift (rd v 0)
    let y ← Eff.lift (rd v 1)
    pure (sqrtQ (x * x + y * y))) (S 2 [1, 2, 3, 4, 5, 6]))) [2.236, 5, 7.81025] 1e-4 := by decide +kernel
example : arrayIs (run (mapSV (fun v _ => pure [v, v * v, v * v * v]) (S 1 [1, 2, 3, 4])))
    [1, 1, 1, 2, 4, 8, 3, 9, 27, 4, 16, 64] := by decide +kernel
example : arrayIs (run (mapVS (fun v _ => pure (sqrtQ (v.foldl (fun s x => s + x * x) 0))) (S 3 [1, 2, 3, 4, 5, 6])))
    [3.74166, 8.77496] 1e-4 := by decide +kernel
example : arrayIs (run (mapVV (fun v _ => pure (v.flatMap fun x => [x, x * 2])) (S 3 [1, 2, 3, 4, 5, 6])))
    [1, 2, 2, 4, 3, 6, 4, 8, 5, 10, 6, 12] := by decide +kernel

/-! ## merge.cxx -/

example : serieIs (merge2 (S 2 [1, 2, 3, 4]) (S 2 [3, 4, 5, 6])) (S 2 [1, 2, 3, 4, 3, 4, 5, 6]) := by decide +kernel
example : serieIs (merge2 (S 2 [1, 2, 3, 4]) (S 2 [3, 4, 5, 6]) false) (S 2 [1, 2, 3, 4, 3, 4, 5, 6]) := by
  decide +kernel
example : serieIs (mergeN true [S 2 [1, 2, 3, 4], S 2 [3, 4, 5, 6], S 2 [7, 8, 9, 10]])
    (S 2 [1, 2, 3, 4, 3, 4, 5, 6, 7, 8, 9, 10]) := by decide +kernel

/-! ## minMax.cxx -/

example : minMax (S 1 [1, 5, 2, 4, 3]) = .ok ([1], [5]) := by decide +kernel
example : minMax (S 3 [1, 2, 3, 4, 1, 6, 2, 5, 0]) = .ok ([1, 1, 0], [4, 5, 6]) := by decide +kernel

/-! ## normalize.cxx -/

example : arrayIs (normalize (S 1 [1, 2, 3, 4, 5])) [0, 0.25, 0.5, 0.75, 1] := by decide +kernel
example : arrayIs (normalize (S 3 [1, 2, 3, 4, 5, 6, 7, 8, 9]))
    [0.267261, 0.534522, 0.801784, 0.455842, 0.569803, 0.683763, 0.502571, 0.574367, 0.646162] 1e-6 := by
  decide +kernel

/-! ## partition.cxx -/

example : run (partitionV (fun v _ => do
    let x ← Eff.lift (rd v 0)
    pure (decide (x < 0))) (S 6 [2, 4, 6, 3, 6, 9, -1, 2, 3, 4, 5, 6, -9, 8, 7, 6, 5, 4])) =
    .ok (S 6 [-1, 2, 3, 4, 5, 6, -9, 8, 7, 6, 5, 4], S 6 [2, 4, 6, 3, 6, 9]) := by decide +kernel

/-! ## partition_n.cxx -/

/-- unitTest/partition_n.cxx:31 -/
abbrev p1 := S 1 [1, 2, 3, 4]
/-- unitTest/partition_n.cxx:32 -/
abbrev p2 := S 3 [1, 2, 3, 4, 5, 6, 7, 8, 9, 10, 11, 12]
/-- unitTest/partition_n.cxx:33 -/
abbrev p3 := S 1 [1, 2, 3, 4, 5, 6, 7, 8, 9, 10]

example : partitionN 2 p1 = .ok [S 1 [1, 2], S 1 [3, 4]] := by decide +kernel
example : partitionN 2 p3 = .ok [S 1 [1, 2, 3, 4, 5], S 1 [6, 7, 8, 9, 10]] := by decide +kernel
example : partitionNMulti 2 [p1, p2] =
    .ok [[S 1 [1, 2], S 1 [3, 4]], [S 3 [1, 2, 3, 4, 5, 6], S 3 [7, 8, 9, 10, 11, 12]]] := by decide +kernel
example : partitionN 3 p3 = .ok [S 1 [1, 2, 3, 4], S 1 [5, 6, 7], S 1 [8, 9, 10]] := by decide +kernel

/-! ## pipe.cxx -/

example : (run (pipe (S 1 [1, 2, 3, 4, 5]) (.cons (mapSS fun v _ => pure (v * 2))
    (.one (filterS fun v _ => pure (decide (v > 4))))))) = .ok (S 1 [6, 8, 10]) := by decide +kernel
example : (run (makePipe (.cons (makeOp mapSS fun v _ => pure (v * 2))
    (.one (makeOp filterS fun v _ => pure (decide (v > 4))))) (S 1 [1, 2, 3, 4, 5]))) = .ok (S 1 [6, 8, 10]) := by
  decide +kernel
example : serieIs (pipe (m := Res) (S 6 [1, 2, 3, 4, 5, 6]) (.cons eigenSystem (.one fun p => pure p.1)))
    (S 3 [11.3448, 0.170914, -0.515728]) 1e-4 := by decide +kernel
example : serieIs (pipe (m := Res) (S 1 [1, 2, 3], S 2 [1, 2, 3, 4, 5, 6]) (.one fun p => zip [p.1, p.2]))
    (S 3 [1, 1, 2, 2, 3, 4, 3, 5, 6]) := by decide +kernel
example : serieIs (pipe (m := Res)
    (S 6 [1, 2, 3, 4, 5, 6, 1, 2, 3, 4, 5, 6, 1, 2, 3, 4, 5, 6, 1, 2, 3, 4, 5, 6],
      S 3 [0, 0, 0, 1, 0, 0, 2, 0, 0, 3, 0, 0]) (.one fun p => zip [p.1, p.2]))
    (S 9 [1, 2, 3, 4, 5, 6, 0, 0, 0, 1, 2, 3, 4, 5, 6, 1, 0, 0, 1, 2, 3, 4, 5, 6, 2, 0, 0, 1, 2, 3, 4, 5, 6, 3, 0, 0]) := by
  decide +kernel

/-! ## reduce.cxx -/

example : arrayIs (run (reduceV (fun p c _ => do
    let p0 ← Eff.lift (rd p 0)
    let p1 ← Eff.lift (rd p 1)
    let c0 ← Eff.lift (rd c 0)
    let c1 ← Eff.lift (rd c 1)
    pure [p0 + c0, p1 + c1]) (S 3 [1, 2, 3, 4, 5, 6]) [10, 20])) [15, 27] := by decide +kernel

/-! ## scalar.cxx -/

example : ((List.range 4).mapM fun i => (S 1 [1, 3, 2, 9]).scalar i) = .ok [1, 3, 2, 9] := by decide +kernel
example : (forEachS (σ := List (ℚ × Nat)) (fun t i => Eff.update fun l => .ok (l ++ [(t, i)])) (S 1 [1, 3, 2, 9])) [] =
    (.ok (), [(1, 0), (3, 1), (2, 2), (9, 3)]) := by decide +kernel
example : throws (run (forEachS (fun _ _ => pure ()) (S 2 [1, 3, 2, 9]))) := by decide +kernel
example : run (forEachV (fun _ _ => pure ()) (S 2 [1, 3, 2, 9])) = .ok () := by decide +kernel

/-! ## serie.cxx -/

example : ((Dataframe.make).add "toto" (S 1 [1, 2, 3, 4])).nameOfSerie (.stored "toto") = "toto" := by decide +kernel
example : ((Dataframe.make).add "toto" (S 1 [1, 2, 3, 4])).nameOfSerie .elsewhere = "" := by decide +kernel

/-! ## sort.cxx -/

example : arrayIs (sortDefault sortBy (S 1 [3, 1, 4, 1, 5])) [1, 1, 3, 4, 5] := by decide +kernel
example : arrayIs (sortDefault sortBy (S 2 [3, 1, 1, 2, 2, 2])) [1, 2, 2, 2, 3, 1] := by decide +kernel
example : arrayIs (sortWith sortBy (S 2 [3, 1, 1, 2, 2, 2]) fun a b => do
    let x ← rd a 1
    let y ← rd b 1
    pure (decide (x < y))) [3, 1, 1, 2, 2, 2] := by decide +kernel

/-! ## stats.cxx -/

/-- unitTest/stats.cxx:33 -/
abbrev ages := S 1 [57, 57, 57, 58, 63, 66, 66, 67, 67, 68, 69, 70, 70, 70, 70, 72, 73, 75, 75, 76, 76, 78, 79, 81]

example : arrayIs (bins ages 10) [4, 0, 1, 2, 3, 5, 2, 4, 1, 2] := by decide +kernel
example : arrayIs (binsIn ages 10 0 100) [0, 0, 0, 0, 0, 4, 7, 12, 1, 0] := by decide +kernel
example : ages.count = 24 ∧ [4, 0, 1, 2, 3, 5, 2, 4, 1, 2].sum = 24 ∧ [0, 0, 0, 0, 0, 4, 7, 12, 1, 0].sum = 24 := by
  decide +kernel
example : numberIs (do (← mean (S 1 [0, 1, 2, 3, 4, 5, 6, 7, 8])).getNumber) (9 * (9 - 1) / 2 / 9) := by decide +kernel
example : mean (S 3 [0, 1, 2, 3, 4, 5, 6, 7, 8]) = .ok (.array [3, 4, 5]) := by decide +kernel
example : numberIs (do (← mean (S 1 [1, 2, 3, 4])).getNumber) 2.5 := by decide +kernel
example : numberIs (do (← mean (S 1 [5, 6, 7, 8])).getNumber) 6.5 := by decide +kernel
example : numberIs (covariance (S 1 [1, 2, 3, 4]) (S 1 [5, 6, 7, 8])) 1.25 := by decide +kernel
example : numberIs (do (← mean (S 1 [0.90010907, 0.13484424, 0.62036035])).getNumber) 0.5518 1e-3 := by decide +kernel
example : numberIs (do (← mean (S 1 [0.12528585, 0.26962463, 0.51111198])).getNumber) 0.302 1e-3 := by decide +kernel
example : numberIs (covariance (S 1 [0.90010907, 0.13484424, 0.62036035]) (S 1 [0.12528585, 0.26962463, 0.51111198]))
    (-0.011238) 1e-3 := by decide +kernel

/-! ## transpose.cxx -/

example : arrayIs (transpose (S 4 [1, 2, 3, 4])) [1, 3, 2, 4] := by decide +kernel
example : throws (transpose (S 5 [1, 2, 3, 4, 5])) := by decide +kernel
example : arrayIs (transpose (S 9 [1, 2, 3, 4, 5, 6, 7, 8, 9])) [1, 4, 7, 2, 5, 8, 3, 6, 9] := by decide +kernel
example : throws (transpose (S 8 [1, 2, 3, 4, 5, 6, 7, 8])) := by decide +kernel

/-! ## unzip.cxx, zip.cxx (expected values in its comments) -/

example : arrayIs (zip [S 1 [1, 2], S 2 [3, 4, 5, 6], S 3 [7, 8, 9, 10, 11, 12]])
    [1, 3, 4, 7, 8, 9, 2, 5, 6, 10, 11, 12] := by decide +kernel
example : (do unzip (← zip [S 1 [1, 2], S 2 [3, 4, 5, 6], S 3 [7, 8, 9, 10, 11, 12]]) [1, 2, 3]) =
    .ok [S 1 [1, 2], S 2 [3, 4, 5, 6], S 3 [7, 8, 9, 10, 11, 12]] := by decide +kernel
example : arrayIs (zip [S 1 [1, 2, 3], S 2 [4, 5, 6, 7, 8, 9], S 1 [10, 11, 12]])
    [1, 4, 5, 10, 2, 6, 7, 11, 3, 8, 9, 12] := by decide +kernel
example : arrayIs (zipVector [S 1 [1, 2, 3], S 2 [4, 5, 6, 7, 8, 9], S 1 [10, 11, 12]])
    [1, 4, 5, 10, 2, 6, 7, 11, 3, 8, 9, 12] := by decide +kernel

/-! ## weigthedSum.cxx -/

example : arrayIs (weightedSum [a1, b1, c1] [2, 3, 4]) [22, 21, 16, 15] := by decide +kernel
example : throws (weightedSum [a1, b1] [2, 3, 4]) := by decide +kernel
example : throws (weightedSum [a1, b1, d1] [2, 3, 4]) := by decide +kernel
example : throws (weightedSum [a1, b1, e1] [2, 3, 4]) := by decide +kernel

/-! ## decomposer.cxx (its class `EigenValues` has the `names` of the library, and `EigenVectors` too) -/

/-- unitTest/decomposer.cxx:141-150 -/
abbrev mngN : Manager ℚ :=
  { df := ((((Dataframe.make).add "a" (S 1 [1, 2])).add "U" (S 3 [2, 4, 6, 3, 6, 9])).add "S"
      (S 6 [2, 4, 6, 3, 6, 9, 1, 2, 3, 4, 5, 6])).add "E" (S 9 [2, 4, 6, 3, 6, 9, 1, 2, 3, 4, 5, 6, 7, 8, 9, 1, 2, 3]),
    ds := [components, eigenValuesAttr], dimension := 3 }

example : countIs (mngN.names 1) 22 := by decide +kernel
example : ∀ n ∈ ["a", "Exx", "Exy", "Exz", "Eyx", "Eyy", "Eyz", "Ezx", "Ezy", "Ezz", "S1", "S2", "S3", "Sxx", "Sxy",
    "Sxz", "Syy", "Syz", "Szz", "Ux", "Uy", "Uz"], mngN.contains 1 n = .ok true := by decide +kernel
example : countIs ((mngN.add eigenVectorsAttr).names 3) 4 := by decide +kernel
example : ∀ n ∈ ["U", "S1", "S2", "S3"], (mngN.add eigenVectorsAttr).contains 3 n = .ok true := by decide +kernel

/-- unitTest/decomposer.cxx:194-196 -/
abbrev mesh : Dataframe ℚ :=
  ((Dataframe.make).add "positions" (S 3 [0, 0, 0, 1, 0, 0, 1, 1, 0])).add "indices" (S 3 [0, 1, 2])

/-- unitTest/decomposer.cxx:198-201 -/
abbrev mngC : Manager ℚ := { df := mesh, ds := [coordinates ["x", "y", "z"], normalsAttr "normals"], dimension := 3 }

example : mngC.nbDecomposers = 2 := by decide +kernel
example : countIs (mngC.names 1) 3 := by decide +kernel
example : arrayIs (mngC.serie 1 "x") [0, 1, 1] := by decide +kernel
example : arrayIs (mngC.serie 1 "y") [0, 0, 1] := by decide +kernel
example : arrayIs (mngC.serie 1 "z") [0, 0, 0] := by decide +kernel
example : (do pure (← mngC.serie 1 "x").isValid) = .ok true := by decide +kernel

/-- unitTest/decomposer.cxx:224-226 -/
abbrev mngM : Manager ℚ := { df := mesh, ds := [normalsAttr "normals"], dimension := 3 }

example : mngM.nbDecomposers = 1 := by decide +kernel
example : countIs (mngM.names 3) 1 := by decide +kernel
example : arrayIs (mngM.serie 3 "normals") [0, 0, 1] := by decide +kernel

/-- unitTest/decomposer.cxx:242-244 -/
abbrev mngA : Manager ℚ := { df := mesh, ds := [areaAttr "area"], dimension := 1 }

example : mngA.nbDecomposers = 1 := by decide +kernel
example : countIs (mngA.names 1) 1 := by decide +kernel
example : arrayIs (mngA.serie 3 "area") [0.5] 0 := by decide +kernel

/-- unitTest/decomposer.cxx:257-265 -/
abbrev mngU : Manager ℚ :=
  { df := (Dataframe.make).add "S" stress,
    ds := [userAttr 1 "xx" (some fun d => components.serie d 1 "Sxx")], dimension := 3 }

example : arrayIs (mngU.serie 1 "xx") [2, 1, 9] := by decide +kernel

end DF.UnitTests
