import Verif.Model.Functional

/-!
# `functional/math`: add, sub, scale, negate, mult, div, weightedSum, minMax, normalize, random, equals

Sources: include/dataframe/functional/math/*.h, src/functional/math/*.cxx.

Numbers are of an arbitrary type with the operations each function uses.
-/

namespace DF

variable {α : Type}

/-- `serie.map(cb)` (include/dataframe/inline/Serie.hxx:40-42, include/dataframe/functional/map.h:85-107) with a callback from arrays to
arrays that has no side effect. -/
def mapArr [Zero α] (cb : List α → Nat → Res (List α)) (s : Serie α) : Res (Serie α) :=
  (mapVV (σ := Unit) (fun v i => Eff.lift (cb v i)) s ()).1

/-- `serie.map(cb)` (include/dataframe/functional/map.h:41-49) with a callback from numbers to numbers that has no side effect. -/
def mapNum (cb : α → Nat → Res α) (s : Serie α) : Res (Serie α) :=
  (mapSS (σ := Unit) (fun v i => Eff.lift (cb v i)) s ()).1

/-- The loop `for (k = 0; k < n; ++k) r[k] = f(k, r[k])`.
Source: src/functional/math/add.cxx, sub.cxx, weightedSum.cxx, the loops over an array. -/
def updLoop (n : Nat) (f : Nat → α → Res α) (r : List α) : Res (List α) :=
  forLoop (fun k r => do
    let x ← rd r k
    let y ← f k x
    wr r k y) 0 n r

/-! ## add, sub -/

/-- `add(s1, s2)`, include/dataframe/functional/math/add.h:35-56, and `sub(s1, s2)`, include/dataframe/functional/math/sub.h:34-55: the same code with `op` being `+`, resp. `-`. -/
def binOp [Zero α] (op : α → α → α) (s1 s2 : Serie α) : Res (Serie α) :=
  if s1.itemSize ≠ s2.itemSize ∨ s1.count ≠ s2.count then .throw .invalidArgument
  else
    forLoop (fun i (result : Serie α) =>
      if s1.itemSize = 1 then do
        let x ← s1.getD i
        let y ← s2.getD i
        result.putD i (op x y)
      else do
        let v1 ← s1.getA i
        let v2 ← s2.getA i
        let sum ← forLoop (fun j sum => do
          let x ← rd v1 j
          let y ← rd v2 j
          wr sum j (op x y)) 0 s1.itemSize (List.replicate s1.itemSize 0)
        result.putA i sum) 0 s1.count (Serie.zeros s1.itemSize s1.count)

/-- `add(s1, s2)`, include/dataframe/functional/math/add.h:35-56. -/
def add2 [Zero α] [Add α] (s1 s2 : Serie α) : Res (Serie α) := binOp (· + ·) s1 s2

/-- `sub(s1, s2)`, include/dataframe/functional/math/sub.h:34-55. -/
def sub2 [Zero α] [Sub α] (s1 s2 : Serie α) : Res (Serie α) := binOp (· - ·) s1 s2

/-- The body of the variadic templates `add`, include/dataframe/functional/math/add.h:58-72 and include/dataframe/functional/math/sub.h:57-71, with `f` the binary function they
call. With no argument the C++ does not compile (`std::get<0>` of an empty tuple). The assignment `result = ...` (src/Serie.cxx:59-64) keeps the dimension 3. -/
def foldSeries [Zero α] (f : Serie α → Serie α → Res (Serie α)) (ss : List (Serie α)) : Res (Serie α) :=
  match ss with
  | [] => .throw .invalidArgument
  | first :: _ => do
    let _ ← countAndCheck ss
    ss.foldlM (fun result s => do
      let r ← f result s
      (Serie.assign r).exec result) (Serie.zeros first.itemSize first.count)

/-- Variadic `add(s1, s2, s3, ...)` of include/dataframe/functional/math/add.h:58-72. -/
def addN [Zero α] [Add α] (ss : List (Serie α)) : Res (Serie α) := foldSeries add2 ss

/-- Variadic `add(s1, s2, s3, ...)` of include/dataframe/functional/math/sub.h:57-71: the template that header declares under the name `add`
(the two headers cannot be included together). -/
def addN_subh [Zero α] [Sub α] (ss : List (Serie α)) : Res (Serie α) := foldSeries sub2 ss

/-- `add(std::initializer_list)`, src/functional/math/add.cxx:29-64, and `sub(std::initializer_list)`,
src/functional/math/sub.cxx:29-64, with `op` being `+`, resp. `-`. An empty list reads `series[0]`. -/
def opList [Zero α] (op : α → α → α) (series : List (Serie α)) : Res (Serie α) := do
  let first ← rd series 0
  let _ ← forLoop (fun j (_ : Unit) => do
    let s ← rd series j
    if first.count ≠ s.count then .throw .invalidArgument
    else if first.itemSize ≠ s.itemSize then .throw .invalidArgument
    else .ok ()) 1 (series.length - 1) ()
  mapArr (fun a i =>
    forLoop (fun j r => do
      let s ← rd series j
      updLoop first.itemSize (fun k x => do
        let v ← s.value i
        let y ← rd v k
        pure (op x y)) r) 1 (series.length - 1) a) first

/-- `add({...})`.
Source: src/functional/math/add.cxx:29-64. -/
def addList [Zero α] [Add α] (series : List (Serie α)) : Res (Serie α) := opList (· + ·) series

/-- `sub({...})`.
Source: src/functional/math/sub.cxx:29-64. -/
def subList [Zero α] [Sub α] (series : List (Serie α)) : Res (Serie α) := opList (· - ·) series

/-- `add(serie, v)`, src/functional/math/add.cxx:66-72. -/
def addNum [Add α] (s : Serie α) (v : α) : Res (Serie α) :=
  if s.itemSize ≠ 1 then .throw .invalidArgument else mapNum (fun a _ => pure (a + v)) s

/-- `sub(serie, v)`, src/functional/math/sub.cxx:66-72. -/
def subNum [Sub α] (s : Serie α) (v : α) : Res (Serie α) :=
  if s.itemSize ≠ 1 then .throw .invalidArgument else mapNum (fun a _ => pure (a - v)) s

/-! ## scale, negate, mult, div -/

/-- `scale(s, scale)`, src/functional/math/scale.cxx:29-38. -/
def scale [Zero α] [Mul α] (s : Serie α) (x : α) : Res (Serie α) :=
  mapArr (fun a _ => updLoop s.itemSize (fun _ y => pure (y * x)) a) s

/-- `scale(s, scales)`, src/functional/math/scale.cxx:40-55. -/
def scaleBy [Zero α] [Mul α] (s : Serie α) (scales : List α) : Res (Serie α) :=
  if s.itemSize ≠ scales.length then .throw .invalidArgument
  else mapArr (fun a _ => updLoop s.itemSize (fun k y => do
    let x ← rd scales k
    pure (y * x)) a) s

/-- `negate(serie)`, src/functional/math/negate.cxx:29-38: `r[k] *= -1`. -/
def negate [Zero α] [One α] [Neg α] [Mul α] (s : Serie α) : Res (Serie α) :=
  mapArr (fun a _ => updLoop s.itemSize (fun _ y => pure (y * (-1))) a) s

/-- `mult(serie, d)`, src/functional/math/mult.cxx:29-38. -/
def mult [Zero α] [Mul α] (s : Serie α) (d : α) : Res (Serie α) :=
  mapArr (fun a _ => updLoop a.length (fun _ y => pure (y * d)) a) s

/-- `mult(serie, multiplier)`, src/functional/math/mult.cxx:40-89. -/
def multSerie [Zero α] [Mul α] (s m : Serie α) : Res (Serie α) :=
  if s.count ≠ m.count then .throw .invalidArgument
  else if s.itemSize = 1 then
    if m.itemSize ≠ 1 then .throw .invalidArgument
    else do
      let a3 ← forLoop (fun i a3 => do
        let x ← rd s.data i
        let y ← rd m.data i
        wr a3 i (x * y)) 0 s.data.length (List.replicate s.data.length 0)
      Serie.ofArray 1 a3
  else
    mapArr (fun a i =>
      if m.itemSize = 1 then do
        let d ← m.scalar i
        updLoop a.length (fun _ y => pure (y * d)) a
      else if m.itemSize ≠ s.itemSize then .throw .invalidArgument
      else do
        let d ← m.value i
        updLoop a.length (fun j y => do
          let x ← rd d j
          pure (y * x)) a) s

/-- `div(d, serie)`, src/functional/math/div.cxx:30-41: every number is divided by `d`. -/
def divNum [Zero α] [Div α] (d : α) (s : Serie α) : Res (Serie α) :=
  mapArr (fun a _ => updLoop a.length (fun _ y => pure (y / d)) a) s

/-- `std::abs`.
Source: include/dataframe/functional/math/equals.h:69, src/functional/math/div.cxx:63, src/functional/algebra/inv.cxx:50. -/
def absv [Zero α] [Neg α] [LT α] [DecidableLT α] (x : α) : α := if x < 0 then -x else x

/-- `div(divider, serie)`, src/functional/math/div.cxx:43-85. -/
def divSerie [Zero α] [Neg α] [LT α] [DecidableLT α] [Div α] [OfScientific α] (divider s : Serie α) : Res (Serie α) :=
  if !s.isValid || !divider.isValid then .throw .invalidArgument
  else if divider.count ≠ s.count then .throw .invalidArgument
  else if divider.itemSize ≠ 1 then .throw .invalidArgument
  else if s.itemSize = 1 then
    mapNum (fun v i => do
      let w ← divider.getD i
      if absv w < (1e-10 : α) then pure 0 else pure (v / w)) s
  else
    mapArr (fun v i => do
      let w ← divider.getD i
      if absv w < (1e-10 : α) then pure (List.replicate v.length 0)
      else forLoop (fun j r => do
        let x ← rd v j
        wr r j (x / w)) 0 v.length (List.replicate v.length 0)) s

/-! ## weightedSum -/

/-- `weigthedSum(list, weights)`, src/functional/math/weightedSum.cxx:29-78. An empty list with no weights reads
`series[0]`. -/
def weightedSum [Zero α] [Add α] [Mul α] (series : List (Serie α)) (weights : List α) : Res (Serie α) :=
  if series.length ≠ weights.length then .throw .invalidArgument
  else do
    let first ← rd series 0
    let _ ← series.foldlM (fun (_ : Unit) s =>
      if s.count ≠ first.count then .throw .invalidArgument
      else if s.itemSize ≠ first.itemSize then .throw .invalidArgument
      else .ok ()) ()
    mapArr (fun _ i =>
      forLoop (fun j r => do
        let s ← rd series j
        let sv ← s.value i
        let a ← rd weights j
        updLoop first.itemSize (fun k x => do
          let y ← rd sv k
          pure (x + y * a)) r) 0 series.length (List.replicate first.itemSize 0)) first

/-! ## minMax, normalize -/

/-- `std::min(a, b)`.
Source: src/functional/math/minMax.cxx:45, 59. -/
def minv [LT α] [DecidableLT α] (a b : α) : α := if b < a then b else a
/-- `std::max(a, b)`.
Source: src/functional/math/minMax.cxx:46, 60. -/
def maxv [LT α] [DecidableLT α] (a b : α) : α := if a < b then b else a

/-- `std::numeric_limits<double>::max()` and `lowest()`, used by src/functional/math/minMax.cxx:40-41. -/
class Limits (α : Type) where
  highest : α
  lowest : α

/-- `minMax(serie)`, src/functional/math/minMax.cxx:29-66: the pair of the minima and the maxima. -/
def minMax [LT α] [DecidableLT α] [Limits α] (s : Serie α) : Res (List α × List α) :=
  if !s.isValid then .throw .invalidArgument
  else if s.count = 0 then pure ([], [])
  else if s.itemSize = 1 then do
    let (mn, mx) ← forLoop (fun i (p : α × α) => do
      let v ← s.getD i
      pure (minv p.1 v, maxv p.2 v)) 0 s.count (Limits.highest, Limits.lowest)
    pure ([mn], [mx])
  else do
    let first ← s.getA 0
    forLoop (fun i (p : List α × List α) => do
      let v ← s.getA i
      forLoop (fun j (p : List α × List α) => do
        let x ← rd v j
        let a ← rd p.1 j
        let b ← rd p.2 j
        let mn ← wr p.1 j (minv a x)
        let mx ← wr p.2 j (maxv b x)
        pure (mn, mx)) 0 v.length p) 1 (s.count - 1) (first, first)

/-- `std::sqrt`.
Source: src/functional/math/normalize.cxx:55, src/functional/algebra/norm.cxx:33, src/view/Vector.cxx:71. -/
class Sqrt (α : Type) where
  sqrt : α → α

/-- `normalize(serie)`, src/functional/math/normalize.cxx:35-65. -/
def normalize [Zero α] [One α] [Add α] [Sub α] [Mul α] [Div α] [LT α] [DecidableLT α] [Limits α] [Sqrt α]
    (s : Serie α) : Res (Serie α) :=
  if !s.isValid then .throw .invalidArgument
  else if s.itemSize = 1 then do
    let (mn, mx) ← minMax s
    let hi ← rd mx 0
    let lo ← rd mn 0
    let l := 1 / (hi - lo)
    mapNum (fun v _ => do
      let m ← rd mn 0
      pure (l * (v - m))) s
  else
    mapArr (fun item _ =>
      let l := 1 / Sqrt.sqrt (item.foldl (fun acc v => acc + v * v) 0)
      pure (item.map (fun v => v * l))) s

/-! ## random -/

/-- `random(count, itemSize, min, max, seed)`, src/functional/math/random.cxx:45-64. The generator and the distribution
are the stream `next` of the numbers `dis(gen)`; the state is the number of calls already made. The loop of
`std::generate` fills `values` from left to right. -/
def random [Zero α] (next : Nat → α) (count itemSize : Nat) : Res (Serie α) := do
  let (r, _) ← forLoop (fun i (p : Serie α × Nat) =>
    if itemSize = 1 then do
      let r ← p.1.putD i (next p.2)
      pure (r, p.2 + 1)
    else do
      let (values, n) ← forLoop (fun j (q : List α × Nat) => do
        let v ← wr q.1 j (next q.2)
        pure (v, q.2 + 1)) 0 itemSize (List.replicate itemSize 0, p.2)
      let r ← p.1.putA i values
      pure (r, n)) 0 count (Serie.zeros itemSize count, 0)
  pure r

/-! ## equals -/

/-- `equals(s1, s2)`, include/dataframe/functional/math/equals.h:35-48. Numbers are compared with the `==` of the type. -/
def equals [BEq α] (s1 s2 : Serie α) : Bool :=
  if !s1.isValid || !s2.isValid then false
  else if s1.itemSize ≠ s2.itemSize then false
  else if s1.count ≠ s2.count then false
  else if s1.dimension ≠ s2.dimension then false
  else s1.data == s2.data

/-- `std::equal(first1, last1, first2, pred)`: reads past the end of a shorter second range.
Source: include/dataframe/functional/math/equals.h:67, 135, 173. -/
def stdEqual (pred : α → α → Bool) : List α → List α → Res Bool
  | [], _ => .ok true
  | _ :: _, [] => .ub
  | a :: l, b :: m => if pred a b then stdEqual pred l m else .ok false

/-- `std::abs(a - b) <= epsilon`.
Source: include/dataframe/functional/math/equals.h:69, 175. -/
def near [Zero α] [Neg α] [Sub α] [LT α] [DecidableLT α] [LE α] [DecidableLE α] (eps a b : α) : Bool :=
  decide (absv (a - b) ≤ eps)

/-- `approximatelyEquals(s1, s2, epsilon)`, include/dataframe/functional/math/equals.h:52-70. -/
def approximatelyEquals [Zero α] [Neg α] [Sub α] [LT α] [DecidableLT α] [LE α] [DecidableLE α]
    (s1 s2 : Serie α) (eps : α) : Res Bool :=
  if !s1.isValid || !s2.isValid then pure false
  else if s1.itemSize ≠ s2.itemSize then pure false
  else if s1.count ≠ s2.count then pure false
  else if s1.dimension ≠ s2.dimension then pure false
  else stdEqual (near eps) s1.data s2.data

/-- `equalsAll(first, second, rest...)`, include/dataframe/functional/math/equals.h:77-87. -/
def equalsAll [BEq α] (first : Serie α) : List (Serie α) → Bool
  | [] => true
  | second :: rest => if !equals first second then false else equalsAll second rest

/-- `approximatelyEqualsAll(first, second, rest..., epsilon)`, include/dataframe/functional/math/equals.h:92-107. A call compiles with one or two
Series, and with three when the template argument is given (`approximatelyEqualsAll<Serie>(a, b, c, eps)`): a parameter pack that is not
the last parameter is not deduced. -/
def approximatelyEqualsAll [Zero α] [Neg α] [Sub α] [LT α] [DecidableLT α] [LE α] [DecidableLE α] (eps : α) (first : Serie α) :
    List (Serie α) → Res Bool
  | [] => pure true
  | second :: rest => do
    let ok ← approximatelyEquals first second eps
    if !ok then pure false else approximatelyEqualsAll eps second rest

/-- The common part of `equalityMask`, include/dataframe/functional/math/equals.h:122-140, and `approximateEqualityMask`, 157-181, for a given
comparison of numbers. -/
def maskWith [Zero α] [One α] (pred : α → α → Bool) (s1 s2 : Serie α) : Res (Serie α) :=
  if !s1.isValid || !s2.isValid || s1.itemSize ≠ s2.itemSize || s1.count ≠ s2.count then .throw .invalidArgument
  else
    forLoop (fun i (result : Serie α) =>
      if s1.itemSize = 1 then do
        let x ← s1.scalar i
        let y ← s2.scalar i
        (Serie.setScalar i (if pred x y then 1 else 0)).exec result
      else do
        let v1 ← s1.value i
        let v2 ← s2.value i
        let eq ← stdEqual pred v1 v2
        (Serie.setScalar i (if eq then 1 else 0)).exec result) 0 s1.count (Serie.zeros 1 s1.count)

/-- `equalityMask(s1, s2)`, include/dataframe/functional/math/equals.h:122-140. -/
def equalityMask [Zero α] [One α] [BEq α] (s1 s2 : Serie α) : Res (Serie α) :=
  maskWith (fun a b => a == b) s1 s2

/-- `approximateEqualityMask(s1, s2, epsilon)`, include/dataframe/functional/math/equals.h:157-181. -/
def approximateEqualityMask [Zero α] [One α] [Neg α] [Sub α] [LT α] [DecidableLT α] [LE α] [DecidableLE α]
    (s1 s2 : Serie α) (eps : α) : Res (Serie α) :=
  maskWith (near eps) s1 s2

end DF
