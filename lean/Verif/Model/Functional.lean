import Verif.Model.Serie

/-!
# `functional/*.h`: map, filter, reject, find, forEach, reduce, partition, check

A callback of type `γ → Nat → Eff σ β` receives an item (a number or an array) and its index.
C++ selects the scalar or the array version of each function from the callback's signature; the model has one
definition per version (suffix `S` for callbacks taking a number, `V` for callbacks taking an `Array`).
A generic callback (`auto`) counts as scalar for `map` (`has_scalar_input_v`, include/dataframe/Serie.h:272-301).
-/

namespace DF

variable {α σ : Type}

/-! ## map -/

/-- `__map__`, number to number: include/dataframe/functional/map.h:41-49. -/
def mapSS (cb : α → Nat → Eff σ α) (s : Serie α) : Eff σ (Serie α) := do
  let results ← forLoop (fun i r => do
    let x ← Eff.lift (s.getD i)
    let y ← cb x i
    pure (r ++ [y])) 0 s.count []
  Eff.lift (Serie.ofArray 1 results)

/-- `__map__`, number to array: include/dataframe/functional/map.h:50-72. -/
def mapSV [Zero α] (cb : α → Nat → Eff σ (List α)) (s : Serie α) : Eff σ (Serie α) :=
  if s.count = 0 then pure (Serie.zeros 0 0)
  else do
    let x0 ← Eff.lift (s.getD 0)
    let first ← cb x0 0
    let itemSize := first.length
    let flattened ← forLoop (fun i r => do
      let x ← Eff.lift (s.getD i)
      let y ← cb x i
      if y.length ≠ itemSize then Eff.throw .runtimeError else pure (r ++ y)) 1 (s.count - 1) first
    Eff.lift (Serie.ofArray (u32 itemSize) flattened)

/-- `__map__`, array to number: include/dataframe/functional/map.h:77-84. -/
def mapVS (cb : List α → Nat → Eff σ α) (s : Serie α) : Eff σ (Serie α) := do
  let results ← forLoop (fun i r => do
    let x ← Eff.lift (s.getA i)
    let y ← cb x i
    pure (r ++ [y])) 0 s.count []
  Eff.lift (Serie.ofArray 1 results)

/-- `__map__`, array to array: include/dataframe/functional/map.h:85-107. -/
def mapVV [Zero α] (cb : List α → Nat → Eff σ (List α)) (s : Serie α) : Eff σ (Serie α) :=
  if s.count = 0 then pure (Serie.zeros 0 0)
  else do
    let x0 ← Eff.lift (s.getA 0)
    let first ← cb x0 0
    let itemSize := first.length
    let flattened ← forLoop (fun i r => do
      let x ← Eff.lift (s.getA i)
      let y ← cb x i
      if y.length ≠ itemSize then Eff.throw .runtimeError else pure (r ++ y)) 1 (s.count - 1) first
    Eff.lift (Serie.ofArray (u32 itemSize) flattened)

/-- `utils::countAndCheck`, include/dataframe/utils.h:47-71 (both overloads): the counts; throws unless all equal
the first. -/
def countAndCheck (ss : List (Serie α)) : Res (List Nat) :=
  let counts := ss.map (·.count)
  match counts with
  | [] => .ok []
  | c :: rest => if rest.all (· == c) then .ok counts else .throw .invalidArgument

/-- `args.template get<Array>(i)...`: the `i`-th item of each Serie (the C++ evaluation order is unspecified, the
reads have no effect on each other).
Source: include/dataframe/functional/map.h, forEach.h, reduce.h, filter.h, the variants on several Series. -/
def getRow (ss : List (Serie α)) (i : Nat) : Res (List (List α)) := ss.mapM (·.getA i)

/-- `map` over several Series, callback returning a number: include/dataframe/functional/map.h:116-136, 156.
`result = Serie(1, results)` assigns to a default-constructed Serie. -/
def mapMultiS [Zero α] (cb : List (List α) → Nat → Eff σ α) (ss : List (Serie α)) : Eff σ (Serie α) := do
  let counts ← Eff.lift (countAndCheck ss)
  let row0 ← Eff.lift (getRow ss 0)
  let first ← cb row0 0
  let c0 ← Eff.lift (rd counts 0)
  let results ← forLoop (fun i r => do
    let row ← Eff.lift (getRow ss i)
    let y ← cb row i
    pure (r ++ [y])) 1 (c0 - 1) [first]
  let t ← Eff.lift (Serie.ofArray 1 results)
  Eff.lift ((Serie.assign t).exec Serie.empty)

/-- `map` over several Series, callback returning an array: include/dataframe/functional/map.h:116-125, 137-156. -/
def mapMultiV [Zero α] (cb : List (List α) → Nat → Eff σ (List α)) (ss : List (Serie α)) : Eff σ (Serie α) := do
  let counts ← Eff.lift (countAndCheck ss)
  let row0 ← Eff.lift (getRow ss 0)
  let first ← cb row0 0
  let c0 ← Eff.lift (rd counts 0)
  let itemSize := first.length
  let flattened ← forLoop (fun i r => do
    let row ← Eff.lift (getRow ss i)
    let y ← cb row i
    if y.length ≠ itemSize then Eff.throw .runtimeError else pure (r ++ y)) 1 (c0 - 1) first
  let t ← Eff.lift (Serie.ofArray (u32 itemSize) flattened)
  Eff.lift ((Serie.assign t).exec Serie.empty)

/-! ## filter, reject -/

/-- Index loop of `__filter__`, include/dataframe/functional/filter.h:93-98 (scalar), 113-118 (array): the indices
`i < count` for which the predicate is true. The item is read with `get`. -/
def collect {γ : Type} (get : Nat → Res γ) (count : Nat) (p : γ → Nat → Eff σ Bool) : Eff σ (List Nat) :=
  forLoop (fun i idx => do
    let x ← Eff.lift (get i)
    let b ← p x i
    pure (if b then idx ++ [i] else idx)) 0 count []

/-- Index loop of `__reject__`, include/dataframe/functional/utils/reject.h:42-47, 62-67: the predicate must be
false. -/
def collectNot {γ : Type} (get : Nat → Res γ) (count : Nat) (p : γ → Nat → Eff σ Bool) : Eff σ (List Nat) :=
  forLoop (fun i idx => do
    let x ← Eff.lift (get i)
    let b ← p x i
    pure (if !b then idx ++ [i] else idx)) 0 count []

/-- Copy loop of the scalar versions, include/dataframe/functional/filter.h:100-104, include/dataframe/functional/utils/reject.h:49-53: `Serie result(1, indices.size())`. -/
def gatherD [Zero α] (s : Serie α) (idx : List Nat) : Res (Serie α) :=
  forLoop (fun i (r : Serie α) => do
    let k ← rd idx i
    let x ← s.getD k
    r.putD i x) 0 idx.length (Serie.zeros 1 (u32 idx.length))

/-- Copy loop of the array versions, include/dataframe/functional/filter.h:120-124, 181-187, 255-261, include/dataframe/functional/utils/reject.h:69-73, 97-103, 142-148:
`Serie result(serie.itemSize(), indices.size())`. -/
def gatherA [Zero α] (s : Serie α) (idx : List Nat) : Res (Serie α) :=
  forLoop (fun i (r : Serie α) => do
    let k ← rd idx i
    let v ← s.getA k
    r.putA i v) 0 idx.length (Serie.zeros s.itemSize (u32 idx.length))

/-- `__filter__`, scalar predicate: include/dataframe/functional/filter.h:87-105. -/
def filterS [Zero α] (p : α → Nat → Eff σ Bool) (s : Serie α) : Eff σ (Serie α) := do
  let idx ← collect s.getD s.count p
  Eff.lift (gatherD s idx)

/-- `__filter__`, array predicate: include/dataframe/functional/filter.h:107-125. -/
def filterV [Zero α] (p : List α → Nat → Eff σ Bool) (s : Serie α) : Eff σ (Serie α) := do
  let idx ← collect s.getA s.count p
  Eff.lift (gatherA s idx)

/-- `__reject__`, scalar predicate: include/dataframe/functional/utils/reject.h:36-54. -/
def rejectS [Zero α] (p : α → Nat → Eff σ Bool) (s : Serie α) : Eff σ (Serie α) := do
  let idx ← collectNot s.getD s.count p
  Eff.lift (gatherD s idx)

/-- `__reject__`, array predicate: include/dataframe/functional/utils/reject.h:56-74. -/
def rejectV [Zero α] (p : List α → Nat → Eff σ Bool) (s : Serie α) : Eff σ (Serie α) := do
  let idx ← collectNot s.getA s.count p
  Eff.lift (gatherA s idx)

/-- `filter` over several Series, include/dataframe/functional/filter.h:165-189 (the predicate also gets the row
index). The result tuple is a list. -/
def filterMulti [Zero α] (p : List (List α) → Nat → Eff σ Bool) (ss : List (Serie α)) :
    Eff σ (List (Serie α)) := do
  let counts ← Eff.lift (countAndCheck ss)
  let c0 ← Eff.lift (rd counts 0)
  let idx ← collect (getRow ss) c0 p
  Eff.lift (ss.mapM (fun s => gatherA s idx))

/-- `filterAll`, include/dataframe/functional/filter.h:237-264 (the predicate does not get the index). -/
def filterAll [Zero α] (p : List (List α) → Eff σ Bool) (ss : List (Serie α)) : Eff σ (List (Serie α)) := do
  let counts ← Eff.lift (countAndCheck ss)
  let c0 ← Eff.lift (rd counts 0)
  let idx ← collect (getRow ss) c0 (fun row _ => p row)
  Eff.lift (ss.mapM (fun s => gatherA s idx))

/-- `reject` over several Series, include/dataframe/functional/utils/reject.h:80-105. -/
def rejectMulti [Zero α] (p : List (List α) → Nat → Eff σ Bool) (ss : List (Serie α)) :
    Eff σ (List (Serie α)) := do
  let counts ← Eff.lift (countAndCheck ss)
  let c0 ← Eff.lift (rd counts 0)
  let idx ← collectNot (getRow ss) c0 p
  Eff.lift (ss.mapM (fun s => gatherA s idx))

/-- `rejectAll`, include/dataframe/functional/utils/reject.h:124-151. -/
def rejectAll [Zero α] (p : List (List α) → Eff σ Bool) (ss : List (Serie α)) : Eff σ (List (Serie α)) := do
  let counts ← Eff.lift (countAndCheck ss)
  let c0 ← Eff.lift (rd counts 0)
  let idx ← collectNot (getRow ss) c0 (fun row _ => p row)
  Eff.lift (ss.mapM (fun s => gatherA s idx))

/-! ## find -/

/-- `FindResult`, include/dataframe/functional/find.h:34-41. -/
structure FindResult (γ : Type) where
  value : γ
  index : Nat
  found : Bool
  deriving DecidableEq, Repr

/-- The search loop of `find`, include/dataframe/functional/find.h:53-59, 66-72: returns at the first match.
`rem` is the number of indices left. -/
def findLoop {γ : Type} (get : Nat → Res γ) (p : γ → Nat → Eff σ Bool) (dflt : γ) :
    Nat → Nat → Eff σ (FindResult γ)
  | _, 0 => pure { value := dflt, index := 0, found := false }
  | i, rem + 1 => do
    let x ← Eff.lift (get i)
    let b ← p x i
    if b then pure { value := x, index := i, found := true } else findLoop get p dflt (i + 1) rem

/-- `find`, scalar predicate: include/dataframe/functional/find.h:47-59. -/
def findS [Zero α] (p : α → Nat → Eff σ Bool) (s : Serie α) : Eff σ (FindResult α) :=
  if s.itemSize ≠ 1 then Eff.throw .invalidArgument else findLoop s.getD p 0 0 s.count

/-- `find`, array predicate: include/dataframe/functional/find.h:60-73. -/
def findV (p : List α → Nat → Eff σ Bool) (s : Serie α) : Eff σ (FindResult (List α)) :=
  if s.itemSize = 1 then Eff.throw .invalidArgument else findLoop s.getA p [] 0 s.count

/-- Copy loop of `findAll`, include/dataframe/functional/find.h:108-118. -/
def gatherFind [Zero α] (s : Serie α) (idx : List Nat) : Res (Serie α) :=
  forLoop (fun i (r : Serie α) =>
    if s.itemSize = 1 then do
      let k ← rd idx i
      let x ← s.getD k
      r.putD i x
    else do
      let k ← rd idx i
      let v ← s.getA k
      r.putA i v) 0 idx.length (Serie.zeros s.itemSize (u32 idx.length))

/-- `findAll`, scalar predicate: include/dataframe/functional/find.h:91-99, 108-118. -/
def findAllS [Zero α] (p : α → Nat → Eff σ Bool) (s : Serie α) : Eff σ (Serie α) := do
  let idx ← collect s.getD s.count p
  Eff.lift (gatherFind s idx)

/-- `findAll`, array predicate: include/dataframe/functional/find.h:91-92, 100-118. -/
def findAllV [Zero α] (p : List α → Nat → Eff σ Bool) (s : Serie α) : Eff σ (Serie α) := do
  let idx ← collect s.getA s.count p
  Eff.lift (gatherFind s idx)

/-! ## forEach -/

/-- `forEach`, scalar callback: include/dataframe/functional/forEach.h:96-103. -/
def forEachS (cb : α → Nat → Eff σ Unit) (s : Serie α) : Eff σ Unit :=
  if s.itemSize ≠ 1 then Eff.throw .invalidArgument
  else forLoop (fun i _ => do
    let x ← Eff.lift (s.getD i)
    cb x i) 0 s.count ()

/-- `forEach`, array callback: include/dataframe/functional/forEach.h:104-112. -/
def forEachV (cb : List α → Nat → Eff σ Unit) (s : Serie α) : Eff σ Unit :=
  if s.itemSize = 1 then Eff.throw .invalidArgument
  else forLoop (fun i _ => do
    let x ← Eff.lift (s.getA i)
    cb x i) 0 s.count ()

/-- `forEach`, generic callback (accepting numbers and arrays): include/dataframe/functional/forEach.h:88-95. -/
def forEachG (cbD : α → Nat → Eff σ Unit) (cbA : List α → Nat → Eff σ Unit) (s : Serie α) : Eff σ Unit :=
  forLoop (fun i _ =>
    if s.itemSize = 1 then do
      let x ← Eff.lift (s.getD i)
      cbD x i
    else do
      let x ← Eff.lift (s.getA i)
      cbA x i) 0 s.count ()

/-- `forEach` over several Series: include/dataframe/functional/forEach.h:65-75. -/
def forEachMulti (cb : List (List α) → Nat → Eff σ Unit) (ss : List (Serie α)) : Eff σ Unit := do
  let counts ← Eff.lift (countAndCheck ss)
  let c0 ← Eff.lift (rd counts 0)
  forLoop (fun i _ => do
    let row ← Eff.lift (getRow ss i)
    cb row i) 0 c0 ()

/-! ## reduce -/

/-- `reduce` to a number: include/dataframe/functional/reduce.h:80-88. -/
def reduceS (cb : α → α → Nat → Eff σ α) (s : Serie α) (init : α) : Eff σ α :=
  forLoop (fun i acc => do
    let x ← Eff.lift (s.getD i)
    cb acc x i) 0 s.count init

/-- `reduce` to a one-item Serie: include/dataframe/functional/reduce.h:90-98. -/
def reduceV (cb : List α → List α → Nat → Eff σ (List α)) (s : Serie α) (init : List α) : Eff σ (Serie α) := do
  let result ← forLoop (fun i acc => do
    let x ← Eff.lift (s.getA i)
    cb acc x i) 0 s.count init
  Eff.lift (Serie.ofArray (u32 result.length) result)

/-! ## partition -/

/-- Index loop of `partition`, include/dataframe/functional/utils/partition.h:50-57, 72-79. -/
def collectBoth {γ : Type} (get : Nat → Res γ) (count : Nat) (p : γ → Nat → Eff σ Bool) :
    Eff σ (List Nat × List Nat) :=
  forLoop (fun i (idx : List Nat × List Nat) => do
    let x ← Eff.lift (get i)
    let b ← p x i
    pure (if b then (idx.1 ++ [i], idx.2) else (idx.1, idx.2 ++ [i]))) 0 count ([], [])

/-- `partition`, scalar predicate: include/dataframe/functional/utils/partition.h:43-69. -/
def partitionS [Zero α] (p : α → Nat → Eff σ Bool) (s : Serie α) : Eff σ (Serie α × Serie α) :=
  if s.itemSize ≠ 1 then Eff.throw .invalidArgument
  else do
    let idx ← collectBoth s.getD s.count p
    let m ← Eff.lift (gatherD s idx.1)
    let u ← Eff.lift (gatherD s idx.2)
    pure (m, u)

/-- `partition`, array predicate: include/dataframe/functional/utils/partition.h:70-91. -/
def partitionV [Zero α] (p : List α → Nat → Eff σ Bool) (s : Serie α) : Eff σ (Serie α × Serie α) := do
  let idx ← collectBoth s.getA s.count p
  let m ← Eff.lift (gatherA s idx.1)
  let u ← Eff.lift (gatherA s idx.2)
  pure (m, u)

/-! ## check -/

/-- `check`, scalar predicate: include/dataframe/functional/conditional/check.h:34-41. -/
def checkS [Zero α] [One α] (s : Serie α) (cb : α → Nat → Eff σ Bool) : Eff σ (Serie α) := do
  let results ← forLoop (fun i r => do
    let x ← Eff.lift (s.getD i)
    let b ← cb x i
    pure (r ++ [if b then 1 else 0])) 0 s.count []
  Eff.lift (Serie.ofArray 1 results)

/-- `check`, array predicate: include/dataframe/functional/conditional/check.h:42-49. -/
def checkV [Zero α] [One α] (s : Serie α) (cb : List α → Nat → Eff σ Bool) : Eff σ (Serie α) := do
  let results ← forLoop (fun i r => do
    let x ← Eff.lift (s.getA i)
    let b ← cb x i
    pure (r ++ [if b then 1 else 0])) 0 s.count []
  Eff.lift (Serie.ofArray 1 results)

end DF
