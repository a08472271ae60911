import Verif.Model.Outcome

/-!
# Class `Serie` (include/dataframe/Serie.h:69-119, src/Serie.cxx, include/dataframe/inline/Serie.hxx)
-/

namespace DF

/-- include/dataframe/Serie.h:114-118. `itemSize` is the 32-bit pattern of the field `int itemSize_`
(so it is also what `itemSize()` returns, src/Serie.cxx:72); `count` and `dimension` are 32-bit values. -/
structure Serie (α : Type) where
  data : List α
  count : Nat
  itemSize : Nat
  dimension : Nat
  deriving DecidableEq, Repr

namespace Serie

variable {α : Type}

/-- `Serie(int itemSize, uint32_t count, uint dimension = 3)`, src/Serie.cxx:29-32: `count * itemSize` zeros,
the product being computed modulo `2^32`.
Simplification: running out of memory is not modelled. -/
def zeros [Zero α] (itemSize count : Nat) (dimension : Nat := 3) : Serie α :=
  { data := List.replicate (u32 (count * itemSize)) 0, count, itemSize, dimension }

/-- `Serie()`: defaults of include/dataframe/Serie.h:71. -/
def empty [Zero α] : Serie α := zeros 0 0

/-- `values.size() / itemSize` stored in a `uint32_t`, src/Serie.cxx:41, 48: the `int` divisor is converted to
`size_t`; division by zero is undefined behaviour. -/
def divCount (len itemSize : Nat) : Res Nat :=
  if itemSize = 0 then .ub else .ok (u32 (len / sizeT itemSize))

/-- `Serie(int itemSize, const Array &values, uint dimension = 3)`, src/Serie.cxx:39-43 (and the
initializer-list version 45-50). -/
def ofArray (itemSize : Nat) (values : List α) (dimension : Nat := 3) : Res (Serie α) := do
  let count ← divCount values.length itemSize
  pure { data := values, count, itemSize, dimension }

/-- Copy constructor, src/Serie.cxx:34-37. -/
def copy (s : Serie α) : Serie α :=
  { itemSize := s.itemSize, count := s.count, dimension := s.dimension, data := s.data }

/-- `isValid()`, src/Serie.cxx:52: `itemSize_ > 0` as an `int`. -/
def isValid (s : Serie α) : Bool := 0 < s.itemSize && s.itemSize < 2 ^ 31

/-- `reCount(c)`, src/Serie.cxx:54-57. -/
def reCount [Zero α] (c : Nat) : Eff (Serie α) Unit := fun s =>
  (.ok (), { s with count := c, data := List.replicate (u32 (c * s.itemSize)) 0 })

/-- `operator=`, src/Serie.cxx:59-64: assigns `count_`, `itemSize_` and `s_` (and not `dimension_`). -/
def assign (src : Serie α) : Eff (Serie α) Unit := fun s =>
  (.ok (), { s with count := src.count, itemSize := src.itemSize, data := src.data })

/-- `clone()`, src/Serie.cxx:66: `Serie(itemSize_, s_)`. -/
def clone (s : Serie α) : Res (Serie α) := ofArray s.itemSize s.data

/-- `size()`, src/Serie.cxx:68: `count_ * itemSize_` modulo `2^32`. -/
def size (s : Serie α) : Nat := u32 (s.count * s.itemSize)

/-- `Array r(itemSize_)`, src/Serie.cxx:90, include/dataframe/inline/Serie.hxx:121: a negative `int` becomes a
`size_t` above `max_size()`, which makes the vector constructor throw `std::length_error`. -/
def checkAlloc (k : Nat) : Res Unit := if k < 2 ^ 31 then .ok () else .throw .lengthError

/-- `value(i)`, src/Serie.cxx:88-95; index arithmetic is in `uint32_t`. -/
def value (s : Serie α) (i : Nat) : Res (List α) := do
  let start := u32 (i * s.itemSize)
  checkAlloc s.itemSize
  forLoop (fun j r => do
    let x ← rd s.data (u32 (start + j))
    pure (r ++ [x])) 0 s.itemSize []

/-- `scalar(i)`, src/Serie.cxx:97-104. Note `>` and not `>=`. -/
def scalar (s : Serie α) (i : Nat) : Res α :=
  if i > s.size then .throw .invalidArgument else rd s.data i

/-- `s_[p] = x` inside a mutator.
Source: src/Serie.cxx:106-148. -/
def write (p : Nat) (x : α) : Eff (Serie α) Unit := fun s =>
  match wr s.data p x with
  | .ok d => (.ok (), { s with data := d })
  | .throw e => (.throw e, s)
  | .ub => (.ub, s)

/-- `setValue(i, v)`, src/Serie.cxx:106-121. The comparison `v.size() != size` converts the `int` to `size_t`;
the loop `for (int j = 0; j < size; ++j)` runs only for a positive size. -/
def setValue (i : Nat) (v : List α) : Eff (Serie α) Unit := fun s =>
  if i ≥ s.count then (.throw .invalidArgument, s)
  else if v.length ≠ sizeT s.itemSize then (.throw .invalidArgument, s)
  else
    let n := if s.itemSize < 2 ^ 31 then s.itemSize else 0
    forLoop (m := Eff (Serie α)) (fun j _ => do
      let x ← Eff.lift (rd v j)
      write (u32 (i * s.itemSize + j)) x) 0 n () s

/-- `setScalar(i, v)`, src/Serie.cxx:123-130. -/
def setScalar (i : Nat) (v : α) : Eff (Serie α) Unit := fun s =>
  if i ≥ s.data.length then (.throw .invalidArgument, s) else write i v s

/-- `get<Array>(i)`, include/dataframe/inline/Serie.hxx:117-125. -/
def getA (s : Serie α) (i : Nat) : Res (List α) :=
  if s.itemSize = 1 then do
    let x ← rd s.data i
    pure [x]
  else do
    checkAlloc s.itemSize
    forLoop (fun j r => do
      let x ← rd s.data (u32 (i * s.itemSize + j))
      pure (r ++ [x])) 0 s.itemSize []

/-- `get<double>(i)`, include/dataframe/inline/Serie.hxx:126-133. -/
def getD (s : Serie α) (i : Nat) : Res α :=
  if i ≥ s.data.length then .throw .invalidArgument else rd s.data i

/-- `set(i, Array)`, include/dataframe/inline/Serie.hxx:152-166 (loop index unsigned). -/
def setA (i : Nat) (v : List α) : Eff (Serie α) Unit := fun s =>
  if i ≥ s.count then (.throw .invalidArgument, s)
  else if v.length ≠ sizeT s.itemSize then (.throw .invalidArgument, s)
  else
    forLoop (m := Eff (Serie α)) (fun j _ => do
      let x ← Eff.lift (rd v j)
      write (u32 (i * s.itemSize + j)) x) 0 s.itemSize () s

/-- `set(i, double)`, include/dataframe/inline/Serie.hxx:167-174. -/
def setD (i : Nat) (x : α) : Eff (Serie α) Unit := fun s =>
  if i ≥ s.data.length then (.throw .invalidArgument, s) else write i x s

/-- `toSerie(itemSize, a, dim)`, src/Serie.cxx:144-146: the argument `dim` is ignored. -/
def toSerie (itemSize : Nat) (a : List α) (_dim : Nat := 3) : Res (Serie α) := ofArray itemSize a 3

/-- `result.set(i, v)` on a local Serie.
Source: include/dataframe/inline/Serie.hxx:135-177. -/
def putA (s : Serie α) (i : Nat) (v : List α) : Res (Serie α) := (setA i v).exec s

/-- `result.set(i, x)` on a local Serie.
Source: include/dataframe/inline/Serie.hxx:135-177. -/
def putD (s : Serie α) (i : Nat) (x : α) : Res (Serie α) := (setD i x).exec s

end Serie

end DF
