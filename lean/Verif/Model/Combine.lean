import Verif.Model.Functional

/-!
# merge, concat, partition_n, zip, unzip, pipe, compose
-/

namespace DF

variable {α : Type}

/-- `result.set(idx++, v)`: the Serie being filled and the running index (`uint32_t`).
Source: include/dataframe/functional/merge.h:57, 60, 84, 94. -/
def pushItem (st : Serie α × Nat) (v : List α) : Res (Serie α × Nat) := do
  let r ← st.1.putA st.2 v
  pure (r, u32 (st.2 + 1))

/-- Loop copying all items of `s` at the running index: include/dataframe/functional/merge.h:44-49, 83-85, include/dataframe/functional/utils/concat.h:57-59. -/
def pushAll (s : Serie α) (st : Serie α × Nat) : Res (Serie α × Nat) :=
  forLoop (fun i st => do
    let v ← s.getA i
    pushItem st v) 0 s.count st

/-- Conditional copy of item `i`: include/dataframe/functional/merge.h:56-61, 93-95. -/
def pushAt (i : Nat) (s : Serie α) (st : Serie α × Nat) : Res (Serie α × Nat) :=
  if i < s.count then do
    let v ← s.getA i
    pushItem st v
  else pure st

/-- `merge(s1, s2, concatenate)`, include/dataframe/functional/merge.h:35-65. -/
def merge2 [Zero α] (s1 s2 : Serie α) (concatenate : Bool := true) : Res (Serie α) :=
  if s1.itemSize ≠ s2.itemSize then .throw .invalidArgument
  else
    let result := Serie.zeros s1.itemSize (u32 (s1.count + s2.count))
    if concatenate then do
      let st ← pushAll s1 (result, 0)
      let st ← pushAll s2 st
      pure st.1
    else do
      let st ← forLoop (fun i st => do
        let st ← pushAt i s1 st
        pushAt i s2 st) 0 (max s1.count s2.count) (result, 0)
      pure st.1

/-- `std::equal(v.begin() + 1, v.end(), v.begin())`: consecutive elements are equal.
Source: include/dataframe/functional/merge.h:71-72. -/
def adjacentEqual : List Nat → Bool
  | a :: b :: l => a == b && adjacentEqual (b :: l)
  | _ => true

/-- `merge(concatenate, series...)`, include/dataframe/functional/merge.h:68-101. The parameter pack is a list; an
empty pack does not compile (`.ub` here, excluded by every theorem). -/
def mergeN [Zero α] (concatenate : Bool) (ss : List (Serie α)) : Res (Serie α) :=
  match ss with
  | [] => .ub
  | s0 :: _ =>
    if !adjacentEqual (ss.map (·.itemSize)) then .throw .invalidArgument
    else
      let total := ss.foldl (fun t s => u32 (t + s.count)) 0
      let result := Serie.zeros s0.itemSize total
      if concatenate then do
        let st ← ss.foldlM (fun st s => pushAll s st) (result, 0)
        pure st.1
      else
        let maxCount := ss.foldl (fun m s => max m s.count) 0
        do
        let st ← forLoop (fun i st => ss.foldlM (fun st s => pushAt i s st) st) 0 maxCount (result, 0)
        pure st.1

/-- `concat(vector<Serie>)`, include/dataframe/functional/utils/concat.h:36-63; the variadic form 65-68 builds the
vector and calls it. -/
def concat [Zero α] (ss : List (Serie α)) : Res (Serie α) :=
  match ss with
  | [] => .throw .invalidArgument
  | s0 :: _ => do
    let total ← ss.foldlM (fun t s =>
      if !s.isValid || s.itemSize ≠ s0.itemSize then .throw .invalidArgument
      else .ok (u32 (t + s.count))) 0
    let st ← ss.foldlM (fun st s => pushAll s st) (Serie.zeros s0.itemSize total, 0)
    pure st.1

/-- One part of `partition_n`, include/dataframe/functional/utils/partition_n.h:55-58, 102-105: items `start, ..., start + size - 1`. -/
def slice [Zero α] (s : Serie α) (start size : Nat) : Res (Serie α) :=
  forLoop (fun j (r : Serie α) => do
    let v ← s.getA (u32 (start + j))
    r.putA j v) 0 size (Serie.zeros s.itemSize size)

/-- Main loop of `partition_n(n, serie)`, include/dataframe/functional/utils/partition_n.h:53-64; `rest` is the number
of iterations left, `i` the loop variable. -/
def partLoop [Zero α] (s : Serie α) (base rem total : Nat) : Nat → Nat → Nat → List (Serie α) → Res (List (Serie α))
  | 0, _, _, parts => pure parts
  | rest + 1, i, start, parts => do
    let size := u32 (base + if i < rem then 1 else 0)
    let part ← slice s start size
    let start := u32 (start + size)
    if start ≥ total then pure (parts ++ [part]) else partLoop s base rem total rest (i + 1) start (parts ++ [part])

/-- `partition_n(n, serie)`, include/dataframe/functional/utils/partition_n.h:44-67; `n = 0` divides by zero. -/
def partitionN [Zero α] (n : Nat) (s : Serie α) : Res (List (Serie α)) :=
  if n = 0 then .ub else partLoop s (s.count / n) (s.count % n) s.count n 0 0 []

/-- `partition_one`, include/dataframe/functional/utils/partition_n.h:99-109 (no early exit). -/
def partLoopAll [Zero α] (s : Serie α) (base rem : Nat) : Nat → Nat → Nat → List (Serie α) → Res (List (Serie α))
  | 0, _, _, parts => pure parts
  | rest + 1, i, start, parts => do
    let size := u32 (base + if i < rem then 1 else 0)
    let part ← slice s start size
    partLoopAll s base rem rest (i + 1) (u32 (start + size)) (parts ++ [part])

/-- `partition_n(n, series...)`, include/dataframe/functional/utils/partition_n.h:84-115. -/
def partitionNMulti [Zero α] (n : Nat) (ss : List (Serie α)) : Res (List (List (Serie α))) :=
  if n = 0 then .throw .invalidArgument
  else do
    let counts ← countAndCheck ss
    let total ← rd counts 0
    ss.mapM (fun s => partLoopAll s (total / n) (total % n) n 0 0 [])

/-! ## zip, unzip -/

/-- `result.setScalar(p, x)` on a local Serie.
Source: include/dataframe/functional/utils/zip.h:72, 77, 139, 144, include/dataframe/functional/utils/unzip.h:57; src/Serie.cxx:123-131. -/
def Serie.putScalar (s : Serie α) (p : Nat) (x : α) : Res (Serie α) := (Serie.setScalar p x).exec s

/-- `result.setValue(i, v)` on a local Serie.
Source: include/dataframe/functional/utils/unzip.h:65; src/Serie.cxx:106-121. -/
def Serie.putValue (s : Serie α) (i : Nat) (v : List α) : Res (Serie α) := (Serie.setValue i v).exec s

/-- Copy of one Serie into the result at offset `off`, include/dataframe/functional/utils/zip.h:70-81, 137-148. -/
def zipCopy (s : Serie α) (count off : Nat) (r : Serie α) : Res (Serie α) :=
  forLoop (fun i (r : Serie α) =>
    if s.itemSize = 1 then do
      let x ← s.scalar i
      r.putScalar (u32 (i * r.itemSize + off)) x
    else do
      let values ← s.value i
      forLoop (fun j (r : Serie α) => do
        let x ← rd values j
        r.putScalar (u32 (i * r.itemSize + off + j)) x) 0 s.itemSize r) 0 count r

/-- `zip(series...)`, include/dataframe/functional/utils/zip.h:50-90. -/
def zip [Zero α] (ss : List (Serie α)) : Res (Serie α) :=
  if !ss.all (·.isValid) then .throw .invalidArgument
  else do
    let counts ← countAndCheck ss
    let count ← rd counts 0
    let total := ss.foldl (fun t s => u32 (t + s.itemSize)) 0
    let st ← ss.foldlM (fun (st : Serie α × Nat) s => do
      let r ← zipCopy s s.count st.2 st.1
      pure (r, u32 (st.2 + s.itemSize))) (Serie.zeros total count, 0)
    pure st.1

/-- `zipVector(vector<Serie>)`, include/dataframe/functional/utils/zip.h:111-153. -/
def zipVector [Zero α] (ss : List (Serie α)) : Res (Serie α) :=
  if ss = [] then .throw .invalidArgument
  else if !ss.all (·.isValid) then .throw .invalidArgument
  else do
    let counts ← countAndCheck ss
    let count ← rd counts 0
    let total := ss.foldl (fun t s => u32 (t + s.itemSize)) 0
    let st ← ss.foldlM (fun (st : Serie α × Nat) s => do
      let r ← zipCopy s count st.2 st.1
      pure (r, u32 (st.2 + s.itemSize))) (Serie.zeros total count, 0)
    pure st.1

/-- One output Serie of `unzip`, include/dataframe/functional/utils/unzip.h:54-67. -/
def unzipOne [Zero α] (z : Serie α) (k off : Nat) : Res (Serie α) :=
  forLoop (fun i (s : Serie α) =>
    if k = 1 then do
      let x ← z.scalar (u32 (i * z.itemSize + off))
      s.putScalar i x
    else do
      let values ← forLoop (fun j (v : List α) => do
        let x ← z.scalar (u32 (i * z.itemSize + off + j))
        wr v j x) 0 k (List.replicate k 0)
      s.putValue i values) 0 z.count (Serie.zeros k z.count)

/-- `unzip(zipped, itemSizes)`, include/dataframe/functional/utils/unzip.h:38-73. -/
def unzip [Zero α] (z : Serie α) (sizes : List Nat) : Res (List (Serie α)) :=
  if sizes = [] then .throw .invalidArgument
  else if sizes.foldl (fun t k => u32 (t + k)) 0 ≠ z.itemSize then .throw .invalidArgument
  else do
    let st ← sizes.foldlM (fun (st : List (Serie α) × Nat) k => do
      let s ← unzipOne z k st.2
      pure (st.1 ++ [s], u32 (st.2 + k))) ([], 0)
    pure st.1

/-! ## pipe, compose, make_op -/

/-- The operations given to `pipe`: a non-empty sequence, each one accepting what the previous one returns.
Source: the parameter pack of include/dataframe/functional/pipe.h. -/
inductive Ops (m : Type → Type) : Type → Type → Type 1
  | one {a b : Type} (f : a → m b) : Ops m a b
  | cons {a b c : Type} (f : a → m b) (fs : Ops m b c) : Ops m a c

/-- `pipe(input, op, ops...)`, include/dataframe/functional/pipe.h:66-68, 115-118. -/
def pipe {m : Type → Type} [Monad m] : {a b : Type} → a → Ops m a b → m b
  | _, _, x, .one f => f x
  | _, _, x, .cons f fs => f x >>= fun y => pipe y fs

/-- `make_pipe(ops...)`, include/dataframe/functional/pipe.h:140-144. -/
def makePipe {m : Type → Type} [Monad m] {a b : Type} (ops : Ops m a b) : a → m b := fun input => pipe input ops

/-- The arguments of `compose`: at least two functions, each one accepting what the next one returns.
Source: the parameter pack of include/dataframe/functional/utils/compose.h. -/
inductive Fns (m : Type → Type) : Type → Type → Type 1
  | two {a b c : Type} (f : b → m c) (g : a → m b) : Fns m a c
  | cons {a b c : Type} (f : b → m c) (gs : Fns m a b) : Fns m a c

/-- `ComposedType::operator()`, include/dataframe/functional/utils/compose.h:31-37, 40-43. -/
def compose2 {m : Type → Type} [Monad m] {a b c : Type} (f : b → m c) (g : a → m b) : a → m c := fun x => g x >>= f

/-- `compose(f, g, fs...)`, include/dataframe/functional/utils/compose.h:57-61. -/
def compose {m : Type → Type} [Monad m] : {a b : Type} → Fns m a b → a → m b
  | _, _, .two f g => compose2 f g
  | _, _, .cons f gs => compose2 f (compose gs)

/-- `make_op(cb)` generated by `MAKE_OP(op)`, include/dataframe/functional/macros.h:40-45. -/
def makeOp {β γ δ : Type} (op : β → γ → δ) (cb : β) : γ → δ := fun serie => op cb serie

end DF
