import Verif.Model.Serie
import Verif.Model.Dataframe
import Verif.Model.Functional

/-!
# Text output

Sources: include/dataframe/functional/utils/print.h, include/dataframe/inline/Serie.hxx:69-93, include/dataframe/types.h:52-75,
src/Serie.cxx:76-86, 133-142, src/Dataframe.cxx:151-160.

The text of a number is given by a function `fmt` (the formatting of `std::ostream` for `double`). A stream is the text
written so far; flushing is not modelled.
-/

namespace DF

variable {α : Type}

/-- The streams: the two of the process, and any other one (a file, a string stream).
Source: the streams used in include/dataframe/functional/utils/print.h, include/dataframe/inline/Serie.hxx:69-93, include/dataframe/types.h:52-74. -/
structure Console where
  /-- `std::cout` -/
  cout : String
  /-- `std::cerr` -/
  cerr : String
  /-- another stream -/
  other : String
deriving DecidableEq

/-- A reference to a stream.
Source: the parameter `std::ostream &o` of include/dataframe/inline/Serie.hxx:69, 87. -/
inductive Out
  | cout
  | cerr
  | other
deriving DecidableEq

/-- `o << t`.
Source: include/dataframe/functional/utils/print.h:32-63, include/dataframe/inline/Serie.hxx:70-91. -/
def Out.put (o : Out) (t : String) : Eff Console Unit := fun c =>
  (.ok (), match o with
    | .cout => { c with cout := c.cout ++ t }
    | .cerr => { c with cerr := c.cerr ++ t }
    | .other => { c with other := c.other ++ t })

/-- `n - 1` for a `size_t`: wraps around at zero.
Source: include/dataframe/functional/utils/print.h:46, 58, include/dataframe/inline/Serie.hxx:77-80. -/
def sizePred (n : Nat) : Nat := if n = 0 then 2 ^ 64 - 1 else n - 1

/-- `v.back()`: undefined for an empty vector.
Source: include/dataframe/functional/utils/print.h:49, 61. -/
def backOf {β : Type} (v : List β) : Res β :=
  match v.getLast? with
  | some x => .ok x
  | none => .ub

/-- One item, include/dataframe/functional/utils/print.h:44-49 and 55-62; `sep` is the text after it. -/
def printItem (fmt : α → String) (s : Serie α) (i : Nat) (sep : String) : Eff Console Unit :=
  if s.itemSize = 1 then do
    let x ← Eff.lift (s.getD i)
    Out.cout.put (fmt x ++ sep)
  else do
    let v ← Eff.lift (s.getA i)
    Out.cout.put "("
    forLoop (fun j _ => do
      let x ← Eff.lift (rd v j)
      Out.cout.put (fmt x ++ ",")) 0 (sizePred v.length) ()
    let x ← Eff.lift (backOf v)
    Out.cout.put (fmt x ++ ")" ++ sep)

/-- `print(serie)`, include/dataframe/functional/utils/print.h:31-64. -/
def print (fmt : α → String) (s : Serie α) : Eff Console Unit := do
  Out.cout.put ("Serie:\n  itemSize : " ++ toString s.itemSize ++ "\n  count    : " ++ toString s.count ++
    "\n  dimension: " ++ toString s.dimension ++ "\n  values   : [")
  if 0 < s.count then do
    forLoop (fun i _ => printItem fmt s i ", ") 0 (s.count - 1) ()
    printItem fmt s (s.count - 1) ""
  Out.cout.put "]\n"

/-- The fold of include/dataframe/functional/utils/print.h:75-77: the remaining Series, from number `index`. -/
def printRest (fmt : α → String) : Nat → List (Serie α) → Eff Console Unit
  | _, [] => pure ()
  | index, s :: l => do
    Out.cout.put ("Series " ++ toString index ++ ":\n")
    print fmt s
    printRest fmt (index + 1) l

/-- `print(first, rest...)`, include/dataframe/functional/utils/print.h:67-79. With a single argument the other overload is
chosen. -/
def printAll (fmt : α → String) (first : Serie α) (rest : List (Serie α)) : Eff Console Unit :=
  if rest = [] then print fmt first
  else do
    Out.cout.put "Series 1:\n"
    print fmt first
    printRest fmt 2 rest

/-- `operator<<(o, serie)`, include/dataframe/inline/Serie.hxx:69-85: the text goes to `std::cerr`. -/
def streamSerie (fmt : α → String) (_o : Out) (s : Serie α) : Eff Console Unit := do
  Out.cerr.put ("Serie:\n  itemSize : " ++ toString s.itemSize ++ "\n  count    : " ++ toString s.count ++
    "\n  dimension: " ++ toString s.dimension ++ "\n")
  if 0 < s.count then do
    Out.cerr.put "  values   : ["
    forLoop (fun i _ => do
      let x ← Eff.lift (rd s.data i)
      Out.cerr.put (fmt x ++ ", ")) 0 (sizePred s.data.length) ()
    let x ← Eff.lift (rd s.data (sizePred s.data.length))
    Out.cerr.put (fmt x ++ "]")
  else Out.cerr.put "  values   : []"

/-- The loop of `operator<<(o, series)`.
Source: include/dataframe/inline/Serie.hxx:89-91. -/
def streamLoop (fmt : α → String) (o : Out) : List (Serie α) → Eff Console Unit
  | [] => pure ()
  | s :: l => do
    streamSerie fmt o s
    o.put "\n"
    streamLoop fmt o l

/-- `operator<<(o, series)`, include/dataframe/inline/Serie.hxx:87-93. -/
def streamSeries (fmt : α → String) (o : Out) (ss : List (Serie α)) : Eff Console Unit := do
  o.put (toString ss.length ++ " series:\n")
  streamLoop fmt o ss

/-- `operator<<(o, array)`, include/dataframe/types.h:52-67: the text goes to `std::cout`. -/
def streamArray (fmt : α → String) (_o : Out) (a : List α) : Eff Console Unit := do
  Out.cout.put "["
  if 0 < a.length then do
    forLoop (fun j _ => do
      let x ← Eff.lift (rd a j)
      Out.cout.put (fmt x ++ ", ")) 0 (sizePred a.length) ()
    let x ← Eff.lift (backOf a)
    Out.cout.put (fmt x ++ "]")
  else Out.cout.put "[]"

/-- The loop of include/dataframe/types.h:70-72. -/
def streamNames : List String → Eff Console Unit
  | [] => pure ()
  | v :: l => do
    Out.cerr.put ("  " ++ v ++ "\n")
    streamNames l

/-- `operator<<(o, strings)`, include/dataframe/types.h:69-75: the text goes to `std::cerr`. -/
def streamStrings (_o : Out) (l : List String) : Eff Console Unit := do
  streamNames l
  Out.cerr.put "\n"

/-- The loop of `Dataframe::dump`, src/Dataframe.cxx:153-159. -/
def dumpLoop : List (String × Serie α) → Eff Console Unit
  | [] => pure ()
  | e :: l => do
    Out.cerr.put ("name: \"" ++ e.1 ++ "\", itemSize: " ++ toString e.2.itemSize ++ ", count: " ++ toString e.2.count ++ "\n")
    dumpLoop l

/-- `Dataframe::dump()`, src/Dataframe.cxx:151-160. -/
def Dataframe.dump (d : Dataframe α) : Eff Console Unit := dumpLoop d.series

/-- The inner loop of `Serie::dump`.
Source: src/Serie.cxx:79-81. -/
def dumpNumbers (fmt : α → String) : List α → Eff Console Unit
  | [] => pure ()
  | x :: l => do
    Out.cerr.put (fmt x ++ " ")
    dumpNumbers fmt l

/-- `Serie::dump()`, src/Serie.cxx:76-86: `forEach` with a callback that takes an array. -/
def Serie.dump (fmt : α → String) (s : Serie α) : Eff Console Unit := do
  forEachV (fun t i => do
    Out.cerr.put (toString i ++ ": ")
    dumpNumbers fmt t
    Out.cerr.put "\n") s
  Out.cerr.put "\n"

/-- `print(array)`, src/Serie.cxx:133-142. Simplification: the loop variable, a `uint32_t`, does not wrap around (fewer
than 2^32 numbers). -/
def printArray (fmt : α → String) (v : List α) : Eff Console Unit :=
  if 0 < v.length then do
    Out.cerr.put "["
    forLoop (fun i _ => do
      let x ← Eff.lift (rd v i)
      Out.cerr.put (fmt x ++ ", ")) 0 (sizePred v.length) ()
    let x ← Eff.lift (rd v (sizePred v.length))
    Out.cerr.put (fmt x ++ "]")
  else Out.cerr.put "[]"

end DF
