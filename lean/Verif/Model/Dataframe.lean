import Verif.Model.Serie
import Mathlib.Data.String.Basic

/-!
# `Dataframe`

Sources: include/dataframe/Dataframe.h, src/Dataframe.cxx, src/utils/nameOfSerie.cxx.

`std::map<std::string, Serie>` is a list of pairs in increasing order of the names.
Simplification: names are Lean strings, compared lexicographically by code point (the library compares bytes;
for UTF-8 text the two orders agree).
-/

namespace DF

variable {α β : Type}

/-- `series_[name]` of `std::map`: the entry is inserted with the default value when it is missing.
Source: src/Dataframe.cxx:74, 96, 101. -/
def mapTouch (d : β) (name : String) : List (String × β) → List (String × β)
  | [] => [(name, d)]
  | (n, b) :: l =>
    if name < n then (name, d) :: (n, b) :: l
    else if name = n then (n, b) :: l
    else (n, b) :: mapTouch d name l

/-- Write to the entry of that name.
Source: src/Dataframe.cxx:74, 95-103. -/
def mapModify (name : String) (f : β → β) (l : List (String × β)) : List (String × β) :=
  l.map (fun p => if p.1 = name then (p.1, f p.2) else p)

/-- `find` and the linear searches of src/Dataframe.cxx:104-150. -/
def mapFind (name : String) : List (String × β) → Option β
  | [] => none
  | (n, b) :: l => if n = name then some b else mapFind name l

/-- include/dataframe/Dataframe.h:69-71. -/
structure Dataframe (α : Type) where
  /-- `count_` -/
  count : Nat
  /-- `series_` -/
  series : List (String × Serie α)

namespace Dataframe

/-- Constructor, src/Dataframe.cxx:31-33. -/
def make (count : Nat := 0) : Dataframe α := { count, series := [] }

/-- `clear()`, src/Dataframe.cxx:35-37 (`count_` is kept). -/
def clear (d : Dataframe α) : Dataframe α := { d with series := [] }

/-- `add(name, serie)`, src/Dataframe.cxx:63-75. The assignment is `Serie::operator=` (src/Serie.cxx:59-64) on the
entry found or inserted. -/
def add [Zero α] (name : String) (s : Serie α) (d : Dataframe α) : Dataframe α :=
  { count := if d.count = 0 then s.count else d.count
    series := mapModify name (fun old => (Serie.assign s old).2) (mapTouch Serie.empty name d.series) }

/-- `set(name, serie)`, src/Dataframe.cxx:80-83. -/
def set [Zero α] (name : String) (s : Serie α) (d : Dataframe α) : Dataframe α := d.add name s

/-- `create(name, itemSize, count)`, src/Dataframe.cxx:39-42. -/
def create [Zero α] (name : String) (itemSize count : Nat) (d : Dataframe α) : Dataframe α :=
  d.add name (Serie.zeros itemSize count)

/-- `setCount(count)`, src/Dataframe.cxx:44-58. -/
def setCount [Zero α] (count : Nat) (d : Dataframe α) : Dataframe α :=
  if d.count ≠ count ∧ 0 < count then
    { count, series := d.series.map (fun p => (p.1, (Serie.reCount count p.2).2)) }
  else d

/-- `del(name)`, src/Dataframe.cxx:85-92. -/
def del (name : String) (d : Dataframe α) : Dataframe α :=
  match mapFind name d.series with
  | some _ => { d with series := d.series.filter (fun p => p.1 ≠ name) }
  | none => d

/-- Non-const `operator[]` and `get`, src/Dataframe.cxx:94-102: the Serie read, and the Dataframe after the access. -/
def access [Zero α] (name : String) (d : Dataframe α) : Serie α × Dataframe α :=
  let series := mapTouch Serie.empty name d.series
  ((mapFind name series).getD Serie.empty, { d with series })

/-- Use of the reference returned by the non-const `operator[]` to change the Serie.
No member function of `Serie` changes the dimension of an existing Serie.
Source: src/Dataframe.cxx:95-103. -/
def modify [Zero α] (name : String) (f : Serie α → Serie α) (d : Dataframe α) : Dataframe α :=
  let touched := mapTouch Serie.empty name d.series
  { d with series := mapModify name (fun s => { f s with dimension := s.dimension }) touched }

/-- Const `operator[]` and `get`, src/Dataframe.cxx:104-132. -/
def get [Zero α] (d : Dataframe α) (name : String) : Serie α := (mapFind name d.series).getD Serie.empty

/-- `contains(name)`, src/Dataframe.cxx:140-150. -/
def contains (d : Dataframe α) (name : String) : Bool := (mapFind name d.series).isSome

/-- Where a Serie lives: in the Dataframe under a name, or somewhere else. It stands for its address.
Source: src/utils/nameOfSerie.cxx compares addresses. -/
inductive Place
  | stored (name : String)
  | elsewhere
  deriving DecidableEq

/-- `nameOfSerie(dataframe, serie)`, src/utils/nameOfSerie.cxx:30-39: the comparison of addresses. -/
def nameOfSerie (d : Dataframe α) (p : Place) : String :=
  match d.series.find? (fun e => Place.stored e.1 = p) with
  | some e => e.1
  | none => ""

/-- `contains(serie)`, src/Dataframe.cxx:134-138. -/
def containsSerie (d : Dataframe α) (p : Place) : Bool := if (d.nameOfSerie p).length = 0 then false else true

end Dataframe

/-- The operations on a Dataframe.
Source: the member functions of include/dataframe/Dataframe.h:43-64. -/
inductive DOp (α : Type)
  | add (name : String) (s : Serie α)
  | set (name : String) (s : Serie α)
  | create (name : String) (itemSize count : Nat)
  | del (name : String)
  | clear
  | setCount (count : Nat)
  | access (name : String)
  | modify (name : String) (f : Serie α → Serie α)

/-- One operation.
Source: src/Dataframe.cxx:31-103. -/
def DOp.run [Zero α] (d : Dataframe α) : DOp α → Dataframe α
  | .add n s => d.add n s
  | .set n s => d.set n s
  | .create n k c => d.create n k c
  | .del n => d.del n
  | .clear => d.clear
  | .setCount c => d.setCount c
  | .access n => (d.access n).2
  | .modify n f => d.modify n f

/-- A Dataframe constructed with `Dataframe(count)` and then used.
Source: src/Dataframe.cxx:31. -/
def Dataframe.history [Zero α] (count : Nat) (ops : List (DOp α)) : Dataframe α :=
  ops.foldl DOp.run (Dataframe.make count)

end DF
