import Verif.Model.Print
import Verif.Spec.Serie

/-!
# Specification vocabulary for text output
-/

namespace DF.Spec

variable {α : Type}

/-- Text of an item: the number alone, or the numbers in parentheses separated by commas. -/
def itemText (fmt : α → String) (k : Nat) (v : List α) : String :=
  if k = 1 then String.join (v.map fmt) else "(" ++ ",".intercalate (v.map fmt) ++ ")"

/-- The lines about the shape. -/
def shapeText (s : Serie α) : String :=
  "Serie:\n  itemSize : " ++ toString s.itemSize ++ "\n  count    : " ++ toString s.count ++
    "\n  dimension: " ++ toString s.dimension ++ "\n"

/-- The text printed for a Serie: its shape, then its items separated by commas. -/
def serieText (fmt : α → String) (s : Serie α) : String :=
  shapeText s ++ "  values   : [" ++ ", ".intercalate ((items s).map (itemText fmt s.itemSize)) ++ "]\n"

/-- The text printed for several Series: each one after its number, counted from 1. -/
def seriesText (fmt : α → String) (l : List (Serie α)) : String :=
  String.join (l.mapIdx fun i s => "Series " ++ toString (i + 1) ++ ":\n" ++ serieText fmt s)

/-- The text `operator<<` gives for a Serie without spare numbers: its shape, then all its numbers. -/
def flatText (fmt : α → String) (s : Serie α) : String :=
  shapeText s ++ "  values   : [" ++ ", ".intercalate ((items s).flatten.map fmt) ++ "]"

/-- The texts of numbers contain no comma, parenthesis or bracket. -/
def Plain (fmt : α → String) : Prop :=
  ∀ x, ∀ c ∈ (fmt x).toList, c ≠ ',' ∧ c ≠ ')' ∧ c ≠ ']'

/-- The text of an array: its numbers in brackets. -/
def arrayText (fmt : α → String) (a : List α) : String := "[" ++ ", ".intercalate (a.map fmt) ++ "]"

/-- The text of a list of names: one per line, then an empty line. -/
def namesText (l : List String) : String := String.join (l.map fun v => "  " ++ v ++ "\n") ++ "\n"

/-- The line about a stored Serie. -/
def entryText (name : String) (s : Serie α) : String :=
  "name: \"" ++ name ++ "\", itemSize: " ++ toString s.itemSize ++ ", count: " ++ toString s.count ++ "\n"

/-- The text of a dump: a line per item with its index and its numbers, then an empty line. -/
def dumpText (fmt : α → String) (s : Serie α) : String :=
  String.join ((items s).mapIdx fun i v => toString i ++ ": " ++ String.join (v.map fun x => fmt x ++ " ") ++ "\n") ++ "\n"

end DF.Spec
