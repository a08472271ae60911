import Verif.Model.Serie

/-!
# Specification vocabulary for Series

A Serie is a list of items, each item a list of `itemSize` numbers.
-/

namespace DF.Spec

variable {α : Type}

/-- An exception derived from `std::exception`, not some other thrown object. -/
def StdError (e : Err) : Prop := ∀ n, e ≠ .nonStd n

/-- The `i`-th block of `k` consecutive numbers of a flat list. -/
def chunk (k : Nat) (l : List α) (i : Nat) : List α := (l.drop (i * k)).take k

/-- The flat list `l` with the numbers from position `p` on overwritten by `v`. -/
def splice (l : List α) (p : Nat) (v : List α) : List α := l.take p ++ v ++ l.drop (p + v.length)

/-- The items of a Serie, in order. -/
def items (s : Serie α) : List (List α) := (List.range s.count).map (chunk s.itemSize s.data)

/-- The numbers of a scalar Serie, in order. -/
def scalars (s : Serie α) : List α := s.data.take s.count

/-- A well-formed Serie: positive item size, at least `count * itemSize` numbers, fewer than `2^32` numbers. -/
structure WF (s : Serie α) : Prop where
  pos : 0 < s.itemSize
  int : s.itemSize < 2 ^ 31
  fits : s.count * s.itemSize ≤ s.data.length
  small : s.data.length < 2 ^ 32

/-- The Serie made of the given items (each meant to have `k` numbers). -/
def ofItems (k : Nat) (its : List (List α)) (dim : Nat := 3) : Serie α :=
  { data := its.flatten, count := its.length, itemSize := k, dimension := dim }

/-- The scalar Serie made of the given numbers. -/
def ofScalars (xs : List α) (dim : Nat := 3) : Serie α :=
  { data := xs, count := xs.length, itemSize := 1, dimension := dim }

end DF.Spec
