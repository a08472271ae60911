import Verif.Spec.ByItem
import Verif.Spec.Functional

/-!
# Tables and scripts (independent specification)

A table is a list of columns: Series with the same number of items. Its rows are the items at the same place. A script computes new
columns, one after the other, each from the columns that are there.
-/

namespace DF.Spec

variable {α : Type}

/-- A column of a table with `n` rows: a Serie of `n` items of `k` numbers, of dimension 3 (the default one). Its array holds the items and
nothing else. No item has more than `B` numbers. -/
structure Column (B n k : Nat) (s : Serie α) : Prop where
  wf : WF s
  size : s.itemSize = k
  count : s.count = n
  dim : s.dimension = 3
  exact : s.data.length = n * k
  le : k ≤ B

/-- A table with `n` rows and columns of the given item sizes. -/
def Table (B n : Nat) (ks : List Nat) (ss : List (Serie α)) : Prop := List.Forall₂ (Column B n) ks ss

/-- A recipe for one row: from arrays of the given sizes, an array of `m` numbers, or an exception derived from `std::exception`. -/
def RowRecipe (ks : List Nat) (m : Nat) (g : List (List α) → Res (List α)) : Prop :=
  ∀ r : List (List α), r.map List.length = ks → (∃ w, g r = .ok w ∧ w.length = m) ∨ ∃ e, StdError e ∧ g r = .throw e

/-- `F` works row by row on tables with at least one row: when every row has a result by the recipe, `F` returns the column of the results;
else it throws the exception of one of the rows. -/
def RowByRow (B : Nat) (ks : List Nat) (m : Nat) (F : List (Serie α) → Res (Serie α)) : Prop :=
  0 < m ∧ m ≤ B ∧ m < 2 ^ 31 ∧ ∃ g, RowRecipe ks m g ∧ ∀ n ss, 0 < n → n * B < 2 ^ 32 → Table B n ks ss →
    (∀ ws, Gives g (rows ss n) ws → F ss = .ok (ofItems m ws)) ∧
    ((∃ r ∈ rows ss n, ∃ e, g r = .throw e) → ∃ r ∈ rows ss n, ∃ e, g r = .throw e ∧ F ss = .throw e)

/-- A script on tables with columns of sizes `ks`, leaving columns of sizes `out`. Each step chooses columns (by position), gives them to a
function that works row by row, and adds the result as a new column, on the right. -/
inductive Script (B : Nat) : List Nat → List Nat → (List (Serie α) → Res (List (Serie α))) → Prop
  | done {ks} : Script B ks ks (fun ss => .ok ss)
  | step {ks out m cs F P} (hc : ∀ c ∈ cs, c < ks.length) (hF : RowByRow B (select cs ks) m F) (hP : Script B (ks ++ [m]) out P) :
      Script B ks out (fun ss => F (select cs ss) >>= fun t => P (ss ++ [t]))

/-- The Serie of the items at the given positions. -/
def selectItems (ps : List Nat) (s : Serie α) : Serie α := ofItems s.itemSize (select ps (items s))

/-- The table `t` is the table `a` followed by the table `b`, column by column, by the function `concat` of the library. -/
inductive Stacked [Zero α] : List (Serie α) → List (Serie α) → List (Serie α) → Prop
  | nil : Stacked [] [] []
  | cons {a b c as bs cs} (h : concat [a, b] = .ok c) (hs : Stacked as bs cs) : Stacked (a :: as) (b :: bs) (c :: cs)

/-- A function of one Serie, as a function of a list of one column; it is not called on other lists. -/
def call1 (f : Serie α → Res (Serie α)) : List (Serie α) → Res (Serie α)
  | [s] => f s
  | _ => .ub

/-- A function of two Series, as a function of a list of two columns. -/
def call2 (f : Serie α → Serie α → Res (Serie α)) : List (Serie α) → Res (Serie α)
  | [s, t] => f s t
  | _ => .ub

end DF.Spec
