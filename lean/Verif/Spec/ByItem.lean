import Mathlib.Data.List.Forall2
import Verif.Spec.Serie
import Verif.Model.Combine

/-!
# Functions that work item by item (independent specification)

A function of one Serie works item by item when there is a recipe for one item such that the function returns the results of the recipe
on the items, or throws one of the exceptions of the recipe. The sizes are part of the notion: `k` numbers per item on
the way in, `m` on the way out, and never more than `B` in between.
-/

namespace DF.Spec

variable {α β γ : Type}

/-- A recipe for one item: an array of `k` numbers gives an array of `m` numbers, or an exception derived from `std::exception`. -/
def Recipe (k m : Nat) (g : List α → Res (List α)) : Prop :=
  ∀ v, v.length = k → (∃ w, g v = .ok w ∧ w.length = m) ∨ ∃ e, StdError e ∧ g v = .throw e

/-- The recipe has a result for every item: `ws` are the results, in order. -/
def Gives (g : β → Res γ) (its : List β) (ws : List γ) : Prop := List.Forall₂ (fun v w => g v = .ok w) its ws

/-- `f` applies the recipe `g` to every item of a non-empty Serie of dimension 3 (the default one): when every item has a result, the
Serie of the results is returned, of dimension 3; else the exception of one of the items is thrown. -/
def Applies (B k m : Nat) (g : List α → Res (List α)) (f : Serie α → Res (Serie α)) : Prop :=
  ∀ s, WF s → s.itemSize = k → s.dimension = 3 → 0 < s.count → s.count * B < 2 ^ 32 →
    (∀ ws, Gives g (items s) ws → f s = .ok (ofItems m ws)) ∧
    ((∃ v ∈ items s, ∃ e, g v = .throw e) → ∃ v ∈ items s, ∃ e, g v = .throw e ∧ f s = .throw e)

/-- `f` works item by item. -/
def ItemByItem (B k m : Nat) (f : Serie α → Res (Serie α)) : Prop :=
  0 < m ∧ m ≤ B ∧ m < 2 ^ 31 ∧ ∃ g, Recipe k m g ∧ Applies B k m g f

/-- A list of operations to be given to `pipe`: each one works item by item on items of the size given by the previous one. -/
inductive Chain (B : Nat) : Nat → Nat → Ops Res (Serie α) (Serie α) → Prop
  | one {k m f} (h : ItemByItem B k m f) : Chain B k m (.one f)
  | cons {k l m f fs} (h : ItemByItem B k l f) (hs : Chain B l m fs) : Chain B k m (.cons f fs)

/-- The elements of a list at the given positions, in the given order. -/
def select (ps : List Nat) (its : List β) : List β := ps.filterMap (its[·]?)

end DF.Spec
