import Verif.Spec.Serie

/-!
# Specification vocabulary for map, filter, find, reduce, forEach, ...
-/

namespace DF.Spec

variable {α β γ σ : Type}

/-- A callback that returns or throws as `f` says and records each of its calls. -/
def logged (f : γ → Nat → Res β) : γ → Nat → Eff (List (γ × Nat)) β :=
  fun x i log => (f x i, log ++ [(x, i)])

/-- A callback that neither throws nor has effects. -/
def pureCb (f : γ → Nat → β) : γ → Nat → Eff σ β := fun x i => pure (f x i)

/-- All calls `f x₀ 0`, `f x₁ 1`, ... on the elements of `l` return; their results are `ys`. -/
def AllReturn (f : γ → Nat → Res β) (l : List γ) (ys : List β) : Prop :=
  ys.length = l.length ∧ ∀ i (h : i < l.length) (h' : i < ys.length), f l[i] i = .ok ys[i]

/-- The calls `f x₀ 0`, ..., `f xₖ₋₁ (k-1)` return and `f xₖ k` throws `e`. -/
def ThrowsAt (f : γ → Nat → Res β) (l : List γ) (k : Nat) (e : Err) : Prop :=
  (∀ i (h : i < l.length), i < k → ∃ y, f l[i] i = .ok y) ∧ ∃ h : k < l.length, f l[k] k = .throw e

/-- Make the calls `f x₀ 0`, `f x₁ 1`, ... in this order and collect the results. -/
def callAll {m : Type → Type} [Monad m] (f : γ → Nat → m β) (l : List γ) (lo : Nat := 0) : m (List β) :=
  (l.zipIdx lo).mapM (fun p => f p.1 p.2)

/-- The elements whose flag is true, in order. -/
def keep : List γ → List Bool → List γ
  | x :: xs, b :: bs => if b then x :: keep xs bs else keep xs bs
  | _, _ => []

/-- Merge two lists back: take from the first list when the flag is true, else from the second. -/
def mergeBy : List Bool → List γ → List γ → List γ
  | true :: bs, x :: xs, ys => x :: mergeBy bs xs ys
  | false :: bs, xs, y :: ys => y :: mergeBy bs xs ys
  | _, _, _ => []

/-- Row `i` of several Series: their `i`-th items. -/
def row (ss : List (Serie α)) (i : Nat) : List (List α) := ss.map (fun s => chunk s.itemSize s.data i)

/-- The rows of several Series of `n` items each. -/
def rows (ss : List (Serie α)) (n : Nat) : List (List (List α)) := (List.range n).map (row ss)

end DF.Spec
