import Verif.Spec.Functional

/-! # Hypotheses of the theorems that can be checked by evaluation on a concrete case

Used by the examples beside the theorems.
-/

namespace DF

open Spec

variable {α β γ : Type}

instance (s : Serie α) : Decidable (WF s) :=
  decidable_of_iff (0 < s.itemSize ∧ s.itemSize < 2 ^ 31 ∧ s.count * s.itemSize ≤ s.data.length ∧ s.data.length < 2 ^ 32)
    ⟨fun h => ⟨h.1, h.2.1, h.2.2.1, h.2.2.2⟩, fun h => ⟨h.pos, h.int, h.fits, h.small⟩⟩

instance (r : Res β) : Decidable (∃ y, r = .ok y) :=
  match r with
  | .ok y => isTrue ⟨y, rfl⟩
  | .throw _ => isFalse (by simp)
  | .ub => isFalse (by simp)

instance (r : Res β) (e : Err) : Decidable (r = .throw e) :=
  match r with
  | .ok _ => isFalse (by simp)
  | .throw e' => decidable_of_iff (e' = e) (by simp)
  | .ub => isFalse (by simp)

instance (f : γ → Nat → Res β) (l : List γ) (ys : List β) [DecidableEq β] : Decidable (AllReturn f l ys) :=
  inferInstanceAs (Decidable (_ ∧ ∀ i (h : i < l.length) (h' : i < ys.length), f l[i] i = .ok ys[i]))

instance (f : γ → Nat → Res β) (l : List γ) (k : Nat) (e : Err) : Decidable (ThrowsAt f l k e) :=
  inferInstanceAs (Decidable ((∀ i (h : i < l.length), i < k → ∃ y, f l[i] i = .ok y) ∧
    ∃ h : k < l.length, f l[k] k = .throw e))

end DF
