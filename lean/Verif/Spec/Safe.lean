import Verif.Model.Outcome

/-!
# Specification: callbacks without undefined behaviour
-/

namespace DF.Spec

/-- Whatever its arguments and the captured variables, the callback has no undefined behaviour: it returns or throws. -/
def Harmless {σ γ δ : Type} (cb : γ → Nat → Eff σ δ) : Prop := ∀ x i st, (cb x i st).1 ≠ .ub

/-- Moreover the arrays that the callback returns are not empty and have less than 2^32 numbers. -/
def HarmlessArrays {σ γ α : Type} (cb : γ → Nat → Eff σ (List α)) : Prop :=
  Harmless cb ∧ ∀ x i st v, (cb x i st).1 = .ok v → 0 < v.length ∧ v.length < 2 ^ 32

end DF.Spec
