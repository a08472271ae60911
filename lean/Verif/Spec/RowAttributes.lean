import Verif.Spec.Attributes
import Verif.Spec.Table

/-!
# Attributes computed row by row (independent specification)

A Dataframe with `n` rows is described by its scheme: the names of the Series it holds and the size of their items.
-/

namespace DF.Spec

variable {α : Type} [Zero α]

/-- A Dataframe obtained with the operations of the class, that holds exactly the columns of the scheme, with `n` rows. -/
structure Frame (B n : Nat) (scheme : String → Option Nat) (d : Dataframe α) : Prop where
  reached : ReachableFrame d
  names : ∀ x, d.contains x = (scheme x).isSome
  column : ∀ x k, scheme x = some k → Column B n k (d.get x)

/-- The scheme alone decides what a question to a Dataframe of this scheme is about, whatever the number of rows (at least one): there is no
answer (the empty Serie), or the behaviour is undefined, or the answer is computed row by row from some columns. -/
def AnsweredByRow (B : Nat) (scheme : String → Option Nat) (q : Dataframe α → Res (Serie α)) : Prop :=
  (∀ n d, 0 < n → n * B < 2 ^ 32 → Frame B n scheme d → q d = .ok Serie.empty) ∨
  (∀ n d, 0 < n → n * B < 2 ^ 32 → Frame B n scheme d → q d = .ub) ∨
  ∃ cs ks m F, List.Forall₂ (fun c k => scheme c = some k) cs ks ∧ RowByRow B ks m F ∧
    ∀ n d, 0 < n → n * B < 2 ^ 32 → Frame B n scheme d → q d = F (cs.map d.get)

/-- The decomposer answers every question row by row, on Dataframes of this scheme. -/
def ByRow (B : Nat) (scheme : String → Option Nat) (dc : Decomposer α) : Prop := ∀ k name, AnsweredByRow B scheme fun d => dc.serie d k name

/-- The names that the decomposer offers are the same for all Dataframes of this scheme. -/
def NamesByScheme (B : Nat) (scheme : String → Option Nat) (dc : Decomposer α) : Prop :=
  ∀ n n' d d', Frame B n scheme d → Frame B n' scheme d' → ∀ k x, d.contains x = true → dc.names d k (d.get x) (.stored x) x = dc.names d' k (d'.get x) (.stored x) x

end DF.Spec
