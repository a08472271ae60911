import Verif.Model.Ownership

/-!
# Specification vocabulary for the lifetimes of decomposers
-/

namespace DF.Spec

open World (Op)

/-- The decomposers a step hands over to a manager. -/
def handed : Op → List Nat
  | .make _ ds => ds
  | .add _ p => [p]
  | _ => []

/-- The decomposers a program hands over, in order. -/
def handedBy (l : List Op) : List Nat := l.flatMap handed

/-- A program uses everything between its creation and its end. `n` decomposers have been made so far, `dfs` says which
dataframes exist, `ms` has the dataframe of each manager, none for those destroyed. -/
def Scoped : Nat → List Bool → List (Option Nat) → List Op → Prop
  | _, _, _, [] => True
  | n, dfs, ms, .new _ :: l => Scoped (n + 1) dfs ms l
  | n, dfs, ms, .dataframe :: l => Scoped n (dfs ++ [true]) ms l
  | n, dfs, ms, .drop d :: l => dfs[d]? = some true ∧ Scoped n (dfs.set d false) ms l
  | n, dfs, ms, .make d ds :: l => dfs[d]? = some true ∧ (∀ p ∈ ds, p < n) ∧ Scoped n dfs (ms ++ [some d]) l
  | n, dfs, ms, .copy k :: l => ∃ d, ms[k]? = some (some d) ∧ Scoped n dfs (ms ++ [some d]) l
  | n, dfs, ms, .add k p :: l => (∃ d, ms[k]? = some (some d)) ∧ p < n ∧ Scoped n dfs ms l
  | n, dfs, ms, .clear k :: l => (∃ d, ms[k]? = some (some d)) ∧ Scoped n dfs ms l
  | n, dfs, ms, .use k _ :: l => (∃ d, ms[k]? = some (some d) ∧ dfs[d]? = some true) ∧ Scoped n dfs ms l
  | n, dfs, ms, .destroy k :: l => (∃ d, ms[k]? = some (some d)) ∧ Scoped n dfs (ms.set k none) l

/-- Object `p` exists. -/
def Live (w : World) (p : Nat) : Prop := ∃ b, w.objs[p]? = some ⟨b, true⟩

/-- Object `p` has been deleted. -/
def Deleted (w : World) (p : Nat) : Prop := ∃ b, w.objs[p]? = some ⟨b, false⟩

/-- Manager `k` exists and has the decomposers `ds`. -/
def Has (w : World) (k : Nat) (ds : List Nat) : Prop := ∃ d, w.mgrs[k]? = some (some ⟨d, ds⟩)

end DF.Spec
