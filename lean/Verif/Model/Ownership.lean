import Verif.Model.Outcome

/-!
# Who deletes the decomposers

The decomposers of a `Manager` (src/attributes/Manager.cxx) are objects made with `new`, referred to by pointers. A pointer is a
number: the place of the object in the list of all the objects made so far; managers and dataframes are numbered likewise.
What the decomposers answer is in Model/Attributes; here only the lifetimes count.
-/

namespace DF

/-- An object made with `new`, include/dataframe/attributes/Decomposer.h:36-41. `plain`: its class is `Decomposer` itself and not a
class derived from it. -/
structure Obj where
  plain : Bool
  live : Bool
  deriving DecidableEq, Repr

/-- The members `df_` and `ds_` of a `Manager`, include/dataframe/attributes/Manager.h:57-58. -/
structure Owner where
  df : Nat
  ds : List Nat
  deriving DecidableEq, Repr

/-- The objects of a program that uses managers: decomposers, dataframes (true while they exist) and managers (none once
destroyed). Source: include/dataframe/attributes/Manager.h:35-61. -/
structure World where
  objs : List Obj
  dfs : List Bool
  mgrs : List (Option Owner)
  deriving DecidableEq, Repr

namespace World

/-- `delete d` in src/attributes/Manager.cxx:43, `d` a `Decomposer *`: the object must exist, and since `Decomposer` has no
virtual destructor (include/dataframe/attributes/Decomposer.h:36-41) its class must be `Decomposer` itself ([expr.delete]). -/
def delete (p : Nat) (w : World) : Res World :=
  match w.objs[p]? with
  | some ⟨true, true⟩ => .ok { w with objs := w.objs.set p ⟨true, false⟩ }
  | _ => .ub

/-- The loop of src/attributes/Manager.cxx:42-44. -/
def deleteAll : List Nat → World → Res World
  | [], w => .ok w
  | p :: l, w => do
    let w ← delete p w
    deleteAll l w

/-- Access to a manager, undefined behaviour once it is destroyed.
Source: src/attributes/Manager.cxx, every member function. -/
def owner (k : Nat) (w : World) : Res Owner :=
  match w.mgrs[k]? with
  | some (some o) => .ok o
  | _ => .ub

/-- Every decomposer of the list exists.
Source: src/attributes/Manager.cxx:74, 104. -/
def allLive (l : List Nat) (w : World) : Bool := l.all fun p =>
  match w.objs[p]? with
  | some o => o.live
  | none => false

/-- What a program does with managers.
Source: include/dataframe/attributes/Manager.h:41-54. -/
inductive Op
  /-- `new D()`, `D` being `Decomposer` itself or not -/
  | new (plain : Bool)
  /-- `Dataframe d;` -/
  | dataframe
  /-- the end of the life of a dataframe -/
  | drop (d : Nat)
  /-- `Manager m(d, ds);` -/
  | make (d : Nat) (ds : List Nat)
  /-- `Manager n(m);`: the compiler makes this constructor, it copies the members -/
  | copy (k : Nat)
  /-- `m.add(p);` -/
  | add (k p : Nat)
  /-- `m.clear();` -/
  | clear (k : Nat)
  /-- `m.serie(…)`, `m.names(…)` or `m.contains(…)`, when it asks the first `n` decomposers: `serie` stops at the first one that
  answers, the others ask all of them (none for an empty dataframe) -/
  | use (k n : Nat)
  /-- the end of the life of a manager -/
  | destroy (k : Nat)
  deriving DecidableEq, Repr

/-- One step of a program: the constructors of include/dataframe/attributes/Manager.h:44, `add`, `clear` and the destructor in
src/attributes/Manager.cxx:32-57, and the functions of src/attributes/Manager.cxx:59-120 that go through the dataframe and the
decomposers. Simplification: the number of decomposers that are asked is part of the step. -/
def step : Op → World → Res World
  | .new b, w => .ok { w with objs := w.objs ++ [⟨b, true⟩] }
  | .dataframe, w => .ok { w with dfs := w.dfs ++ [true] }
  | .drop d, w => .ok { w with dfs := w.dfs.set d false }
  | .make d ds, w => .ok { w with mgrs := w.mgrs ++ [some ⟨d, ds⟩] }
  | .copy k, w => do
    let o ← owner k w
    pure { w with mgrs := w.mgrs ++ [some o] }
  | .add k p, w => do
    let o ← owner k w
    pure { w with mgrs := w.mgrs.set k (some { o with ds := o.ds ++ [p] }) }
  | .clear k, w => do
    let o ← owner k w
    pure { w with mgrs := w.mgrs.set k (some { o with ds := [] }) }
  | .use k n, w => do
    let o ← owner k w
    if w.dfs[o.df]? = some true ∧ allLive (o.ds.take n) w = true then pure w else .ub
  | .destroy k, w => do
    let o ← owner k w
    let w ← deleteAll o.ds w
    pure { w with mgrs := w.mgrs.set k none }

/-- A whole program.
Source: as `step`. -/
def run : List Op → World → Res World
  | [], w => .ok w
  | o :: l, w => do
    let w ← step o w
    run l w

/-- Before the first step.
Source: include/dataframe/attributes/Manager.h:35-61. -/
def start : World := ⟨[], [], []⟩

end World

end DF
