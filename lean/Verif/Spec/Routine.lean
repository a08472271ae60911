import Verif.Spec.Twin

/-!
# Routines: variables, loops and handlers (independent specification)

Unlike a `Program`, which is one expression, a routine keeps Series in variables, chooses, repeats, and handles exceptions, as a C++
function using the library does.
-/

namespace DF.Spec

variable {σ τ α β : Type}

/-- The Series held by the variables, numbered. -/
abbrev Vars (α : Type) := Nat → Serie α

/-- Assignment. -/
def Vars.set (e : Vars α) (v : Nat) (s : Serie α) : Vars α := fun w => if w = v then s else e w

inductive Routine (σ α : Type)
  /-- `v = s`, with a Serie `s` given -/
  | given (v : Nat) (s : Serie α)
  /-- `v = a` -/
  | copy (v a : Nat)
  /-- `v = f(a)` -/
  | call1 (v : Nat) (f : Call1 σ α) (a : Nat)
  /-- `v = f(a, b)` -/
  | call2 (v : Nat) (f : Call2 α) (a b : Nat)
  /-- `v = f(a, as...)` -/
  | callN (v : Nat) (f : CallN σ α) (a : Nat) (as : List Nat)
  /-- `p; q` -/
  | seq (p q : Routine σ α)
  /-- `if (test()) p else q` -/
  | branch (test : Vars α → Eff σ Bool) (p q : Routine σ α)
  /-- `for (int i = 0; i < most && test(); ++i) p` -/
  | loop (most : Nat) (test : Vars α → Eff σ Bool) (p : Routine σ α)
  /-- `try { p } catch (const std::exception &) { q }` -/
  | attempt (p q : Routine σ α)

/-- A call whose result is assigned to a variable: nothing is assigned when the call throws. -/
def assign (v : Nat) (call : Vars α → Eff σ (Serie α)) : Eff (σ × Vars α) Unit := fun (st, e) =>
  match call e st with
  | (.ok s, st') => (.ok (), (st', e.set v s))
  | (.throw x, st') => (.throw x, (st', e))
  | (.ub, st') => (.ub, (st', e))

/-- A test, which may look at all variables and use the captured variables. -/
def ask (test : Vars α → Eff σ Bool) : Eff (σ × Vars α) Bool := fun (st, e) => ((test e st).1, ((test e st).2, e))

def repeatWhile (test : Eff σ Bool) (body : Eff σ Unit) : Nat → Eff σ Unit
  | 0 => pure ()
  | n + 1 => do
    if ← test then
      body
      repeatWhile test body n
    else pure ()

/-- The handler runs for the exceptions derived from `std::exception`, with the variables as they were left. -/
def handle (x y : Eff σ Unit) : Eff σ Unit := fun st =>
  match x st with
  | (.throw (.nonStd n), st') => (.throw (.nonStd n), st')
  | (.throw _, st') => y st'
  | other => other

section

variable [Zero α] [One α] [Add α] [Sub α] [Mul α] [Div α] [Neg α] [LT α] [DecidableLT α] [LE α] [DecidableLE α] [BEq α] [OfScientific α]

def Routine.run : Routine σ α → Eff (σ × Vars α) Unit
  | given v s => assign v fun _ => pure s
  | copy v a => assign v fun e => pure (e a)
  | call1 v f a => assign v fun e => f.run (e a)
  | call2 v f a b => assign v fun e => Eff.lift (f.run (e a) (e b))
  | callN v f a as => assign v fun e => f.run (e a :: as.map e)
  | seq p q => do
    p.run
    q.run
  | branch test p q => do
    if ← ask test then p.run else q.run
  | loop most test p => repeatWhile (ask test) p.run most
  | attempt p q => handle p.run q.run

end

/-- What is asked of the arguments that are not Series, and of the tests. -/
def Routine.Fair : Routine σ α → Prop
  | given _ s => Neat s
  | copy _ _ => True
  | call1 _ f _ => f.Fair
  | call2 _ _ _ _ => True
  | callN _ f _ _ => f.Fair
  | seq p q => p.Fair ∧ q.Fair
  | branch test p q => (∀ e st, (test e st).1 ≠ .ub) ∧ p.Fair ∧ q.Fair
  | loop _ test p => (∀ e st, (test e st).1 ≠ .ub) ∧ p.Fair
  | attempt p q => p.Fair ∧ q.Fair

/-- A bound on the numbers in any variable, given such a bound `n` at the start. Only `map` to arrays, `merge`, `concat` and `zip` make
Series that are longer than their arguments; in particular a loop over other calls needs no more room, however often it runs. -/
def Routine.room : Routine σ α → Nat → Nat
  | given _ s, n => n + s.data.length + s.itemSize
  | copy _ _, n => n
  | call1 _ (.mapToArrays k _) _, n => n * (k + 1)
  | call1 _ (.mapArrays k _) _, n => n * (k + 1)
  | call1 _ _ _, n => n
  | call2 _ (.merge _) _ _, n => n + n
  | call2 _ _ _ _, n => n
  | callN _ (.merge _) _ as, n => n * (as.length + 1)
  | callN _ .concat _ as, n => n * (as.length + 1)
  | callN _ .zip _ as, n => n * (as.length + 1)
  | callN _ _ _ _, n => n
  | seq p q, n => q.room (p.room n)
  | branch _ p q, n => max (p.room n) (q.room n)
  | loop most _ p, n => p.room^[most] n
  | attempt p q, n => q.room (p.room n)

/-! ## Twins -/

/-- Tests that answer the same. -/
def AskAlike (R : α → β → Prop) (S : σ → τ → Prop) (f : Vars α → Eff σ Bool) (g : Vars β → Eff τ Bool) : Prop :=
  ∀ e e', (∀ v, Each R (e v) (e' v)) → ∀ s t, S s t → Outcomes (· = ·) (f e s).1 (g e' t).1 ∧ S (f e s).2 (g e' t).2

/-- The same statements in the same places, with related Series, numbers and callbacks. -/
inductive Routine.Twin (R : α → β → Prop) (S : σ → τ → Prop) : Routine σ α → Routine τ β → Prop
  | given {v s t} (h : Each R s t) : Twin R S (.given v s) (.given v t)
  | copy {v a} : Twin R S (.copy v a) (.copy v a)
  | call1 {v f g a} (h : f.Twin R S g) : Twin R S (.call1 v f a) (.call1 v g a)
  | call2 {v f g a b} (h : f.Twin R g) : Twin R S (.call2 v f a b) (.call2 v g a b)
  | callN {v f g a as} (h : f.Twin R S g) : Twin R S (.callN v f a as) (.callN v g a as)
  | seq {p q p' q'} (h : Twin R S p q) (h' : Twin R S p' q') : Twin R S (.seq p p') (.seq q q')
  | branch {f g p q p' q'} (hf : AskAlike R S f g) (h : Twin R S p q) (h' : Twin R S p' q') : Twin R S (.branch f p p') (.branch g q q')
  | loop {n f g p q} (hf : AskAlike R S f g) (h : Twin R S p q) : Twin R S (.loop n f p) (.loop n g q)
  | attempt {p q p' q'} (h : Twin R S p q) (h' : Twin R S p' q') : Twin R S (.attempt p p') (.attempt q q')

/-- A routine uses what its calls use. -/
def Routine.Uses (u : Use) : Routine σ α → Prop
  | given _ _ => False
  | copy _ _ => False
  | call1 _ f _ => u ∈ f.uses
  | call2 _ f _ _ => u ∈ f.uses
  | callN _ f _ _ => u ∈ f.uses
  | seq p q => p.Uses u ∨ q.Uses u
  | branch _ p q => p.Uses u ∨ q.Uses u
  | loop _ _ p => p.Uses u
  | attempt p q => p.Uses u ∨ q.Uses u

end DF.Spec
