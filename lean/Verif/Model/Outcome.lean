/-!
# Outcomes of C++ code

`Res β` is the outcome of a piece of C++ code that does not touch user state, `Eff σ β` the outcome of
code that runs user callbacks working on a state `σ`.
Undefined behaviour is an outcome of its own (`ub`), never replaced by a default value.
-/

namespace DF

universe u v

/-- Exception classes thrown by the library or by user callbacks.
Simplification: the message text is dropped.
* `invalidArgument` – `std::invalid_argument` (e.g. src/Serie.cxx:99, 108, 114, 125)
* `runtimeError`    – `std::runtime_error` (e.g. include/dataframe/functional/map.h:66)
* `lengthError`     – `std::length_error`, thrown by `std::vector(n)` when `n` exceeds `max_size()`
* `stdOther n`      – any other exception derived from `std::exception`
* `nonStd n`        – a thrown object not derived from `std::exception` (e.g. `throw 42`) -/
inductive Err
  | invalidArgument
  | runtimeError
  | lengthError
  | stdOther (n : Nat)
  | nonStd (n : Nat)
  deriving DecidableEq, Repr

/-- Is the exception caught by `catch (const std::exception &)`
(include/dataframe/functional/utils/parallel_execute.h:103)? -/
def Err.isStd : Err → Bool
  | .nonStd _ => false
  | _ => true

/-- Outcome of a computation: a value, an exception or undefined behaviour.
Source: C++ semantics, used by every function of the model. -/
inductive Res (β : Type u) : Type u
  | ok (b : β)
  | throw (e : Err)
  | ub
  deriving DecidableEq, Repr

namespace Res

/-- Sequencing: exceptions and undefined behaviour end the computation. -/
protected def bind {β : Type u} {γ : Type v} : Res β → (β → Res γ) → Res γ
  | .ok b, f => f b
  | .throw e, _ => .throw e
  | .ub, _ => .ub

instance : Monad Res where
  pure := Res.ok
  bind := Res.bind

@[simp] theorem pure_eq {β : Type u} (b : β) : (pure b : Res β) = .ok b := rfl
@[simp] theorem ok_bind {β γ : Type u} (b : β) (f : β → Res γ) : (Res.ok b >>= f) = f b := rfl
@[simp] theorem throw_bind {β γ : Type u} (e : Err) (f : β → Res γ) :
    ((Res.throw e : Res β) >>= f) = .throw e := rfl
@[simp] theorem ub_bind {β γ : Type u} (f : β → Res γ) : ((Res.ub : Res β) >>= f) = .ub := rfl

instance : LawfulMonad Res := LawfulMonad.mk'
  (id_map := by intro _ x; cases x <;> rfl)
  (pure_bind := by intros; rfl)
  (bind_assoc := by intro _ _ _ x _ _; cases x <;> rfl)

@[simp] theorem map_ok {β γ : Type u} (b : β) (f : β → γ) : (f <$> (Res.ok b)) = Res.ok (f b) := rfl
@[simp] theorem map_throw {β γ : Type u} (e : Err) (f : β → γ) :
    (f <$> (Res.throw e : Res β)) = Res.throw e := rfl
@[simp] theorem map_ub {β γ : Type u} (f : β → γ) : (f <$> (Res.ub : Res β)) = Res.ub := rfl

/-- Not undefined behaviour.
Source: C++ semantics. -/
def Defined {β : Type u} : Res β → Prop
  | .ub => False
  | _ => True

end Res

/-- A computation that may read and write a state `σ`. The state written before an exception stays visible
after it, as in C++.
Source: C++ semantics of callbacks with side effects, used by include/dataframe/functional/*.h. -/
def Eff (σ : Type) (β : Type u) : Type u := σ → Res β × σ

namespace Eff

variable {σ : Type}

/-- Sequencing. -/
protected def bind {β : Type u} {γ : Type v} (x : Eff σ β) (f : β → Eff σ γ) : Eff σ γ := fun s =>
  match x s with
  | (.ok b, s') => f b s'
  | (.throw e, s') => (.throw e, s')
  | (.ub, s') => (.ub, s')

instance : Monad (Eff σ) where
  pure b := fun s => (.ok b, s)
  bind := Eff.bind

theorem pure_def {β : Type u} (b : β) : (pure b : Eff σ β) = fun s => (.ok b, s) := rfl

theorem bind_def {β γ : Type u} (x : Eff σ β) (f : β → Eff σ γ) :
    (x >>= f) = fun s => match x s with
      | (.ok b, s') => f b s'
      | (.throw e, s') => (.throw e, s')
      | (.ub, s') => (.ub, s') := rfl

theorem bind_ok {β γ : Type u} {x : Eff σ β} {f : β → Eff σ γ} {s s' : σ} {b : β}
    (h : x s = (.ok b, s')) : (x >>= f) s = f b s' := by
  show Eff.bind x f s = _
  simp [Eff.bind, h]

theorem bind_throw {β γ : Type u} {x : Eff σ β} {f : β → Eff σ γ} {s s' : σ} {e : Err}
    (h : x s = (.throw e, s')) : (x >>= f) s = (.throw e, s') := by
  show Eff.bind x f s = _
  simp [Eff.bind, h]

theorem bind_ub {β γ : Type u} {x : Eff σ β} {f : β → Eff σ γ} {s s' : σ}
    (h : x s = (.ub, s')) : (x >>= f) s = (.ub, s') := by
  show Eff.bind x f s = _
  simp [Eff.bind, h]

instance : LawfulMonad (Eff σ) := LawfulMonad.mk'
  (id_map := by
    intro β x; funext s
    show Eff.bind x _ s = _
    unfold Eff.bind
    rcases h : x s with ⟨r, s'⟩; cases r <;> rfl)
  (pure_bind := by intros; rfl)
  (bind_assoc := by
    intro β γ δ x f g; funext s
    show Eff.bind (Eff.bind x f) g s = Eff.bind x (fun a => Eff.bind (f a) g) s
    simp only [Eff.bind]
    rcases h : x s with ⟨r, s'⟩; cases r <;> rfl)

/-- Run a state-free computation.
Source: no source line: glue. -/
def lift {β : Type u} (r : Res β) : Eff σ β := fun s => (r, s)

/-- Throw an exception.
Source: C++ `throw`. -/
def throw {β : Type u} (e : Err) : Eff σ β := lift (.throw e)

@[simp] theorem lift_ok {β : Type u} (b : β) : (lift (.ok b) : Eff σ β) = pure b := rfl

@[simp] theorem lift_throw_bind {β γ : Type u} (e : Err) (f : β → Eff σ γ) :
    ((lift (.throw e) : Eff σ β) >>= f) = lift (.throw e) := rfl

@[simp] theorem lift_ub_bind {β γ : Type u} (f : β → Eff σ γ) :
    ((lift .ub : Eff σ β) >>= f) = lift .ub := rfl

@[simp] theorem throw_bind {β γ : Type u} (e : Err) (f : β → Eff σ γ) :
    ((Eff.throw e : Eff σ β) >>= f) = Eff.throw e := rfl

theorem lift_bind {β γ : Type u} (r : Res β) (f : β → Res γ) :
    (lift (r >>= f) : Eff σ γ) = lift r >>= fun b => lift (f b) := by
  cases r <;> rfl

/-- Run a mutator on a value and keep the new value (dropping the old one).
Source: no source line: glue for the mutators of src/Serie.cxx. -/
def exec {β : Type u} (x : Eff σ β) (s : σ) : Res σ :=
  match x s with
  | (.ok _, s') => .ok s'
  | (.throw e, _) => .throw e
  | (.ub, _) => .ub

end Eff

/-- `for (i = lo; i < lo + n; ++i) b = f i b`.
Source: the `for` loops of the source. -/
def forLoop {m : Type u → Type v} [Monad m] {β : Type u} (f : Nat → β → m β) : Nat → Nat → β → m β
  | _, 0, b => pure b
  | lo, n + 1, b => f lo b >>= fun b' => forLoop f (lo + 1) n b'

/-- Conversion to `uint32_t`: reduction modulo `2^32`.
Source: `uint32_t` of include/dataframe/Serie.h. -/
def u32 (n : Nat) : Nat := n % 2 ^ 32

/-- `v[i]` on a `std::vector`: no check, undefined behaviour outside.
Source: `s_[i]` of src/Serie.cxx and all subscripts of the source. -/
def rd {β : Type u} (l : List β) (i : Nat) : Res β :=
  match l[i]? with
  | some x => .ok x
  | none => .ub

/-- `v[i] = x` on a `std::vector`: no check, undefined behaviour outside.
Source: `s_[i] = x` of src/Serie.cxx and all subscripts of the source. -/
def wr {β : Type u} (l : List β) (i : Nat) (x : β) : Res (List β) :=
  if i < l.length then .ok (l.set i x) else .ub

/-- A value of type `int` (given by its 32-bit pattern) converted to `size_t` (sign extension).
Source: src/Serie.cxx:33-60, `int itemSize_`. -/
def sizeT (k : Nat) : Nat := if k < 2 ^ 31 then k else k + (2 ^ 64 - 2 ^ 32)

end DF
