import Verif.Spec.Pipeline
import Verif.Spec.Zeros

/-!
# The same program on two kinds of numbers (independent specification)

`R` relates the numbers of one kind to those of the other, `S` relates the variables captured by the callbacks. Two programs are twins
when they make the same calls in the same places, on related Series and numbers, with callbacks that answer the same.
-/

namespace DF.Spec

variable {σ τ α β γ δ γ' δ' : Type}

/-- Callbacks that answer the same: on related items, from related captured variables, both return related results, or throw the same
exception, or are undefined; in each case the captured variables stay related. -/
def AnswerAlike (S : σ → τ → Prop) (P : γ → δ → Prop) (Q : γ' → δ' → Prop) (f : γ → Nat → Eff σ γ') (g : δ → Nat → Eff τ δ') : Prop :=
  ∀ x y, P x y → ∀ i s t, S s t → Outcomes Q (f x i s).1 (g y i t).1 ∧ S (f x i s).2 (g y i t).2

/-- The same call on one Serie. -/
inductive Call1.Twin (R : α → β → Prop) (S : σ → τ → Prop) : Call1 σ α → Call1 τ β → Prop
  | scale {x y} (h : R x y) : Twin R S (.scale x) (.scale y)
  | scaleBy {xs ys} (h : List.Forall₂ R xs ys) : Twin R S (.scaleBy xs) (.scaleBy ys)
  | negate : Twin R S .negate .negate
  | addNum {x y} (h : R x y) : Twin R S (.addNum x) (.addNum y)
  | subNum {x y} (h : R x y) : Twin R S (.subNum x) (.subNum y)
  | multNum {x y} (h : R x y) : Twin R S (.multNum x) (.multNum y)
  | divNum {x y} (h : R x y) : Twin R S (.divNum x) (.divNum y)
  | mapNumbers {f g} (h : AnswerAlike S R R f g) : Twin R S (.mapNumbers f) (.mapNumbers g)
  | mapToNumbers {f g} (h : AnswerAlike S (List.Forall₂ R) R f g) : Twin R S (.mapToNumbers f) (.mapToNumbers g)
  | mapToArrays {k l f g} (h : AnswerAlike S R (List.Forall₂ R) f g) : Twin R S (.mapToArrays k f) (.mapToArrays l g)
  | mapArrays {k l f g} (h : AnswerAlike S (List.Forall₂ R) (List.Forall₂ R) f g) : Twin R S (.mapArrays k f) (.mapArrays l g)
  | filterNumbers {f g} (h : AnswerAlike S R (· = ·) f g) : Twin R S (.filterNumbers f) (.filterNumbers g)
  | filterArrays {f g} (h : AnswerAlike S (List.Forall₂ R) (· = ·) f g) : Twin R S (.filterArrays f) (.filterArrays g)
  | rejectNumbers {f g} (h : AnswerAlike S R (· = ·) f g) : Twin R S (.rejectNumbers f) (.rejectNumbers g)
  | rejectArrays {f g} (h : AnswerAlike S (List.Forall₂ R) (· = ·) f g) : Twin R S (.rejectArrays f) (.rejectArrays g)
  | findNumbers {f g} (h : AnswerAlike S R (· = ·) f g) : Twin R S (.findNumbers f) (.findNumbers g)
  | findArrays {f g} (h : AnswerAlike S (List.Forall₂ R) (· = ·) f g) : Twin R S (.findArrays f) (.findArrays g)
  | checkNumbers {f g} (h : AnswerAlike S R (· = ·) f g) : Twin R S (.checkNumbers f) (.checkNumbers g)
  | checkArrays {f g} (h : AnswerAlike S (List.Forall₂ R) (· = ·) f g) : Twin R S (.checkArrays f) (.checkArrays g)
  | partitionNumbers {b f g} (h : AnswerAlike S R (· = ·) f g) : Twin R S (.partitionNumbers b f) (.partitionNumbers b g)
  | partitionArrays {b f g} (h : AnswerAlike S (List.Forall₂ R) (· = ·) f g) : Twin R S (.partitionArrays b f) (.partitionArrays b g)
  | part {n j} : Twin R S (.part n j) (.part n j)
  | unzipped {sizes j} : Twin R S (.unzipped sizes j) (.unzipped sizes j)
  | transpose : Twin R S .transpose .transpose
  | inv : Twin R S .inv .inv

/-- The same call on two Series. -/
inductive Call2.Twin (R : α → β → Prop) : Call2 α → Call2 β → Prop
  | add : Twin R .add .add
  | sub : Twin R .sub .sub
  | mult : Twin R .mult .mult
  | div : Twin R .div .div
  | mask : Twin R .mask .mask
  | nearMask {x y} (h : R x y) : Twin R (.nearMask x) (.nearMask y)
  | merge {c} : Twin R (.merge c) (.merge c)

/-- The same call on any number of Series. -/
inductive CallN.Twin (R : α → β → Prop) (S : σ → τ → Prop) : CallN σ α → CallN τ β → Prop
  | add : Twin R S .add .add
  | addList : Twin R S .addList .addList
  | subList : Twin R S .subList .subList
  | weightedSum {ws vs} (h : List.Forall₂ R ws vs) : Twin R S (.weightedSum ws) (.weightedSum vs)
  | merge {c} : Twin R S (.merge c) (.merge c)
  | concat : Twin R S .concat .concat
  | zip : Twin R S .zip .zip
  | filtered {f g j} (h : AnswerAlike S (List.Forall₂ (List.Forall₂ R)) (· = ·) f g) : Twin R S (.filtered f j) (.filtered g j)
  | rejected {f g j} (h : AnswerAlike S (List.Forall₂ (List.Forall₂ R)) (· = ·) f g) : Twin R S (.rejected f j) (.rejected g j)

/-- The same calls in the same places, on related Series. -/
inductive Program.Twin (R : α → β → Prop) (S : σ → τ → Prop) : Program σ α → Program τ β → Prop
  | given {s t} (h : Each R s t) : Twin R S (.given s) (.given t)
  | call1 {f g p q} (h : f.Twin R S g) (hp : Twin R S p q) : Twin R S (.call1 f p) (.call1 g q)
  | call2 {f g p q p' q'} (h : f.Twin R g) (hp : Twin R S p q) (hp' : Twin R S p' q') : Twin R S (.call2 f p p') (.call2 g q q')
  | callN {n f g} {p : Fin (n + 1) → Program σ α} {q : Fin (n + 1) → Program τ β} (h : f.Twin R S g)
      (hp : ∀ i, Twin R S (p i) (q i)) : Twin R S (.callN f p) (.callN g q)

/-! ## What a program asks of the numbers -/

/-- The uses of numbers, apart from copying them and filling with zeros. -/
inductive Use
  | addition
  | subtraction
  | product
  | minusOne
  | one
  | division
  /-- division by the numbers whose absolute value is not below 1e-10 -/
  | guardedDivision
  /-- inverse of the numbers whose absolute value is not below 1e-10 -/
  | guardedInverse
  | equality
  /-- comparison of the absolute value of a difference with a number -/
  | closeness
  deriving DecidableEq

/-- The uses of numbers of a call. -/
def Call1.uses : Call1 σ α → List Use
  | scale _ => [.product]
  | scaleBy _ => [.product]
  | negate => [.product, .minusOne]
  | addNum _ => [.addition]
  | subNum _ => [.subtraction]
  | multNum _ => [.product]
  | divNum _ => [.division]
  | checkNumbers _ => [.one]
  | checkArrays _ => [.one]
  | inv => [.addition, .subtraction, .product, .guardedInverse]
  | _ => []

def Call2.uses : Call2 α → List Use
  | add => [.addition]
  | sub => [.subtraction]
  | mult => [.product]
  | div => [.guardedDivision]
  | mask => [.one, .equality]
  | nearMask _ => [.one, .closeness]
  | merge _ => []

def CallN.uses : CallN σ α → List Use
  | add => [.addition]
  | addList => [.addition]
  | subList => [.subtraction]
  | weightedSum _ => [.addition, .product]
  | _ => []

/-- A program uses what its calls use. -/
def Program.Uses (u : Use) : Program σ α → Prop
  | given _ => False
  | call1 f a => u ∈ f.uses ∨ a.Uses u
  | call2 f a b => u ∈ f.uses ∨ a.Uses u ∨ b.Uses u
  | callN f args => u ∈ f.uses ∨ ∃ i, (args i).Uses u

variable [Zero α] [One α] [Add α] [Sub α] [Mul α] [Div α] [Neg α] [LT α] [DecidableLT α] [LE α] [DecidableLE α] [BEq α] [OfScientific α]
  [Zero β] [One β] [Add β] [Sub β] [Mul β] [Div β] [Neg β] [LT β] [DecidableLT β] [LE β] [DecidableLE β] [BEq β] [OfScientific β]

/-- The number without its sign. -/
def magnitude [Zero γ] [Neg γ] [LT γ] [DecidableLT γ] (x : γ) : γ := if x < 0 then -x else x

/-- The relation is kept by a use of numbers. -/
def Kept (R : α → β → Prop) : Use → Prop
  | .addition => ∀ a b, R a b → ∀ c d, R c d → R (a + c) (b + d)
  | .subtraction => ∀ a b, R a b → ∀ c d, R c d → R (a - c) (b - d)
  | .product => ∀ a b, R a b → ∀ c d, R c d → R (a * c) (b * d)
  | .minusOne => R (-1) (-1)
  | .one => R 1 1
  | .division => ∀ a b, R a b → ∀ c d, R c d → R (a / c) (b / d)
  | .guardedDivision => (∀ x y, R x y → (magnitude x < (1e-10 : α) ↔ magnitude y < (1e-10 : β))) ∧
      ∀ a b, R a b → ∀ c d, R c d → ¬ magnitude c < (1e-10 : α) → R (a / c) (b / d)
  | .guardedInverse => (∀ x y, R x y → (magnitude x < (1e-10 : α) ↔ magnitude y < (1e-10 : β))) ∧
      ∀ x y, R x y → ¬ magnitude x < (1e-10 : α) → R (1 / x) (1 / y)
  | .equality => ∀ a b, R a b → ∀ c d, R c d → (a == c) = (b == d)
  | .closeness => ∀ e e', R e e' → ∀ a b, R a b → ∀ c d, R c d → (magnitude (a - c) ≤ e ↔ magnitude (b - d) ≤ e')

end DF.Spec
