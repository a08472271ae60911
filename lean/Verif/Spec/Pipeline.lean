import Verif.Spec.Safe
import Verif.Model.Math
import Verif.Model.Combine
import Verif.Model.Algebra

/-!
# Programs made of calls to the library (independent specification)

An expression whose leaves are Series and whose nodes are calls to functions of the library, at any depth. The callbacks may read and
change captured variables (of type `σ`), shared by all the calls.
-/

namespace DF.Spec

variable {σ α : Type}

/-- What a Serie built by the library looks like: it contains exactly the numbers of its items, and items have at least one number
unless there is no item. -/
structure Neat (s : Serie α) : Prop where
  exact : s.data.length = s.count * s.itemSize
  item : 0 < s.itemSize ∨ s.count = 0

/-- The callback returns arrays of 1 to `k` numbers. -/
def ReturnsUpTo {γ : Type} (k : Nat) (cb : γ → Nat → Eff σ (List α)) : Prop :=
  Harmless cb ∧ ∀ x i st v, (cb x i st).1 = .ok v → 0 < v.length ∧ v.length ≤ k

/-- `v.at(j)`: the element, or `std::out_of_range`. -/
def at? (v : List (Serie α)) (j : Nat) : Res (Serie α) :=
  match v[j]? with
  | some s => .ok s
  | none => .throw (.stdOther 0)

/-- The functions taking one Serie. For those that return several Series, one of them is taken. -/
inductive Call1 (σ α : Type)
  | scale (x : α)
  | scaleBy (xs : List α)
  | negate
  | addNum (x : α)
  | subNum (x : α)
  | multNum (x : α)
  | divNum (x : α)
  | mapNumbers (cb : α → Nat → Eff σ α)
  | mapToNumbers (cb : List α → Nat → Eff σ α)
  | mapToArrays (k : Nat) (cb : α → Nat → Eff σ (List α))
  | mapArrays (k : Nat) (cb : List α → Nat → Eff σ (List α))
  | filterNumbers (p : α → Nat → Eff σ Bool)
  | filterArrays (p : List α → Nat → Eff σ Bool)
  | rejectNumbers (p : α → Nat → Eff σ Bool)
  | rejectArrays (p : List α → Nat → Eff σ Bool)
  | findNumbers (p : α → Nat → Eff σ Bool)
  | findArrays (p : List α → Nat → Eff σ Bool)
  | checkNumbers (p : α → Nat → Eff σ Bool)
  | checkArrays (p : List α → Nat → Eff σ Bool)
  | partitionNumbers (second : Bool) (p : α → Nat → Eff σ Bool)
  | partitionArrays (second : Bool) (p : List α → Nat → Eff σ Bool)
  | part (n j : Nat)
  | unzipped (sizes : List Nat) (j : Nat)
  | transpose
  | inv

/-- The functions taking two Series. -/
inductive Call2 (α : Type)
  | add
  | sub
  | mult
  | div
  | mask
  | nearMask (eps : α)
  | merge (concatenate : Bool)

/-- The functions taking any positive number of Series. -/
inductive CallN (σ α : Type)
  | add
  | addList
  | subList
  | weightedSum (ws : List α)
  | merge (concatenate : Bool)
  | concat
  | zip
  | filtered (p : List (List α) → Nat → Eff σ Bool) (j : Nat)
  | rejected (p : List (List α) → Nat → Eff σ Bool) (j : Nat)

/-- A program: Series given, and calls on the results of programs. -/
inductive Program (σ α : Type)
  | given (s : Serie α)
  | call1 (f : Call1 σ α) (a : Program σ α)
  | call2 (f : Call2 α) (a b : Program σ α)
  | callN {n : Nat} (f : CallN σ α) (args : Fin (n + 1) → Program σ α)

variable [Zero α] [One α] [Add α] [Sub α] [Mul α] [Div α] [Neg α] [LT α] [DecidableLT α] [LE α] [DecidableLE α] [BEq α] [OfScientific α]

def Call1.run (s : Serie α) : Call1 σ α → Eff σ (Serie α)
  | scale x => Eff.lift (DF.scale s x)
  | scaleBy xs => Eff.lift (DF.scaleBy s xs)
  | negate => Eff.lift (DF.negate s)
  | addNum x => Eff.lift (DF.addNum s x)
  | subNum x => Eff.lift (DF.subNum s x)
  | multNum x => Eff.lift (DF.mult s x)
  | divNum x => Eff.lift (DF.divNum x s)
  | mapNumbers cb => mapSS cb s
  | mapToNumbers cb => mapVS cb s
  | mapToArrays _ cb => mapSV cb s
  | mapArrays _ cb => mapVV cb s
  | filterNumbers p => filterS p s
  | filterArrays p => filterV p s
  | rejectNumbers p => rejectS p s
  | rejectArrays p => rejectV p s
  | findNumbers p => findAllS p s
  | findArrays p => findAllV p s
  | checkNumbers p => checkS s p
  | checkArrays p => checkV s p
  | partitionNumbers second p => do
    let q ← partitionS p s
    pure (if second then q.2 else q.1)
  | partitionArrays second p => do
    let q ← partitionV p s
    pure (if second then q.2 else q.1)
  | part n j => Eff.lift (partitionN n s >>= fun v => at? v j)
  | unzipped sizes j => Eff.lift (unzip s sizes >>= fun v => at? v j)
  | transpose => Eff.lift (DF.transpose s)
  | inv => Eff.lift (DF.inv s)

def Call2.run (s t : Serie α) : Call2 α → Res (Serie α)
  | add => add2 s t
  | sub => sub2 s t
  | mult => multSerie s t
  | div => divSerie s t
  | mask => equalityMask s t
  | nearMask eps => approximateEqualityMask s t eps
  | merge c => merge2 s t c

def CallN.run (ss : List (Serie α)) : CallN σ α → Eff σ (Serie α)
  | add => Eff.lift (addN ss)
  | addList => Eff.lift (DF.addList ss)
  | subList => Eff.lift (DF.subList ss)
  | weightedSum ws => Eff.lift (DF.weightedSum ss ws)
  | merge c => Eff.lift (mergeN c ss)
  | concat => Eff.lift (DF.concat ss)
  | zip => Eff.lift (DF.zip ss)
  | filtered p j => do
    let v ← filterMulti p ss
    Eff.lift (at? v j)
  | rejected p j => do
    let v ← rejectMulti p ss
    Eff.lift (at? v j)

/-- The execution of a program. Arguments are evaluated from left to right. -/
def Program.run : Program σ α → Eff σ (Serie α)
  | given s => pure s
  | call1 f a => do
    let s ← a.run
    f.run s
  | call2 f a b => do
    let s ← a.run
    let t ← b.run
    Eff.lift (f.run s t)
  | @callN _ _ n f args => do
    let ss ← (List.finRange (n + 1)).mapM fun i => (args i).run
    f.run ss

/-- What is asked of the arguments that are not Series: callbacks have no undefined behaviour and return arrays of at most the given
size, `partition_n` gets a positive number, `unzip` gets positive sizes of sum less than 2^32. -/
def Call1.Fair : Call1 σ α → Prop
  | mapNumbers cb => Harmless cb
  | mapToNumbers cb => Harmless cb
  | mapToArrays k cb => ReturnsUpTo k cb
  | mapArrays k cb => ReturnsUpTo k cb
  | filterNumbers p => Harmless p
  | filterArrays p => Harmless p
  | rejectNumbers p => Harmless p
  | rejectArrays p => Harmless p
  | findNumbers p => Harmless p
  | findArrays p => Harmless p
  | checkNumbers p => Harmless p
  | checkArrays p => Harmless p
  | partitionNumbers _ p => Harmless p
  | partitionArrays _ p => Harmless p
  | part n _ => 0 < n
  | unzipped sizes _ => (∀ k ∈ sizes, 0 < k) ∧ sizes.sum < 2 ^ 32
  | _ => True

/-- The same for the functions taking several Series. -/
def CallN.Fair : CallN σ α → Prop
  | filtered p _ => Harmless p
  | rejected p _ => Harmless p
  | _ => True

/-- A bound on the number of numbers in the result of a program: calls add up their arguments, `map` to arrays of up to `k` numbers
multiplies by `k`. -/
def Program.room : Program σ α → Nat
  | given s => s.data.length + s.itemSize + 1
  | call1 (.mapToArrays k _) a => a.room * (k + 1)
  | call1 (.mapArrays k _) a => a.room * (k + 1)
  | call1 _ a => a.room
  | call2 _ a b => a.room + b.room
  | callN _ args => (List.ofFn fun i => (args i).room).sum

/-- The Series given are neat, the other arguments are fair. -/
def Program.Fair : Program σ α → Prop
  | given s => Neat s
  | call1 f a => f.Fair ∧ a.Fair
  | call2 _ a b => a.Fair ∧ b.Fair
  | callN f args => f.Fair ∧ ∀ i, (args i).Fair

end DF.Spec
