import Verif.Spec.Dataframe

/-!
# Computations on the Series of a Dataframe (independent specification)

A step reads Series of a Dataframe by their names, computes a Serie from them and stores it under a name.
-/

namespace DF.Spec

variable {α : Type}

/-- A step `df.add(out, F(df[in1], df[in2], ...))`. -/
structure Calc (α : Type) where
  /-- the name under which the result is stored -/
  out : String
  /-- the names of the Series read -/
  ins : List String
  /-- the computation -/
  F : List (Serie α) → Res (Serie α)
  /-- whether the Series are read through the `operator[]` that inserts an empty Serie under a missing name (the non-const one) -/
  inserts : Bool

/-- Reading Series one after the other. -/
def readAll [Zero α] (inserts : Bool) : List String → Dataframe α → List (Serie α) × Dataframe α
  | [], d => ([], d)
  | n :: ns, d =>
    if inserts then
      let r := readAll inserts ns (d.access n).2
      ((d.access n).1 :: r.1, r.2)
    else
      let r := readAll inserts ns d
      (d.get n :: r.1, r.2)

/-- The execution of a step. -/
def Calc.run [Zero α] (c : Calc α) (d : Dataframe α) : Res (Dataframe α) := do
  let r := readAll c.inserts c.ins d
  let t ← c.F r.1
  .ok (r.2.add c.out t)

/-- The execution of several steps, until one throws. -/
def runAll [Zero α] : List (Calc α) → Dataframe α → Res (Dataframe α)
  | [], d => .ok d
  | c :: cs, d => do
    let d' ← c.run d
    runAll cs d'

/-- No step writes what an earlier one has read or written. -/
def InOrder (cs : List (Calc α)) : Prop := cs.Pairwise fun a b => b.out ∉ a.ins ∧ b.out ≠ a.out

/-- The names whose Series may depend on those of `ns` after the steps. -/
def affected : List (Calc α) → List String → List String
  | [], ns => ns
  | c :: cs, ns => affected cs (if c.ins.any (· ∈ ns) then c.out :: ns else ns.filter (· ≠ c.out))

end DF.Spec
