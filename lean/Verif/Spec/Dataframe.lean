import Verif.Model.Dataframe

/-!
# Specification of Dataframe: a count and a partial map from names to Series
-/

namespace DF.Spec

variable {α : Type}

/-- The abstract Dataframe: a reference count and a partial map. -/
structure AbsFrame (α : Type) where
  count : Nat
  map : String → Option (Serie α)

/-- `m` with the value at `n` replaced. -/
def put {β : Type} (m : String → Option β) (n : String) (v : Option β) : String → Option β :=
  fun x => if x = n then v else m x

/-- What a Dataframe keeps of a Serie given to it: everything but the dimension (see C32). -/
def kept (s : Serie α) : Serie α := { s with dimension := 3 }

/-- The Serie of `c` items of `k` zeros. -/
def zeroSerie [Zero α] (k c : Nat) : Serie α :=
  { data := List.replicate (c * k % 2 ^ 32) 0, count := c, itemSize := k, dimension := 3 }

/-- The effect of each operation. -/
def AbsFrame.step [Zero α] (a : AbsFrame α) : DOp α → AbsFrame α
  | .add n s | .set n s => ⟨if a.count = 0 then s.count else a.count, put a.map n (some (kept s))⟩
  | .create n k c => ⟨if a.count = 0 then c else a.count, put a.map n (some (zeroSerie k c))⟩
  | .del n => ⟨a.count, put a.map n none⟩
  | .clear => ⟨a.count, fun _ => none⟩
  | .setCount c =>
    if 0 < c ∧ c ≠ a.count then ⟨c, fun n => (a.map n).map (fun s => zeroSerie s.itemSize c)⟩ else a
  | .access n => match a.map n with
    | none => ⟨a.count, put a.map n (some (zeroSerie 0 0))⟩
    | some _ => a
  | .modify n f => match a.map n with
    | none => ⟨a.count, put a.map n (some (kept (f (zeroSerie 0 0))))⟩
    | some s => ⟨a.count, put a.map n (some (kept (f s)))⟩

/-- The abstract Dataframe after the same operations. -/
def AbsFrame.history [Zero α] (count : Nat) (ops : List (DOp α)) : AbsFrame α :=
  ops.foldl AbsFrame.step ⟨count, fun _ => none⟩

end DF.Spec
