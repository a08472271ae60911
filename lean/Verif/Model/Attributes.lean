import Verif.Model.Dataframe
import Verif.Model.Geo
import Verif.Model.Eigen

/-!
# Attributes: `Manager` and the decomposers

Sources: include/dataframe/attributes, src/attributes.

Simplifications: each character of a name stands for one `char`, so `substr` counts characters; `char` is signed. A
`Manager` holds a reference to its Dataframe: the field `df` is the Dataframe at the time of the call. Ownership of the
decomposers is the subject of `Verif.Model.Ownership`.
-/

namespace DF

variable {α : Type}

/-! ## Decomposer -/

/-- include/dataframe/attributes/Decomposer.h:36-41. `names` receives the Serie and its address. -/
structure Decomposer (α : Type) where
  /-- `names(dataframe, itemSize, serie, name)` -/
  names : Dataframe α → Nat → Serie α → Dataframe.Place → String → Res (List String)
  /-- `serie(dataframe, itemSize, name)` -/
  serie : Dataframe α → Nat → String → Res (Serie α)

/-- The base class, src/attributes/Decomposer.cxx:29-35. -/
def noDecomposer [Zero α] : Decomposer α where
  names _ _ _ _ _ := pure []
  serie _ _ _ := pure Serie.empty

/-- `name.substr(0, name.size() - k)`: for a name shorter than `k` the difference wraps around to a large number, and the
whole name is taken.
Source: src/attributes/Components.cxx:111, 135, 172, src/attributes/EigenValues.cxx:56, src/attributes/EigenVectors.cxx:56. -/
def dropEnd (name : String) (k : Nat) : String :=
  if name.length < k then name else String.ofList (name.toList.take (name.length - k))

/-- `serie.map([i](const Array &item, uint32_t) { return Array{item[i]}; })`, src/attributes/Components.cxx:118-120 and
others. -/
def pickItem [Zero α] (i : Nat) (s : Serie α) : Res (Serie α) :=
  mapArr (fun item _ => do
    let x ← rd item i
    pure [x]) s

/-! ## Components -/

/-- src/attributes/Components.cxx:44. -/
def vector2Names : List String := ["x", "y"]
/-- src/attributes/Components.cxx:45. -/
def smatrix2Names : List String := ["xx", "xy", "yy"]
/-- src/attributes/Components.cxx:46. -/
def matrix2Names : List String := ["xx", "xy", "yx", "yy"]
/-- src/attributes/Components.cxx:48. -/
def vector3Names : List String := ["x", "y", "z"]
/-- src/attributes/Components.cxx:49. -/
def smatrix3Names : List String := ["xx", "xy", "xz", "yy", "yz", "zz"]
/-- src/attributes/Components.cxx:50-51. -/
def matrix3Names : List String := ["xx", "xy", "xz", "yx", "yy", "yz", "zx", "zy", "zz"]

/-- `_map(suffixes, [name](n) { return name + n; })`, src/attributes/Components.cxx:30-40, 72-92. -/
def withSuffixes (name : String) (suffixes : List String) : List String := suffixes.map fun n => name ++ n

/-- `for (i = 0; i < itemSize; ++i) names.push_back(name + std::to_string(i))`, src/attributes/Components.cxx:96-99; also
the names compared in 175-176. -/
def numberNames (itemSize : Nat) : List String := (List.range itemSize).map fun i => toString i

/-- `Components::names`, src/attributes/Components.cxx:53-102. -/
def componentsNames (d : Dataframe α) (itemSize : Nat) (s : Serie α) (place : Dataframe.Place) (name : String) :
    List String :=
  if name = "positions" ∨ name = "indices" then []
  else if name = d.nameOfSerie place ∧ s.itemSize = 1 then []
  else if itemSize > 1 then []
  else if s.dimension = 2 then
    if s.itemSize = 2 then withSuffixes name vector2Names
    else if s.itemSize = 3 then withSuffixes name smatrix2Names
    else if s.itemSize = 4 then withSuffixes name matrix2Names
    else withSuffixes name (numberNames itemSize)
  else
    if s.itemSize = 3 then withSuffixes name vector3Names
    else if s.itemSize = 6 then withSuffixes name smatrix3Names
    else if s.itemSize = 9 then withSuffixes name matrix3Names
    else withSuffixes name (numberNames itemSize)

/-- `for (i = 0; i < names.size(); ++i) if (name == newName + names[i]) return …`: the number of the suffix found.
Source: src/attributes/Components.cxx:116-178. -/
def suffixIndex (name newName : String) (suffixes : List String) : Option Nat :=
  suffixes.findIdx? fun n => name = newName ++ n

/-- The component chosen by src/attributes/Components.cxx:114-132. -/
def vectorIndex (name newName : String) (s : Serie α) : Option Nat :=
  if s.isValid then
    if s.dimension = 2 then suffixIndex name newName vector2Names
    else suffixIndex name newName vector3Names
  else none

/-- The component chosen by src/attributes/Components.cxx:137-169. -/
def matrixIndex (name newName : String) (s : Serie α) : Option Nat :=
  if s.isValid then
    if s.dimension = 2 then
      match suffixIndex name newName smatrix2Names with
      | some i => some i
      | none => suffixIndex name newName matrix2Names
    else
      match suffixIndex name newName smatrix3Names with
      | some i => some i
      | none => suffixIndex name newName matrix3Names
  else none

/-- The component chosen by src/attributes/Components.cxx:174-182. -/
def numberIndex (itemSize : Nat) (name newName : String) (s : Serie α) : Option Nat :=
  if s.isValid then suffixIndex name newName (numberNames itemSize) else none

/-- `Components::serie`, src/attributes/Components.cxx:104-185. The variable `serie` is a copy, assigned twice with
`Serie::operator=`. -/
def componentsSerie [Zero α] (d : Dataframe α) (itemSize : Nat) (name : String) : Res (Serie α) :=
  if itemSize > 1 then pure Serie.empty
  else
    let newName := dropEnd name 1
    let serie := (d.get newName).copy
    match vectorIndex name newName serie with
    | some i => pickItem i serie
    | none =>
      let newName := dropEnd name 2
      let serie := (Serie.assign (d.get newName) serie).2
      match matrixIndex name newName serie with
      | some i => pickItem i serie
      | none =>
        let newName := dropEnd name 1
        let serie := (Serie.assign (d.get newName) serie).2
        match numberIndex itemSize name newName serie with
        | some i => pickItem i serie
        | none => pure Serie.empty

/-- The decomposer `Components`.
Source: src/attributes/Components.cxx:50-186. -/
def components [Zero α] : Decomposer α where
  names d k s p n := pure (componentsNames d k s p n)
  serie := componentsSerie

/-! ## Coordinates -/

/-- The loop of src/attributes/Coordinates.cxx:49-55. -/
def coordinateIndex (names : List String) (name : String) : Nat → Nat → Res (Option Nat)
  | _, 0 => pure none
  | i, n + 1 => do
    let x ← rd names i
    if name = x then pure (some i) else coordinateIndex names name (i + 1) n

/-- The decomposer `Coordinates(names)`, src/attributes/Coordinates.cxx:36-58. -/
def coordinates [Zero α] (names : List String) : Decomposer α where
  names _ itemSize _ _ name := pure (if itemSize ≠ 1 ∨ name ≠ "positions" then [] else names)
  serie d itemSize name :=
    if itemSize = 1 then do
      match ← coordinateIndex names name 0 3 with
      | some i => pickItem i (d.get "positions")
      | none => pure Serie.empty
    else pure Serie.empty

/-! ## EigenValues, EigenVectors -/

/-- `uint id = name[name.size() - 1]`, src/attributes/EigenValues.cxx:58: the code of the last character; there is none in
the empty name. -/
def lastCode (name : String) : Res Nat :=
  match name.toList.getLast? with
  | none => .ub
  | some c => pure (if c.toNat < 128 then c.toNat else u32 (2 ^ 32 - 256 + c.toNat))

/-- `names` of `EigenValues` (`size2 = size3 = 1`, src/attributes/EigenValues.cxx:33-49) and of `EigenVectors`
(`size2 = 2`, `size3 = 3`, src/attributes/EigenVectors.cxx:33-49). -/
def eigenNames (size2 size3 itemSize : Nat) (s : Serie α) (name : String) : List String :=
  if name = "positions" ∨ name = "indices" then []
  else if s.dimension = 2 ∧ (s.itemSize ≠ 3 ∨ itemSize ≠ size2) then []
  else if s.dimension = 3 ∧ (s.itemSize ≠ 6 ∨ itemSize ≠ size3) then []
  else if s.dimension = 2 then [name ++ "1", name ++ "2"]
  else [name ++ "1", name ++ "2", name ++ "3"]

/-- `serie` of `EigenValues` (`size = 1`, `f = eigenValues`, src/attributes/EigenValues.cxx:51-83) and of `EigenVectors`
(`size = 3`, `f = eigenVectors`, src/attributes/EigenVectors.cxx:51-83). -/
def eigenSerie [Zero α] (size : Nat) (f : Serie α → Res (Serie α)) (d : Dataframe α) (itemSize : Nat) (name : String) :
    Res (Serie α) :=
  if itemSize ≠ size then pure Serie.empty
  else do
    let newName := dropEnd name 1
    let serie := d.get newName
    let id ← lastCode name
    if serie.isValid = false then pure Serie.empty
    else if serie.dimension = 2 ∧ serie.itemSize ≠ 3 then pure Serie.empty
    else if serie.dimension = 2 ∧ (id < 1 ∨ id > 2) then pure Serie.empty
    else if serie.dimension ≠ 2 ∧ serie.itemSize ≠ 6 then pure Serie.empty
    else if serie.dimension ≠ 2 ∧ (id < 1 ∨ id > 3) then pure Serie.empty
    else do
      let r ← f serie
      pickItem (id - 1) r

/-- The decomposer `EigenValues`.
Source: src/attributes/EigenValues.cxx:30-83. -/
def eigenValuesAttr [Zero α] [One α] [Add α] [Sub α] [Mul α] [Div α] [Neg α] [OfNat α 2] [OfNat α 4] [DecidableEq α]
    [LT α] [DecidableLT α] [NatCast α] [OfScientific α] [Trig α] : Decomposer α where
  names _ k s _ n := pure (eigenNames 1 1 k s n)
  serie := eigenSerie 1 eigenValues

/-- The decomposer `EigenVectors`.
Source: src/attributes/EigenVectors.cxx:30-83. -/
def eigenVectorsAttr [Zero α] [One α] [Add α] [Sub α] [Mul α] [Div α] [Neg α] [OfNat α 2] [OfNat α 4] [DecidableEq α]
    [LT α] [DecidableLT α] [NatCast α] [OfScientific α] [Trig α] : Decomposer α where
  names _ k s _ n := pure (eigenNames 2 3 k s n)
  serie := eigenSerie 3 eigenVectors

/-! ## Normals, Area, Valence -/

/-- `names` of `Normals` (`size = 3`, src/attributes/Normals.cxx:37-47), `Area` and `Valence` (`size = 1`,
src/attributes/Areas.cxx:39-49, src/attributes/Valence.cxx:36-46). -/
def meshNames (size : Nat) (own : String) (d : Dataframe α) (itemSize : Nat) : List String :=
  if itemSize ≠ size then []
  else if !d.contains "positions" && !d.contains "indices" then []
  else [own]

/-- `Normals::serie`, src/attributes/Normals.cxx:49-57. -/
def normalsSerie [Ring α] [LinearOrder α] [FloorRing α] (own : String) (d : Dataframe α) (name : String) :
    Res (Serie α) :=
  if name ≠ own then pure Serie.empty
  else normals (d.get "positions") (d.get "indices")

/-- The decomposer `Normals(own)`.
Source: src/attributes/Normals.cxx:30-56. -/
def normalsAttr [Ring α] [LinearOrder α] [FloorRing α] (own : String) : Decomposer α where
  names d k _ _ _ := pure (meshNames 3 own d k)
  serie d _ name := normalsSerie own d name

/-- The decomposer `Area(own)`, src/attributes/Areas.cxx:39-65. Here `math::div(2, …)` is the overload on a number and a
Serie. -/
def areaAttr [Field α] [LinearOrder α] [FloorRing α] [Sqrt α] (own : String) : Decomposer α where
  names d k _ _ _ := pure (meshNames 1 own d k)
  serie d _ name :=
    if name ≠ own then pure Serie.empty
    else do
      let n ← normalsSerie "n" d "n"
      if n.isValid then do
        let l ← norm n
        divNum 2 l
      else pure Serie.empty

/-- `ids[t[k]]++`, src/attributes/Valence.cxx:64-66: the number is converted to `size_t`. -/
def countVertex [Ring α] [LinearOrder α] [FloorRing α] (t : List α) (k : Nat) (ids : List α) : Res (List α) := do
  let x ← rd t k
  let i ← (if -1 < x ∧ x < 2 ^ 64 then .ok ⌊x⌋.toNat else .ub)
  let c ← rd ids i
  wr ids i (c + 1)

/-- `Valence::serie`, src/attributes/Valence.cxx:48-70. -/
def valenceSerie [Ring α] [LinearOrder α] [FloorRing α] (own : String) (d : Dataframe α) (name : String) :
    Res (Serie α) :=
  if name ≠ own then pure Serie.empty
  else
    let positions := d.get "positions"
    let indices := d.get "indices"
    if !positions.isValid || !indices.isValid then pure Serie.empty
    else do
      let ids ← Eff.exec (forEachV (fun t _ => Eff.update fun ids => do
        let ids ← countVertex t 0 ids
        let ids ← countVertex t 1 ids
        countVertex t 2 ids) indices) (List.replicate positions.count 0)
      Serie.ofArray 1 ids

/-- The decomposer `Valence(own)`.
Source: src/attributes/Valence.cxx:30-69. -/
def valenceAttr [Ring α] [LinearOrder α] [FloorRing α] (own : String) : Decomposer α where
  names d k _ _ _ := pure (meshNames 1 own d k)
  serie d _ name := valenceSerie own d name

/-! ## UserDefinedDecomposer -/

/-- `UserDefinedDecomposer(size, own, cb)`, include/dataframe/attributes/UserDefinedDecomposer.h:33-77. The member `cb_` is a
reference to the callable given to the constructor: `none` when this callable no longer exists. -/
def userAttr [Zero α] (size : Nat) (own : String) (cb : Option (Dataframe α → Res (Serie α))) : Decomposer α where
  names d itemSize _ _ _ :=
    if itemSize ≠ size then pure []
    else match cb with
      | none => .ub
      | some f => do
        let s ← f d
        if s.isValid = false then pure [] else pure [own]
  serie d itemSize name :=
    if itemSize ≠ size ∨ own ≠ name then pure Serie.empty
    else match cb with
      | none => .ub
      | some f => f d

/-! ## Manager -/

/-- include/dataframe/attributes/Manager.h:38-61. -/
structure Manager (α : Type) where
  /-- `df_` -/
  df : Dataframe α
  /-- `ds_` -/
  ds : List (Decomposer α) := []
  /-- `dimension_` -/
  dimension : Nat := 3

namespace Manager

/-- `add(decomposer)`, src/attributes/Manager.cxx:49-52. -/
def add (dc : Decomposer α) (m : Manager α) : Manager α := { m with ds := m.ds ++ [dc] }

/-- `clear()`, src/attributes/Manager.cxx:54-57. -/
def clear (m : Manager α) : Manager α := { m with ds := [] }

/-- `nbDecomposers()`, include/dataframe/attributes/Manager.h:50. -/
def nbDecomposers (m : Manager α) : Nat := m.ds.length

/-- The loop of src/attributes/Manager.cxx:61-72. -/
def storedSerie (itemSize : Nat) (name : String) : List (String × Serie α) → Option (Serie α)
  | [] => none
  | (sname, serie) :: l =>
    if serie.itemSize = itemSize then
      if name = sname then some serie else storedSerie itemSize name l
    else storedSerie itemSize name l

/-- The loop of src/attributes/Manager.cxx:74-82. -/
def firstAnswer [Zero α] (df : Dataframe α) (itemSize : Nat) (name : String) : List (Decomposer α) → Res (Serie α)
  | [] => pure Serie.empty
  | dc :: ds => do
    let serie ← dc.serie df itemSize name
    if serie.isValid then pure serie else firstAnswer df itemSize name ds

/-- `serie(itemSize, name)`, src/attributes/Manager.cxx:59-83. -/
def serie [Zero α] (m : Manager α) (itemSize : Nat) (name : String) : Res (Serie α) :=
  match storedSerie itemSize name m.df.series with
  | some s => s.clone
  | none => firstAnswer m.df itemSize name m.ds

/-- `names.insert(x)` of `std::set<String>`: a list in increasing order.
Source: src/attributes/Manager.cxx:98, 108. -/
def setInsert (x : String) : List String → List String
  | [] => [x]
  | y :: l => if x < y then x :: y :: l else if x = y then y :: l else y :: setInsert x l

/-- `names(itemSize)`, src/attributes/Manager.cxx:85-114. -/
def names (m : Manager α) (itemSize : Nat) : Res (List String) :=
  m.df.series.foldlM (fun names (e : String × Serie α) =>
    let names :=
      if e.2.itemSize = itemSize ∧ e.2.dimension = m.dimension then
        if e.1 ≠ "positions" ∧ e.1 ≠ "indices" then setInsert e.1 names else names
      else names
    m.ds.foldlM (fun names dc => do
      let otherNames ← dc.names m.df itemSize e.2 (.stored e.1) e.1
      pure (otherNames.foldl (fun names s => setInsert s names) names)) names) []

/-- `contains(itemSize, name)`, src/attributes/Manager.cxx:116-120. -/
def contains (m : Manager α) (itemSize : Nat) (name : String) : Res Bool := do
  let n ← m.names itemSize
  pure (n.contains name)

end Manager

end DF
