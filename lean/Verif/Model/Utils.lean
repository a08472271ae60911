import Verif.Model.Functional

/-!
# `memoize`, `sort`

Sources: include/dataframe/functional/utils/{memoize,sort}.h.
-/

namespace DF

variable {α σ : Type}

/-- `Memoized::make_key`, include/dataframe/functional/utils/memoize.h:54-65. -/
def makeKey (s : Serie α) : Res (List α) :=
  forLoop (fun i key =>
    if s.itemSize = 1 then do
      let x ← s.getD i
      pure (key ++ [x])
    else do
      let v ← s.getA i
      pure (key ++ v)) 0 s.count []

/-- `a < b` for arrays, the order of the keys of `cache`, include/dataframe/functional/utils/memoize.h:51. In C++20 (CMakeLists.txt:24)
this is the sign of `a <=> b`, which is decided by the first pair of numbers that are not equal: with a NaN in that pair neither array is less
than the other. -/
def keyLess [LT α] [DecidableLT α] [BEq α] : List α → List α → Bool
  | [], b => !b.isEmpty
  | _ :: _, [] => false
  | x :: a, y :: b => if x < y then true else if x == y then keyLess a b else false

/-- A strict weak order on the elements of `l` ([alg.sorting]), as a test: irreflexive, transitive, with transitive incomparability.
Source: required of the keys of a `std::map`, include/dataframe/functional/utils/memoize.h:51. -/
def isStrictWeak {γ : Type} (lt : γ → γ → Bool) (l : List γ) : Bool :=
  l.all (fun a => !lt a a) &&
  l.all fun a => l.all fun b => l.all fun c =>
    (!(lt a b && lt b c) || lt a c) && (lt a b || lt b a || lt b c || lt c b || (!lt a c && !lt c a))

/-- Neither key is less than the other: what a `std::map` takes for the same key.
Source: include/dataframe/functional/utils/memoize.h:38, 43. -/
def sameKey [LT α] [DecidableLT α] [BEq α] (a b : List α) : Bool := !keyLess a b && !keyLess b a

/-- The member `cache` of `Memoized`, include/dataframe/functional/utils/memoize.h:51: a `std::map` from arrays of numbers to Series.
Simplification: entries are kept in insertion order, newest first (the order of the map is not observable). -/
abbrev Cache (α : Type) := List (List α × Serie α)

/-- `cache.find(key)`, include/dataframe/functional/utils/memoize.h:38. Searching a `std::map` whose keys, with the one looked for, are not
in a strict weak order is undefined behaviour. -/
def cacheFind [LT α] [DecidableLT α] [BEq α] (c : Cache α) (key : List α) : Res (Option (Serie α)) :=
  if !isStrictWeak keyLess (key :: c.map (·.1)) then .ub
  else .ok ((c.find? (fun p => sameKey p.1 key)).map (·.2))

/-- `cache[key] = result`, include/dataframe/functional/utils/memoize.h:43: `operator[]` finds the entry or inserts a default Serie, then
`Serie::operator=` (src/Serie.cxx:59-64) is applied to it. -/
def cacheStore [LT α] [DecidableLT α] [BEq α] [Zero α] (c : Cache α) (key : List α) (r : Serie α) : Res (Cache α) := do
  match ← cacheFind c key with
  | some old => do
    let new ← (Serie.assign r).exec old
    pure (c.map (fun p => if sameKey p.1 key then (p.1, new) else p))
  | none => do
    let new ← (Serie.assign r).exec Serie.empty
    pure ((key, new) :: c)

/-- `Memoized::operator()`, include/dataframe/functional/utils/memoize.h:36-45. The state is the cache and the state of `func`. -/
def memoCall [LT α] [DecidableLT α] [BEq α] [Zero α] (f : Serie α → Eff σ (Serie α)) (s : Serie α) :
    Eff (Cache α × σ) (Serie α) := fun st =>
  match makeKey s with
  | .throw e => (.throw e, st)
  | .ub => (.ub, st)
  | .ok key =>
    match cacheFind st.1 key with
    | .throw e => (.throw e, st)
    | .ub => (.ub, st)
    | .ok (some r) => (.ok r.copy, st)
    | .ok none =>
      match f s st.2 with
      | (.throw e, t) => (.throw e, (st.1, t))
      | (.ub, t) => (.ub, (st.1, t))
      | (.ok r, t) =>
        match cacheStore st.1 key r with
        | .ok c => (.ok r, (c, t))
        | .throw e => (.throw e, (st.1, t))
        | .ub => (.ub, (st.1, t))

/-- `clear_cache()`, include/dataframe/functional/utils/memoize.h:47. -/
def memoClear : Eff (Cache α × σ) Unit := fun st => (.ok (), ([], st.2))

/-- What a program does with a memoized function: call it or clear its cache.
Source: include/dataframe/functional/utils/memoize.h:36-47. -/
inductive MemoOp (α : Type)
  | call (s : Serie α)
  | clear

/-- Run a program on a memoized function from a given state; the result lists the outcomes of the calls (the program
catches exceptions and goes on; undefined behaviour ends it).
Source: include/dataframe/functional/utils/memoize.h:36-47. -/
def memoRun [LT α] [DecidableLT α] [BEq α] [Zero α] (f : Serie α → Eff σ (Serie α)) :
    List (MemoOp α) → Cache α × σ → List (Res (Serie α)) × (Cache α × σ)
  | [], st => ([], st)
  | .clear :: ops, st => memoRun f ops (memoClear st).2
  | .call s :: ops, st =>
    match memoCall f s st with
    | (.ub, st') => ([.ub], st')
    | (r, st') => (r :: (memoRun f ops st').1, (memoRun f ops st').2)

/-- `std::sort(first, last, comp)` as include/dataframe/functional/utils/sort.h:43, 52 use it: any function that meets `StdSort.Correct`. -/
abbrev StdSort := ∀ {γ : Type}, (γ → γ → Res Bool) → List γ → Res (List γ)

/-- A strict weak order on the elements of `l` ([alg.sorting]): irreflexive, transitive, with transitive
incomparability.
Source: required by std::sort, include/dataframe/functional/utils/sort.h:43, 52. -/
structure StrictWeak {γ : Type} (lt : γ → γ → Bool) (l : List γ) : Prop where
  irrefl : ∀ a ∈ l, lt a a = false
  trans : ∀ a ∈ l, ∀ b ∈ l, ∀ c ∈ l, lt a b = true → lt b c = true → lt a c = true
  incomp : ∀ a ∈ l, ∀ b ∈ l, ∀ c ∈ l, lt a b = false → lt b a = false → lt b c = false → lt c b = false →
    lt a c = false ∧ lt c a = false

/-- The contract of `std::sort` ([sort]): when the comparator returns and is a strict weak order on the elements, the
result is a permutation in which no element is less than an earlier one. Nothing is promised otherwise.
Source: include/dataframe/functional/utils/sort.h:43, 52. -/
def StdSort.Correct (srt : StdSort) : Prop :=
  ∀ (γ : Type) (comp : γ → γ → Res Bool) (lt : γ → γ → Bool) (l : List γ),
    (∀ a ∈ l, ∀ b ∈ l, comp a b = .ok (lt a b)) → StrictWeak lt l →
    ∃ l', srt comp l = .ok l' ∧ l'.Perm l ∧ l'.Pairwise (fun a b => lt b a = false)

/-- `sort(serie, comp)`, include/dataframe/functional/utils/sort.h:31-61. `comp` compares arrays. For item size 1 the code does not use it:
the numbers are sorted with `<` (line 43). Simplification: `comp` has no side effect. -/
def sortWith [Zero α] [LT α] [DecidableLT α] (srt : StdSort) (s : Serie α) (comp : List α → List α → Res Bool) :
    Res (Serie α) :=
  if !s.isValid then pure Serie.empty
  else if s.itemSize = 1 then do
    let values ← forLoop (fun i values => do
      let x ← s.getD i
      pure (values ++ [x])) 0 s.count []
    let values ← srt (fun a b : α => pure (decide (a < b))) values
    Serie.ofArray 1 values
  else do
    let values ← forLoop (fun i values => do
      let v ← s.getA i
      pure (values ++ [v])) 0 s.count []
    let values ← srt comp values
    Serie.ofArray s.itemSize (values.foldl (fun acc v => acc ++ v) [])

/-- The lambda of include/dataframe/functional/utils/sort.h:67-73: the loop over `i < a.size()`, from `i` with `n` steps left. -/
def lexLessFrom [LT α] [DecidableLT α] [BEq α] (a b : List α) : Nat → Nat → Res Bool
  | _, 0 => pure false
  | i, n + 1 => do
    let x ← rd a i
    let y ← rd b i
    if x != y then pure (decide (x < y)) else lexLessFrom a b (i + 1) n

/-- The lambda of include/dataframe/functional/utils/sort.h:67-73. -/
def lexLess [LT α] [DecidableLT α] [BEq α] (a b : List α) : Res Bool := lexLessFrom a b 0 a.length

/-- `sort(serie)`, include/dataframe/functional/utils/sort.h:63-74. With item size 1 the comparator `std::less<>` is passed, which `sort` does not call: any
comparator can stand for it. -/
def sortDefault [Zero α] [LT α] [DecidableLT α] [BEq α] (srt : StdSort) (s : Serie α) : Res (Serie α) :=
  if s.itemSize = 1 then sortWith srt s (fun _ _ => .ub)
  else sortWith srt s lexLess

end DF
