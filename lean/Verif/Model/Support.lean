import Verif.Model.Print

/-!
# Support functions

Source: include/dataframe/utils/utils.h.
-/

namespace DF

namespace Support

/-- `info(msg)`, include/dataframe/utils/utils.h:32-35. -/
def info (msg : String) : Eff Console Unit := do
  Out.cout.put "\x1b[1;32mInfo : \x1b[0m"
  Out.cout.put msg
  Out.cout.put "\n"

/-- `warning(msg)`, include/dataframe/utils/utils.h:37-40. -/
def warning (msg : String) : Eff Console Unit := do
  Out.cerr.put "\x1b[1;34mWarn : \x1b[0m"
  Out.cerr.put msg
  Out.cerr.put "\n"

/-- `error(msg)`, include/dataframe/utils/utils.h:42-45. -/
def error (msg : String) : Eff Console Unit := do
  Out.cerr.put "\x1b[1;31mError: \x1b[0m"
  Out.cerr.put msg
  Out.cerr.put "\n"

/-- The expansion of the pack `args` in include/dataframe/utils/utils.h:52. -/
def logRest : List String → Eff Console Unit
  | [] => pure ()
  | t :: l => do
    Out.cout.put " "
    Out.cout.put t
    logRest l

/-- `log(arg, args...)`, include/dataframe/utils/utils.h:47-53. Simplification: the arguments are given as texts. -/
def log (arg : String) (args : List String) : Eff Console Unit := do
  Out.cout.put arg
  logRest args

/-- The loop of include/dataframe/utils/utils.h:59-61; `result` is what has been pushed. -/
def mapLoop {σ τ : Type} (func : τ → Eff σ τ) : List τ → List τ → Eff σ (List τ)
  | [], result => pure result
  | x :: l, result => do
    let y ← func x
    mapLoop func l (result ++ [y])

/-- `map(input, func)` of a `std::vector`, include/dataframe/utils/utils.h:55-63. -/
def map {σ τ : Type} (input : List τ) (func : τ → Eff σ τ) : Eff σ (List τ) := mapLoop func input []

/-- `std::find`: the position of the first equal element, the length if there is none.
Source: include/dataframe/utils/utils.h:67. -/
def find {τ : Type} [BEq τ] (item : τ) : List τ → Nat
  | [] => 0
  | x :: l => if x == item then 0 else find item l + 1

/-- `contains(vec, item)`, include/dataframe/utils/utils.h:65-68. -/
def contains {τ : Type} [BEq τ] (vec : List τ) (item : τ) : Bool := find item vec != vec.length

end Support

end DF
