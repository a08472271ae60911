import Verif.Model.Support
import Verif.Lemmas.Special

/-!
# Support functions (C137)
-/

namespace DF

namespace Support

theorem mapLoop_eq {σ τ : Type} (func : τ → Eff σ τ) : ∀ (l r : List τ), mapLoop func l r = (fun ys => r ++ ys) <$> l.mapM func
  | [], r => by simp [mapLoop]
  | x :: l, r => by
    unfold mapLoop
    rw [List.mapM_cons, map_bind]
    congr 1
    funext y
    rw [mapLoop_eq func l (r ++ [y])]
    rw [← bind_pure_comp, ← bind_pure_comp, bind_assoc]
    simp

theorem find_le {τ : Type} [BEq τ] (item : τ) : ∀ l : List τ, find item l ≤ l.length ∧ (find item l = l.length ↔ ∀ x ∈ l, (x == item) = false)
  | [] => by simp [find]
  | x :: l => by
    obtain ⟨h1, h2⟩ := find_le item l
    unfold find
    split
    · rename_i h; simp [h]
    · rename_i h; simp [h, h1, h2]

theorem logRest_eq : ∀ (l : List String) (c : Console),
    logRest l c = (.ok (), { c with cout := c.cout ++ String.join (l.map (" " ++ ·)) })
  | [], c => by simp [logRest, Eff.pure_def]
  | t :: l, c => by
    show logRest l _ = _
    rw [logRest_eq l]
    simp [String.append_assoc]

theorem join_intercalate (t : String) : ∀ l : List String, t ++ String.join (l.map (" " ++ ·)) = " ".intercalate (t :: l)
  | [] => by simp
  | u :: l => by
    have := join_intercalate u l
    rw [List.map_cons, String.join_cons, String.intercalate_cons_of_ne_nil (by simp), ← this]
    simp [String.append_assoc]

end Support

/-- C137: `map` on a vector calls the function on each element, in order, and collects the results in order. -/
theorem C137_map {σ τ : Type} (l : List τ) (func : τ → Eff σ τ) : Support.map l func = l.mapM func := by
  unfold Support.map
  rw [Support.mapLoop_eq]
  simp

example := C137_map [1, 2, 3] (fun x => (fun s => (.ok (x + s), s + 1) : Eff Nat Nat))

/-- C137: the first exception ends `map`: the function is not called on the elements after it. -/
theorem C137_map_throws {σ τ : Type} {l1 l2 ys : List τ} {x : τ} {func : τ → Eff σ τ} {s s1 s2 : σ} {e : Err}
    (h1 : Support.map l1 func s = (.ok ys, s1)) (h2 : func x s1 = (.throw e, s2)) :
    Support.map (l1 ++ x :: l2) func s = (.throw e, s2) := by
  rw [C137_map] at h1 ⊢
  rw [List.mapM_append]
  rw [Eff.bind_ok h1, List.mapM_cons]
  have : (func x >>= fun y => l2.mapM func >>= fun ys => pure (y :: ys)) s1 = (.throw e, s2) := Eff.bind_throw h2
  exact Eff.bind_throw this

example := C137_map_throws (l1 := [1, 2]) (l2 := [7]) (x := 5) (s := 0) (s1 := 3) (s2 := 3) (e := .runtimeError) (ys := [1, 2])
  (func := fun x => (fun s => if x = 5 then (.throw .runtimeError, s) else (.ok x, s + x) : Eff Nat Nat)) rfl rfl

/-- C137: `contains` says whether an element of the vector is equal to the item. -/
theorem C137_contains {τ : Type} [BEq τ] (l : List τ) (item : τ) : Support.contains l item = true ↔ ∃ x ∈ l, (x == item) = true := by
  unfold Support.contains
  rw [bne_iff_ne, ne_eq, (Support.find_le item l).2]
  simp

example := C137_contains [1, 5, 3] 5

/-- C137: for a type whose `==` is equality (strings, integers), `contains` is membership. -/
theorem C137_contains_member {τ : Type} [BEq τ] [LawfulBEq τ] (l : List τ) (item : τ) :
    Support.contains l item = true ↔ item ∈ l := by
  rw [C137_contains]
  constructor
  · rintro ⟨x, hx, h⟩
    rw [beq_iff_eq] at h
    exact h ▸ hx
  · intro h
    exact ⟨item, h, by simp⟩

example := C137_contains_member ["x", "y"] "y"

/-- C137 fails for `double`: a NaN in the vector is not found. -/
theorem C137_nan_violated : ∃ (l : List (Ext ℚ)) (x : Ext ℚ), x ∈ l ∧ Support.contains l x = false :=
  ⟨[.fin 1, .nan], .nan, by simp, rfl⟩

/-- C137: `log` writes its arguments on the standard output separated by one space, without end of line. -/
theorem C137_log (t : String) (l : List String) (c : Console) :
    Support.log t l c = (.ok (), { c with cout := c.cout ++ " ".intercalate (t :: l) }) := by
  show Support.logRest l _ = _
  rw [Support.logRest_eq, ← Support.join_intercalate]
  simp [String.append_assoc]

example (c : Console) := C137_log "a" ["b", "c"] c

/-- C137: `info` writes a line on the standard output, `warning` and `error` on the standard error, and nothing else. -/
theorem C137_messages (m : String) (c : Console) :
    Support.info m c = (.ok (), { c with cout := c.cout ++ ("\x1b[1;32mInfo : \x1b[0m" ++ m ++ "\n") }) ∧
    Support.warning m c = (.ok (), { c with cerr := c.cerr ++ ("\x1b[1;34mWarn : \x1b[0m" ++ m ++ "\n") }) ∧
    Support.error m c = (.ok (), { c with cerr := c.cerr ++ ("\x1b[1;31mError: \x1b[0m" ++ m ++ "\n") }) := by
  have key : ∀ (o : Out) (a : String), (do o.put a; o.put m; o.put "\n" : Eff Console Unit) c = o.put (a ++ m ++ "\n") c := by
    intro o a
    cases o
    all_goals
      show (Res.ok (), (_ : Console)) = (Res.ok (), (_ : Console))
      simp [String.append_assoc]
  exact ⟨key .cout _, key .cerr _, key .cerr _⟩

example (c : Console) := C137_messages "done" c

end DF
