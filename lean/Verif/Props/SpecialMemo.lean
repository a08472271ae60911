import Verif.Lemmas.Utils
import Verif.Spec.Special
import Verif.Props.Special
import Mathlib.Order.WithBot

/-!
# Properties of memoize with infinities and NaN (C98)
-/

namespace DF

open Spec

variable {α σ : Type}

/-! ## Keys with special values -/

/-- The numbers other than NaN, in order. -/
private def rank : Ext α → WithBot (WithTop α)
  | .fin x => ((x : WithTop α) : WithBot (WithTop α))
  | .pinf => ((⊤ : WithTop α) : WithBot (WithTop α))
  | _ => ⊥

theorem Ext.fin_beq_fin [DecidableEq α] (x y : α) : ((Ext.fin x == Ext.fin y) = true) ↔ x = y := by
  show decide (x = y) = true ↔ _
  simp

theorem Ext.beq_nan [DecidableEq α] (x : Ext α) : (x == Ext.nan) = false := by cases x <;> rfl
theorem Ext.nan_beq [DecidableEq α] (x : Ext α) : (Ext.nan == x) = false := by cases x <;> rfl

/-- Without NaN, infinities included, the cache can tell keys apart. -/
theorem comparable_noNaN [LinearOrder α] : Comparable (α := Ext α) (fun k => ∀ x ∈ k, x ≠ .nan) := by
  refine comparable_of_embedding (L := WithBot (WithTop α)) (fun x => x ≠ .nan) rank ?_ ?_ ?_
  · intro x y hx hy
    cases x <;> cases y <;> first
      | exact absurd rfl hx
      | exact absurd rfl hy
      | (rw [Ext.fin_lt_fin]; simp [rank])
      | (refine iff_of_true trivial ?_; first | exact WithBot.coe_lt_coe.2 (WithTop.coe_lt_top _) | exact WithBot.bot_lt_coe _)
      | (refine iff_of_false (fun h => h) ?_; simp [rank])
  · intro x y hx hy
    cases x <;> cases y <;> first
      | exact absurd rfl hx
      | exact absurd rfl hy
      | (rw [Ext.fin_beq_fin]; simp [rank])
      | (refine iff_of_true rfl ?_; simp [rank])
      | (refine iff_of_false (fun h => Bool.false_ne_true h) ?_; simp [rank])
  · intro x y hx hy
    cases x <;> cases y <;> simp_all [rank]

theorem keyLess_irrefl [LinearOrder α] (k : List (Ext α)) : keyLess k k = false := by
  induction k with
  | nil => rfl
  | cons x k ih =>
    have : ¬ x < x := by cases x <;> first | exact lt_irrefl (α := α) _ | exact fun h => h
    rw [keyLess, if_neg this, ih, ite_self]

/-- A key that starts with NaN is neither less nor greater than any other, except the empty one. -/
theorem keyLess_nan [LinearOrder α] {k l : List (Ext α)} (h : k.head? = some .nan) (hl : l ≠ []) :
    keyLess k l = false ∧ keyLess l k = false := by
  obtain ⟨k, rfl⟩ : ∃ k', k = .nan :: k' := by
    cases k with
    | nil => simp at h
    | cons x k => simp at h; exact ⟨k, by rw [h]⟩
  cases l with
  | nil => simp at hl
  | cons y l =>
    constructor
    · rw [keyLess, if_neg (Ext.not_nan_lt y), Ext.nan_beq]; rfl
    · rw [keyLess, if_neg (Ext.not_lt_nan y), Ext.beq_nan]; rfl

/-- So a cache whose only key starts with NaN answers any other key with that entry. -/
theorem cacheFind_nan [LinearOrder α] [Zero α] {k l : List (Ext α)} {r : Serie (Ext α)} (h : k.head? = some .nan)
    (hl : l ≠ []) : cacheFind [(k, r)] l = .ok (some r) := by
  obtain ⟨h1, h2⟩ := keyLess_nan h hl
  have : isStrictWeak keyLess (l :: [(k, r)].map (·.1)) = true := by
    simp [isStrictWeak, keyLess_irrefl, h1, h2]
  unfold cacheFind
  rw [this]
  simp [sameKey, h1, h2]

/-! ## C98 -/

/-- C98 is violated by every function and every history of this kind: once a Serie whose first number is NaN has been passed
to a new memoized function, every later call on a non-empty Serie, whatever its numbers, gets the result for that first
Serie (with dimension 3), until `clear_cache`. -/
theorem C98_nan_captures_all_violated [LinearOrder α] [Zero α] (f : Serie (Ext α) → Serie (Ext α)) {s : Serie (Ext α)}
    (hs : WF s) (hn : (numbers s).head? = some .nan) (ops : List (MemoOp (Ext α))) (hc : MemoOp.clear ∉ ops)
    (hw : ∀ t ∈ calls ops, WF t ∧ numbers t ≠ []) (x : σ) :
    (memoRun (fun t => Eff.lift (.ok (f t))) (.call s :: ops) ([], x)).1 =
      .ok (f s) :: (calls ops).map (fun _ => .ok { f s with dimension := 3 }) := by
  have h1 : cacheFind ([] : Cache (Ext α)) (numbers s) = .ok none := by
    have : isStrictWeak keyLess (numbers s :: ([] : Cache (Ext α)).map (·.1)) = true := by
      simp [isStrictWeak, keyLess_irrefl]
    unfold cacheFind
    rw [this]; rfl
  have h2 := memoCall_ok (f := fun t => Eff.lift (.ok (f t))) (t := x) (t' := x) (r := f s) hs h1 (by simp [Eff.lift])
  simp only [memoRun, h2]
  congr 1
  induction ops with
  | nil => rfl
  | cons op ops ih =>
    cases op with
    | clear => simp at hc
    | call t =>
      obtain ⟨ht, hne⟩ := hw t (by simp [calls])
      have h3 := memoCall_hit (f := fun t => Eff.lift (.ok (f t)))
        (st := ([(numbers s, { f s with dimension := 3 })], x)) ht (cacheFind_nan hn hne)
      simp only [memoRun, h3, calls, List.map_cons]
      rw [ih (fun h => hc (List.mem_cons_of_mem _ h)) (fun t ht => hw t (by simp [calls, ht]))]

example := C98_nan_captures_all_violated (fun s : Serie (Ext ℚ) => { s with dimension := 2 }) (s := ofScalars [Ext.nan, Ext.fin 1])
  (by decide) (by decide) [.call (ofScalars [.pinf]), .call (ofScalars [.fin 3, .fin 4])] (by simp) (by decide) ()


/-- C98 is violated, concretely: memoizing the identity, `[NaN]` then `[1, 2]` answers `[NaN]` twice. -/
theorem C98_wrong_result_violated :
    ∃ a b : Serie (Ext ℚ), WF a ∧ WF b ∧ scalars b = [.fin 1, .fin 2] ∧
      (memoRun (σ := Unit) (fun s => Eff.lift (.ok s)) [.call a, .call b] ([], ())).1 = [.ok a, .ok a] ∧ a ≠ b :=
  ⟨ofScalars [.nan], ofScalars [.fin 1, .fin 2], WF_ofScalars (by decide), WF_ofScalars (by decide), by decide,
    by decide +kernel, by decide⟩

/-- C98 is violated, the other way round: a Serie that holds NaN can be answered with the result for finite numbers. -/
theorem C98_nan_lost_violated :
    ∃ a b : Serie (Ext ℚ), WF a ∧ WF b ∧ Ext.nan ∈ scalars b ∧ Ext.nan ∉ scalars a ∧
      (memoRun (σ := Unit) (fun s => Eff.lift (.ok s)) [.call a, .call b] ([], ())).1 = [.ok a, .ok a] :=
  ⟨ofScalars [.fin 1], ofScalars [.nan], WF_ofScalars (by decide), WF_ofScalars (by decide), by simp [scalars, ofScalars],
    by simp [scalars, ofScalars], by decide +kernel⟩

/-- C98 is violated: with two different keys in the cache, looking for a key that starts with NaN is undefined behaviour: the
keys are not in a strict weak order. For all pairs of finite numbers. -/
theorem C98_undefined_violated [Field α] [LinearOrder α] {x y : α} (h : x ≠ y) (c : σ) :
    (memoRun (fun s => Eff.lift (.ok s))
      [.call (ofScalars [.fin x]), .call (ofScalars [.fin y]), .call (ofScalars [Ext.nan])] ([], c)).1 =
      [.ok (ofScalars [.fin x]), .ok (ofScalars [.fin y]), .ub] := by
  have nm : ∀ z : Ext α, numbers (ofScalars [z]) = [z] := fun _ => rfl
  have hw : ∀ z : Ext α, WF (ofScalars [z]) := fun z => WF_ofScalars (by simp)
  have irr := fun z : Ext α => keyLess_irrefl [z]
  have hx : cacheFind ([] : Cache (Ext α)) (numbers (ofScalars [Ext.fin x])) = .ok none := by
    unfold cacheFind
    rw [nm]
    have : isStrictWeak keyLess ([Ext.fin x] :: ([] : Cache (Ext α)).map (·.1)) = true := by simp [isStrictWeak, irr]
    rw [this]; rfl
  have c1 := memoCall_ok (f := fun t => Eff.lift (.ok t)) (t := c) (t' := c) (r := ofScalars [Ext.fin x]) (hw _) hx
    (by simp [Eff.lift])
  have hy : cacheFind [([Ext.fin x], { ofScalars [Ext.fin x] with dimension := 3 })]
      (numbers (ofScalars [Ext.fin y])) = .ok none := by
    rcases cacheFind_cases comparable_noNaN (c := [([Ext.fin x], { ofScalars [Ext.fin x] with dimension := 3 })])
      (key := [Ext.fin y]) (by simp [KeysIn]) (by simp) with h1 | ⟨r, _, h1⟩
    · rw [nm]; exact h1.1
    · simp at h1; exact absurd h1.1.symm h
  have c2 := memoCall_ok (f := fun t => Eff.lift (.ok t)) (t := c) (t' := c) (r := ofScalars [Ext.fin y]) (hw _) hy
    (by simp [Eff.lift])
  have hz : ∀ r r' : Serie (Ext α), cacheFind [([Ext.fin y], r), ([Ext.fin x], r')] [Ext.nan] = .ub := by
    intro r r'
    unfold cacheFind
    have : isStrictWeak keyLess ([Ext.nan] :: [([Ext.fin y], r), ([Ext.fin x], r')].map (·.1)) = false := by
      rw [Bool.eq_false_iff]
      intro hc
      have hs := (isStrictWeak_iff.1 hc)
      have n1 := keyLess_nan (k := [Ext.nan]) (l := [Ext.fin x]) rfl (by simp)
      have n2 := keyLess_nan (k := [Ext.nan]) (l := [Ext.fin y]) rfl (by simp)
      have h3 := hs.incomp [.fin x] (by simp) [.nan] (by simp) [.fin y] (by simp) n1.2 n1.1 n2.1 n2.2
      have h4 := (comparable_noNaN (α := α)).same [.fin x] [.fin y] (by simp) (by simp)
      simp only [sameKey, h3] at h4
      simp at h4
      exact h h4
    rw [this]; rfl
  rw [nm] at c1 c2
  simp only [memoRun, c1, c2]
  simp only [memoCall, makeKey_eq (hw _), nm, hz]

example := C98_undefined_violated (x := (1 : ℚ)) (y := 2) (by norm_num) ()

/-- C98, what holds: when no Serie passed holds NaN (infinities are allowed), every call gives what `f` gives, up to the
dimension, as for finite numbers. -/
theorem C98_transparent_partial [LinearOrder α] [Zero α] {f : Serie (Ext α) → Res (Serie (Ext α))}
    (ops : List (MemoOp (Ext α))) (x : σ) (hw : ∀ s ∈ calls ops, WF s ∧ Ext.nan ∉ numbers s)
    (hd : ∀ s ∈ calls ops, f s ≠ .ub)
    (hf : ∀ s ∈ calls ops, ∀ t ∈ calls ops, numbers s = numbers t → f s = f t) :
    List.Forall₂ (fun s out => out = f s ∨ ∃ r, f s = .ok r ∧ out = .ok { r with dimension := 3 }) (calls ops)
      (memoRun (fun s => Eff.lift (f s)) ops ([], x)).1 :=
  memoRun_pure comparable_noNaN (P := fun s => s ∈ calls ops) (fun s hs => (hw s hs).1)
    (fun s hs y hy e => (hw s hs).2 (e ▸ hy)) hd (fun s t hs ht => hf s hs t ht) x ops []
    (fun p hp => by simp at hp) (fun _ h => h)

example := C98_transparent_partial (f := fun s : Serie (Ext ℚ) => .ok s)
  [.call (ofScalars [.pinf]), .call (ofScalars [.fin 3, .fin 4]), .clear, .call (ofScalars [.pinf])] () (by decide) (by decide)
  (by decide)

/-- C98, what holds: and after an invocation of `f` has returned, no later one gets the same numbers. -/
theorem C98_at_most_once_partial [LinearOrder α] [Zero α] {f : Serie (Ext α) → Eff σ (Serie (Ext α))}
    (ops : List (MemoOp (Ext α))) (hc : MemoOp.clear ∉ ops)
    (hw : ∀ s ∈ calls ops, WF s ∧ Ext.nan ∉ numbers s) (log0 : List (Serie (Ext α) × Bool)) (x : σ) :
    ∃ log, (memoRun (traced f) ops ([], (log0, x))).2.2.1 = log0 ++ log ∧
      log.Pairwise (fun a b => numbers a.1 = numbers b.1 → a.2 = false) := by
  have := memoRun_traced comparable_noNaN (f := f) ops [] log0 [] x hc
    (fun s hs => ⟨(hw s hs).1, fun y hy e => (hw s hs).2 (e ▸ hy)⟩) (by simp [KeysIn]) (by simp) (by simp)
  simpa using this

example := C98_at_most_once_partial (f := fun s : Serie (Ext ℚ) => fun n : Nat => (.ok s, n + 1))
  [.call (ofScalars [.pinf]), .call (ofScalars [.fin 3, .fin 4]), .call (ofScalars [.pinf])] (by simp) (by decide) [] 0

/-! ## The hypotheses can be met -/

example : WF (ofScalars [Ext.nan, Ext.fin (1 : ℚ)]) ∧ (numbers (ofScalars [Ext.nan, Ext.fin (1 : ℚ)])).head? = some .nan :=
  ⟨WF_ofScalars (by decide), by decide⟩

example : (memoRun (σ := Unit) (fun s => Eff.lift (.ok s))
    [.call (ofScalars [Ext.nan, Ext.fin (1 : ℚ)]), .call (ofScalars [.pinf]), .call (ofScalars [.fin 3, .fin 4])] ([], ())).1 =
    List.replicate 3 (.ok (ofScalars [Ext.nan, Ext.fin (1 : ℚ)])) := by decide +kernel

/-- Infinities are told apart. -/
example : (memoRun (σ := Unit) (fun s => Eff.lift (.ok s))
    [.call (ofScalars [Ext.pinf]), .call (ofScalars [.ninf]), .call (ofScalars [.fin (3 : ℚ)]), .call (ofScalars [.ninf])]
      ([], ())).1 =
    [.ok (ofScalars [Ext.pinf]), .ok (ofScalars [.ninf]), .ok (ofScalars [.fin 3]), .ok (ofScalars [.ninf])] := by
  decide +kernel

end DF
