import Verif.Spec.Error
import Verif.Props.Monotone

/-!
# Error bounds for whole programs (C170)

The numbers the library computes with are `Dbl R`, with any rounding to `p` binary digits; `unit p` is `2^-p`. `Counted` and `Bounded` are
in Spec/Error.
-/

namespace DF

open Spec

variable {σ τ : Type} {p : Nat} {R : Rounding p}

/-- The number computed is the exact one up to the factor `(1 - u)^k`, either way. -/
def UpTo (x : Dbl R) (a : Counted) : Prop :=
  0 ≤ a.exact ∧ a.exact * (1 - unit p) ^ a.roundings ≤ x.val ∧ x.val * (1 - unit p) ^ a.roundings ≤ a.exact

/-- The number computed differs from the exact one by at most the bound. -/
def Within (x : Dbl R) (a : Bounded (unit p)) : Prop := |x.val - a.exact| ≤ a.error

/-! ## Helpers -/

section counted

theorem upTo_round (hp : 1 ≤ p) {S E : ℝ} {k : ℕ} (hS : 0 ≤ S) (hE : 0 ≤ E) (h1 : E * (1 - unit p) ^ k ≤ S) (h2 : S * (1 - unit p) ^ k ≤ E) :
    UpTo (Dbl.round R S) ⟨E, k + 1⟩ := by
  have hu := unit_pos (p := p)
  have hu1 := unit_lt_one hp
  have hq : 0 ≤ (1 - unit p) ^ k := pow_nonneg (by linarith) k
  have herr := abs_le.1 (R.error S)
  rw [abs_of_nonneg hS] at herr
  refine ⟨hE, ?_, ?_⟩
  · show E * (1 - unit p) ^ (k + 1) ≤ R.fl S
    have := mul_le_mul_of_nonneg_right h1 (by linarith : 0 ≤ 1 - unit p)
    rw [pow_succ, ← mul_assoc]
    nlinarith
  · show R.fl S * (1 - unit p) ^ (k + 1) ≤ E
    have h3 : R.fl S * (1 - unit p) ≤ S := by nlinarith
    have := mul_le_mul_of_nonneg_right h3 hq
    rw [pow_succ']
    nlinarith

theorem UpTo.nonneg (hp : 1 ≤ p) {x : Dbl R} {a : Counted} (h : UpTo x a) : 0 ≤ x.val :=
  le_trans (mul_nonneg h.1 (pow_nonneg (by have := unit_lt_one hp; linarith) _)) h.2.1

theorem upTo_zero : UpTo (0 : Dbl R) 0 := ⟨le_rfl, by show (0 : ℝ) * _ ≤ 0; simp, by show (0 : ℝ) * _ ≤ 0; simp⟩

theorem upTo_one : Kept (UpTo (R := R)) .one := by
  refine ⟨zero_le_one, ?_, ?_⟩
  · rw [Dbl.val_one]; show (1 : ℝ) * _ ^ 0 ≤ 1; simp
  · rw [Dbl.val_one]; show (1 : ℝ) * _ ^ 0 ≤ 1; simp

theorem upTo_add (hp : 1 ≤ p) : Kept (UpTo (R := R)) .addition := fun x a h y b h' => by
  have hu := unit_pos (p := p)
  have hu1 := unit_lt_one hp
  have q0 : 0 ≤ 1 - unit p := by linarith
  have q1 : 1 - unit p ≤ 1 := by linarith
  have x0 := h.nonneg hp
  have y0 := h'.nonneg hp
  have e1 := pow_le_pow_of_le_one q0 q1 (le_max_left a.roundings b.roundings)
  have e2 := pow_le_pow_of_le_one q0 q1 (le_max_right a.roundings b.roundings)
  refine upTo_round hp (add_nonneg x0 y0) (add_nonneg h.1 h'.1) ?_ ?_
  · have := mul_le_mul_of_nonneg_left e1 h.1
    have := mul_le_mul_of_nonneg_left e2 h'.1
    have := h.2.1
    have := h'.2.1
    rw [add_mul]; linarith
  · have := mul_le_mul_of_nonneg_left e1 x0
    have := mul_le_mul_of_nonneg_left e2 y0
    have := h.2.2
    have := h'.2.2
    rw [add_mul]; linarith

theorem upTo_mul (hp : 1 ≤ p) : Kept (UpTo (R := R)) .product := fun x a h y b h' => by
  have hu1 := unit_lt_one hp
  have q0 : 0 ≤ 1 - unit p := by linarith
  have x0 := h.nonneg hp
  have y0 := h'.nonneg hp
  refine upTo_round hp (mul_nonneg x0 y0) (mul_nonneg h.1 h'.1) ?_ ?_
  · rw [pow_add, mul_mul_mul_comm]
    exact mul_le_mul h.2.1 h'.2.1 (mul_nonneg h'.1 (pow_nonneg q0 _)) x0
  · rw [pow_add, mul_mul_mul_comm]
    exact mul_le_mul h.2.2 h'.2.2 (mul_nonneg y0 (pow_nonneg q0 _)) h.1

end counted

section bounded

theorem within_round {S E d : ℝ} (h : |S - E| ≤ d) : Within (Dbl.round R S) (Bounded.rounded E d) := by
  show |R.fl S - E| ≤ d + unit p * (|E| + d)
  have h1 := R.error S
  have h2 : |S| ≤ |E| + d := by
    have := abs_add_le (S - E) E
    rw [sub_add_cancel] at this
    linarith
  have h3 := abs_add_le (R.fl S - S) (S - E)
  rw [sub_add_sub_cancel] at h3
  have h4 := mul_le_mul_of_nonneg_left h2 (unit_pos (p := p)).le
  linarith

theorem within_zero : Within (0 : Dbl R) 0 := by show |(0 : ℝ) - 0| ≤ 0; simp

theorem within_kept {u : Use} (hu : u = .addition ∨ u = .subtraction ∨ u = .product ∨ u = .minusOne ∨ u = .one) : Kept (Within (R := R)) u := by
  rcases hu with rfl | rfl | rfl | rfl | rfl
  · intro x a h y b h'
    refine within_round ?_
    rw [add_sub_add_comm]
    exact (abs_add_le _ _).trans (add_le_add h h')
  · intro x a h y b h'
    refine within_round ?_
    rw [show x.val - y.val - (a.exact - b.exact) = (x.val - a.exact) - (y.val - b.exact) by ring]
    exact (abs_sub _ _).trans (add_le_add h h')
  · intro x a h y b h'
    refine within_round ?_
    rw [show x.val * y.val - a.exact * b.exact = a.exact * (y.val - b.exact) + (x.val - a.exact) * b.exact
      + (x.val - a.exact) * (y.val - b.exact) by ring]
    refine (abs_add_le _ _).trans (add_le_add ((abs_add_le _ _).trans (add_le_add ?_ ?_)) ?_)
    · rw [abs_mul]; exact mul_le_mul_of_nonneg_left h' (abs_nonneg _)
    · rw [abs_mul]; exact mul_le_mul_of_nonneg_right h (abs_nonneg _)
    · rw [abs_mul]; exact mul_le_mul h h' (abs_nonneg _) ((abs_nonneg _).trans h)
  · show |(-(1 : Dbl R)).val - -1| ≤ 0
    have : (-(1 : Dbl R)).val = -1 := rfl
    rw [this]; simp
  · show |(1 : Dbl R).val - 1| ≤ 0
    rw [Dbl.val_one]; simp

end bounded

/-! ## Series for the examples: 2, 5, 3, known exactly -/

noncomputable def exCounted : Serie Counted := ofScalars [⟨2, 0⟩, ⟨5, 0⟩, ⟨3, 0⟩]
noncomputable def exBounded : Serie (Bounded (unit 53)) := ofScalars [⟨2, 0⟩, ⟨5, 0⟩, ⟨3, 0⟩]

theorem exLow_vals : exLow.data.map Dbl.val = [2, 5, 3] := by
  have h : ∀ m : ℤ, |(m : ℝ)| ≤ 2 ^ 53 → (dbl exEven m).val = m := fun m h => dbl_val h
  show [(dbl exEven 2).val, (dbl exEven 5).val, (dbl exEven 3).val] = _
  rw [h 2 (by norm_num), h 5 (by norm_num), h 3 (by norm_num)]
  norm_num

theorem exLow_counted : Each (fun x a => 0 ≤ a.exact ∧ a.exact * (1 - unit 53) ^ a.roundings ≤ x.val ∧
    x.val * (1 - unit 53) ^ a.roundings ≤ a.exact) exLow exCounted := by
  have h := exLow_vals
  simp only [exLow, ofScalars, List.map_cons, List.map_nil, List.cons.injEq, and_true] at h
  obtain ⟨h1, h2, h3⟩ := h
  refine ⟨rfl, rfl, rfl, .cons ?_ (.cons ?_ (.cons ?_ .nil))⟩ <;> simp [h1, h2, h3]

theorem exLow_bounded : Each (fun x a => |x.val - a.exact| ≤ a.error) exLow exBounded := by
  have h := exLow_vals
  simp only [exLow, ofScalars, List.map_cons, List.map_nil, List.cons.injEq, and_true] at h
  obtain ⟨h1, h2, h3⟩ := h
  refine ⟨rfl, rfl, rfl, .cons ?_ (.cons ?_ (.cons ?_ .nil))⟩ <;> simp [h1, h2, h3]

/-! ## C170 -/

/-- C170: a program of any size that adds, multiplies and moves numbers that are not negative loses at most one unit of relative accuracy
per rounding: run on the numbers `Counted`, the same program tells how many roundings lie behind each of its results, and the result
computed is the exact one up to the factor `(1 - 2^-p)^k`, either way. -/
theorem C170_relative (hp : 1 ≤ p) {S : σ → τ → Prop} {f : Program σ (Dbl R)} {g : Program τ Counted}
    (h : f.Twin (fun x a => 0 ≤ a.exact ∧ a.exact * (1 - unit p) ^ a.roundings ≤ x.val ∧ x.val * (1 - unit p) ^ a.roundings ≤ a.exact) S g)
    (hu : ∀ u, f.Uses u → u = .addition ∨ u = .product ∨ u = .one) {s : σ} {t : τ} (hs : S s t) :
    Outcomes (Each fun x a => 0 ≤ a.exact ∧ a.exact * (1 - unit p) ^ a.roundings ≤ x.val ∧ x.val * (1 - unit p) ^ a.roundings ≤ a.exact)
      (f.run s).1 (g.run t).1 :=
  (C152_programs (R := UpTo) upTo_zero h (fun u h' => by
    rcases hu u h' with rfl | rfl | rfl
    · exact upTo_add hp
    · exact upTo_mul hp
    · exact upTo_one) hs).1

/-- `add(mult(s, s), s)`. -/
example := C170_relative (R := exEven) (by norm_num) (S := fun _ _ : Unit => True)
  (.call2 .add (.call2 .mult (.given exLow_counted) (.given exLow_counted)) (.given exLow_counted)) (by
    rintro u (h | (h | h | h) | h)
    · exact .inl (by simpa [Call2.uses] using h)
    · exact .inr (.inl (by simpa [Call2.uses] using h))
    all_goals exact absurd h id) (s := ()) (t := ()) trivial

/-- C170: for numbers of any sign and programs that also subtract and negate, run on the numbers `Bounded` the same program gives a bound
on the error of each of its results. -/
theorem C170_absolute {S : σ → τ → Prop} {f : Program σ (Dbl R)} {g : Program τ (Bounded (unit p))}
    (h : f.Twin (fun x a => |x.val - a.exact| ≤ a.error) S g)
    (hu : ∀ u, f.Uses u → u = .addition ∨ u = .subtraction ∨ u = .product ∨ u = .minusOne ∨ u = .one) {s : σ} {t : τ} (hs : S s t) :
    Outcomes (Each fun x a => |x.val - a.exact| ≤ a.error) (f.run s).1 (g.run t).1 :=
  (C152_programs (R := Within) within_zero h (fun u h' => within_kept (hu u h')) hs).1

/-- `sub(mult(s, s), s)`. -/
example := C170_absolute (R := exEven) (S := fun _ _ : Unit => True)
  (.call2 .sub (.call2 .mult (.given exLow_bounded) (.given exLow_bounded)) (.given exLow_bounded)) (by
    rintro u (h | (h | h | h) | h)
    · exact .inr (.inl (by simpa [Call2.uses] using h))
    · exact .inr (.inr (.inl (by simpa [Call2.uses] using h)))
    all_goals exact absurd h id) (s := ()) (t := ()) trivial

/-- C170: the same for routines with variables, loops and handlers, after any number of iterations. -/
theorem C170_routines {S : σ → τ → Prop} {f : Routine σ (Dbl R)} {g : Routine τ (Bounded (unit p))}
    (h : f.Twin (fun x a => |x.val - a.exact| ≤ a.error) S g)
    (hu : ∀ u, f.Uses u → u = .addition ∨ u = .subtraction ∨ u = .product ∨ u = .minusOne ∨ u = .one) {s : σ} {t : τ} (hs : S s t)
    {vars : Vars (Dbl R)} {vars' : Vars (Bounded (unit p))} (hv : ∀ v, Each (fun x a => |x.val - a.exact| ≤ a.error) (vars v) (vars' v)) :
    Outcomes (fun _ _ => True) (f.run (s, vars)).1 (g.run (t, vars')).1 ∧
      ∀ v, Each (fun x a => |x.val - a.exact| ≤ a.error) ((f.run (s, vars)).2.2 v) ((g.run (t, vars')).2.2 v) := by
  have := C167_twins (R := Within) within_zero h (fun u h' => within_kept (hu u h')) hs hv
  exact ⟨this.1, this.2.2⟩

/-- A polynomial by Horner's rule: `v0 = v0 * v1 - v2`, repeated. -/
example (n : Nat) := C170_routines (R := exEven) (S := fun _ _ : Unit => True)
  (.loop (n := n) (f := fun _ s => (.ok true, s)) (g := fun _ s => (.ok true, s)) (fun _ _ _ _ _ _ => ⟨rfl, trivial⟩)
    (.seq (.call2 (v := 0) (a := 0) (b := 1) .mult) (.call2 (v := 0) (a := 0) (b := 2) .sub))) (by
    rintro u (h | h)
    · exact .inr (.inr (.inl (by simpa [Routine.Uses, Call2.uses] using h)))
    · exact .inr (.inl (by simpa [Routine.Uses, Call2.uses] using h))) (s := ()) (t := ()) trivial
  (vars := fun _ => exLow) (vars' := fun _ => exBounded) fun _ => exLow_bounded

/-- C170: the count of roundings for routines. -/
theorem C170_routines_relative (hp : 1 ≤ p) {S : σ → τ → Prop} {f : Routine σ (Dbl R)} {g : Routine τ Counted}
    (h : f.Twin (fun x a => 0 ≤ a.exact ∧ a.exact * (1 - unit p) ^ a.roundings ≤ x.val ∧ x.val * (1 - unit p) ^ a.roundings ≤ a.exact) S g)
    (hu : ∀ u, f.Uses u → u = .addition ∨ u = .product ∨ u = .one) {s : σ} {t : τ} (hs : S s t) {vars : Vars (Dbl R)} {vars' : Vars Counted}
    (hv : ∀ v, Each (fun x a => 0 ≤ a.exact ∧ a.exact * (1 - unit p) ^ a.roundings ≤ x.val ∧ x.val * (1 - unit p) ^ a.roundings ≤ a.exact) (vars v) (vars' v)) :
    Outcomes (fun _ _ => True) (f.run (s, vars)).1 (g.run (t, vars')).1 ∧
      ∀ v, Each (fun x a => 0 ≤ a.exact ∧ a.exact * (1 - unit p) ^ a.roundings ≤ x.val ∧ x.val * (1 - unit p) ^ a.roundings ≤ a.exact)
        ((f.run (s, vars)).2.2 v) ((g.run (t, vars')).2.2 v) := by
  have := C167_twins (R := UpTo) upTo_zero h (fun u h' => by
    rcases hu u h' with rfl | rfl | rfl
    · exact upTo_add hp
    · exact upTo_mul hp
    · exact upTo_one) hs hv
  exact ⟨this.1, this.2.2⟩

/-- Powers: `v0 = v0 * v1`, repeated. -/
example (n : Nat) := C170_routines_relative (R := exEven) (by norm_num) (S := fun _ _ : Unit => True)
  (.loop (n := n) (f := fun _ s => (.ok true, s)) (g := fun _ s => (.ok true, s)) (fun _ _ _ _ _ _ => ⟨rfl, trivial⟩)
    (.call2 (v := 0) (a := 0) (b := 1) .mult)) (by
    intro u h
    exact .inr (.inl (by simpa [Routine.Uses, Call2.uses] using h))) (s := ()) (t := ()) trivial
  (vars := fun _ => exLow) (vars' := fun _ => exCounted) fun _ => exLow_counted

/-- C170: the exact numbers held by `Counted` are the results of the program in exact arithmetic. -/
theorem C170_exact_counted {S : σ → τ → Prop} {f : Program σ Counted} {g : Program τ ℝ} (h : f.Twin (fun a y => a.exact = y) S g)
    (hu : ∀ u, f.Uses u → u = .addition ∨ u = .product ∨ u = .one) {s : σ} {t : τ} (hs : S s t) :
    Outcomes (Each fun a y => a.exact = y) (f.run s).1 (g.run t).1 :=
  (C152_programs (R := fun (a : Counted) (y : ℝ) => a.exact = y) rfl h (fun u h' => by
    rcases hu u h' with rfl | rfl | rfl
    · rintro a _ rfl b _ rfl; rfl
    · rintro a _ rfl b _ rfl; rfl
    · rfl) hs).1

example := C170_exact_counted (S := fun _ _ : Unit => True) (f := .call2 .mult (.given exCounted) (.given exCounted))
  (g := .call2 .mult (.given (ofScalars [2, 5, 3])) (.given (ofScalars [2, 5, 3])))
  (.call2 .mult (.given ⟨rfl, rfl, rfl, .cons rfl (.cons rfl (.cons rfl .nil))⟩) (.given ⟨rfl, rfl, rfl, .cons rfl (.cons rfl (.cons rfl .nil))⟩)) (by
    rintro u (h | h | h)
    · exact .inr (.inl (by simpa [Call2.uses] using h))
    all_goals exact absurd h id) (s := ()) (t := ()) trivial

/-- C170: so are those held by `Bounded`. -/
theorem C170_exact_bounded {u : ℝ} {S : σ → τ → Prop} {f : Program σ (Bounded u)} {g : Program τ ℝ} (h : f.Twin (fun a y => a.exact = y) S g)
    (hu : ∀ u, f.Uses u → u = .addition ∨ u = .subtraction ∨ u = .product ∨ u = .minusOne ∨ u = .one) {s : σ} {t : τ} (hs : S s t) :
    Outcomes (Each fun a y => a.exact = y) (f.run s).1 (g.run t).1 :=
  (C152_programs (R := fun (a : Bounded u) (y : ℝ) => a.exact = y) rfl h (fun u h' => by
    rcases hu u h' with rfl | rfl | rfl | rfl | rfl
    · rintro a _ rfl b _ rfl; rfl
    · rintro a _ rfl b _ rfl; rfl
    · rintro a _ rfl b _ rfl; rfl
    · rfl
    · rfl) hs).1

example := C170_exact_bounded (S := fun _ _ : Unit => True) (f := .call2 .mult (.given exBounded) (.given exBounded))
  (g := .call2 .mult (.given (ofScalars [2, 5, 3])) (.given (ofScalars [2, 5, 3])))
  (.call2 .mult (.given ⟨rfl, rfl, rfl, .cons rfl (.cons rfl (.cons rfl .nil))⟩) (.given ⟨rfl, rfl, rfl, .cons rfl (.cons rfl (.cons rfl .nil))⟩)) (by
    rintro u (h | h | h)
    · exact .inr (.inr (.inl (by simpa [Call2.uses] using h)))
    all_goals exact absurd h id) (s := ()) (t := ()) trivial

end DF
