import Verif.Lemmas.Twin
import Verif.Props.Pipeline
import Verif.Props.Zeros
import Verif.Props.Digits
import Mathlib.Data.Real.Basic
import Mathlib.Data.Rat.Cast.Order

/-!
# C152: what a program made of library calls depends on

`p.Twin R S q` says that `p` and `q` make the same calls on related Series, with related numbers and callbacks that answer the same
(Verif/Spec/Twin.lean).
-/

namespace DF

open Spec

variable {σ τ α β : Type}

section

variable [Zero α] [One α] [Add α] [Sub α] [Mul α] [Div α] [Neg α] [LT α] [DecidableLT α] [LE α] [DecidableLE α] [BEq α] [OfScientific α]
  [Zero β] [One β] [Add β] [Sub β] [Mul β] [Div β] [Neg β] [LT β] [DecidableLT β] [LE β] [DecidableLE β] [BEq β] [OfScientific β]
  {R : α → β → Prop} {S : σ → τ → Prop}

/-- C152: if the relation holds between the zeros and is kept by the uses of numbers the program makes, then twin programs of any size
and depth have the same outcome: both return, with Series of the same shape and related numbers, or both throw the same exception, or
both are undefined. The captured variables stay related in all three cases. -/
theorem C152_programs (h0 : R 0 0) {p : Program σ α} {q : Program τ β} (h : p.Twin R S q) (hk : ∀ u, p.Uses u → Kept R u) {s : σ} {t : τ}
    (hs : S s t) : Outcomes (Each R) (p.run s).1 (q.run t).1 ∧ S (p.run s).2 (q.run t).2 := by
  have := program_twin h0 h hk s t hs
  exact ⟨outcomes_each this.1, this.2⟩

/-- C152: a program that only moves numbers (cutting, gluing, filtering, transposing, and maps whose callbacks do the same) commutes
with any replacement of numbers that leaves zero in place. -/
theorem C152_moves (f : α → β) (h0 : f 0 = 0) {p : Program σ α} {q : Program τ β} (h : p.Twin (fun x y => f x = y) S q)
    (hk : ∀ u, ¬ p.Uses u) {s : σ} {t : τ} (hs : S s t) :
    Outcomes (fun a b => b = ⟨a.data.map f, a.count, a.itemSize, a.dimension⟩) (p.run s).1 (q.run t).1 := by
  have := (C152_programs (R := fun x y => f x = y) h0 h (fun u hu => absurd hu (hk u)) hs).1
  refine Outcomes.mono (fun a b hab => ?_) this
  obtain ⟨h1, h2, h3, h4⟩ := hab
  rcases b with ⟨d, c, k, m⟩
  rw [h1, h2, h3, show a.data.map f = d by
    rw [← List.forall₂_eq_eq_eq, List.forall₂_map_left_iff]; exact h4]

end

/-- `zip(a, filter(nonzero, merge(b, c)))`. -/
def exMoves (x : ℚ) : Program Unit ℚ :=
  .callN (n := 1) .zip fun i => if i = 0 then .given ⟨[x, 2 * x], 2, 1, 3⟩
    else .call1 (.filterNumbers fun x _ => pure (x != 0)) (.call2 (.merge true) (.given ⟨[x, 0], 2, 1, 3⟩) (.given ⟨[3 * x], 1, 1, 3⟩))

theorem exMoves_twin : (exMoves 1).Twin (fun x y => 5 * x = y) (fun _ _ : Unit => True) (exMoves 5) := by
  refine .callN .zip fun i => ?_
  match i with
  | 0 => exact .given ⟨rfl, rfl, rfl, .cons (by norm_num) (.cons (by norm_num) .nil)⟩
  | 1 =>
    refine .call1 (.filterNumbers fun x y hxy i s t _ => ⟨?_, trivial⟩) (.call2 .merge
      (.given ⟨rfl, rfl, rfl, .cons (by norm_num) (.cons (by norm_num) .nil)⟩) (.given ⟨rfl, rfl, rfl, .cons (by norm_num) .nil⟩))
    subst hxy
    show (x != 0) = (5 * x != 0)
    by_cases hx : x = 0
    · rw [hx, mul_zero]
    · rw [bne_iff_ne.2 hx, bne_iff_ne.2 (mul_ne_zero (by norm_num) hx)]

theorem exMoves_uses (x : ℚ) (u : Use) : ¬ (exMoves x).Uses u := by
  rintro (h | ⟨i, h⟩)
  · exact absurd h (List.not_mem_nil)
  · match i, h with
    | 0, h => exact h
    | 1, h =>
      rcases h with h | h | h | h
      · exact absurd h (List.not_mem_nil)
      · exact absurd h (List.not_mem_nil)
      · exact h
      · exact h

example := C152_moves (fun x : ℚ => 5 * x) (by norm_num) exMoves_twin (exMoves_uses 1) (s := ()) (t := ()) trivial

example : (exMoves 1).run () = (.ok ⟨[1, 1, 2, 3], 2, 2, 3⟩, ()) ∧ (exMoves 5).run () = (.ok ⟨[5, 5, 10, 15], 2, 2, 3⟩, ()) := by
  constructor <;> decide +kernel

/-! ## Rational numbers and real numbers -/

/-- Every use of numbers is the same in the rational and in the real numbers. -/
theorem kept_cast (u : Use) : Kept (fun (x : ℚ) (y : ℝ) => (x : ℝ) = y) u := by
  have abs : ∀ x : ℚ, ((magnitude x : ℚ) : ℝ) = magnitude (x : ℝ) := fun x => by
    unfold magnitude
    by_cases h : x < 0
    · rw [if_pos h, if_pos (by exact_mod_cast h), Rat.cast_neg]
    · rw [if_neg h, if_neg (by exact_mod_cast h)]
  have small : ∀ x : ℚ, magnitude x < (1e-10 : ℚ) ↔ magnitude (x : ℝ) < (1e-10 : ℝ) := fun x => by
    rw [← abs, ← Rat.cast_lt (K := ℝ)]
    norm_num
  cases u with
  | addition => rintro a _ rfl b _ rfl; exact Rat.cast_add _ _
  | subtraction => rintro a _ rfl b _ rfl; exact Rat.cast_sub _ _
  | product => rintro a _ rfl b _ rfl; exact Rat.cast_mul _ _
  | minusOne => show ((-1 : ℚ) : ℝ) = -1; norm_num
  | one => show ((1 : ℚ) : ℝ) = 1; norm_num
  | division => rintro a _ rfl b _ rfl; exact Rat.cast_div _ _
  | guardedDivision =>
    refine ⟨?_, ?_⟩
    · rintro x _ rfl; exact small x
    · rintro a _ rfl b _ rfl _; exact Rat.cast_div _ _
  | guardedInverse =>
    refine ⟨?_, ?_⟩
    · rintro x _ rfl; exact small x
    · rintro x _ rfl _; show ((1 / x : ℚ) : ℝ) = 1 / (x : ℝ); norm_num
  | equality =>
    rintro a _ rfl b _ rfl
    rw [Bool.eq_iff_iff, beq_iff_eq, beq_iff_eq, Rat.cast_inj]
  | closeness =>
    rintro e _ rfl a _ rfl b _ rfl
    rw [← Rat.cast_sub, ← abs, Rat.cast_le]

/-- C152: a program run in exact arithmetic on rational numbers gives the results of the same program on real numbers. -/
theorem C152_rationals {S : σ → τ → Prop} {p : Program σ ℚ} {q : Program τ ℝ} (h : p.Twin (fun (x : ℚ) (y : ℝ) => (x : ℝ) = y) S q) {s : σ} {t : τ}
    (hs : S s t) : Outcomes (Each fun (x : ℚ) (y : ℝ) => (x : ℝ) = y) (p.run s).1 (q.run t).1 ∧ S (p.run s).2 (q.run t).2 :=
  C152_programs (R := fun (x : ℚ) (y : ℝ) => (x : ℝ) = y) Rat.cast_zero h (fun u _ => kept_cast u) hs

/-- `inv(scale(add(a, b), 2))`, in rational and in real numbers. -/
def exInvQ : Program Unit ℚ :=
  .call1 .inv (.call1 (.scale 2) (.call2 .add (.given ⟨[1, 0, 0, 2, 0, 4], 1, 6, 3⟩) (.given ⟨[0, 0, 0, 1, 0, 1], 1, 6, 3⟩)))

def exInvR : Program Unit ℝ :=
  .call1 .inv (.call1 (.scale 2) (.call2 .add (.given ⟨[1, 0, 0, 2, 0, 4], 1, 6, 3⟩) (.given ⟨[0, 0, 0, 1, 0, 1], 1, 6, 3⟩)))

theorem exInv_twin : exInvQ.Twin (fun (x : ℚ) (y : ℝ) => (x : ℝ) = y) (fun _ _ : Unit => True) exInvR := by
  refine .call1 .inv (.call1 (.scale (by norm_num)) (.call2 .add (.given ⟨rfl, rfl, rfl, ?_⟩) (.given ⟨rfl, rfl, rfl, ?_⟩)))
  all_goals repeat' first | exact List.Forall₂.nil | refine List.Forall₂.cons (by norm_num) ?_

example := C152_rationals exInv_twin (s := ()) (t := ()) trivial

example : exInvQ.run () = (.ok ⟨[1 / 2, 0, 0, 1 / 6, 0, 1 / 10], 1, 6, 3⟩, ()) := by decide +kernel

/-! ## Signs of zeros -/

section zeros

variable {D : Machine}

/-- The signs of zeros change nothing but the results of divisions by zero. -/
theorem kept_same (hD : IsDouble D) {u : Use} (hu : u ≠ .division) : Kept (Same : Double D → Double D → Prop) u := by
  have out : ∀ {x y : Double D}, Same x y → Stands x x.forget ∧ Stands y x.forget := fun h =>
    ⟨stands_self _, Signed.stands_iff.2 (Signed.same_iff.1 h).symm⟩
  have small : ∀ x y : Double D, Same x y → (magnitude x < (1e-10 : Double D) ↔ magnitude y < (1e-10 : Double D)) := fun x y h =>
    (threshold_stands _ _ (out h).1).trans (threshold_stands _ _ (out h).2).symm
  have div : ∀ a b : Double D, Same a b → ∀ c d, Same c d → ¬ magnitude c < (1e-10 : Double D) → Same (a / c) (b / d) :=
    fun a b h c d k hb => same_of_stands (stands.div _ _ (out h).1 _ _ (out k).1 (big_ne hD hb))
      (stands.div _ _ (out h).2 _ _ (out k).2 (big_ne hD fun e => hb ((small _ _ k).2 e)))
  cases u with
  | addition => exact fun a b h c d k => same_of_stands (stands.add _ _ (out h).1 _ _ (out k).1) (stands.add _ _ (out h).2 _ _ (out k).2)
  | subtraction => exact fun a b h c d k => same_of_stands (stands.sub _ _ (out h).1 _ _ (out k).1) (stands.sub _ _ (out h).2 _ _ (out k).2)
  | product => exact fun a b h c d k => same_of_stands (stands.mul _ _ (out h).1 _ _ (out k).1) (stands.mul _ _ (out h).2 _ _ (out k).2)
  | minusOne => exact .inl rfl
  | one => exact .inl rfl
  | division => exact absurd rfl hu
  | guardedDivision => exact ⟨small, div⟩
  | guardedInverse => exact ⟨small, fun x y h hb => div 1 1 (.inl rfl) x y h hb⟩
  | equality => exact fun a b h c d k => (stands.beq _ _ (out h).1 _ _ (out k).1).trans (stands.beq _ _ (out h).2 _ _ (out k).2).symm
  | closeness =>
    exact fun e e' he a b h c d k =>
      (stands.le _ _ (stands.abs _ _ (stands.sub _ _ (out h).1 _ _ (out k).1)) _ _ (out he).1).trans
        (stands.le _ _ (stands.abs _ _ (stands.sub _ _ (out h).2 _ _ (out k).2)) _ _ (out he).2).symm

/-- C152: in IEEE double arithmetic, with infinities, NaN and two zeros, the signs of the zeros given to a program that calls no division
by a number change at most the signs of the zeros it returns: not its other results, nor its exceptions. -/
theorem C152_signs (hD : IsDouble D) {S : σ → τ → Prop} {p : Program σ (Double D)} {q : Program τ (Double D)} (h : p.Twin Same S q)
    (hk : ¬ p.Uses .division) {s : σ} {t : τ} (hs : S s t) :
    Outcomes (Each Same) (p.run s).1 (q.run t).1 ∧ S (p.run s).2 (q.run t).2 :=
  C152_programs (.inl rfl) h (fun _ hu => kept_same hD fun e => hk (e ▸ hu)) hs

/-- `sub(mult(s, s), s)`. -/
def exZeroSigns (s : Serie (Double D)) : Program Unit (Double D) := .call2 .sub (.call2 .mult (.given s) (.given s)) (.given s)

theorem exZeroSigns_twin : (exZeroSigns (exMinus D)).Twin Same (fun _ _ : Unit => True) (exZeroSigns (exPlus D)) :=
  .call2 .sub (.call2 .mult (.given exMinus_same) (.given exMinus_same)) (.given exMinus_same)

example := C152_signs binary64_isDouble (exZeroSigns_twin (D := binary64)) (by
  rintro (h | h | h)
  · simp [Call2.uses] at h
  · rcases h with h | h | h
    · simp [Call2.uses] at h
    · exact h
    · exact h
  · exact h) (s := ()) (t := ()) trivial

/-- The condition cannot be removed: the division by a zero depends on its sign. -/
theorem C152_signs_division : ∃ p q : Program Unit (Double D), p.Twin Same (fun _ _ => True) q ∧
    p.run () = (.ok ⟨[.val .ninf], 1, 1, 3⟩, ()) ∧ q.run () = (.ok ⟨[.val .pinf], 1, 1, 3⟩, ()) := by
  refine ⟨.call1 (.divNum .nzero) (.given (single1 1)), .call1 (.divNum 0) (.given (single1 1)),
    .call1 (.divNum (.inr ⟨.inr rfl, .inl rfl⟩)) (.given ⟨rfl, rfl, rfl, .cons (.inl rfl) .nil⟩), ?_, ?_⟩
  · show (divNum .nzero (single1 (1 : Double D)), ()) = _
    rw [div_nzero]; rfl
  · show (divNum 0 (single1 (1 : Double D)), ()) = _
    rw [div_pzero]; rfl

end zeros

/-! ## Units -/

/-- C152: for programs that only add, subtract and move numbers, changing the unit by an exact factor (for doubles: a power of two,
`C147_powers`) multiplies the results by this factor and changes no digit, although every operation is rounded. -/
theorem C152_units {m : Nat} {R : Rounding m} {k : ℝ} (hk : ExactFactor R k) {S : σ → τ → Prop} {p : Program σ (Dbl R)}
    {q : Program τ (Dbl R)} (h : p.Twin (Times k) S q) (hu : ∀ u, p.Uses u → u = .addition ∨ u = .subtraction) {s : σ} {t : τ} (hs : S s t) :
    Outcomes (Each (Times k)) (p.run s).1 (q.run t).1 ∧ S (p.run s).2 (q.run t).2 :=
  C152_programs times_zero h (fun u h' => by
    rcases hu u h' with rfl | rfl
    · exact times_add hk
    · exact times_sub hk) hs

/-- `partition_n(2, sub(add(s, s), s))[0]`. -/
noncomputable def exUnits (s : Serie (Dbl exEven)) : Program Unit (Dbl exEven) :=
  .call1 (.part 2 0) (.call2 .sub (.callN (n := 1) .add fun _ => .given s) (.given s))

example (s : Serie (Dbl exEven)) := C152_units exUnit (p := exUnits s) (q := exUnits (inUnit exUnit s)) (S := fun _ _ : Unit => True)
  (.call1 .part (.call2 .sub (.callN .add fun _ => .given (inUnit_each _ _)) (.given (inUnit_each _ _)))) (by
    rintro u (h | h | (h | ⟨_, h⟩) | h)
    · simp [Call1.uses] at h
    · exact .inr (by simpa [Call2.uses] using h)
    · exact .inl (by simpa [CallN.uses] using h)
    · exact absurd h id
    · exact absurd h id) (s := ()) (t := ()) trivial

end DF
