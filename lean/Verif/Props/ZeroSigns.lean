import Verif.Spec.ZeroSigns
import Verif.Props.Zeros

/-!
# The sign of zero results (C136)
-/

namespace DF

open Spec

variable {D : Machine}

theorem neg?_iff (x : Double D) : x.neg? = true ↔ Negative x := by
  cases x with
  | nzero => exact ⟨fun _ => .inl rfl, fun _ => rfl⟩
  | val x =>
    show decide (x < 0) = true ↔ _
    rw [decide_eq_true_iff]
    constructor
    · intro h
      cases x with
      | fin u => exact .inr (.inr ⟨u, rfl, h⟩)
      | pinf => exact h.elim
      | ninf => exact .inr (.inl rfl)
      | nan => exact h.elim
    · rintro (h | h | ⟨u, h, hu⟩)
      · cases h
      · cases h; exact trivial
      · cases h; exact hu

theorem signs_iff (x y : Double D) : (x.neg? != y.neg?) = true ↔ SignsDiffer x y := by
  unfold SignsDiffer
  rw [← neg?_iff, ← neg?_iff]
  cases x.neg? <;> cases y.neg? <;> decide

theorem isZero_withSign {d : Bool} {x : Ext (Num D)} : IsZero (Signed.withSign d x) → (Signed.withSign d x = .nzero ↔ d = true) := by
  intro h
  by_cases hx : x = 0
  · subst hx
    rw [Signed.withSign_zero]
    cases d <;> simp
  · rw [Signed.withSign_ne hx] at h
    rcases h with h | h
    · injection h with h; exact absurd h hx
    · cases h

/-- C136: a sum is the negative zero exactly when both numbers are the negative zero. -/
theorem C136_add {a b : Serie (Double D)} (ha : WF a) (hb : WF b) (hs : SameShape a b) :
    ∃ r, add2 a b = .ok r ∧ SameShape r a ∧ ∀ i j x y, cell a i j = some x → cell b i j = some y →
      ∃ z, cell r i j = some z ∧ (z = .nzero ↔ x = .nzero ∧ y = .nzero) := by
  obtain ⟨r, h1, _, h3, h4⟩ := (C35_add ha hb).2 hs
  refine ⟨r, h1, h3, fun i j x y hx hy => ⟨_, h4 i j x y hx hy, ?_⟩⟩
  cases x <;> cases y
  · exact ⟨fun h => (by cases h), fun h => (by cases h.1)⟩
  · exact ⟨fun h => (by cases h), fun h => (by cases h.1)⟩
  · exact ⟨fun h => (by cases h), fun h => (by cases h.2)⟩
  · exact ⟨fun _ => ⟨rfl, rfl⟩, fun _ => rfl⟩

example := C136_add (exMinus_WF (D := binary64)) exPlus_WF ⟨rfl, rfl⟩

/-- C136: a difference is the negative zero exactly when the first number is the negative zero and the second one the positive
zero. -/
theorem C136_sub {a b : Serie (Double D)} (ha : WF a) (hb : WF b) (hs : SameShape a b) :
    ∃ r, sub2 a b = .ok r ∧ SameShape r a ∧ ∀ i j x y, cell a i j = some x → cell b i j = some y →
      ∃ z, cell r i j = some z ∧ (z = .nzero ↔ x = .nzero ∧ y = 0) := by
  obtain ⟨r, h1, _, h3, h4⟩ := (C35_sub ha hb).2 hs
  refine ⟨r, h1, h3, fun i j x y hx hy => ⟨_, h4 i j x y hx hy, ?_⟩⟩
  cases x with
  | val x => cases y <;> exact ⟨fun h => (by cases h), fun h => (by cases h.1)⟩
  | nzero => cases y with
    | nzero => exact ⟨fun h => (by cases h), fun h => (by cases h.2)⟩
    | val y =>
      show (if y == 0 then Signed.nzero else Signed.val (0 - y)) = _ ↔ _
      by_cases hy : y = 0
      · subst hy
        rw [if_pos Signed.beq_zero_true]
        exact ⟨fun _ => ⟨rfl, rfl⟩, fun _ => rfl⟩
      · rw [Signed.beq_zero_false hy]
        exact ⟨fun h => (by cases h), fun h => by injection h.2 with e; exact absurd e hy⟩

example := C136_sub (exMinus_WF (D := binary64)) exPlus_WF ⟨rfl, rfl⟩

/-- C136: a product that is zero (`0` or too small) is negative exactly when the signs differ. -/
theorem C136_scale {s : Serie (Double D)} (h : WF s) (h0 : 0 < s.count) (d : Double D) :
    ∃ r, mult s d = .ok r ∧ scale s d = .ok r ∧ SameShape r s ∧ ∀ i j x, cell s i j = some x →
      ∃ z, cell r i j = some z ∧ (IsZero z → (z = .nzero ↔ SignsDiffer x d)) := by
  obtain ⟨c1, c2, c3⟩ := onNumbers_cells (f := (· * d)) h
  refine ⟨_, C36_mult h h0 d, C36_scale h h0 d, c2, fun i j x hx => ⟨_, c3 i j x hx, fun hz => ?_⟩⟩
  rw [← signs_iff]
  exact isZero_withSign hz

example := C136_scale (exMinus_WF (D := binary64)) (of_decide_eq_true rfl) .nzero

/-- C136: the same for the product of two Series. -/
theorem C136_mult {a b : Serie (Double D)} (ha : WF a) (hb : WF b) (hs : SameShape a b) (h0 : 0 < a.count) (h1 : a.itemSize ≠ 1) :
    ∃ r, multSerie a b = .ok r ∧ SameShape r a ∧ ∀ i j x y, cell a i j = some x → cell b i j = some y →
      ∃ z, cell r i j = some z ∧ (IsZero z → (z = .nzero ↔ SignsDiffer x y)) := by
  obtain ⟨h2, h3, _⟩ := WF_pointwise (op := (· * ·)) ha hb hs
  refine ⟨_, multSerie_same ha hb h0 hs h1, h3, fun i j x y hx hy => ⟨_, cell_pointwise ha hb hs hx hy, fun hz => ?_⟩⟩
  rw [← signs_iff]
  exact isZero_withSign hz

/-- Two vectors with zeros of both signs, for the examples. -/
noncomputable def exSigns : Serie (Double D) := ⟨[.nzero, 1, 0, -1], 2, 2, 3⟩

theorem exSigns_WF : WF (exSigns (D := D)) :=
  ⟨of_decide_eq_true rfl, of_decide_eq_true rfl, of_decide_eq_true rfl, of_decide_eq_true rfl⟩

example := C136_mult (exSigns_WF (D := binary64)) exSigns_WF ⟨rfl, rfl⟩ (of_decide_eq_true rfl) (of_decide_eq_true rfl)

/-- C136: a quotient that is zero is negative exactly when the signs differ; what is divided by a zero of either sign becomes
infinite (unless it is zero or NaN), negative exactly when the signs differ. -/
theorem C136_div {s : Serie (Double D)} (h : WF s) (h0 : 0 < s.count) (d : Double D) :
    ∃ r, divNum d s = .ok r ∧ SameShape r s ∧ ∀ i j x, cell s i j = some x → ∃ z, cell r i j = some z ∧
      (IsZero z → (z = .nzero ↔ SignsDiffer x d)) ∧
      (IsZero d → ¬ IsZero x → x ≠ .val .nan → (SignsDiffer x d → z = .val .ninf) ∧ (¬ SignsDiffer x d → z = .val .pinf)) := by
  obtain ⟨c1, c2, c3⟩ := onNumbers_cells (f := (· / d)) h
  refine ⟨_, C36_div h h0 d, c2, fun i j x hx => ⟨_, c3 i j x hx, fun hz => ?_, fun hd h1 h2 => ?_⟩⟩
  · rw [← signs_iff]
    cases d with
    | val y => exact isZero_withSign hz
    | nzero =>
      exfalso
      have hz : IsZero (Signed.val (-(x.forget / (0 : Ext (Num D))))) := hz
      rcases hz with hz | hz
      · injection hz with hz
        generalize x.forget = y at hz
        rw [Ext.neg_eq_zero'] at hz
        obtain ⟨_, k, _⟩ := Ext.div_finite (D := D) (x := y) (y := .fin 0) ⟨0, rfl⟩ ⟨0, hz⟩
        exact k rfl
      · cases hz
  · rw [← signs_iff]
    cases x with
    | nzero => exact absurd (.inr rfl) h1
    | val x =>
      have hq : x ≠ 0 := fun e => h1 (.inl (by rw [e]))
      -- the quotient by the positive zero
      have key : (x / (0 : Ext (Num D)) = .pinf ∧ (Signed.val x : Double D).neg? = false) ∨
          (x / (0 : Ext (Num D)) = .ninf ∧ (Signed.val x : Double D).neg? = true) := by
        cases x with
        | nan => exact absurd rfl h2
        | pinf => exact .inl ⟨if_neg (lt_irrefl _), decide_eq_false (fun h => h)⟩
        | ninf => exact .inr ⟨if_neg (lt_irrefl _), decide_eq_true trivial⟩
        | fin u =>
          have e : (.fin u / (0 : Ext (Num D))) = Ext.infTimes u := if_pos rfl
          have hu : u ≠ 0 := fun e => hq (by rw [e]; rfl)
          rw [e]
          unfold Ext.infTimes
          rcases lt_or_gt_of_ne hu with k | k
          · exact .inr ⟨by rw [if_neg (not_lt.2 k.le), if_pos k], decide_eq_true k⟩
          · exact .inl ⟨if_pos k, decide_eq_false (not_lt.2 k.le)⟩
      rcases hd with rfl | rfl
      · have e : (Signed.val x / (Signed.val 0 : Double D)) = Signed.withSign ((Signed.val x : Double D).neg? != (Signed.val 0 : Double D).neg?)
            (x / 0) := rfl
        show (_ → (Signed.val x / (Signed.val 0 : Double D)) = _) ∧ (_ → (Signed.val x / (Signed.val 0 : Double D)) = _)
        rw [e, Signed.not_neg_zero]
        rcases key with ⟨k1, k2⟩ | ⟨k1, k2⟩ <;> rw [k1, k2, Signed.withSign_ne (fun h => by cases h)]
        · exact ⟨fun h => (by cases h), fun _ => rfl⟩
        · exact ⟨fun _ => rfl, fun h => absurd rfl h⟩
      · have e : (Signed.val x / (Signed.nzero : Double D)) = Signed.val (-(x / 0)) := rfl
        show (_ → (Signed.val x / (Signed.nzero : Double D)) = _) ∧ (_ → (Signed.val x / (Signed.nzero : Double D)) = _)
        rw [e, show (Signed.nzero : Double D).neg? = true from rfl]
        rcases key with ⟨k1, k2⟩ | ⟨k1, k2⟩ <;> rw [k1, k2]
        · exact ⟨fun _ => rfl, fun h => absurd rfl h⟩
        · exact ⟨fun h => (by cases h), fun _ => rfl⟩

example := C136_div (exSigns_WF (D := binary64)) (of_decide_eq_true rfl) .nzero

end DF
