import Verif.Spec.Ranged
import Verif.Props.RunningError
import Verif.Props.MonotoneRange

/-!
# Error bounds for whole programs, with overflow and underflow (C171)

The numbers the library computes with are `Ext (Num D)` (Model/Ieee); for `IsDouble D` they are the values of `double`. `Ranged` is in
Spec/Ranged.
-/

namespace DF

open Spec

variable {σ τ : Type} {D : Machine}

/-! ## Helpers -/

theorem holds_rounded {z : Ext (Num D)} {t S E d : ℝ} (hz : |S| ≤ D.top → IsFinite z ∧ |real z - S| ≤ ulp D * |S| + t) (h : |S - E| ≤ d) :
    Ranged.Holds z (Ranged.rounded t E d) := by
  unfold Ranged.rounded
  split
  · rename_i htop
    have h2 : |S| ≤ |E| + d := by
      have := abs_add_le (S - E) E
      rw [sub_add_cancel] at this
      linarith
    obtain ⟨hf, he⟩ := hz (h2.trans htop)
    refine ⟨hf, ?_⟩
    have h3 := abs_add_le (real z - S) (S - E)
    rw [sub_add_sub_cancel] at h3
    have h4 := mul_le_mul_of_nonneg_left h2 (show 0 ≤ ulp D from (unit_pos (p := D.p)).le)
    linarith
  · trivial

theorem holds_zero : Ranged.Holds (0 : Ext (Num D)) 0 := ⟨⟨_, rfl⟩, by show |(0 : ℝ) - 0| ≤ 0; simp⟩

theorem holds_add : Kept (Ranged.Holds (D := D)) .addition := fun x a h y b h' => by
  cases a with
  | unknown => trivial
  | known u e =>
    cases b with
    | unknown => trivial
    | known v f =>
      refine holds_rounded (S := real x + real y) (fun ht => ?_) ?_
      · have := Ext.add_of_le h.1 h'.1 ht
        exact ⟨this, by rw [add_zero]; exact Ext.add_err this⟩
      · rw [add_sub_add_comm]
        exact (abs_add_le _ _).trans (add_le_add h.2 h'.2)

theorem holds_sub : Kept (Ranged.Holds (D := D)) .subtraction := fun x a h y b h' => by
  cases a with
  | unknown => trivial
  | known u e =>
    cases b with
    | unknown => trivial
    | known v f =>
      refine holds_rounded (S := real x - real y) (fun ht => ?_) ?_
      · have := Ext.sub_of_le h.1 h'.1 ht
        exact ⟨this, by rw [add_zero]; exact Ext.sub_err this⟩
      · rw [show real x - real y - (u - v) = (real x - u) - (real y - v) by ring]
        exact (abs_sub _ _).trans (add_le_add h.2 h'.2)

theorem holds_mul : Kept (Ranged.Holds (D := D)) .product := fun x a h y b h' => by
  cases a with
  | unknown => trivial
  | known u e =>
    cases b with
    | unknown => trivial
    | known v f =>
      refine holds_rounded (S := real x * real y) (fun ht => ?_) ?_
      · have := Ext.mul_of_le h.1 h'.1 ht
        refine ⟨this, ?_⟩
        rw [(Ext.mul_finite this).2.2]
        exact D.error _
      · rw [show real x * real y - u * v = u * (real y - v) + (real x - u) * v + (real x - u) * (real y - v) by ring]
        refine (abs_add_le _ _).trans (add_le_add ((abs_add_le _ _).trans (add_le_add ?_ ?_)) ?_)
        · rw [abs_mul]; exact mul_le_mul_of_nonneg_left h'.2 (abs_nonneg _)
        · rw [abs_mul]; exact mul_le_mul_of_nonneg_right h.2 (abs_nonneg _)
        · rw [abs_mul]; exact mul_le_mul h.2 h'.2 (abs_nonneg _) ((abs_nonneg _).trans h.2)

theorem holds_div : Kept (Ranged.Holds (D := D)) .division := fun x a h y b h' => by
  cases a with
  | unknown => trivial
  | known u e =>
    cases b with
    | unknown => trivial
    | known v f =>
      show Ranged.Holds (x / y) (if f < |v| then _ else _)
      split
      · rename_i hf
        have hm : |v| - f ≤ |real y| := by
          have := abs_sub_abs_le_abs_sub v (real y)
          rw [abs_sub_comm] at this
          have := h'.2
          linarith
        have hm0 : 0 < |v| - f := by linarith
        have hy0 : real y ≠ 0 := abs_pos.1 (hm0.trans_le hm)
        have hv0 : v ≠ 0 := by
          rintro rfl
          rw [abs_zero] at hf
          exact absurd ((abs_nonneg _).trans h'.2) (not_le.2 hf)
        refine holds_rounded (S := real x / real y) (fun ht => ?_) ?_
        · have := Ext.div_of_le h.1 h'.1 hy0 ht
          refine ⟨this, ?_⟩
          obtain ⟨x', rfl⟩ := h.1
          obtain ⟨y', rfl⟩ := h'.1
          rw [Ext.fin_div' (fun hc => hy0 (by rw [hc]; rfl))] at this ⊢
          rw [Ext.real_ofReal this]
          exact D.error _
        · have e1 : real x / real y - u / v = ((real x - u) - u / v * (real y - v)) / real y := by field_simp; ring
          rw [e1, abs_div]
          refine div_le_div₀ ?_ ?_ hm0 hm
          · have := h.2
            have := (abs_nonneg _).trans h.2
            have := mul_nonneg (abs_nonneg (u / v)) ((abs_nonneg _).trans h'.2)
            linarith
          · refine (abs_sub _ _).trans (add_le_add h.2 ?_)
            rw [abs_mul]
            exact mul_le_mul_of_nonneg_left h'.2 (abs_nonneg _)
      · trivial

theorem holds_kept {u : Use} (hu : u = .addition ∨ u = .subtraction ∨ u = .product ∨ u = .division ∨ u = .minusOne ∨ u = .one) :
    Kept (Ranged.Holds (D := D)) u := by
  rcases hu with rfl | rfl | rfl | rfl | rfl | rfl
  · exact holds_add
  · exact holds_sub
  · exact holds_mul
  · exact holds_div
  · exact ⟨⟨_, rfl⟩, by show |(-1 : ℝ) - -1| ≤ 0; simp⟩
  · exact ⟨⟨_, rfl⟩, by show |(1 : ℝ) - 1| ≤ 0; simp⟩

theorem holds_natCast (n : Nat) : Ranged.Holds ((n : Nat) : Ext (Num D)) ((n : Nat) : Ranged D) := by
  refine holds_rounded (S := (n : ℝ)) (fun ht => ?_) (by simp)
  have := Ext.finite_of_le ht
  refine ⟨this, ?_⟩
  show |real (Ext.ofReal D n) - n| ≤ _
  rw [Ext.real_ofReal this]
  exact D.error _

theorem exactly_rounded {t y d : ℝ} : Ranged.Exactly (Ranged.rounded t y d : Ranged D) y := by
  unfold Ranged.rounded
  split
  · rfl
  · trivial

theorem exactly_zero : Ranged.Exactly (0 : Ranged D) (0 : ℝ) := by
  show (0 : ℝ) = 0
  rfl

theorem exactly_kept {u : Use} (hu : u = .addition ∨ u = .subtraction ∨ u = .product ∨ u = .division ∨ u = .minusOne ∨ u = .one) :
    Kept (Ranged.Exactly (D := D)) u := by
  rcases hu with rfl | rfl | rfl | rfl | rfl | rfl
  · intro a y h b z h'
    cases a <;> cases b <;> first
      | trivial
      | (cases h; cases h'; exact exactly_rounded)
  · intro a y h b z h'
    cases a <;> cases b <;> first
      | trivial
      | (cases h; cases h'; exact exactly_rounded)
  · intro a y h b z h'
    cases a <;> cases b <;> first
      | trivial
      | (cases h; cases h'; exact exactly_rounded)
  · intro a y h b z h'
    cases a with
    | unknown => trivial
    | known u e =>
      cases b with
      | unknown => trivial
      | known v f =>
        have e1 : u = y := h
        have e2 : v = z := h'
        subst e1 e2
        show Ranged.Exactly (if f < |v| then _ else _) _
        split
        · exact exactly_rounded
        · trivial
  · rfl
  · rfl

theorem exactly_count {a : Ranged D} {y : ℝ} (h : Ranged.Exactly a y) (n : Nat) : Ranged.Exactly (a / ((n : Nat) : Ranged D)) (y / n) :=
  exactly_kept (u := .division) (by simp) _ _ h _ _ exactly_rounded

/-- What is known of the Series `exBig`, 1 and 2^1023, for the examples. -/
noncomputable def exRanged : Serie (Ranged binary64) := ofScalars [.known ((2 : ℝ) ^ (0 : ℤ)) 0, .known ((2 : ℝ) ^ (1023 : ℤ)) 0]

theorem exBig_holds : Each Ranged.Holds exBig exRanged :=
  ⟨rfl, rfl, rfl, .cons ⟨⟨_, rfl⟩, by show |(2 : ℝ) ^ (0 : ℤ) - 2 ^ (0 : ℤ)| ≤ 0; rw [sub_self, abs_zero]⟩
    (.cons ⟨⟨_, rfl⟩, by show |(2 : ℝ) ^ (1023 : ℤ) - 2 ^ (1023 : ℤ)| ≤ 0; rw [sub_self, abs_zero]⟩ .nil)⟩

theorem exRanged_exactly : Each Ranged.Exactly exRanged (ofScalars [(2 : ℝ) ^ (0 : ℤ), (2 : ℝ) ^ (1023 : ℤ)]) :=
  ⟨rfl, rfl, rfl, .cons (show (2 : ℝ) ^ (0 : ℤ) = _ from rfl) (.cons (show (2 : ℝ) ^ (1023 : ℤ) = _ from rfl) .nil)⟩

/-! ## C171 -/

/-- C171: a program of any size that adds, subtracts, multiplies, negates, divides by given numbers and moves numbers, run on values of
`double`: run on the numbers `Ranged`, the same program tells which of its results are finite, and how far they are from the exact ones,
overflow, underflow and division by zero taken into account. -/
theorem C171_programs {S : σ → τ → Prop} {f : Program σ (Ext (Num D))} {g : Program τ (Ranged D)} (h : f.Twin Ranged.Holds S g)
    (hu : ∀ u, f.Uses u → u = .addition ∨ u = .subtraction ∨ u = .product ∨ u = .division ∨ u = .minusOne ∨ u = .one) {s : σ} {t : τ}
    (hs : S s t) : Outcomes (Each Ranged.Holds) (f.run s).1 (g.run t).1 :=
  (C152_programs holds_zero h (fun u h' => holds_kept (hu u h')) hs).1

example := C171_programs (S := fun _ _ : Unit => True)
  (.call2 .sub (.call2 .mult (.given exBig_holds) (.given exBig_holds)) (.given exBig_holds)) (by
    rintro u (h | (h | h | h) | h)
    · exact .inr (.inl (by simpa [Call2.uses] using h))
    · exact .inr (.inr (.inl (by simpa [Call2.uses] using h)))
    all_goals exact absurd h id) (s := ()) (t := ()) trivial

/-- Something is known of sums that are not too large: 1 + 1 is finite, and 2 within two units. -/
example : (.known 1 0 + .known 1 0 : Ranged binary64) = .known (1 + 1) (0 + 0 + (ulp binary64 * (|1 + 1| + (0 + 0)) + 0)) := by
  show Ranged.rounded 0 (1 + 1) (0 + 0) = _
  refine if_pos ?_
  refine le_trans ?_ (Ext.top_large binary64_isDouble)
  rw [show |(1 : ℝ) + 1| + (0 + 0) = 2 ^ 1 by norm_num]
  exact pow_le_pow_right₀ (by norm_num) (by norm_num)

/-- C171: the same for routines with variables, loops and handlers. -/
theorem C171_routines {S : σ → τ → Prop} {f : Routine σ (Ext (Num D))} {g : Routine τ (Ranged D)} (h : f.Twin Ranged.Holds S g)
    (hu : ∀ u, f.Uses u → u = .addition ∨ u = .subtraction ∨ u = .product ∨ u = .division ∨ u = .minusOne ∨ u = .one) {s : σ} {t : τ}
    (hs : S s t) {vars : Vars (Ext (Num D))} {vars' : Vars (Ranged D)} (hv : ∀ v, Each Ranged.Holds (vars v) (vars' v)) :
    Outcomes (fun _ _ => True) (f.run (s, vars)).1 (g.run (t, vars')).1 ∧
      ∀ v, Each Ranged.Holds ((f.run (s, vars)).2.2 v) ((g.run (t, vars')).2.2 v) := by
  have := C167_twins holds_zero h (fun u h' => holds_kept (hu u h')) hs hv
  exact ⟨this.1, this.2.2⟩

example (n : Nat) := C171_routines (S := fun _ _ : Unit => True)
  (.loop (n := n) (f := fun _ s => (.ok true, s)) (g := fun _ s => (.ok true, s)) (fun _ _ _ _ _ _ => ⟨rfl, trivial⟩)
    (.seq (.call2 (v := 0) (a := 0) (b := 1) .mult) (.call2 (v := 0) (a := 0) (b := 2) .sub))) (by
    rintro u (h | h)
    · exact .inr (.inr (.inl (by simpa [Routine.Uses, Call2.uses] using h)))
    · exact .inr (.inl (by simpa [Routine.Uses, Call2.uses] using h))) (s := ()) (t := ()) trivial
  (vars := fun _ => exBig) (vars' := fun _ => exRanged) fun _ => exBig_holds

/-- C171: the exact numbers told by `Ranged` are the results of the program in exact arithmetic. -/
theorem C171_exact {S : σ → τ → Prop} {f : Program σ (Ranged D)} {g : Program τ ℝ} (h : f.Twin Ranged.Exactly S g)
    (hu : ∀ u, f.Uses u → u = .addition ∨ u = .subtraction ∨ u = .product ∨ u = .division ∨ u = .minusOne ∨ u = .one) {s : σ} {t : τ}
    (hs : S s t) : Outcomes (Each Ranged.Exactly) (f.run s).1 (g.run t).1 :=
  (C152_programs exactly_zero h (fun u h' => exactly_kept (hu u h')) hs).1

example := C171_exact (S := fun _ _ : Unit => True)
  (.call2 .sub (.call2 .mult (.given exRanged_exactly) (.given exRanged_exactly)) (.given exRanged_exactly)) (by
    rintro u (h | (h | h | h) | h)
    · exact .inr (.inl (by simpa [Call2.uses] using h))
    · exact .inr (.inr (.inl (by simpa [Call2.uses] using h)))
    all_goals exact absurd h id) (s := ()) (t := ()) trivial

/-- C171: `dot`, `cross` and `det` in the same way. -/
theorem C171_algebra {a b : Serie (Ext (Num D))} {a' b' : Serie (Ranged D)} (ha : Each Ranged.Holds a a') (hb : Each Ranged.Holds b b') :
    Outcomes (Each Ranged.Holds) (dot a b) (dot a' b') ∧ Outcomes (Each Ranged.Holds) (cross a b) (cross a' b') ∧
      Outcomes (Each Ranged.Holds) (det a) (det a') :=
  ⟨outcomes_each (dot_rel holds_zero holds_add holds_mul (each_iff.1 ha) (each_iff.1 hb)),
    outcomes_each (cross_rel holds_zero holds_sub holds_mul (each_iff.1 ha) (each_iff.1 hb)),
    outcomes_each (det_rel holds_zero holds_add holds_sub holds_mul (each_iff.1 ha))⟩

example := C171_algebra exBig_holds exBig_holds

/-- C171: `mean` and `covariance` in the same way. -/
theorem C171_stats {a b : Serie (Ext (Num D))} {a' b' : Serie (Ranged D)} (ha : Each Ranged.Holds a a') (hb : Each Ranged.Holds b b') :
    Outcomes (Means Ranged.Holds) (mean a) (mean a') ∧ Outcomes Ranged.Holds (covariance a b) (covariance a' b') :=
  ⟨outcomes_mean (mean_rel holds_zero holds_add (fun _ _ h n => holds_div _ _ h _ _ (holds_natCast n)) (each_iff.1 ha)),
    outcomes_of_rel (covariance_rel holds_zero holds_add holds_sub holds_mul (fun _ _ h n => holds_div _ _ h _ _ (holds_natCast n))
      (each_iff.1 ha) (each_iff.1 hb))⟩

example := C171_stats exBig_holds exBig_holds

/-- C171: the exact numbers told for `dot`, `cross`, `det`, `mean` and `covariance` are their results in exact arithmetic. -/
theorem C171_functions_exact {a b : Serie (Ranged D)} {a' b' : Serie ℝ} (ha : Each Ranged.Exactly a a') (hb : Each Ranged.Exactly b b') :
    Outcomes (Each Ranged.Exactly) (dot a b) (dot a' b') ∧ Outcomes (Each Ranged.Exactly) (cross a b) (cross a' b') ∧
      Outcomes (Each Ranged.Exactly) (det a) (det a') ∧ Outcomes (Means Ranged.Exactly) (mean a) (mean a') ∧
      Outcomes Ranged.Exactly (covariance a b) (covariance a' b') := by
  have kadd := exactly_kept (D := D) (u := .addition) (by simp)
  have ksub := exactly_kept (D := D) (u := .subtraction) (by simp)
  have kmul := exactly_kept (D := D) (u := .product) (by simp)
  exact ⟨outcomes_each (dot_rel exactly_zero kadd kmul (each_iff.1 ha) (each_iff.1 hb)),
    outcomes_each (cross_rel exactly_zero ksub kmul (each_iff.1 ha) (each_iff.1 hb)),
    outcomes_each (det_rel exactly_zero kadd ksub kmul (each_iff.1 ha)),
    outcomes_mean (mean_rel exactly_zero kadd (fun _ _ h n => exactly_count h n) (each_iff.1 ha)),
    outcomes_of_rel (covariance_rel exactly_zero kadd ksub kmul (fun _ _ h n => exactly_count h n) (each_iff.1 ha) (each_iff.1 hb))⟩

example := C171_functions_exact exRanged_exactly exRanged_exactly

end DF
