import Verif.Lemmas.FloatEigenItem
import Verif.Props.Float

/-!
# Eigen values and vectors in rounded arithmetic (C121)

The numbers are `Dbl R`, as in Verif/Props/Float.lean. `AccurateTrig R ε` says that the trigonometric functions of the code
are exact up to `ε`; such functions exist, see `accurateTrig`.
-/

namespace DF

open Spec Matrix

variable {p : Nat} {R : Rounding p} {ε : ℝ} {n : Nat}

/-- The exact functions, rounded. -/
noncomputable abbrev roundTrig (R : Rounding p) : Trig (Dbl R) where
  pi := Dbl.round R Real.pi
  atan x := Dbl.round R (Real.arctan x.val)
  sin x := Dbl.round R (Real.sin x.val)
  cos x := Dbl.round R (Real.cos x.val)

theorem accurateTrig (R : Rounding p) : @AccurateTrig p R (roundTrig R) (4 * unit p) := by
  have hu := unit_pos (p := p)
  have key : ∀ x : ℝ, |x| ≤ 4 → |R.fl x - x| ≤ 4 * unit p := fun x hx => (R.error x).trans (by nlinarith)
  refine @AccurateTrig.mk p R (roundTrig R) _ (key _ ?_) (fun x => key _ ?_) (fun x => key _ ?_) (fun x => key _ ?_)
  · rw [abs_of_pos Real.pi_pos]; exact Real.pi_le_four
  · have h1 := Real.neg_pi_div_two_lt_arctan x.val
    have h2 := Real.arctan_lt_pi_div_two x.val
    have h3 := Real.pi_le_four
    rw [abs_le]; constructor <;> linarith
  · exact (Real.abs_sin_le_one _).trans (by norm_num)
  · exact (Real.abs_cos_le_one _).trans (by norm_num)

/-- For `double`. -/
theorem accurateTrig_double (R : Rounding 53) : @AccurateTrig 53 R (roundTrig R) (1 / 2 ^ 51) := by
  have := accurateTrig R
  rwa [show 4 * unit 53 = 1 / 2 ^ 51 by unfold unit; norm_num] at this

/-- Two symmetric matrices of dimension 3. -/
noncomputable def exEigF3 (R : Rounding p) : Serie (Dbl R) :=
  ⟨[dbl R 2, dbl R 1, dbl R 0, dbl R 3, dbl R 1, dbl R 5, dbl R 1, dbl R 0, dbl R 0, dbl R 2, dbl R 0, dbl R 3], 2, 6, 3⟩

/-- Two symmetric matrices of dimension 2. -/
noncomputable def exEigF2 (R : Rounding p) : Serie (Dbl R) := ⟨[dbl R 2, dbl R 1, dbl R 3, dbl R 0, dbl R (-1), dbl R 4], 2, 3, 2⟩

theorem exEigF3_WF : WF (exEigF3 R) := of_decide_eq_true rfl

theorem exEigF2_WF : WF (exEigF2 R) := of_decide_eq_true rfl

theorem exEigF3_shape : EigenShape 3 (exEigF3 R) := ⟨rfl, .inr ⟨rfl, rfl⟩⟩

theorem exEigF2_shape : EigenShape 2 (exEigF2 R) := ⟨rfl, .inl ⟨rfl, rfl⟩⟩

theorem unit53 : unit 53 ≤ 1 / 2 ^ 51 := by unfold unit; norm_num

variable [Trig (Dbl R)] {s : Serie (Dbl R)}

/-- C121: for each item `t`, with values `e` and vectors `w`, the vectors are orthonormal up to `2^19 ε`, the values add up to the
trace and are in decreasing order, and `A v = e v` holds up to the threshold of the iteration and rounding. -/
theorem C121_system (ht : AccurateTrig R ε) (hu : unit p ≤ ε) (hε : ε ≤ 1 / 2 ^ 40) (h : WF s) (hs : EigenShape n s)
    (hfit : s.count * (n * n) < 2 ^ 32) :
    ∃ val vecs, eigenSystem s = .ok (val, vecs) ∧ WF val ∧ WF vecs ∧ val.itemSize = n ∧ vecs.itemSize = n * n ∧
      ItemWise3 (fun t e w => ∃ A, A = symMatrix n (t.map Dbl.val) ∧
        NearlyOrthonormal n (w.map Dbl.val) (2 ^ 19 * ε) ∧
        |∑ k, vec n (e.map Dbl.val) k - A.trace| ≤ 2 ^ 18 * ε * frob A ∧
        (∀ i j : Fin n, i ≤ j → vec n (e.map Dbl.val) j ≤ vec n (e.map Dbl.val) i) ∧
        Real.sqrt (residualSq A (e.map Dbl.val) (w.map Dbl.val)) ≤
          Real.sqrt (2 * (0.0000102 * offDiag A)) + 2 ^ 19 * ε * frob A) s val vecs := by
  obtain ⟨val, vecs, h1, h2, h3, h4, h5, _, _, h6, _⟩ := eigenF_facts ht hu hε h hs hfit
  exact ⟨val, vecs, h1, h2, h3, h4, h5, h6.weaken fun t e w hf => ⟨_, rfl, hf.orth, hf.tr, hf.sorted, hf.res⟩⟩

example (R : Rounding 53) := @C121_system 53 R _ 3 (roundTrig R) _ (accurateTrig_double R) unit53 (by norm_num) exEigF3_WF
  exEigF3_shape (of_decide_eq_true rfl)

/-- In dimension 2 there is no threshold: only rounding. -/
theorem C121_dim2 (ht : AccurateTrig R ε) (hu : unit p ≤ ε) (hε : ε ≤ 1 / 2 ^ 40) (h : WF s) (hs : EigenShape 2 s)
    (hfit : s.count * 4 < 2 ^ 32) :
    ∃ val vecs, eigenSystem s = .ok (val, vecs) ∧
      ItemWise3 (fun t e w => NearlyOrthonormal 2 (w.map Dbl.val) (2 ^ 19 * ε) ∧
        Real.sqrt (residualSq (symMatrix2 (t.map Dbl.val)) (e.map Dbl.val) (w.map Dbl.val)) ≤
          2 ^ 19 * ε * frob (symMatrix2 (t.map Dbl.val))) s val vecs := by
  obtain ⟨val, vecs, h1, _, _, _, _, _, _, h6, _⟩ := eigenF_facts ht hu hε h hs hfit
  exact ⟨val, vecs, h1, h6.weaken fun t e w hf => ⟨hf.orth, hf.res2 rfl⟩⟩

example (R : Rounding 53) := @C121_dim2 53 R _ (roundTrig R) _ (accurateTrig_double R) unit53 (by norm_num) exEigF2_WF
  exEigF2_shape (of_decide_eq_true rfl)

/-- `eigenValues` and `eigenVectors` return the same numbers as `eigenSystem`. -/
theorem C121_functions_agree (ht : AccurateTrig R ε) (hu : unit p ≤ ε) (hε : ε ≤ 1 / 2 ^ 40) (h : WF s) (h0 : 0 < s.count)
    (hs : EigenShape n s) (hfit : s.count * (n * n) < 2 ^ 32) :
    ∃ val vecs, eigenSystem s = .ok (val, vecs) ∧ eigenValues s = .ok val ∧ eigenVectors s = .ok vecs := by
  obtain ⟨val, vecs, h1, _, _, _, _, _, _, _, h7⟩ := eigenF_facts ht hu hε h hs hfit
  exact ⟨val, vecs, h1, h7 h0⟩

example (R : Rounding 53) := @C121_functions_agree 53 R _ 3 (roundTrig R) _ (accurateTrig_double R) unit53 (by norm_num)
  exEigF3_WF (of_decide_eq_true rfl) exEigF3_shape (of_decide_eq_true rfl)

/-- The iteration stops by itself in spite of rounding: at most 89 sweeps in dimension 3 and one in dimension 2, the cap being
100. The entries off the diagonal are then small. -/
theorem C121_stops (ht : AccurateTrig R ε) (hu : unit p ≤ ε) (hε : ε ≤ 1 / 2 ^ 40) :
    (∀ a0 a1 a2 a3 a4 a5 : Dbl R, ∃ b0 b1 b2 b3 b4 b5 v thr iter,
      jacobi 3 [a0, a1, a2, a3, a4, a5] = .ok ⟨[b0, b1, b2, b3, b4, b5], v, thr, iter⟩ ∧ iter ≤ 89 ∧
      b1.val ^ 2 + b3.val ^ 2 + b4.val ^ 2 ≤ 0.0000102 * (a1.val ^ 2 + a3.val ^ 2 + a4.val ^ 2)) ∧
    (∀ a0 a1 a2 : Dbl R, ∃ b0 b1 b2 v thr iter,
      jacobi 2 [a0, a1, a2] = .ok ⟨[b0, b1, b2], v, thr, iter⟩ ∧ iter ≤ 1 ∧ b1.val = 0) := by
  constructor
  · intro a0 a1 a2 a3 a4 a5
    obtain ⟨⟨b, v, thr, iter⟩, h1, h2, la, _, _, h3⟩ := jacobiF3 ht hu hε (a := [a0, a1, a2, a3, a4, a5]) rfl
    obtain ⟨b0, b1, b2, b3, b4, b5, rfl⟩ := len6 la
    exact ⟨b0, b1, b2, b3, b4, b5, v, thr, iter, h1, h2, h3⟩
  · intro a0 a1 a2
    obtain ⟨⟨b, v, thr, iter⟩, h1, h2, la, _, _, h3⟩ := jacobiF2 ht hu hε (a := [a0, a1, a2]) rfl
    obtain ⟨b0, b1, b2, rfl⟩ := len3 la
    exact ⟨b0, b1, b2, v, thr, iter, h1, h2, h3⟩

example (R : Rounding 53) := @C121_stops 53 R _ (roundTrig R) (accurateTrig_double R) unit53 (by norm_num)

omit [Trig (Dbl R)] in
/-- For `double`, with trigonometric functions accurate to the last digit or so: errors of at most `2^-32`. -/
theorem C121_double {R : Rounding 53} [Trig (Dbl R)] {s : Serie (Dbl R)} (ht : AccurateTrig R (1 / 2 ^ 51)) (h : WF s)
    (hs : EigenShape n s) (hfit : s.count * (n * n) < 2 ^ 32) :
    ∃ val vecs, eigenSystem s = .ok (val, vecs) ∧
      ItemWise3 (fun t e w => ∃ A, A = symMatrix n (t.map Dbl.val) ∧ NearlyOrthonormal n (w.map Dbl.val) (1 / 2 ^ 32) ∧
        |∑ k, vec n (e.map Dbl.val) k - A.trace| ≤ 1 / 2 ^ 32 * frob A ∧
        Real.sqrt (residualSq A (e.map Dbl.val) (w.map Dbl.val)) ≤
          Real.sqrt (2 * (0.0000102 * offDiag A)) + 1 / 2 ^ 32 * frob A) s val vecs := by
  obtain ⟨val, vecs, h1, _, _, _, _, _, _, h6, _⟩ := eigenF_facts ht unit53 (by norm_num) h hs hfit
  refine ⟨val, vecs, h1, h6.weaken fun t e w hf => ⟨_, rfl, ?_, ?_, ?_⟩⟩
  · have := hf.orth
    rwa [show (2 : ℝ) ^ 19 * (1 / 2 ^ 51) = 1 / 2 ^ 32 by norm_num] at this
  · refine hf.tr.trans (mul_le_mul_of_nonneg_right (by norm_num) (frob_nonneg _))
  · have := hf.res
    rwa [show (2 : ℝ) ^ 19 * (1 / 2 ^ 51) = 1 / 2 ^ 32 by norm_num] at this

example (R : Rounding 53) := @C121_double 3 R (roundTrig R) _ (accurateTrig_double R) exEigF3_WF exEigF3_shape (of_decide_eq_true rfl)

end DF
