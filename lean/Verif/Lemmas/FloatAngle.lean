import Verif.Spec.FloatEigen
import Verif.Lemmas.FloatMore
import Verif.Lemmas.Jacobi
import Mathlib.Analysis.SpecialFunctions.Trigonometric.ArctanDeriv
import Mathlib.Analysis.SpecialFunctions.Trigonometric.Bounds
import Mathlib.Analysis.Calculus.MeanValue
import Mathlib.Analysis.Real.Pi.Bounds

/-! # One rotation of the Jacobi iteration in rounded arithmetic -/

namespace DF

open Spec

variable {p : Nat} {R : Rounding p} {ε : ℝ}

/-- A relative error of the argument of `arctan` gives the same absolute error. -/
theorem arctan_rel {t d : ℝ} (hd : |d| ≤ 1 / 2) : |Real.arctan (t * (1 + d)) - Real.arctan t| ≤ |d| := by
  have h1 : ∀ x ∈ Set.uIcc t (t * (1 + d)), ‖1 / (1 + x ^ 2)‖ ≤ 1 / (1 + t ^ 2 / 4) := by
    intro x hx
    rw [Real.norm_eq_abs, abs_of_pos (by positivity)]
    refine one_div_le_one_div_of_le (by positivity) ?_
    rw [_root_.abs_le] at hd
    have : t ^ 2 / 4 ≤ x ^ 2 := by
      rcases le_total 0 t with h0 | h0
      · have hx1 : t / 2 ≤ x := by
          rcases Set.mem_uIcc.1 hx with h | h <;> nlinarith
        nlinarith
      · have hx1 : x ≤ t / 2 := by
          rcases Set.mem_uIcc.1 hx with h | h <;> nlinarith
        nlinarith
    linarith
  have h2 := (convex_uIcc t (t * (1 + d))).norm_image_sub_le_of_norm_hasDerivWithin_le
    (fun x _ => (Real.hasDerivAt_arctan x).hasDerivWithinAt) h1 Set.left_mem_uIcc Set.right_mem_uIcc
  rw [Real.norm_eq_abs, Real.norm_eq_abs, show t * (1 + d) - t = t * d by ring, abs_mul] at h2
  refine h2.trans ?_
  have h3 : |t| ≤ 1 + t ^ 2 / 4 := by
    rw [← sq_abs t]; nlinarith [sq_nonneg (|t| / 2 - 1)]
  rw [div_mul_eq_mul_div, one_mul, div_le_iff₀ (by positivity)]
  nlinarith [abs_nonneg d]

/-- The constants used with the number type `Dbl`. -/
theorem val_two (hp : 2 ≤ p) : (2 : Dbl R).val = 2 := by
  show R.fl ((2 : ℕ) : ℝ) = 2
  rw [R.exact ⟨2, 0, by rw [abs_of_pos (by norm_num)]; calc (2 : ℤ) = 2 ^ 1 := by norm_num
      _ ≤ _ := pow_le_pow_right₀ (by norm_num) (by omega), by norm_num⟩]
  norm_num

theorem val_four (hp : 2 ≤ p) : (4 : Dbl R).val = 4 := by
  show R.fl ((4 : ℕ) : ℝ) = 4
  rw [R.exact ⟨4, 0, by rw [abs_of_pos (by norm_num)]; calc (4 : ℤ) = 2 ^ 2 := by norm_num
      _ ≤ _ := pow_le_pow_right₀ (by norm_num) (by omega), by norm_num⟩]
  norm_num

variable [Trig (Dbl R)]

/-- The computed angle makes the entry vanish up to rounding. -/
theorem angle_error (hp : 2 ≤ p) (ht : AccurateTrig R ε) (hu : unit p ≤ ε) (hε : ε ≤ 1 / 2 ^ 40) (a b r : Dbl R) :
    |(a.val - b.val) * (Real.sin (jacobiAngle a b r).val * Real.cos (jacobiAngle a b r).val) +
      r.val * (Real.cos (jacobiAngle a b r).val ^ 2 - Real.sin (jacobiAngle a b r).val ^ 2)| ≤
      4 * ε * (|a.val| + |b.val| + 2 * |r.val|) := by
  have hu0 := unit_pos (p := p)
  have hε' : ε ≤ 1 / 100 := hε.trans (by norm_num)
  obtain ⟨y, hy, hxy⟩ : ∃ y : ℝ, (a.val - b.val) / 2 * Real.sin (2 * y) + r.val * Real.cos (2 * y) = 0 ∧
      |(jacobiAngle a b r).val - y| ≤ 4 * ε := by
    unfold jacobiAngle
    by_cases h0 : a - b = 0
    · have hab : a.val = b.val := by
        have : R.fl (a.val - b.val) = 0 := congrArg Dbl.val h0
        by_contra hne
        have hab : a.val - b.val ≠ 0 := sub_ne_zero.2 hne
        obtain ⟨d, hd, e⟩ := R.rel (a.val - b.val)
        rw [_root_.abs_le] at hd
        rw [this] at e
        rcases mul_eq_zero.1 e.symm with h | h
        · exact hab h
        · linarith
      refine ⟨-Real.pi / 4, ?_, ?_⟩
      · rw [hab, show 2 * (-Real.pi / 4) = -(Real.pi / 2) by ring, Real.cos_neg, Real.cos_pi_div_two]
        ring
      · simp only [h0, if_true]
        rw [Dbl.val_div, val_four hp]
        have hn : (-Trig.pi : Dbl R).val = -(Trig.pi : Dbl R).val := rfl
        rw [hn]
        have h1 := ht.pi
        obtain ⟨d, hd, e⟩ := R.rel (-(Trig.pi : Dbl R).val / 4)
        rw [e]
        generalize (Trig.pi : Dbl R).val = P at h1
        have h2 := Real.pi_lt_d2
        have h3 := Real.pi_gt_three
        rw [_root_.abs_le] at h1 hd ⊢
        have : |P / 4 * d| ≤ ε := by
          rw [abs_mul, abs_of_pos (by linarith)]
          have : |d| ≤ ε := _root_.abs_le.2 ⟨by linarith, by linarith⟩
          nlinarith [abs_nonneg d]
        rw [_root_.abs_le] at this
        constructor <;> nlinarith
    · have hab : a.val - b.val ≠ 0 := by
        intro h
        refine h0 (Dbl.ext ?_)
        show R.fl (a.val - b.val) = 0
        rw [h]
        exact R.exact Rounding.zero_rep
      set t := 2 * r.val / (a.val - b.val) with htd
      refine ⟨-Real.arctan t / 2, ?_, ?_⟩
      · rw [show 2 * (-Real.arctan t / 2) = -Real.arctan t by ring, Real.sin_neg, Real.cos_neg, Real.sin_arctan, Real.cos_arctan]
        have : 0 < Real.sqrt (1 + t ^ 2) := by positivity
        field_simp
        rw [htd]
        field_simp
        ring
      · simp only [h0, if_false]
        rw [Dbl.val_div, val_two hp]
        obtain ⟨d1, hd1, e1⟩ := R.rel (a.val - b.val)
        obtain ⟨d2, hd2, e2⟩ := R.rel (r.val + r.val)
        obtain ⟨d3, hd3, e3⟩ := R.rel ((r + r).val / (a - b).val)
        have ht' : ((r + r) / (a - b)).val = t * (1 + ((1 + d2) * (1 + d3) / (1 + d1) - 1)) := by
          rw [Dbl.val_div, e3, Dbl.val_add, Dbl.val_sub, e1, e2, htd]
          rw [_root_.abs_le] at hd1
          have : 1 + d1 ≠ 0 := by linarith
          field_simp
          ring
        have he : |(1 + d2) * (1 + d3) / (1 + d1) - 1| ≤ 4 * ε := by
          rw [_root_.abs_le] at hd1 hd2 hd3
          have h1 : 0 < 1 + d1 := by linarith
          rw [_root_.abs_le]
          constructor
          · rw [le_sub_iff_add_le, le_div_iff₀ h1]
            nlinarith
          · rw [sub_le_iff_le_add, div_le_iff₀ h1]
            nlinarith
        have h1 := ht.atan ((r + r) / (a - b))
        rw [ht'] at h1
        have h2 := arctan_rel (t := t) (he.trans (by linarith))
        have h3 := h2.trans he
        have hn : (-Trig.atan ((r + r) / (a - b)) : Dbl R).val = -(Trig.atan ((r + r) / (a - b))).val := rfl
        rw [hn]
        generalize (Trig.atan ((r + r) / (a - b))).val = T at h1
        generalize Real.arctan (t * (1 + ((1 + d2) * (1 + d3) / (1 + d1) - 1))) = T1 at h1 h3
        have h4 := Real.arctan_lt_pi_div_two t
        have h5 := Real.neg_pi_div_two_lt_arctan t
        have h6 := Real.pi_lt_d2
        obtain ⟨d, hd, e⟩ := R.rel (-T / 2)
        rw [e]
        generalize Real.arctan t = T0 at h3 h4 h5
        rw [_root_.abs_le] at h1 h3
        have hT : |T| ≤ 2 := _root_.abs_le.2 ⟨by linarith, by linarith⟩
        have : |T / 2 * d| ≤ ε := by
          rw [abs_mul, abs_div, abs_of_pos (by norm_num : (0 : ℝ) < 2)]
          nlinarith [abs_nonneg d, abs_nonneg T]
        rw [_root_.abs_le] at this ⊢
        constructor <;> nlinarith
  generalize (jacobiAngle a b r).val = x at hxy
  have e1 : (a.val - b.val) * (Real.sin x * Real.cos x) + r.val * (Real.cos x ^ 2 - Real.sin x ^ 2) =
      (a.val - b.val) / 2 * (Real.sin (2 * x) - Real.sin (2 * y)) + r.val * (Real.cos (2 * x) - Real.cos (2 * y)) := by
    have : (a.val - b.val) / 2 * (Real.sin (2 * x) - Real.sin (2 * y)) + r.val * (Real.cos (2 * x) - Real.cos (2 * y)) =
      (a.val - b.val) / 2 * Real.sin (2 * x) + r.val * Real.cos (2 * x) := by linear_combination -hy
    rw [this, Real.sin_two_mul, Real.cos_two_mul]
    have := Real.sin_sq_add_cos_sq x
    linear_combination -r.val * this
  rw [e1]
  have l1 := Real.abs_sin_sub_sin_le (2 * x) (2 * y)
  have l2 := Real.abs_cos_sub_cos_le (2 * x) (2 * y)
  rw [← mul_sub, abs_mul, abs_of_pos (by norm_num : (0 : ℝ) < 2)] at l1 l2
  refine (abs_add_le _ _).trans ?_
  rw [abs_mul, abs_mul, abs_div, abs_of_pos (by norm_num : (0 : ℝ) < 2)]
  have l3 := abs_sub a.val b.val
  have h8 : |Real.sin (2 * x) - Real.sin (2 * y)| ≤ 8 * ε := by linarith
  have h9 : |Real.cos (2 * x) - Real.cos (2 * y)| ≤ 8 * ε := by linarith
  have m1 := mul_le_mul_of_nonneg_left h8 (by positivity : 0 ≤ |a.val - b.val| / 2)
  have m2 := mul_le_mul_of_nonneg_left h9 (abs_nonneg r.val)
  have hε0 : 0 ≤ ε := hu0.le.trans hu
  nlinarith

end DF
