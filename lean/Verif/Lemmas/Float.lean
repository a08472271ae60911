import Verif.Spec.Float
import Verif.Lemmas.Stats
import Verif.Lemmas.MathOps
import Mathlib.Algebra.Order.Round
import Mathlib.Data.Int.Log
import Mathlib.Tactic.Linarith
import Mathlib.Tactic.Ring
import Mathlib.Tactic.FieldSimp
import Mathlib.Tactic.Positivity

/-!
# Lemmas on rounded arithmetic
-/

namespace DF

variable {p : Nat}

open Spec

theorem unit_pos : 0 < unit p := by unfold unit; positivity

theorem unit_le_one : unit p ≤ 1 := by
  unfold unit
  exact pow_le_one₀ (by norm_num) (by norm_num)

theorem unit_lt_one (hp : 1 ≤ p) : unit p < 1 := by
  unfold unit
  exact pow_lt_one₀ (by norm_num) (by norm_num) (by omega)

theorem unit_eq : unit p = (2 : ℝ) ^ (-(p : ℤ)) := by
  unfold unit; rw [zpow_neg, zpow_natCast, inv_pow]

/-- The multiples of `2^e` used around `x`. -/
noncomputable def expo (p : Nat) (x : ℝ) : ℤ := Int.log 2 |x| + 1 - p

/-- A nearest number: the rounding of the scaled number. -/
noncomputable def nearest (p : Nat) (x : ℝ) : ℝ := (round (x / (2 : ℝ) ^ expo p x) : ℤ) * (2 : ℝ) ^ expo p x

theorem scaled_abs {x : ℝ} (hx : x ≠ 0) :
    (2 : ℝ) ^ ((p : ℤ) - 1) ≤ |x| / (2 : ℝ) ^ expo p x ∧ |x| / (2 : ℝ) ^ expo p x < (2 : ℝ) ^ p := by
  have h0 : 0 < |x| := abs_pos.2 hx
  have h1 := Int.zpow_log_le_self (b := 2) (by norm_num) h0
  have h2 := Int.lt_zpow_succ_log_self (b := 2) (by norm_num) |x|
  have h3 : (0 : ℝ) < (2 : ℝ) ^ expo p x := zpow_pos (by norm_num) _
  push_cast at h1 h2
  constructor
  · rw [le_div_iff₀ h3, ← zpow_add₀ (by norm_num)]
    refine le_trans (le_of_eq ?_) h1
    unfold expo; congr 1; ring
  · rw [div_lt_iff₀ h3, ← zpow_natCast, ← zpow_add₀ (by norm_num)]
    refine lt_of_lt_of_eq h2 ?_
    unfold expo; congr 1; ring

theorem nearest_rep (x : ℝ) : Representable p (nearest p x) := by
  refine ⟨round (x / (2 : ℝ) ^ expo p x), expo p x, ?_, rfl⟩
  by_cases hx : x = 0
  · simp [hx]
  · have h3 : (0 : ℝ) < (2 : ℝ) ^ expo p x := zpow_pos (by norm_num) _
    have h := (scaled_abs (p := p) hx).2
    have h0 : |x / (2 : ℝ) ^ expo p x| < (2 : ℝ) ^ p := by rw [abs_div, abs_of_pos h3]; exact h
    replace h := h0
    have h4 := round_le (x / (2 : ℝ) ^ expo p x) (2 ^ p)
    have h5 := round_le (x / (2 : ℝ) ^ expo p x) (-2 ^ p)
    rw [abs_lt] at h
    rw [abs_le]
    constructor
    · by_contra hc
      have hc' : ((round (x / (2 : ℝ) ^ expo p x) : ℤ) : ℝ) < -2 ^ p := by
        have := Int.cast_lt (R := ℝ) |>.2 (not_le.1 hc); push_cast at this; exact this
      push_cast at h5
      rw [abs_of_pos (by linarith), abs_of_pos (by linarith)] at h5
      linarith
    · by_contra hc
      have hc' : (2 : ℝ) ^ p < ((round (x / (2 : ℝ) ^ expo p x) : ℤ) : ℝ) := by
        have := Int.cast_lt (R := ℝ) |>.2 (not_le.1 hc); push_cast at this; exact this
      push_cast at h4
      rw [abs_of_neg (by linarith), abs_of_neg (by linarith)] at h4
      linarith

theorem nearest_error (x : ℝ) : |nearest p x - x| ≤ unit p * |x| := by
  by_cases hx : x = 0
  · simp [hx, nearest]
  · have h3 : (0 : ℝ) < (2 : ℝ) ^ expo p x := zpow_pos (by norm_num) _
    have h := abs_sub_round (x / (2 : ℝ) ^ expo p x)
    have h1 := Int.zpow_log_le_self (b := 2) (by norm_num) (abs_pos.2 hx)
    push_cast at h1
    have h4 : |nearest p x - x| = |x / (2 : ℝ) ^ expo p x - round (x / (2 : ℝ) ^ expo p x)| * (2 : ℝ) ^ expo p x := by
      rw [← abs_of_pos h3, ← abs_mul, abs_of_pos h3, sub_mul, div_mul_cancel₀ _ h3.ne', abs_sub_comm]
      rfl
    rw [h4]
    have h5 : (2 : ℝ) ^ expo p x = 2 * unit p * (2 : ℝ) ^ (Int.log 2 |x|) := by
      unfold expo
      rw [unit_eq, show Int.log 2 |x| + 1 - (p : ℤ) = 1 + (-(p : ℤ)) + Int.log 2 |x| by ring, zpow_add₀ (by norm_num),
        zpow_add₀ (by norm_num), zpow_one]
    have h6 := unit_pos (p := p)
    calc _ ≤ 1 / 2 * (2 : ℝ) ^ expo p x := mul_le_mul_of_nonneg_right h h3.le
      _ = unit p * (2 : ℝ) ^ (Int.log 2 |x|) := by rw [h5]; ring
      _ ≤ _ := mul_le_mul_of_nonneg_left h1 h6.le

theorem nearest_near (hp : 1 ≤ p) (x y : ℝ) (hy : Representable p y) : |nearest p x - x| ≤ |y - x| := by
  by_cases hx : x = 0
  · simp [hx, nearest]
  have h3 : (0 : ℝ) < (2 : ℝ) ^ expo p x := zpow_pos (by norm_num) _
  have hk : ∀ k : ℤ, |nearest p x - x| ≤ |(k : ℝ) * (2 : ℝ) ^ expo p x - x| := by
    intro k
    have h := round_le (x / (2 : ℝ) ^ expo p x) k
    have e : ∀ z : ℤ, |(z : ℝ) * (2 : ℝ) ^ expo p x - x| = |x / (2 : ℝ) ^ expo p x - z| * (2 : ℝ) ^ expo p x := by
      intro z
      rw [← abs_of_pos h3, ← abs_mul, abs_of_pos h3, sub_mul, div_mul_cancel₀ _ h3.ne', abs_sub_comm]
    rw [e k]
    refine le_trans (le_of_eq (e _)) (mul_le_mul_of_nonneg_right h h3.le)
  obtain ⟨m, f, hm, rfl⟩ := hy
  by_cases hf : expo p x ≤ f
  · obtain ⟨d, hd⟩ := Int.le.dest hf
    have := hk (m * 2 ^ d)
    rw [← hd, zpow_add₀ (by norm_num), zpow_natCast]
    push_cast at this
    rwa [mul_assoc, mul_comm ((2 : ℝ) ^ d)] at this
  · have hs := (scaled_abs (p := p) hx).1
    have hmr : |(m : ℝ)| ≤ 2 ^ p := by
      have := Int.cast_le (R := ℝ) |>.2 hm
      push_cast at this
      exact this
    have hb : |(m : ℝ) * (2 : ℝ) ^ f| ≤ (2 : ℝ) ^ (p - 1) * (2 : ℝ) ^ expo p x := by
      rw [abs_mul, abs_of_pos (show (0 : ℝ) < (2 : ℝ) ^ f from zpow_pos (by norm_num) _)]
      have h1 : (2 : ℝ) ^ f ≤ (2 : ℝ) ^ (expo p x - 1) := zpow_le_zpow_right₀ (by norm_num) (by omega)
      have h2 : (2 : ℝ) ^ (expo p x - 1) = (2 : ℝ) ^ expo p x / 2 := by rw [zpow_sub₀ (by norm_num), zpow_one]
      have h4 : (2 : ℝ) ^ p = 2 ^ (p - 1) * 2 := by rw [← pow_succ]; congr 1; omega
      calc |(m : ℝ)| * (2 : ℝ) ^ f ≤ 2 ^ p * ((2 : ℝ) ^ expo p x / 2) := by
            rw [← h2]; exact mul_le_mul hmr h1 (zpow_pos (by norm_num) _).le (by positivity)
        _ = _ := by rw [h4]; ring
    have hx2 : (2 : ℝ) ^ (p - 1) * (2 : ℝ) ^ expo p x ≤ |x| := by
      rw [le_div_iff₀ h3] at hs
      refine le_trans (le_of_eq ?_) hs
      rw [← zpow_natCast, show ((p - 1 : ℕ) : ℤ) = (p : ℤ) - 1 by omega]
    rw [abs_le] at hb
    rcases lt_or_gt_of_ne hx with hn | hn
    · have := hk (-2 ^ (p - 1))
      push_cast at this
      refine le_trans this ?_
      rw [abs_of_neg hn] at hx2
      rw [abs_of_nonneg (by linarith), abs_of_nonneg (by linarith)]
      linarith
    · have := hk (2 ^ (p - 1))
      push_cast at this
      refine le_trans this ?_
      rw [abs_of_pos hn] at hx2
      rw [abs_of_nonpos (by linarith), abs_of_nonpos (by linarith)]
      linarith

/-- Rounding to nearest exists. -/
noncomputable def Rounding.halfUp (p : Nat) (hp : 1 ≤ p) : Rounding p := ⟨nearest p, nearest_rep, nearest_near hp⟩

namespace Rounding

variable (R : Rounding p)

theorem error (x : ℝ) : |R.fl x - x| ≤ unit p * |x| := (R.near x _ (nearest_rep x)).trans (nearest_error x)

/-- Representable numbers are not changed. -/
theorem exact {x : ℝ} (h : Representable p x) : R.fl x = x := by
  have := R.near x x h
  rw [sub_self, abs_zero] at this
  exact sub_eq_zero.1 (abs_eq_zero.1 (le_antisymm this (abs_nonneg _)))

theorem mono {x y : ℝ} (h : x ≤ y) : R.fl x ≤ R.fl y := by
  rcases h.lt_or_eq with h | rfl
  · by_contra hc
    rw [not_le] at hc
    have h1 := R.near x _ (R.rep y)
    have h2 := R.near y _ (R.rep x)
    rw [← sq_le_sq] at h1 h2
    nlinarith
  · exact le_rfl

theorem rel (x : ℝ) : ∃ d, |d| ≤ unit p ∧ R.fl x = x * (1 + d) := by
  by_cases hx : x = 0
  · refine ⟨0, by simpa using unit_pos.le, ?_⟩
    have := R.error x
    rw [hx] at this ⊢
    simpa using this
  · refine ⟨(R.fl x - x) / x, ?_, by field_simp; ring⟩
    rw [abs_div, div_le_iff₀ (abs_pos.2 hx)]
    exact R.error x

theorem abs_le (x : ℝ) : |R.fl x| ≤ (1 + unit p) * |x| := by
  have := R.error x
  have h2 := abs_add_le (R.fl x - x) x
  rw [sub_add_cancel] at h2
  linarith

theorem zero_rep : Representable p 0 := ⟨0, 0, by simp, by simp⟩

theorem one_rep : Representable p 1 := ⟨1, 0, by simp [one_le_pow₀], by simp⟩

theorem nonneg {x : ℝ} (h : 0 ≤ x) : 0 ≤ R.fl x := by
  have := R.mono h
  rwa [R.exact zero_rep] at this

/-- Whole numbers up to `2^p` are represented exactly. -/
theorem int_rep {n : ℤ} (h : |n| ≤ 2 ^ p) : Representable p n := ⟨n, 0, h, by simp⟩

end Rounding

end DF
