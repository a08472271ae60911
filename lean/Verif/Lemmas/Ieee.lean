import Verif.Spec.Ieee
import Verif.Lemmas.Float
import Verif.Lemmas.FloatOps
import Verif.Lemmas.Special

/-!
# Lemmas on machine numbers with a limited range
-/

namespace DF

open Spec

theorem RepMin.toRep {p : Nat} {e : ℤ} {x : ℝ} (h : RepMin p e x) : Representable p x := by
  obtain ⟨m, f, h1, _, h3⟩ := h
  exact ⟨m, f, h1, h3⟩

theorem RepMin.neg {p : Nat} {e : ℤ} {x : ℝ} (h : RepMin p e x) : RepMin p e (-x) := by
  obtain ⟨m, f, h1, h2, h3⟩ := h
  exact ⟨-m, f, by simpa using h1, h2, by rw [h3]; push_cast; ring⟩

/-- A whole multiple of the smallest positive number. -/
def OnGrid (e : ℤ) (x : ℝ) : Prop := ∃ k : ℤ, x = k * (2 : ℝ) ^ e

theorem RepMin.onGrid {p : Nat} {e : ℤ} {x : ℝ} (h : RepMin p e x) : OnGrid e x := by
  obtain ⟨m, f, _, h2, rfl⟩ := h
  obtain ⟨d, rfl⟩ := Int.le.dest h2
  refine ⟨m * 2 ^ d, ?_⟩
  rw [zpow_add₀ (by norm_num), zpow_natCast]; push_cast; ring

theorem OnGrid.add {e : ℤ} {x y : ℝ} (hx : OnGrid e x) (hy : OnGrid e y) : OnGrid e (x + y) := by
  obtain ⟨a, rfl⟩ := hx
  obtain ⟨b, rfl⟩ := hy
  exact ⟨a + b, by push_cast; ring⟩

theorem OnGrid.sub {e : ℤ} {x y : ℝ} (hx : OnGrid e x) (hy : OnGrid e y) : OnGrid e (x - y) := by
  obtain ⟨a, rfl⟩ := hx
  obtain ⟨b, rfl⟩ := hy
  exact ⟨a - b, by push_cast; ring⟩

theorem abs_lt_expo {p : Nat} (x : ℝ) : |x| < (2 : ℝ) ^ ((p : ℤ) + expo p x) := by
  have h2 := Int.lt_zpow_succ_log_self (b := 2) (by norm_num) |x|
  push_cast at h2
  refine lt_of_lt_of_eq h2 ?_
  unfold expo; congr 1; ring

/-- A multiple of `2^emin` that is small enough is representable. -/
theorem OnGrid.rep {p : Nat} {e : ℤ} {x : ℝ} (h : OnGrid e x) (hx : |x| ≤ (2 : ℝ) ^ ((p : ℤ) + e)) : RepMin p e x := by
  obtain ⟨k, rfl⟩ := h
  refine ⟨k, e, ?_, le_refl _, rfl⟩
  have h3 : (0 : ℝ) < (2 : ℝ) ^ e := zpow_pos (by norm_num) _
  rw [abs_mul, abs_of_pos h3, zpow_add₀ (by norm_num), mul_le_mul_iff_left₀ h3, zpow_natCast] at hx
  exact_mod_cast hx

/-- A nearest number of the format, if there were no largest one. -/
noncomputable def nearestMin (p : Nat) (emin : ℤ) (x : ℝ) : ℝ :=
  if emin ≤ expo p x then nearest p x else (round (x / (2 : ℝ) ^ emin) : ℤ) * (2 : ℝ) ^ emin

theorem round_grid (e : ℤ) (x : ℝ) :
    |(round (x / (2 : ℝ) ^ e) : ℤ) * (2 : ℝ) ^ e - x| ≤ (2 : ℝ) ^ e / 2 ∧
    ∀ k : ℤ, |(round (x / (2 : ℝ) ^ e) : ℤ) * (2 : ℝ) ^ e - x| ≤ |(k : ℝ) * (2 : ℝ) ^ e - x| := by
  have h3 : (0 : ℝ) < (2 : ℝ) ^ e := zpow_pos (by norm_num) _
  have e1 : ∀ z : ℤ, |(z : ℝ) * (2 : ℝ) ^ e - x| = |x / (2 : ℝ) ^ e - z| * (2 : ℝ) ^ e := by
    intro z
    rw [← abs_of_pos h3, ← abs_mul, abs_of_pos h3, sub_mul, div_mul_cancel₀ _ h3.ne', abs_sub_comm]
  constructor
  · rw [e1]
    have := mul_le_mul_of_nonneg_right (abs_sub_round (x / (2 : ℝ) ^ e)) h3.le
    linarith
  · intro k
    rw [e1, e1]
    exact mul_le_mul_of_nonneg_right (round_le _ k) h3.le

theorem nearestMin_rep (p : Nat) (emin : ℤ) (x : ℝ) : RepMin p emin (nearestMin p emin x) := by
  unfold nearestMin
  split
  next h =>
    obtain ⟨m, e, h1, h2⟩ := (show ∃ m e : ℤ, |m| ≤ 2 ^ p ∧ e = expo p x ∧ nearest p x = m * (2 : ℝ) ^ e by
      refine ⟨_, _, ?_, rfl, rfl⟩
      obtain ⟨m, e, h1, h2⟩ := nearest_rep (p := p) x
      by_cases hx : x = 0
      · simp [hx]
      have h3 : (0 : ℝ) < (2 : ℝ) ^ expo p x := zpow_pos (by norm_num) _
      have hb : |nearest p x - x| ≤ |(2 : ℝ) ^ ((p : ℤ) + expo p x) - x| ∧
          |nearest p x - x| ≤ |-(2 : ℝ) ^ ((p : ℤ) + expo p x) - x| := by
        have key := (round_grid (expo p x) x).2
        have k1 := key (2 ^ p)
        have k2 := key (-2 ^ p)
        rw [zpow_add₀ (by norm_num), zpow_natCast]
        push_cast at k1 k2
        refine ⟨k1, ?_⟩
        rw [← neg_mul]; exact k2
      have hx1 := abs_lt_expo (p := p) x
      have hn : |nearest p x| ≤ (2 : ℝ) ^ ((p : ℤ) + expo p x) := by
        rw [abs_lt] at hx1
        rw [abs_le]
        have e1 : |(2 : ℝ) ^ ((p : ℤ) + expo p x) - x| = (2 : ℝ) ^ ((p : ℤ) + expo p x) - x := abs_of_pos (by linarith)
        have e2 : |-(2 : ℝ) ^ ((p : ℤ) + expo p x) - x| = (2 : ℝ) ^ ((p : ℤ) + expo p x) + x := by
          rw [abs_of_neg (by linarith)]; ring
        rw [e1, e2] at hb
        have b1 := (abs_le.1 hb.1).2
        have b2 := (abs_le.1 hb.2).1
        constructor <;> linarith
      unfold nearest at hn
      rw [abs_mul, abs_of_pos h3, zpow_add₀ (by norm_num), mul_le_mul_iff_left₀ h3, zpow_natCast] at hn
      exact_mod_cast hn)
    exact ⟨m, e, h1, by rw [h2.1]; exact h, h2.2⟩
  next h =>
    refine OnGrid.rep ⟨_, rfl⟩ ?_
    have hx1 := abs_lt_expo (p := p) x
    have h4 : (2 : ℝ) ^ ((p : ℤ) + expo p x) ≤ (2 : ℝ) ^ ((p : ℤ) + emin) :=
      zpow_le_zpow_right₀ (by norm_num) (by omega)
    have key := (round_grid emin x).2
    have k1 := key (2 ^ p)
    have k2 := key (-2 ^ p)
    have e0 : (2 : ℝ) ^ ((p : ℤ) + emin) = 2 ^ p * (2 : ℝ) ^ emin := by rw [zpow_add₀ (by norm_num), zpow_natCast]
    rw [e0] at h4 ⊢
    push_cast at k1 k2
    have hx2 := abs_lt.1 (lt_of_lt_of_le hx1 h4)
    rw [abs_of_pos (a := 2 ^ p * (2 : ℝ) ^ emin - x) (by linarith)] at k1
    rw [abs_of_neg (a := -2 ^ p * (2 : ℝ) ^ emin - x) (by linarith)] at k2
    have b1 := (abs_le.1 k1).2
    have b2 := (abs_le.1 k2).1
    rw [abs_le]
    constructor <;> linarith

theorem nearestMin_near {p : Nat} (hp : 1 ≤ p) (emin : ℤ) (x y : ℝ) (hy : RepMin p emin y) :
    |nearestMin p emin x - x| ≤ |y - x| := by
  unfold nearestMin
  split
  · exact nearest_near hp x y hy.toRep
  · obtain ⟨k, rfl⟩ := hy.onGrid
    exact (round_grid emin x).2 k

/-- `double` with a rounding to nearest. -/
noncomputable def binary64 : Machine where
  p := 53
  emin := -1074
  top := (2 ^ 53 - 1) * (2 : ℝ) ^ 971
  emin_le := by norm_num
  top_le := by
    have : (1 : ℝ) ≤ (2 : ℝ) ^ 971 := one_le_pow₀ (by norm_num)
    exact one_le_mul_of_one_le_of_one_le (by norm_num) this
  top_rep := ⟨2 ^ 53 - 1, 971, by norm_num, by norm_num, by
    push_cast
    congr 1
    norm_num⟩
  fl := nearestMin 53 (-1074)
  rep := nearestMin_rep 53 (-1074)
  near := nearestMin_near (by norm_num) (-1074)

theorem binary64_isDouble : IsDouble binary64 := ⟨rfl, rfl, rfl⟩

namespace Machine

variable (D : Machine)

theorem top_pos : 0 < D.top := lt_of_lt_of_le zero_lt_one D.top_le
theorem tiny_pos : 0 < tiny D := by
  unfold tiny
  have : (0 : ℝ) < (2 : ℝ) ^ D.emin := zpow_pos (by norm_num) _
  linarith

theorem exact {x : ℝ} (h : RepMin D.p D.emin x) : D.fl x = x := by
  have := D.near x x h
  rw [sub_self, abs_zero] at this
  have := abs_nonpos_iff.1 this
  linarith

theorem fl_zero : D.fl 0 = 0 := D.exact (Num.rep (D := D) 0)

/-- One rounding. -/
theorem error (x : ℝ) : |D.fl x - x| ≤ ulp D * |x| + tiny D := by
  have hu := unit_pos (p := D.p)
  have hx := abs_nonneg x
  have ht := D.tiny_pos
  by_cases h : D.emin ≤ expo D.p x
  · have h1 := nearestMin_rep D.p D.emin x
    have h2 := D.near x _ h1
    unfold nearestMin at h2
    rw [if_pos h] at h2
    have h3 := nearest_error (p := D.p) x
    unfold ulp
    linarith
  · have h1 := nearestMin_rep D.p D.emin x
    have h2 := D.near x _ h1
    unfold nearestMin at h2
    rw [if_neg h] at h2
    have h3 := (round_grid D.emin x).1
    unfold ulp tiny
    have : 0 ≤ unit D.p * |x| := mul_nonneg hu.le hx
    linarith

/-- One rounding of a multiple of the smallest positive number. -/
theorem grid_error {x : ℝ} (hg : OnGrid D.emin x) : |D.fl x - x| ≤ ulp D * |x| := by
  have hu := unit_pos (p := D.p)
  by_cases h : D.emin ≤ expo D.p x
  · have h1 := nearestMin_rep D.p D.emin x
    have h2 := D.near x _ h1
    unfold nearestMin at h2
    rw [if_pos h] at h2
    have h3 := nearest_error (p := D.p) x
    unfold ulp
    linarith
  · have hx1 := abs_lt_expo (p := D.p) x
    have h4 : (2 : ℝ) ^ ((D.p : ℤ) + expo D.p x) ≤ (2 : ℝ) ^ ((D.p : ℤ) + D.emin) :=
      zpow_le_zpow_right₀ (by norm_num) (by omega)
    rw [D.exact (hg.rep (by linarith)), sub_self, abs_zero]
    exact mul_nonneg hu.le (abs_nonneg x)

/-- Rounding stays below the representable bounds. -/
theorem abs_fl_le {x t : ℝ} (ht : RepMin D.p D.emin t) (h : |x| ≤ t) : |D.fl x| ≤ t := by
  rw [abs_le] at h
  have h1 := D.near x t ht
  have h2 := D.near x (-t) ht.neg
  rw [abs_of_nonneg (by linarith : 0 ≤ t - x)] at h1
  rw [abs_of_nonpos (by linarith : -t - x ≤ 0)] at h2
  have h3 := (abs_le.1 h1).2
  have h4 := (abs_le.1 h2).1
  rw [abs_le]
  constructor <;> linarith

/-- A sum or difference of two numbers is rounded to zero only if it is zero. -/
theorem fl_eq_zero {x : ℝ} (hg : OnGrid D.emin x) (h : D.fl x = 0) : x = 0 := by
  obtain ⟨k, rfl⟩ := hg
  by_contra hk
  have hk0 : k ≠ 0 := by rintro rfl; simp at hk
  have h3 : (0 : ℝ) < (2 : ℝ) ^ D.emin := zpow_pos (by norm_num) _
  have hr : RepMin D.p D.emin ((k.sign : ℝ) * (2 : ℝ) ^ D.emin) := ⟨k.sign, D.emin, by
    have : |k.sign| ≤ 1 := by
      rcases lt_trichotomy k 0 with h | h | h
      · simp [Int.sign_eq_neg_one_of_neg h]
      · simp [h]
      · simp [Int.sign_eq_one_of_pos h]
    exact le_trans this (one_le_pow₀ (by norm_num)), le_refl _, rfl⟩
  have h1 := D.near ((k : ℝ) * (2 : ℝ) ^ D.emin) _ hr
  rw [h, ← sub_mul, zero_sub, abs_neg, abs_mul, abs_mul, abs_of_pos h3, mul_le_mul_iff_left₀ h3] at h1
  have h2 : |k| ≤ |k.sign - k| := by exact_mod_cast h1
  rcases lt_or_gt_of_ne hk0 with h | h
  · rw [Int.sign_eq_neg_one_of_neg h, abs_of_neg h, abs_of_nonneg (by omega)] at h2
    omega
  · rw [Int.sign_eq_one_of_pos h, abs_of_pos h, abs_of_nonpos (by omega)] at h2
    omega

end Machine

namespace Ext

variable {D : Machine}

theorem ofReal_fin {x : ℝ} (h : |D.fl x| ≤ D.top) : ofReal D x = fin ⟨D.fl x, D.rep x, h⟩ := dif_pos h

theorem ofReal_of_le {x : ℝ} (h : |x| ≤ D.top) : ofReal D x = fin ⟨D.fl x, D.rep x, D.abs_fl_le D.top_rep h⟩ :=
  ofReal_fin _

theorem real_ofReal {x : ℝ} (h : IsFinite (ofReal D x)) : real (ofReal D x) = D.fl x := by
  by_cases h1 : |D.fl x| ≤ D.top
  · rw [ofReal_fin h1]; rfl
  · unfold ofReal at h
    rw [dif_neg h1] at h
    obtain ⟨y, hy⟩ := h
    split at hy <;> cases hy

theorem ofReal_not_nan (x : ℝ) : ofReal D x ≠ nan := by
  unfold ofReal
  split
  · simp
  · split <;> simp

theorem finite_of_le {x : ℝ} (h : |x| ≤ D.top) : IsFinite (ofReal D x) := by
  rw [ofReal_of_le h]; exact ⟨_, rfl⟩

theorem fin_add' (x y : Num D) : (fin x + fin y : Ext (Num D)) = ofReal D (x.val + y.val) := rfl
theorem fin_sub' (x y : Num D) : (fin x - fin y : Ext (Num D)) = ofReal D (x.val - y.val) := rfl
theorem fin_mul' (x y : Num D) : (fin x * fin y : Ext (Num D)) = ofReal D (x.val * y.val) := rfl
theorem fin_div' {x y : Num D} (h : y ≠ 0) : (fin x / fin y : Ext (Num D)) = ofReal D (x.val / y.val) := if_neg h

theorem infTimes_inf (x : Num D) : ¬ IsFinite (infTimes x) := by
  unfold infTimes
  rintro ⟨y, hy⟩
  split at hy
  · cases hy
  · split at hy <;> cases hy

theorem ninfTimes_inf (x : Num D) : ¬ IsFinite (ninfTimes x) := by
  unfold ninfTimes
  rintro ⟨y, hy⟩
  split at hy
  · cases hy
  · split at hy <;> cases hy

theorem add_finite {x y : Ext (Num D)} (h : IsFinite (x + y)) :
    IsFinite x ∧ IsFinite y ∧ real (x + y) = D.fl (real x + real y) := by
  cases x <;> cases y <;> first
    | exact ⟨⟨_, rfl⟩, ⟨_, rfl⟩, real_ofReal h⟩
    | (obtain ⟨z, hz⟩ := h; cases hz)

theorem sub_finite {x y : Ext (Num D)} (h : IsFinite (x - y)) :
    IsFinite x ∧ IsFinite y ∧ real (x - y) = D.fl (real x - real y) := by
  cases x <;> cases y <;> first
    | exact ⟨⟨_, rfl⟩, ⟨_, rfl⟩, real_ofReal h⟩
    | (obtain ⟨z, hz⟩ := h; cases hz)

theorem mul_finite {x y : Ext (Num D)} (h : IsFinite (x * y)) :
    IsFinite x ∧ IsFinite y ∧ real (x * y) = D.fl (real x * real y) := by
  cases x <;> cases y <;> first
    | exact ⟨⟨_, rfl⟩, ⟨_, rfl⟩, real_ofReal h⟩
    | exact absurd h (infTimes_inf _)
    | exact absurd h (ninfTimes_inf _)
    | (obtain ⟨z, hz⟩ := h; cases hz)

theorem div_finite {x y : Ext (Num D)} (hy : IsFinite y) (h : IsFinite (x / y)) :
    IsFinite x ∧ real y ≠ 0 ∧ real (x / y) = D.fl (real x / real y) := by
  obtain ⟨y, rfl⟩ := hy
  by_cases h0 : y = 0
  · subst h0
    cases x with
    | fin x => exact absurd (show IsFinite (infTimes x) by simpa using (show (fin x / fin (0 : Num D)) = infTimes x from if_pos rfl) ▸ h) (infTimes_inf _)
    | pinf => obtain ⟨z, hz⟩ := h; rw [show (pinf / fin (0 : Num D) : Ext (Num D)) = pinf from if_neg (lt_irrefl _)] at hz; cases hz
    | ninf => obtain ⟨z, hz⟩ := h; rw [show (ninf / fin (0 : Num D) : Ext (Num D)) = ninf from if_neg (lt_irrefl _)] at hz; cases hz
    | nan => obtain ⟨z, hz⟩ := h; cases hz
  · cases x with
    | fin x =>
      refine ⟨⟨x, rfl⟩, fun hc => h0 (Num.val_injective hc), ?_⟩
      rw [fin_div' h0] at h ⊢
      exact real_ofReal h
    | pinf =>
      obtain ⟨z, hz⟩ := h
      have : (pinf / fin y : Ext (Num D)) = if y < 0 then ninf else pinf := rfl
      rw [this] at hz; split at hz <;> cases hz
    | ninf =>
      obtain ⟨z, hz⟩ := h
      have : (ninf / fin y : Ext (Num D)) = if y < 0 then pinf else ninf := rfl
      rw [this] at hz; split at hz <;> cases hz
    | nan => obtain ⟨z, hz⟩ := h; cases hz

theorem finite_real {x : Ext (Num D)} (h : IsFinite x) :
    RepMin D.p D.emin (real x) ∧ |real x| ≤ D.top := by
  obtain ⟨y, rfl⟩ := h
  exact ⟨y.rep, y.le⟩

theorem real_inj {x y : Ext (Num D)} (hx : IsFinite x) (hy : IsFinite y) (h : real x = real y) : x = y := by
  obtain ⟨x, rfl⟩ := hx
  obtain ⟨y, rfl⟩ := hy
  rw [Num.val_injective h]

theorem add_of_le {x y : Ext (Num D)} (hx : IsFinite x) (hy : IsFinite y) (h : |real x + real y| ≤ D.top) :
    IsFinite (x + y) := by
  obtain ⟨x, rfl⟩ := hx
  obtain ⟨y, rfl⟩ := hy
  exact finite_of_le h

theorem sub_of_le {x y : Ext (Num D)} (hx : IsFinite x) (hy : IsFinite y) (h : |real x - real y| ≤ D.top) :
    IsFinite (x - y) := by
  obtain ⟨x, rfl⟩ := hx
  obtain ⟨y, rfl⟩ := hy
  exact finite_of_le h

theorem mul_of_le {x y : Ext (Num D)} (hx : IsFinite x) (hy : IsFinite y) (h : |real x * real y| ≤ D.top) :
    IsFinite (x * y) := by
  obtain ⟨x, rfl⟩ := hx
  obtain ⟨y, rfl⟩ := hy
  exact finite_of_le h

theorem div_of_le {x y : Ext (Num D)} (hx : IsFinite x) (hy : IsFinite y) (h0 : real y ≠ 0)
    (h : |real x / real y| ≤ D.top) : IsFinite (x / y) := by
  obtain ⟨x, rfl⟩ := hx
  obtain ⟨y, rfl⟩ := hy
  rw [fin_div' (fun hc => h0 (by rw [hc]; rfl))]
  exact finite_of_le h

theorem absReals_nonneg (l : List (Ext (Num D))) : 0 ≤ (absReals l).sum := by
  apply List.sum_nonneg
  intro x hx
  obtain ⟨y, _, rfl⟩ := List.mem_map.1 hx
  exact abs_nonneg _

/-- The error of one addition. -/
theorem add_err {x y : Ext (Num D)} (h : IsFinite (x + y)) :
    |real (x + y) - (real x + real y)| ≤ ulp D * |real x + real y| := by
  obtain ⟨hx, hy, e⟩ := add_finite h
  rw [e]
  exact D.grid_error ((finite_real hx).1.onGrid.add (finite_real hy).1.onGrid)

theorem sub_err {x y : Ext (Num D)} (h : IsFinite (x - y)) :
    |real (x - y) - (real x - real y)| ≤ ulp D * |real x - real y| := by
  obtain ⟨hx, hy, e⟩ := sub_finite h
  rw [e]
  exact D.grid_error ((finite_real hx).1.onGrid.sub (finite_real hy).1.onGrid)

theorem mul_err {x y : Ext (Num D)} (h : IsFinite (x * y)) :
    |real (x * y) - real x * real y| ≤ ulp D * |real x * real y| + tiny D := by
  obtain ⟨hx, hy, e⟩ := mul_finite h
  rw [e]
  exact D.error _

/-- The error of a running sum. -/
theorem fold_err : ∀ (l : List (Ext (Num D))) (acc : Ext (Num D)), IsFinite (l.foldl (· + ·) acc) →
    IsFinite acc ∧ (∀ x ∈ l, IsFinite x) ∧
    |real (l.foldl (· + ·) acc) - (real acc + (reals l).sum)| ≤
      growth D.p l.length * (|real acc| + (absReals l).sum)
  | [], acc, h => by simpa [reals, absReals, growth_zero] using h
  | x :: l, acc, h => by
    obtain ⟨ih1, ih2, ih⟩ := fold_err l (acc + x) h
    obtain ⟨hf1, hf2, _⟩ := add_finite ih1
    refine ⟨hf1, List.forall_mem_cons.2 ⟨hf2, ih2⟩, ?_⟩
    have he := add_err ih1
    have hab := abs_add_le (real acc) (real x)
    have hg := growth_nonneg (p := D.p) l.length
    have hu := unit_pos (p := D.p)
    have hT := absReals_nonneg l
    unfold ulp at he
    simp only [List.foldl_cons, List.length_cons, reals, absReals, List.map_cons, List.sum_cons] at ih hT ⊢
    rw [growth_succ]
    set S := real (acc + x)
    have ha : |S| ≤ (1 + unit D.p) * |real acc + real x| := by
      have := abs_add_le (S - (real acc + real x)) (real acc + real x)
      rw [sub_add_cancel] at this
      linarith
    have h1 := abs_add_le (real (l.foldl (· + ·) (acc + x)) - (S + (l.map real).sum)) (S - (real acc + real x))
    rw [show real (l.foldl (· + ·) (acc + x)) - (S + (l.map real).sum) + (S - (real acc + real x)) =
      real (l.foldl (· + ·) (acc + x)) - (real acc + (real x + (l.map real).sum)) by ring] at h1
    set T := (l.map fun x => |real x|).sum
    set g := growth D.p l.length
    set u := unit D.p
    have h2 : g * (|S| + T) ≤ g * ((1 + u) * (|real acc| + |real x|) + T) :=
      mul_le_mul_of_nonneg_left (by nlinarith) hg
    have h3 : u * |real acc + real x| ≤ u * (|real acc| + |real x|) := mul_le_mul_of_nonneg_left hab hu.le
    nlinarith [mul_nonneg hg (mul_nonneg hu.le hT), mul_nonneg hu.le hT]

/-- A running sum does not overflow when the sum of the absolute values is small enough. -/
theorem fold_of_le : ∀ (l : List (Ext (Num D))) (acc : Ext (Num D)), IsFinite acc → (∀ x ∈ l, IsFinite x) →
    (1 + growth D.p l.length) * (|real acc| + (absReals l).sum) ≤ D.top → IsFinite (l.foldl (· + ·) acc)
  | [], acc, h, _, _ => h
  | x :: l, acc, h, hl, hb => by
    have hx := hl x (by simp)
    have hg := growth_nonneg (p := D.p) l.length
    have hu := unit_pos (p := D.p)
    have hT := absReals_nonneg l
    have hab := abs_add_le (real acc) (real x)
    simp only [List.length_cons, absReals, List.map_cons, List.sum_cons] at hb hT
    rw [growth_succ] at hb
    set T := (l.map fun x => |real x|).sum
    have h0 : 0 ≤ |real acc + real x| := abs_nonneg _
    have key : (1 + growth D.p l.length) * ((1 + unit D.p) * |real acc + real x| + T) ≤ D.top := by
      refine le_trans ?_ hb
      have : (1 + growth D.p l.length) * ((1 + unit D.p) * |real acc + real x| + T) ≤
          (1 + growth D.p l.length) * ((1 + unit D.p) * (|real acc| + |real x| + T)) :=
        mul_le_mul_of_nonneg_left (by nlinarith) (by linarith)
      refine le_trans this (le_of_eq ?_)
      ring
    have hs : IsFinite (acc + x) := add_of_le h hx (by nlinarith [mul_nonneg hg h0, mul_nonneg hu.le h0, mul_nonneg hg hT, mul_nonneg hg (mul_nonneg hu.le h0)])
    refine fold_of_le l (acc + x) hs (fun y hy => hl y (by simp [hy])) (le_trans (mul_le_mul_of_nonneg_left ?_ (by linarith)) key)
    have he := add_err hs
    unfold ulp at he
    have := abs_add_le (real (acc + x) - (real acc + real x)) (real acc + real x)
    rw [sub_add_cancel] at this
    show |real (acc + x)| + T ≤ _
    linarith

/-- A sum of terms that have errors of their own. -/
theorem terms_err {γ : Type} (ps : List γ) (f : γ → Ext (Num D)) (e A : γ → ℝ) (m : Nat) {t : ℝ}
    (h : ∀ q ∈ ps, IsFinite (f q) → |real (f q) - e q| ≤ growth D.p m * A q + t) (hA : ∀ q ∈ ps, |e q| ≤ A q)
    (hfin : IsFinite ((ps.map f).foldl (· + ·) 0)) :
    (∀ q ∈ ps, IsFinite (f q)) ∧
    |real ((ps.map f).foldl (· + ·) 0) - (ps.map e).sum| ≤
      growth D.p (ps.length + m) * (ps.map A).sum + (1 + growth D.p ps.length) * (ps.length * t) := by
  obtain ⟨_, h2, h3⟩ := fold_err (ps.map f) 0 hfin
  have hf : ∀ q ∈ ps, IsFinite (f q) := fun q hq => h2 _ (List.mem_map.2 ⟨q, hq, rfl⟩)
  refine ⟨hf, ?_⟩
  have hg := growth_nonneg (p := D.p) ps.length
  have hm := growth_nonneg (p := D.p) m
  have key : ∀ l : List γ, (∀ q ∈ l, IsFinite (f q)) → (∀ q ∈ l, q ∈ ps) →
      |(reals (l.map f)).sum - (l.map e).sum| ≤ growth D.p m * (l.map A).sum + l.length * t ∧
      (absReals (l.map f)).sum ≤ (1 + growth D.p m) * (l.map A).sum + l.length * t := by
    intro l
    induction l with
    | nil => intro _ _; simp [reals, absReals]
    | cons q l ih =>
      intro h1 h2
      obtain ⟨i1, i2⟩ := ih (fun q hq => h1 q (by simp [hq])) (fun q hq => h2 q (by simp [hq]))
      have a1 := h q (h2 q (by simp)) (h1 q (by simp))
      have a2 := hA q (h2 q (by simp))
      simp only [reals, absReals, List.map_cons, List.sum_cons, List.length_cons] at i1 i2 ⊢
      push_cast
      constructor
      · have := abs_add_le (real (f q) - e q) ((((l.map f).map real).sum) - (l.map e).sum)
        rw [show real (f q) - e q + (((l.map f).map real).sum - (l.map e).sum) =
          real (f q) + ((l.map f).map real).sum - (e q + (l.map e).sum) by ring] at this
        linarith
      · have := abs_add_le (real (f q) - e q) (e q)
        rw [sub_add_cancel] at this
        linarith
  obtain ⟨k1, k2⟩ := key ps hf (fun _ h => h)
  simp only [show real (0 : Ext (Num D)) = 0 from rfl, abs_zero, zero_add, List.length_map] at h3
  have h4 := abs_add_le (real ((ps.map f).foldl (· + ·) 0) - (reals (ps.map f)).sum) ((reals (ps.map f)).sum - (ps.map e).sum)
  rw [sub_add_sub_cancel] at h4
  rw [growth_add]
  have h5 := mul_le_mul_of_nonneg_left k2 hg
  nlinarith

end Ext

end DF
