import Verif.Spec.Digits
import Verif.Lemmas.FloatMore

/-!
# Rounding to even, factors that commute with rounding
-/

namespace DF

open Spec

variable {p : Nat} {R : Rounding p}

namespace Rounding

/-- The rounding of the opposite number. -/
def mirror (R : Rounding p) : Rounding p := ⟨fun x => -R.fl (-x), fun x => neg_rep (R.rep _), fun x y hy => by
  have := R.near (-x) (-y) (neg_rep hy)
  rw [show -R.fl (-x) - x = -(R.fl (-x) - -x) by ring, abs_neg]
  refine this.trans (le_of_eq ?_)
  rw [← abs_neg]; congr 1; ring⟩

/-- The rounded value, from the number nearby. -/
theorem eq_near (R : Rounding p) (hp : 1 ≤ p) {x : ℝ} {m : ℕ} {e : ℤ} (h1 : 2 ^ p ≤ 2 * m) (h2 : m ≤ 2 ^ p)
    (hx : (2 : ℝ) ^ p * (2 : ℝ) ^ (e - 1) ≤ x) (h3 : |(m : ℝ) * (2 : ℝ) ^ e - x| < (2 : ℝ) ^ (e - 1)) :
    R.fl x = m * (2 : ℝ) ^ e := by
  obtain ⟨q, rfl⟩ := Nat.exists_eq_succ_of_ne_zero (show p ≠ 0 by omega)
  have e1 : (2 : ℤ) ^ q.succ = 2 * ((2 ^ q : ℕ) : ℤ) := by push_cast; rw [pow_succ]; ring
  have e2 : (2 : ℝ) ^ e = 2 * (2 : ℝ) ^ (e - 1) := by rw [zpow_sub₀ (by norm_num), zpow_one]; ring
  have he : (0 : ℝ) < (2 : ℝ) ^ (e - 1) := zpow_pos (by norm_num) _
  have e3 : 2 ^ q.succ = 2 * 2 ^ q := by rw [Nat.pow_succ]; ring
  rcases Nat.lt_or_ge (2 ^ q.succ) (2 * m) with h | h
  · have h' : (2 : ℤ) ^ q.succ ≤ 2 * ((m : ℤ) - 1) := by
      have : ((2 ^ q : ℕ) : ℤ) + 1 ≤ m := by exact_mod_cast (show 2 ^ q + 1 ≤ m by omega)
      omega
    exact_mod_cast R.eq_of_close (k := m) h' (by exact_mod_cast h2) h3
  · have hm : (m : ℝ) * (2 : ℝ) ^ e = (2 : ℝ) ^ q.succ * (2 : ℝ) ^ (e - 1) := by
      have : m = 2 ^ q := by omega
      rw [this, e2, pow_succ]; push_cast; ring
    have hrep : Representable (q.succ) ((m : ℝ) * (2 : ℝ) ^ e) := ⟨m, e, by
      rw [abs_of_nonneg (by positivity)]; exact_mod_cast h2, by simp⟩
    have hlo := R.mono hx
    rw [← hm, R.exact hrep] at hlo
    rcases hlo.eq_or_lt with hlo | hlo
    · exact hlo.symm
    · exfalso
      have hn := lt_of_le_of_lt (R.near x _ hrep) h3
      rw [abs_lt] at hn h3
      obtain ⟨k, hk⟩ := (R.rep x).multiple (e := e) (by
        rw [← hm]; exact lt_of_lt_of_le hlo (le_abs_self _))
      have hep : (0 : ℝ) < (2 : ℝ) ^ e := zpow_pos (by norm_num) _
      have a1 : (m : ℝ) < k := by rw [hk] at hlo; exact lt_of_mul_lt_mul_right hlo hep.le
      have a2 : (k : ℝ) < m + 1 := by
        have : (k : ℝ) * (2 : ℝ) ^ e < (m + 1) * (2 : ℝ) ^ e := by rw [← hk, add_mul, one_mul]; linarith
        exact lt_of_mul_lt_mul_right this hep.le
      have b1 : (m : ℤ) < k := by exact_mod_cast a1
      have b2 : k < (m : ℤ) + 1 := by exact_mod_cast a2
      omega

/-- The rounded value of a positive number that is not a tie. -/
theorem eq_between (R : Rounding p) (hp : 1 ≤ p) {m : ℕ} {e : ℤ} {f : ℝ} (h1 : 2 ^ p ≤ 2 * m) (h2 : m < 2 ^ p) (hf : 0 ≤ f)
    (hf1 : f < 1) (ht : f ≠ 1 / 2) :
    R.fl ((m + f) * (2 : ℝ) ^ e) = (if f < 1 / 2 then (m : ℝ) else m + 1) * (2 : ℝ) ^ e := by
  have e2 : (2 : ℝ) ^ e = 2 * (2 : ℝ) ^ (e - 1) := by rw [zpow_sub₀ (by norm_num), zpow_one]; ring
  have he : (0 : ℝ) < (2 : ℝ) ^ (e - 1) := zpow_pos (by norm_num) _
  have hm : (2 : ℝ) ^ p ≤ 2 * m := by exact_mod_cast h1
  have hx : (2 : ℝ) ^ p * (2 : ℝ) ^ (e - 1) ≤ (m + f) * (2 : ℝ) ^ e := by rw [e2]; nlinarith
  split
  · rename_i hc
    refine R.eq_near hp h1 h2.le hx ?_
    rw [e2, abs_lt]
    constructor <;> nlinarith
  · rename_i hc
    have hc' : 1 / 2 < f := lt_of_le_of_ne (not_lt.1 hc) (Ne.symm ht)
    have := R.eq_near hp (m := m + 1) (by omega) (by omega) hx (by
      rw [e2, abs_lt]
      push_cast
      constructor <;> nlinarith)
    rw [this]; push_cast; ring

end Rounding

/-- Every positive number lies between two consecutive numbers with `p` digits. -/
theorem exists_digits {x : ℝ} (hx : 0 < x) (hp : 1 ≤ p) :
    ∃ (m : ℕ) (e : ℤ) (f : ℝ), 2 ^ p ≤ 2 * m ∧ m < 2 ^ p ∧ 0 ≤ f ∧ f < 1 ∧ x = (m + f) * (2 : ℝ) ^ e := by
  obtain ⟨a, b⟩ := scaled_abs (p := p) hx.ne'
  rw [abs_of_pos hx] at a b
  have h3 : (0 : ℝ) < (2 : ℝ) ^ expo p x := zpow_pos (by norm_num) _
  set y := x / (2 : ℝ) ^ expo p x with hy
  have hy0 : 0 ≤ y := (div_pos hx h3).le
  refine ⟨⌊y⌋₊, expo p x, y - ⌊y⌋₊, ?_, ?_, ?_, ?_, ?_⟩
  · obtain ⟨q, rfl⟩ := Nat.exists_eq_succ_of_ne_zero (show p ≠ 0 by omega)
    have : 2 ^ q ≤ ⌊y⌋₊ := Nat.le_floor (by
      rw [show ((q.succ : ℕ) : ℤ) - 1 = (q : ℤ) by push_cast; ring, zpow_natCast] at a
      exact_mod_cast a)
    rw [Nat.pow_succ]; omega
  · have := lt_of_le_of_lt (Nat.floor_le hy0) b
    exact_mod_cast this
  · exact sub_nonneg.2 (Nat.floor_le hy0)
  · linarith [Nat.lt_floor_add_one y]
  · rw [add_sub_cancel, hy, div_mul_cancel₀ _ h3.ne']

theorem ties_pos (h : TiesToEven R) (hp : 1 ≤ p) (d : ℤ) {x : ℝ} (hx : 0 < x) {s : ℝ} (hs : s = 1 ∨ s = -1) :
    R.fl (s * ((2 : ℝ) ^ d * x)) = s * ((2 : ℝ) ^ d * R.fl x) := by
  obtain ⟨m, e, f, h1, h2, h3, h4, rfl⟩ := exists_digits hx hp
  have e1 : (2 : ℝ) ^ d * ((m + f) * (2 : ℝ) ^ e) = (m + f) * (2 : ℝ) ^ (d + e) := by rw [zpow_add₀ (by norm_num)]; ring
  have e2 : ∀ y : ℝ, (2 : ℝ) ^ d * (y * (2 : ℝ) ^ e) = y * (2 : ℝ) ^ (d + e) := fun y => by rw [zpow_add₀ (by norm_num)]; ring
  by_cases ht : f = 1 / 2
  · subst ht
    have := h m e h1 h2 1 (.inl rfl)
    rw [one_mul, one_mul] at this
    rw [e1, h m (d + e) h1 h2 s hs, this, e2]
  · rw [e1, R.eq_between hp h1 h2 h3 h4 ht, e2]
    rcases hs with rfl | rfl
    · rw [one_mul, one_mul, R.eq_between hp h1 h2 h3 h4 ht]
    · have := (R.mirror).eq_between hp (e := d + e) h1 h2 h3 h4 ht
      rw [neg_one_mul, neg_one_mul, ← this]
      exact (neg_neg _).symm

/-- With ties to even, powers of two and their opposites commute with rounding. -/
theorem ties_exactFactor (h : TiesToEven R) (hp : 1 ≤ p) (d : ℤ) :
    ExactFactor R ((2 : ℝ) ^ d) ∧ ExactFactor R (-(2 : ℝ) ^ d) := by
  have h0 : R.fl 0 = 0 := R.exact Rounding.zero_rep
  have key : ∀ s : ℝ, s = 1 ∨ s = -1 → ∀ x, R.fl (s * ((2 : ℝ) ^ d * x)) = s * ((2 : ℝ) ^ d * R.fl x) := by
    intro s hs x
    rcases lt_trichotomy x 0 with hx | rfl | hx
    · have hn : 0 < -x := neg_pos.2 hx
      have a := ties_pos h hp d hn (s := -s) (by rcases hs with rfl | rfl <;> simp)
      have b := ties_pos h hp 0 hn (s := -1) (.inr rfl)
      rw [zpow_zero, one_mul, one_mul, neg_one_mul, neg_neg, neg_one_mul] at b
      rw [show s * ((2 : ℝ) ^ d * x) = -s * ((2 : ℝ) ^ d * -x) by ring, a, b]; ring
    · rw [mul_zero, mul_zero, h0, mul_zero, mul_zero]
    · exact ties_pos h hp d hx hs
  refine ⟨fun x => by simpa using key 1 (.inl rfl) x, fun x => ?_⟩
  have := key (-1) (.inr rfl) x
  rw [neg_one_mul, neg_one_mul] at this
  rw [neg_mul, this, neg_mul]

/-! ### ties to even exist -/

/-- Rounding to an integer, ties to even. -/
noncomputable def evenRound (y : ℝ) : ℤ := if Int.fract y = 1 / 2 then (if Even ⌊y⌋ then ⌊y⌋ else ⌊y⌋ + 1) else round y

theorem evenRound_dist (y : ℝ) : |y - evenRound y| = |y - round y| := by
  unfold evenRound
  split
  · rename_i h
    rw [abs_sub_round_eq_min, h]
    have hf : y - ⌊y⌋ = 1 / 2 := h
    split
    · rw [hf]; norm_num
    · push_cast
      rw [show y - ((⌊y⌋ : ℝ) + 1) = -(1 / 2) by linarith]; norm_num
  · rfl

/-- The nearest number, ties to even. -/
noncomputable def nearestEven (p : Nat) (x : ℝ) : ℝ := (evenRound (x / (2 : ℝ) ^ expo p x) : ℤ) * (2 : ℝ) ^ expo p x

theorem nearestEven_dist (x : ℝ) : |nearestEven p x - x| = |nearest p x - x| := by
  have h3 : (0 : ℝ) < (2 : ℝ) ^ expo p x := zpow_pos (by norm_num) _
  have e : ∀ z : ℤ, |(z : ℝ) * (2 : ℝ) ^ expo p x - x| = |x / (2 : ℝ) ^ expo p x - z| * (2 : ℝ) ^ expo p x := by
    intro z
    rw [← abs_of_pos h3, ← abs_mul, abs_of_pos h3, sub_mul, div_mul_cancel₀ _ h3.ne', abs_sub_comm]
  exact (e _).trans ((congrArg (· * _) (evenRound_dist _)).trans (e _).symm)

theorem evenRound_le {y : ℝ} {n : ℕ} (h : |y| < n) : |evenRound y| ≤ n := by
  have h1 := evenRound_dist y
  have h2 := abs_sub_round y
  rw [← h1, abs_le] at h2
  rw [abs_lt] at h
  rw [abs_le]
  constructor
  · have : (-(n : ℝ)) - 1 < evenRound y := by linarith
    have : (-(n : ℤ)) - 1 < evenRound y := by exact_mod_cast this
    omega
  · have : (evenRound y : ℝ) < n + 1 := by linarith
    have : evenRound y < (n : ℤ) + 1 := by exact_mod_cast this
    omega

/-- Rounding to nearest, ties to even. -/
noncomputable def Rounding.even (p : Nat) (hp : 1 ≤ p) : Rounding p := ⟨nearestEven p, fun x => by
  refine ⟨evenRound (x / (2 : ℝ) ^ expo p x), expo p x, ?_, rfl⟩
  by_cases hx : x = 0
  · subst hx
    simp [evenRound]
  · have h3 : (0 : ℝ) < (2 : ℝ) ^ expo p x := zpow_pos (by norm_num) _
    have h := (scaled_abs (p := p) hx).2
    exact_mod_cast evenRound_le (n := 2 ^ p) (by rw [abs_div, abs_of_pos h3]; exact_mod_cast h),
  fun x y hy => (nearestEven_dist x).le.trans (nearest_near hp x y hy)⟩

theorem log_digits {m : ℕ} {e : ℤ} {f : ℝ} (h1 : 2 ^ p ≤ 2 * m) (h2 : m < 2 ^ p) (h3 : 0 ≤ f) (h4 : f < 1) {x : ℝ}
    (hx : |x| = (m + f) * (2 : ℝ) ^ e) : expo p x = e := by
  have he : (0 : ℝ) < (2 : ℝ) ^ e := zpow_pos (by norm_num) _
  have hm0 : (2 : ℝ) ^ p ≤ 2 * m := by exact_mod_cast h1
  have hm1 : (m : ℝ) + 1 ≤ 2 ^ p := by exact_mod_cast h2
  have hpos : 0 < |x| := by
    rw [hx]
    have : (0 : ℝ) < 2 ^ p := by positivity
    exact mul_pos (by linarith) he
  have a : e + p - 1 ≤ Int.log 2 |x| := by
    rw [← Int.zpow_le_iff_le_log (by norm_num) hpos, hx]
    push_cast
    rw [show e + (p : ℤ) - 1 = e + (p : ℤ) + (-1) by ring, zpow_add₀ (by norm_num), zpow_add₀ (by norm_num), zpow_natCast]
    rw [show (2 : ℝ) ^ (-1 : ℤ) = 1 / 2 by norm_num]
    nlinarith
  have b : Int.log 2 |x| < e + p := by
    rw [← Int.lt_zpow_iff_log_lt (by norm_num) hpos, hx]
    push_cast
    rw [zpow_add₀ (by norm_num), zpow_natCast]
    nlinarith
  unfold expo
  omega

theorem tiesToEven_even (hp : 1 ≤ p) : TiesToEven (Rounding.even p hp) := by
  intro m e h1 h2 s hs
  have he : (0 : ℝ) < (2 : ℝ) ^ e := zpow_pos (by norm_num) _
  have hx : expo p (s * ((m + 1 / 2) * (2 : ℝ) ^ e)) = e := log_digits h1 h2 (f := 1 / 2) (by norm_num) (by norm_num) (by
    rw [abs_mul, abs_of_pos (mul_pos (by positivity) he)]
    rcases hs with rfl | rfl <;> simp)
  show nearestEven p _ = _
  unfold nearestEven
  rw [hx]
  have hdiv : s * ((m + 1 / 2) * (2 : ℝ) ^ e) / (2 : ℝ) ^ e = s * (m + 1 / 2) := by field_simp
  rw [hdiv]
  have key : (evenRound (s * (m + 1 / 2)) : ℝ) = s * (if Even m then (m : ℝ) else m + 1) := by
    rcases hs with rfl | rfl
    · have hfl : ⌊(1 : ℝ) * (m + 1 / 2)⌋ = m := by
        rw [Int.floor_eq_iff]; push_cast; constructor <;> linarith
      have hfr : Int.fract ((1 : ℝ) * (m + 1 / 2)) = 1 / 2 := by
        rw [Int.fract, hfl]; push_cast; ring
      unfold evenRound
      rw [if_pos hfr, hfl]
      by_cases hm : Even m
      · rw [if_pos (by exact_mod_cast hm), if_pos hm]; push_cast; ring
      · rw [if_neg (by exact_mod_cast hm), if_neg hm]; push_cast; ring
    · have hfl : ⌊(-1 : ℝ) * (m + 1 / 2)⌋ = -(m : ℤ) - 1 := by
        rw [Int.floor_eq_iff]; push_cast; constructor <;> linarith
      have hfr : Int.fract ((-1 : ℝ) * (m + 1 / 2)) = 1 / 2 := by
        rw [Int.fract, hfl]; push_cast; ring
      unfold evenRound
      rw [if_pos hfr, hfl]
      by_cases hm : Even m
      · have hodd : ¬ Even (-(m : ℤ) - 1) := by
          have : Even (m : ℤ) := by exact_mod_cast hm
          rw [Int.even_sub]; simp [this]
        rw [if_neg hodd, if_pos hm]; push_cast; ring
      · have hev : Even (-(m : ℤ) - 1) := by
          have : ¬ Even (m : ℤ) := by exact_mod_cast hm
          rw [Int.even_sub]; simp at this; simp [this]
        rw [if_pos hev, if_neg hm]; push_cast; ring
  rw [key]; ring

end DF
