import Verif.Lemmas.FloatStep

/-! # The Jacobi iteration in rounded arithmetic -/

namespace DF

open Spec Matrix

variable {p : Nat} {R : Rounding p} {ε : ℝ}

theorem absv_dbl (x : Dbl R) : (absv x).val = |x.val| := by
  unfold absv
  split
  · rename_i h
    rw [Dbl.val_neg, abs_of_neg (show x.val < 0 from h)]
  · rename_i h
    rw [abs_of_nonneg (not_lt.1 h : (0 : ℝ) ≤ x.val)]

/-- Accuracy bounds the number of digits. -/
theorem digits_of_unit {k : Nat} (hu : unit p ≤ 1 / 2 ^ k) : k ≤ p := by
  unfold unit at hu
  rw [inv_pow, ← one_div, one_div_le_one_div (by positivity) (by positivity)] at hu
  exact (pow_le_pow_iff_right₀ (by norm_num : (1 : ℝ) < 2)).1 hu

theorem one_add_pow {x : ℝ} (hx : 0 ≤ x) : ∀ n : Nat, n * x ≤ 1 / 2 → (1 + x) ^ n - 1 ≤ 2 * n * x
  | 0, _ => by simp
  | n + 1, h => by
    push_cast at h ⊢
    have h' : (n : ℝ) * x ≤ 1 / 2 := by nlinarith
    have := one_add_pow hx n h'
    rw [pow_succ]
    have h2 : (1 + x) ^ n * (1 + x) ≤ (1 + 2 * n * x) * (1 + x) := mul_le_mul_of_nonneg_right (by linarith) (by linarith)
    nlinarith [mul_nonneg hx hx]

/-- The sum of the squares and the variable `thr` that follows it. -/
theorem step_scalars (hu : unit p ≤ ε) (hε : ε ≤ 1 / 2 ^ 40) {S off off' x thr j : ℝ} (hS : 0 ≤ S) (hj0 : 0 ≤ j)
    (hj : 128 * j * ε ≤ 1 / 2) (hx : x ^ 2 ≤ off) (ho : off ≤ S * (1 + 128 * j * ε)) (ht : |thr - off| ≤ 128 * j * ε * S)
    (ht0 : 0 ≤ thr) (hoff : |off' - (off - x ^ 2)| ≤ 50 * ε * (off - x ^ 2)) :
    off' ≤ S * (1 + 128 * (j + 1) * ε) ∧
    |(|R.fl (thr - R.fl (x * x))|) - off'| ≤ 128 * (j + 1) * ε * S ∧
    ∀ q, q ≤ R.fl (x * x) → |R.fl (thr - R.fl (x * x))| ≤ thr - q + 3 * (128 * j + 2) * ε * S := by
  have hu0 := unit_pos (p := p)
  have hε0 : 0 ≤ ε := hu0.le.trans hu
  have hε1 : ε ≤ 1 / 1000 := hε.trans (by norm_num)
  have hεS : 0 ≤ ε * S := mul_nonneg hε0 hS
  have hεS1 : ε * S ≤ 1 / 1000 * S := mul_le_mul_of_nonneg_right hε1 hS
  have hjS : 128 * j * ε * S ≤ 1 / 2 * S := mul_le_mul_of_nonneg_right hj hS
  have hjS0 : 0 ≤ j * (ε * S) := mul_nonneg hj0 hεS
  have ho2 : off ≤ 3 / 2 * S := by nlinarith
  have hx0 : 0 ≤ x ^ 2 := sq_nonneg x
  have ht1 := ht0
  rw [_root_.abs_le] at ht
  have ht2 : thr ≤ 2 * S := by linarith [ht.2]
  -- the square
  have e1 := R.error (x * x)
  rw [← pow_two, abs_of_nonneg hx0] at e1
  have e1' : |R.fl (x ^ 2) - x ^ 2| ≤ 3 / 2 * (ε * S) := by
    have : unit p * x ^ 2 ≤ ε * (3 / 2 * S) := mul_le_mul hu (hx.trans ho2) hx0 hε0
    linarith
  rw [← pow_two]
  have hx2 : 0 ≤ R.fl (x ^ 2) := R.nonneg hx0
  generalize R.fl (x ^ 2) = x2 at *
  rw [_root_.abs_le] at e1'
  have hx2' : x2 ≤ 2 * S := by linarith [e1'.2]
  -- the difference
  have e2 := R.error (thr - x2)
  have hy : |thr - x2| ≤ 2 * S := by rw [_root_.abs_le]; exact ⟨by linarith, by linarith⟩
  have e2' : unit p * |thr - x2| ≤ ε * |thr - x2| := mul_le_mul_of_nonneg_right hu (abs_nonneg _)
  have e3 : ε * |thr - x2| ≤ ε * (2 * S) := mul_le_mul_of_nonneg_left hy hε0
  generalize R.fl (thr - x2) = y at *
  have e4 : 50 * ε * (off - x ^ 2) ≤ 50 * ε * (3 / 2 * S) := mul_le_mul_of_nonneg_left (by linarith) (by linarith)
  rw [_root_.abs_le] at hoff
  refine ⟨?_, ?_, ?_⟩
  · have h2 := hoff.2
    nlinarith
  · have h0 : |(|y|) - (off - x ^ 2)| ≤ |y - (off - x ^ 2)| := by
      have := abs_abs_sub_abs_le y (off - x ^ 2)
      rwa [abs_of_nonneg (a := off - x ^ 2) (by linarith)] at this
    have h1 : |y - (off - x ^ 2)| ≤ ε * (2 * S) + 128 * j * ε * S + 3 / 2 * (ε * S) := by
      have g := _root_.abs_le.1 (e2.trans (e2'.trans e3))
      rw [_root_.abs_le]
      constructor <;> linarith [ht.1, ht.2, e1'.1, e1'.2, g.1, g.2]
    have g := _root_.abs_le.1 (h0.trans h1)
    rw [_root_.abs_le]
    constructor <;> nlinarith [hoff.1, hoff.2, g.1, g.2]
  · intro q hq
    have g : |y| ≤ |thr - x2| + ε * |thr - x2| := by
      have := abs_add_le (y - (thr - x2)) (thr - x2)
      rw [sub_add_cancel] at this
      linarith
    rcases le_total 0 (thr - x2) with h | h
    · rw [abs_of_nonneg h] at g e3
      nlinarith
    · rw [abs_of_nonpos h] at g
      have k1 : -(thr - x2) ≤ 128 * j * ε * S + 3 / 2 * (ε * S) := by linarith [ht.1, e1'.2]
      have k2 : ε * -(thr - x2) ≤ 1 * -(thr - x2) := mul_le_mul_of_nonneg_right (by linarith) (by linarith)
      nlinarith

/-- Invariant of the iteration after `j` rotations. -/
structure InvF (A : Matrix (Fin 3) (Fin 3) ℝ) (S ε : ℝ) (j : Nat) (st : Jacobi (Dbl R)) : Prop where
  la : st.a.length = 6
  lv : st.v.length = 9
  near : ∃ Q : Matrix (Fin 3) (Fin 3) ℝ, Q * Qᵀ = 1 ∧ frob (fm 3 st.v - Q) ≤ ((1 + 120 * ε) ^ j - 1) * 2 ∧
    frob (cm3 st.a - Q * A * Qᵀ) ≤ ((1 + 120 * ε) ^ j - 1) * frob A
  off : off3 st.a ≤ S * (1 + 128 * j * ε)
  thr : |st.thr.val - off3 st.a| ≤ 128 * j * ε * S
  thr0 : 0 ≤ st.thr.val

theorem InvF.mono {A : Matrix (Fin 3) (Fin 3) ℝ} {S : ℝ} {j k : Nat} {st : Jacobi (Dbl R)} (hε0 : 0 ≤ ε) (hS : 0 ≤ S)
    (h : InvF A S ε j st) (hjk : j ≤ k) : InvF A S ε k st := by
  obtain ⟨Q, h1, h2, h3⟩ := h.near
  have hp : (1 + 120 * ε) ^ j ≤ (1 + 120 * ε) ^ k := pow_le_pow_right₀ (by linarith) hjk
  have hc : (j : ℝ) ≤ k := by exact_mod_cast hjk
  have hm : 128 * j * ε * S ≤ 128 * k * ε * S := by
    have := mul_le_mul_of_nonneg_right hc (mul_nonneg hε0 hS)
    linarith
  refine ⟨h.la, h.lv, ⟨Q, h1, h2.trans ?_, h3.trans ?_⟩, h.off.trans ?_, h.thr.trans hm, h.thr0⟩
  · linarith
  · exact mul_le_mul_of_nonneg_right (by linarith) (frob_nonneg _)
  · linarith

/-- One rotation keeps the invariant. -/
theorem InvF.rotate {A : Matrix (Fin 3) (Fin 3) ℝ} {S : ℝ} {j : Nat} {st : Jacobi (Dbl R)} (hu : unit p ≤ ε)
    (hε : ε ≤ 1 / 2 ^ 40) (hS : 0 ≤ S) (hj : 128 * j * ε ≤ 1 / 2) (h : InvF A S ε j st) {x : Dbl R} {a' v' : List (Dbl R)}
    (hr : RotF ε x.val st.a st.v a' v') (hx : x.val ^ 2 ≤ off3 st.a) (q : Dbl R) :
    InvF A S ε (j + 1) { st with a := a', v := v', thr := absv (st.thr - x * x) } ∧
      (q ≤ x * x → (absv (st.thr - x * x)).val ≤ st.thr.val - q.val + 3 * (128 * j + 2) * ε * S) := by
  have hε0 : 0 ≤ ε := (unit_pos (p := p)).le.trans hu
  obtain ⟨Q, h1, h2, h3⟩ := h.near
  obtain ⟨J, j1, j2, j3⟩ := hr.rot
  obtain ⟨k1, k2, k3⟩ := near_step (g := (1 + 120 * ε) ^ j - 1) (κ := 120 * ε) (m := 2) (by linarith) (by norm_num)
    (by norm_num) h1 j1 h2 h3 j3 j2
  obtain ⟨s1, s2, s3⟩ := step_scalars (R := R) hu hε hS (Nat.cast_nonneg j) hj hx h.off h.thr h.thr0 hr.off
  have ev : (absv (st.thr - x * x)).val = |R.fl (st.thr.val - R.fl (x.val * x.val))| := absv_dbl _
  have e : (1 + ((1 + 120 * ε) ^ j - 1)) * (1 + 120 * ε) - 1 = (1 + 120 * ε) ^ (j + 1) - 1 := by rw [pow_succ]; ring
  rw [e] at k2 k3
  refine ⟨⟨hr.la, hr.lv, ⟨_, k1, k2, k3⟩, ?_, ?_, ?_⟩, ?_⟩
  · push_cast; exact s1
  · push_cast
    show |(absv (st.thr - x * x)).val - off3 a'| ≤ _
    rw [ev]; exact s2
  · show 0 ≤ (absv (st.thr - x * x)).val
    rw [ev]; exact abs_nonneg _
  · intro hq
    rw [ev]
    exact s3 q.val hq

/-- What a step does: nothing when the entry is small, otherwise it lowers `thr`. -/
def StepF (A : Matrix (Fin 3) (Fin 3) ℝ) (S ε : ℝ) (j : Nat) (q x : Dbl R) (st : Jacobi (Dbl R)) (r : Res (Jacobi (Dbl R))) : Prop :=
  ∃ st', r = .ok st' ∧ InvF A S ε (j + 1) st' ∧ st'.iter = st.iter ∧
    ((st' = st ∧ x * x < q) ∨ st'.thr.val ≤ st.thr.val - q.val + 3 * (128 * j + 2) * ε * S)

variable [Trig (Dbl R)]

/-- The sine and the cosine that a step uses. -/
theorem trig_facts (ht : AccurateTrig R ε) (hu : unit p ≤ ε) (hε : ε ≤ 1 / 2 ^ 40) (a b r : Dbl R) :
    ∃ s0 c0 : ℝ, s0 ^ 2 + c0 ^ 2 = 1 ∧ |(Trig.sin (jacobiAngle a b r)).val - s0| ≤ ε ∧
      |(Trig.cos (jacobiAngle a b r)).val - c0| ≤ ε ∧
      |(a.val - b.val) * (s0 * c0) + r.val * (c0 ^ 2 - s0 ^ 2)| ≤ 4 * ε * (|a.val| + |b.val| + 2 * |r.val|) :=
  ⟨_, _, Real.sin_sq_add_cos_sq (jacobiAngle a b r).val, ht.sin _, ht.cos _,
    angle_error (by have := digits_of_unit (hu.trans hε); omega) ht hu hε a b r⟩

section steps

variable (ht : AccurateTrig R ε) (hu : unit p ≤ ε) (hε : ε ≤ 1 / 2 ^ 40) {A : Matrix (Fin 3) (Fin 3) ℝ} {S : ℝ} (hS : 0 ≤ S)
  {j : Nat} (hj : 128 * j * ε ≤ 1 / 2) {st : Jacobi (Dbl R)} (h : InvF A S ε j st) (q : Dbl R)

include ht hu hε hS hj h

theorem stepF12 : ∃ x, rd st.a 1 = .ok x ∧ StepF A S ε j q x st (jacobiStep 3 q 1 2 st) := by
  have hε0 : 0 ≤ ε := (unit_pos (p := p)).le.trans hu
  obtain ⟨a, v, t, it⟩ := st
  obtain ⟨a0, a1, a2, a3, a4, a5, rfl⟩ := len6 h.la
  obtain ⟨v0, v1, v2, v3, v4, v5, v6, v7, v8, rfl⟩ := len9 h.lv
  have key : jacobiStep 3 q 1 2 ⟨[a0, a1, a2, a3, a4, a5], [v0, v1, v2, v3, v4, v5, v6, v7, v8], t, it⟩ = _ :=
    jacobiStep_raw (x := a1) (y := a0) (z := a2) rfl rfl rfl
  refine ⟨a1, rfl, ?_⟩
  unfold StepF
  rw [key]
  by_cases hc : a1 * a1 < q
  · exact ⟨_, if_pos hc, h.mono hε0 hS (Nat.le_succ j), rfl, .inl ⟨rfl, hc⟩⟩
  · rw [if_neg hc, rot12, Res.ok_bind]
    obtain ⟨s0, c0, hsc, hs, hcc, hz⟩ := trig_facts ht hu hε a0 a2 a1
    have hx : a1.val ^ 2 ≤ off3 [a0, a1, a2, a3, a4, a5] := by
      show a1.val ^ 2 ≤ a1.val ^ 2 + a3.val ^ 2 + a4.val ^ 2
      nlinarith [sq_nonneg a3.val, sq_nonneg a4.val]
    obtain ⟨i1, i2⟩ := h.rotate hu hε hS hj (rotF12 (a3 := a3) (a4 := a4) (a5 := a5) (v0 := v0) (v1 := v1) (v2 := v2)
      (v3 := v3) (v4 := v4) (v5 := v5) (v6 := v6) (v7 := v7) (v8 := v8) hu hε hsc hs hcc hz) hx q
    exact ⟨_, rfl, i1, rfl, .inr (i2 (not_lt.1 hc))⟩

theorem stepF13 : ∃ x, rd st.a 3 = .ok x ∧ StepF A S ε j q x st (jacobiStep 3 q 1 3 st) := by
  have hε0 : 0 ≤ ε := (unit_pos (p := p)).le.trans hu
  obtain ⟨a, v, t, it⟩ := st
  obtain ⟨a0, a1, a2, a3, a4, a5, rfl⟩ := len6 h.la
  obtain ⟨v0, v1, v2, v3, v4, v5, v6, v7, v8, rfl⟩ := len9 h.lv
  have key : jacobiStep 3 q 1 3 ⟨[a0, a1, a2, a3, a4, a5], [v0, v1, v2, v3, v4, v5, v6, v7, v8], t, it⟩ = _ :=
    jacobiStep_raw (x := a3) (y := a0) (z := a5) rfl rfl rfl
  refine ⟨a3, rfl, ?_⟩
  unfold StepF
  rw [key]
  by_cases hc : a3 * a3 < q
  · exact ⟨_, if_pos hc, h.mono hε0 hS (Nat.le_succ j), rfl, .inl ⟨rfl, hc⟩⟩
  · rw [if_neg hc, rot13, Res.ok_bind]
    obtain ⟨s0, c0, hsc, hs, hcc, hz⟩ := trig_facts ht hu hε a0 a5 a3
    have hx : a3.val ^ 2 ≤ off3 [a0, a1, a2, a3, a4, a5] := by
      show a3.val ^ 2 ≤ a1.val ^ 2 + a3.val ^ 2 + a4.val ^ 2
      nlinarith [sq_nonneg a1.val, sq_nonneg a4.val]
    obtain ⟨i1, i2⟩ := h.rotate hu hε hS hj (rotF13 (a1 := a1) (a2 := a2) (a4 := a4) (v0 := v0) (v1 := v1) (v2 := v2)
      (v3 := v3) (v4 := v4) (v5 := v5) (v6 := v6) (v7 := v7) (v8 := v8) hu hε hsc hs hcc hz) hx q
    exact ⟨_, rfl, i1, rfl, .inr (i2 (not_lt.1 hc))⟩

theorem stepF23 : ∃ x, rd st.a 4 = .ok x ∧ StepF A S ε j q x st (jacobiStep 3 q 2 3 st) := by
  have hε0 : 0 ≤ ε := (unit_pos (p := p)).le.trans hu
  obtain ⟨a, v, t, it⟩ := st
  obtain ⟨a0, a1, a2, a3, a4, a5, rfl⟩ := len6 h.la
  obtain ⟨v0, v1, v2, v3, v4, v5, v6, v7, v8, rfl⟩ := len9 h.lv
  have key : jacobiStep 3 q 2 3 ⟨[a0, a1, a2, a3, a4, a5], [v0, v1, v2, v3, v4, v5, v6, v7, v8], t, it⟩ = _ :=
    jacobiStep_raw (x := a4) (y := a2) (z := a5) rfl rfl rfl
  refine ⟨a4, rfl, ?_⟩
  unfold StepF
  rw [key]
  by_cases hc : a4 * a4 < q
  · exact ⟨_, if_pos hc, h.mono hε0 hS (Nat.le_succ j), rfl, .inl ⟨rfl, hc⟩⟩
  · rw [if_neg hc, rot23, Res.ok_bind]
    obtain ⟨s0, c0, hsc, hs, hcc, hz⟩ := trig_facts ht hu hε a2 a5 a4
    have hx : a4.val ^ 2 ≤ off3 [a0, a1, a2, a3, a4, a5] := by
      show a4.val ^ 2 ≤ a1.val ^ 2 + a3.val ^ 2 + a4.val ^ 2
      nlinarith [sq_nonneg a1.val, sq_nonneg a3.val]
    obtain ⟨i1, i2⟩ := h.rotate hu hε hS hj (rotF23 (a0 := a0) (a1 := a1) (a3 := a3) (v0 := v0) (v1 := v1) (v2 := v2)
      (v3 := v3) (v4 := v4) (v5 := v5) (v6 := v6) (v7 := v7) (v8 := v8) hu hε hsc hs hcc hz) hx q
    exact ⟨_, rfl, i1, rfl, .inr (i2 (not_lt.1 hc))⟩

end steps

/-! ## the whole iteration in dimension 3 -/

omit [Trig (Dbl R)] in
theorem off3_rd {a : List (Dbl R)} (hl : a.length = 6) {x y z : Dbl R} (h1 : rd a 1 = .ok x) (h2 : rd a 3 = .ok y)
    (h3 : rd a 4 = .ok z) : off3 a = x.val ^ 2 + y.val ^ 2 + z.val ^ 2 := by
  obtain ⟨a0, a1, a2, a3, a4, a5, rfl⟩ := len6 hl
  cases h1; cases h2; cases h3
  rfl

omit [Trig (Dbl R)] in
theorem small_sq (hu : unit p ≤ ε) {x q : Dbl R} (h : x * x < q) : x.val ^ 2 * (1 - ε) ≤ q.val := by
  have h1 : R.fl (x.val * x.val) < q.val := h
  have h2 := R.error (x.val * x.val)
  rw [← pow_two] at h1 h2
  rw [abs_of_nonneg (sq_nonneg x.val)] at h2
  have h3 := (_root_.abs_le.1 h2).1
  have h4 := mul_le_mul_of_nonneg_right hu (sq_nonneg x.val)
  linarith

/-- One sweep lowers `thr`. -/
theorem sweepF (ht : AccurateTrig R ε) (hu : unit p ≤ ε) (hε : ε ≤ 1 / 2 ^ 40) {A : Matrix (Fin 3) (Fin 3) ℝ} {S : ℝ}
    (hS : 0 < S) {j : Nat} (hj : j ≤ 270) {st : Jacobi (Dbl R)} (h : InvF A S ε j st) (hthr : 0.0000099 * S ≤ st.thr.val) :
    ∃ st', jacobiSweep 3 st = .ok st' ∧ InvF A S ε (j + 3) st' ∧ st'.iter = st.iter + 1 ∧
      st'.thr.val ≤ st.thr.val * (7 / 8) := by
  have hε0 : 0 ≤ ε := (unit_pos (p := p)).le.trans hu
  have hp := digits_of_unit (hu.trans hε)
  have hεS : 0 ≤ ε * S := mul_nonneg hε0 hS.le
  have hεS' : ε * S ≤ 1 / 2 ^ 40 * S := mul_le_mul_of_nonneg_right hε hS.le
  have hjr : (j : ℝ) ≤ 270 := by exact_mod_cast hj
  have hjε : ∀ i : ℝ, i ≤ 272 → 128 * i * ε ≤ 1 / 2 := fun i hi => by
    have : 128 * i * ε ≤ 128 * 272 * ε := mul_le_mul_of_nonneg_right (by linarith) hε0
    refine this.trans ?_
    have := mul_le_mul_of_nonneg_left hε (by norm_num : (0 : ℝ) ≤ 128 * 272)
    refine this.trans (by norm_num)
  have hE : ∀ i : ℝ, i ≤ 272 → 3 * (128 * i + 2) * ε * S ≤ 131072 * (ε * S) := fun i hi => by
    have := mul_le_mul_of_nonneg_right (show 3 * (128 * i + 2) ≤ 131072 by linarith) hεS
    linarith
  have h0 : InvF A S ε j { st with iter := st.iter + 1 } := ⟨h.la, h.lv, h.near, h.off, h.thr, h.thr0⟩
  -- the threshold of the sweep
  have hq : (st.thr / ((6 : Nat) : Dbl R)).val = R.fl (st.thr.val / 6) := by
    rw [Dbl.val_div, Dbl.val_cast (by
      calc 6 ≤ 2 ^ 40 := by norm_num
        _ ≤ 2 ^ p := Nat.pow_le_pow_right (by norm_num) hp)]
    norm_num
  have hq1 := R.error (st.thr.val / 6)
  rw [← hq, abs_of_nonneg (a := st.thr.val / 6) (by have := h.thr0; positivity)] at hq1
  have hq2 : unit p * (st.thr.val / 6) ≤ 1 / 1000 * (st.thr.val / 6) :=
    mul_le_mul_of_nonneg_right (hu.trans (hε.trans (by norm_num))) (by have := h.thr0; positivity)
  have hq3 := _root_.abs_le.1 (hq1.trans hq2)
  rw [sweep3_raw]
  generalize st.thr / ((6 : Nat) : Dbl R) = q at *
  obtain ⟨x1, g1, s1, e1, i1, n1, c1⟩ := stepF12 ht hu hε hS.le (hjε _ (by linarith)) h0 q
  obtain ⟨x2, g2, s2, e2, i2, n2, c2⟩ := stepF13 ht hu hε hS.le (hjε _ (by push_cast; linarith)) i1 q
  obtain ⟨x3, g3, s3, e3, i3, n3, c3⟩ := stepF23 ht hu hε hS.le (hjε _ (by push_cast; linarith)) i2 q
  rw [e1, Res.ok_bind, e2, Res.ok_bind, e3]
  refine ⟨s3, rfl, i3, n3.trans (n2.trans n1), ?_⟩
  have hq0 : 0 ≤ q.val := by linarith [h.thr0, hq3.1]
  have f1 := hE j (by linarith)
  have f2 := hE ((j + 1 : ℕ) : ℝ) (by push_cast; linarith)
  have f3 := hE ((j + 1 + 1 : ℕ) : ℝ) (by push_cast; linarith)
  have t1 : s1.thr.val ≤ st.thr.val + 131072 * (ε * S) := by
    rcases c1 with ⟨rfl, _⟩ | c1
    · show st.thr.val ≤ _
      linarith
    · have c1' : s1.thr.val ≤ st.thr.val - q.val + 3 * (128 * j + 2) * ε * S := c1
      linarith
  have t2 : s2.thr.val ≤ s1.thr.val + 131072 * (ε * S) := by
    rcases c2 with ⟨rfl, _⟩ | c2 <;> linarith
  have t3 : s3.thr.val ≤ s2.thr.val + 131072 * (ε * S) := by
    rcases c3 with ⟨rfl, _⟩ | c3 <;> linarith
  have hgoal : s3.thr.val ≤ st.thr.val - q.val + 3 * (131072 * (ε * S)) → s3.thr.val ≤ st.thr.val * (7 / 8) := by
    intro hg
    norm_num at hεS' hthr
    linarith [hq3.1]
  rcases c1 with ⟨rfl, c1⟩ | c1
  · rcases c2 with ⟨rfl, c2⟩ | c2
    · rcases c3 with ⟨rfl, c3⟩ | c3
      · exfalso
        have ho := off3_rd h.la g1 g2 g3
        have k1 := small_sq hu c1
        have k2 := small_sq hu c2
        have k3 := small_sq hu c3
        have k4 := (_root_.abs_le.1 h.thr).2
        have k5 : 128 * j * ε * S ≤ 34560 * (ε * S) := by
          have := mul_le_mul_of_nonneg_right hjr hεS
          linarith
        have k6 : off3 st.a * (1 - ε) ≤ 3 * q.val := by rw [ho]; linarith
        have hε2 : ε ≤ 1 / 1000 := hε.trans (by norm_num)
        have k7 : off3 st.a * (1 - 1 / 1000) ≤ off3 st.a * (1 - ε) := by
          refine mul_le_mul_of_nonneg_left (by linarith) ?_
          rw [ho]; positivity
        norm_num at hεS' hthr
        linarith [hq3.2]
      · refine hgoal ?_
        have c3' : s3.thr.val ≤ st.thr.val - q.val + 3 * (128 * ((j + 1 + 1 : ℕ) : ℝ) + 2) * ε * S := c3
        linarith
    · refine hgoal ?_
      have c2' : s2.thr.val ≤ st.thr.val - q.val + 3 * (128 * ((j + 1 : ℕ) : ℝ) + 2) * ε * S := c2
      linarith
  · refine hgoal ?_
    have c1' : s1.thr.val ≤ st.thr.val - q.val + 3 * (128 * j + 2) * ε * S := c1
    linarith

/-- The loop stops because the threshold is met, after at most 90 iterations. -/
theorem loopF (ht : AccurateTrig R ε) (hu : unit p ≤ ε) (hε : ε ≤ 1 / 2 ^ 40) {A : Matrix (Fin 3) (Fin 3) ℝ} {S : ℝ}
    (hS : 0 < S) {T : Dbl R} (hT1 : 0.0000099 * S ≤ T.val) : ∀ (k : Nat) (st : Jacobi (Dbl R)),
    InvF A S ε (1 + 3 * st.iter) st → st.thr.val ≤ S * (7 / 8) ^ st.iter → st.iter ≤ 89 → st.iter + k = 100 →
    ∃ st', jacobiLoop 3 T k st = .ok st' ∧ InvF A S ε 270 st' ∧ st'.iter ≤ 89 ∧ st'.thr ≤ T := by
  have hε0 : 0 ≤ ε := (unit_pos (p := p)).le.trans hu
  intro k
  induction k with
  | zero => intro st _ _ h1 h2; omega
  | succ k ih =>
    intro st hi hb h89 hk
    unfold jacobiLoop
    by_cases hc : T < st.thr
    · rw [if_pos hc]
      have hc' : T.val < st.thr.val := hc
      have hlt : st.iter < 89 := by
        by_contra hcon
        have h89' : st.iter = 89 := by omega
        rw [h89'] at hb
        have : (7 / 8 : ℝ) ^ 89 ≤ 0.0000099 := by norm_num
        have := mul_le_mul_of_nonneg_left this hS.le
        linarith
      obtain ⟨s1, e1, i1, n1, t1⟩ := sweepF ht hu hε hS (by omega) hi (hT1.trans hc'.le)
      rw [e1, Res.ok_bind]
      refine ih s1 ?_ ?_ (by omega) (by omega)
      · rw [n1]; exact i1
      · rw [n1, pow_succ]
        linarith
    · rw [if_neg hc]
      exact ⟨st, rfl, hi.mono hε0 hS.le (by omega), h89, not_lt.1 hc⟩

omit [Trig (Dbl R)] in
/-- The computed sum of the squares. -/
theorem normF (hu : unit p ≤ ε) (hε : ε ≤ 1 / 2 ^ 40) (x y z : Dbl R) :
    |(0 + x * x + y * y + z * z).val - (x.val ^ 2 + y.val ^ 2 + z.val ^ 2)| ≤ 13 * ε * (x.val ^ 2 + y.val ^ 2 + z.val ^ 2) := by
  have hx := sq_nonneg x.val
  have hy := sq_nonneg y.val
  have hz := sq_nonneg z.val
  generalize hN : x.val ^ 2 + y.val ^ 2 + z.val ^ 2 = N
  have hN0 : 0 ≤ N := by rw [← hN]; positivity
  have hε0 : 0 ≤ ε := (unit_pos (p := p)).le.trans hu
  have sq : ∀ w : Dbl R, w.val ^ 2 ≤ N → |(w * w).val - w.val ^ 2| ≤ 1 * ε * N := by
    intro w hw
    rw [Dbl.val_mul, ← pow_two]
    refine (R.error _).trans ?_
    rw [abs_of_nonneg (sq_nonneg w.val), one_mul]
    exact mul_le_mul hu hw (sq_nonneg _) hε0
  have mag : ∀ w : ℝ, 0 ≤ w → w ≤ N → |w| ≤ 1 * N := fun w h0 h1 => by rw [abs_of_nonneg h0]; linarith
  have s1 := near_add (R := R) hu hε (X := 0) (x := 0) (a := 0) (M := 0) hN0 (by norm_num) (by norm_num) (by simp)
    (sq x (by linarith)) (by simp) (mag _ hx (by linarith))
  rw [zero_add (x.val ^ 2)] at s1
  have s2 := near_add (R := R) hu hε hN0 (by norm_num) (by norm_num) s1 (sq y (by linarith)) (mag _ hx (by linarith))
    (mag _ hy (by linarith))
  have s3 := near_add (R := R) hu hε hN0 (by norm_num) (by norm_num) s2 (sq z (by linarith))
    (mag _ (add_nonneg hx hy) (by linarith)) (mag _ hz (by linarith))
  rw [hN] at s3
  refine s3.trans (le_of_eq ?_)
  ring

omit [Trig (Dbl R)] in
/-- The constant of the code. -/
theorem epsF (hu : unit p ≤ ε) (hε : ε ≤ 1 / 2 ^ 40) {S : Dbl R} (hS : 0 ≤ S.val) :
    0.0000099 * S.val ≤ (S * (0.00001 : Dbl R)).val ∧ (S * (0.00001 : Dbl R)).val ≤ 0.0000101 * S.val := by
  have hε0 : 0 ≤ ε := (unit_pos (p := p)).le.trans hu
  have h1 : (0.00001 : Dbl R).val = R.fl (1 / 100000) := by
    show R.fl (OfScientific.ofScientific 1 true 5) = _
    norm_num
  have h2 := R.error (1 / 100000)
  have h3 : |R.fl (1 / 100000) - 1 / 100000| ≤ 1 * ε := by
    refine h2.trans ?_
    rw [abs_of_pos (by norm_num)]
    linarith
  have h4 := near_mul (R := R) hu hε (a := S.val) (N := S.val) (by norm_num) (le_of_eq (abs_of_nonneg hS)) (by
    rw [abs_of_pos (by norm_num)]; norm_num) h3
  rw [← h1, ← Dbl.val_mul] at h4
  have h5 : ε * S.val ≤ 1 / 2 ^ 40 * S.val := mul_le_mul_of_nonneg_right hε hS
  norm_num at h5
  have h6 := _root_.abs_le.1 h4
  constructor <;> norm_num <;> linarith [h6.1, h6.2]

/-- The whole iteration in dimension 3. -/
theorem jacobiF3 (ht : AccurateTrig R ε) (hu : unit p ≤ ε) (hε : ε ≤ 1 / 2 ^ 40) {a : List (Dbl R)} (hl : a.length = 6) :
    ∃ st, jacobi 3 a = .ok st ∧ st.iter ≤ 89 ∧ st.a.length = 6 ∧ st.v.length = 9 ∧
      (∃ Q : Matrix (Fin 3) (Fin 3) ℝ, Q * Qᵀ = 1 ∧ frob (fm 3 st.v - Q) ≤ 65536 * ε * 2 ∧
        frob (cm3 st.a - Q * cm3 a * Qᵀ) ≤ 65536 * ε * frob (cm3 a)) ∧
      off3 st.a ≤ 0.0000102 * off3 a := by
  have hε0 : 0 ≤ ε := (unit_pos (p := p)).le.trans hu
  obtain ⟨a0, a1, a2, a3, a4, a5, rfl⟩ := len6 hl
  have hn := normF hu hε a1 a3 a4
  have hoff : off3 [a0, a1, a2, a3, a4, a5] = a1.val ^ 2 + a3.val ^ 2 + a4.val ^ 2 := rfl
  rw [← hoff] at hn
  have ho0 : 0 ≤ off3 [a0, a1, a2, a3, a4, a5] := by rw [hoff]; positivity
  have h1 : fm 3 (jacobiId 3 : List (Dbl R)) = 1 := by
    rw [id3]
    ext i j
    fin_cases i <;> fin_cases j <;> simp [fm, fullMatrix, num, Dbl.val_zero, Dbl.val_one]
  have hm : (List.range (3 * (3 + 1) / 2)).mapM (rd [a0, a1, a2, a3, a4, a5]) = .ok [a0, a1, a2, a3, a4, a5] := rfl
  have hi : ∀ g : ℝ, 0 ≤ g → frob (fm 3 (jacobiId 3 : List (Dbl R)) - 1) ≤ g := by
    intro g hg
    rw [h1, sub_self]
    simpa [frob] using hg
  have hi' : ∀ g : ℝ, 0 ≤ g → frob (cm3 [a0, a1, a2, a3, a4, a5] - 1 * cm3 [a0, a1, a2, a3, a4, a5] * (1 : Matrix (Fin 3) (Fin 3) ℝ)ᵀ) ≤ g := by
    intro g hg
    rw [Matrix.one_mul, Matrix.transpose_one, Matrix.mul_one, sub_self]
    simpa [frob] using hg
  unfold jacobi
  rw [hm, Res.ok_bind, norm3, Res.ok_bind]
  generalize 0 + a1 * a1 + a3 * a3 + a4 * a4 = S at *
  generalize hO : off3 [a0, a1, a2, a3, a4, a5] = off at *
  have hεo : ε * off ≤ 1 / 2 ^ 40 * off := mul_le_mul_of_nonneg_right hε ho0
  norm_num at hεo
  have hn' := _root_.abs_le.1 hn
  by_cases hc : S = 0
  · subst hc
    simp only [ne_eq, not_true_eq_false, if_false]
    refine ⟨_, rfl, Nat.zero_le _, rfl, by simp [id3], ⟨1, by simp, hi _ (by positivity), hi' _ ?_⟩, ?_⟩
    · have := frob_nonneg (cm3 [a0, a1, a2, a3, a4, a5]); positivity
    · have := hn'.1
      rw [Dbl.val_zero] at this
      show off3 [a0, a1, a2, a3, a4, a5] ≤ _
      rw [hO]
      have : off = 0 := by linarith
      rw [this]; simp
  · have hSoff : 0 ≤ S.val := by linarith [hn'.1]
    have hpos : 0 < S.val := lt_of_le_of_ne hSoff fun e => hc (Dbl.ext e.symm)
    simp only [ne_eq, hc, not_false_eq_true, if_true]
    obtain ⟨T1, T2⟩ := epsF hu hε hSoff
    have hεS : ε * off ≤ 2 * (ε * S.val) := by
      have : off ≤ 2 * S.val := by linarith [hn'.1]
      have := mul_le_mul_of_nonneg_left this hε0
      linarith
    have hεS0 : 0 ≤ ε * S.val := mul_nonneg hε0 hSoff
    have hinv : InvF (cm3 [a0, a1, a2, a3, a4, a5]) S.val ε (1 + 3 * 0) ⟨[a0, a1, a2, a3, a4, a5], jacobiId 3, S, 0⟩ := by
      refine ⟨rfl, by simp [id3], ⟨1, by simp, hi _ ?_, hi' _ ?_⟩, ?_, ?_, hSoff⟩
      · simp; linarith
      · simp
        have := frob_nonneg (cm3 [a0, a1, a2, a3, a4, a5]); positivity
      · show off3 [a0, a1, a2, a3, a4, a5] ≤ _
        rw [hO]
        norm_num
        linarith [hn'.1]
      · show |S.val - off3 [a0, a1, a2, a3, a4, a5]| ≤ _
        rw [hO]
        refine hn.trans ?_
        norm_num
        linarith
    obtain ⟨st, r1, r2, r3, r4⟩ := loopF ht hu hε hpos T1 100 ⟨[a0, a1, a2, a3, a4, a5], jacobiId 3, S, 0⟩ hinv (by
      show S.val ≤ S.val * (7 / 8) ^ 0
      rw [pow_zero, mul_one]) (Nat.zero_le _) rfl
    refine ⟨st, r1, r3, r2.la, r2.lv, ?_, ?_⟩
    · obtain ⟨Q, q1, q2, q3⟩ := r2.near
      have hg : (1 + 120 * ε) ^ 270 - 1 ≤ 65536 * ε := by
        have := one_add_pow (x := 120 * ε) (by linarith) 270 (by
          norm_num at hε ⊢
          linarith)
        generalize (1 + 120 * ε) ^ 270 = P at this ⊢
        push_cast at this
        linarith
      exact ⟨Q, q1, q2.trans (mul_le_mul_of_nonneg_right hg (by norm_num)),
        q3.trans (mul_le_mul_of_nonneg_right hg (frob_nonneg _))⟩
    · have k1 := (_root_.abs_le.1 r2.thr).1
      have k2 : st.thr.val ≤ (S * (0.00001 : Dbl R)).val := r4
      have hεS' : ε * S.val ≤ 1 / 2 ^ 40 * S.val := mul_le_mul_of_nonneg_right hε hSoff
      have k3 : S.val ≤ off * (1 + 1 / 100000) := by linarith [hn'.2]
      norm_num at hεS' k1 k3 T2 ⊢
      linarith

end DF
