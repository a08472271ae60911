import Verif.Lemmas.FloatMore
import Verif.Lemmas.Stats

/-!
# Lemmas on rounded arithmetic for quantile and bins
-/

namespace DF

open Spec

variable {p : Nat}

/-- A positive number with `p` digits has a normal form. -/
theorem normal_form {d : ℝ} (hp : 1 ≤ p) (hd : 0 < d) (h : Representable p d) :
    ∃ m e : ℤ, (2 : ℝ) ^ ((p : ℤ) - 1) ≤ m ∧ m < 2 ^ p ∧ d = m * (2 : ℝ) ^ e := by
  have h1 : nearest p d = d := (Rounding.halfUp p hp).exact h
  have h3 : (0 : ℝ) < (2 : ℝ) ^ expo p d := zpow_pos (by norm_num) _
  obtain ⟨h4, h5⟩ := scaled_abs (p := p) hd.ne'
  rw [abs_of_pos hd] at h4 h5
  have e : d / (2 : ℝ) ^ expo p d = (round (d / (2 : ℝ) ^ expo p d) : ℤ) := by
    rw [div_eq_iff h3.ne']; exact h1.symm
  rw [e] at h4 h5
  refine ⟨_, expo p d, h4, ?_, h1.symm⟩
  exact_mod_cast h5

namespace Rounding

variable (R : Rounding p)

/-- Multiplying by the number before 1 gives less, after rounding. -/
theorem pred_lt (hp : 1 ≤ p) {d : ℝ} (hd : 0 < d) (h : Representable p d) : R.fl ((1 - unit p) * d) < d := by
  obtain ⟨m, e, h1, h2, rfl⟩ := normal_form hp hd h
  have he : (0 : ℝ) < (2 : ℝ) ^ e := zpow_pos (by norm_num) _
  have hu := unit_pos (p := p)
  have h2' : (m : ℝ) < 2 ^ p := by exact_mod_cast h2
  have hup : unit p * 2 ^ p = 1 := by unfold unit; rw [← mul_pow]; norm_num
  have hhalf : (2 : ℝ) ^ ((p : ℤ) - 1) = 2 ^ p / 2 := by rw [zpow_sub₀ (by norm_num), zpow_natCast, zpow_one]
  rw [hhalf] at h1
  by_contra hc
  rw [not_lt] at hc
  -- a nearer number
  obtain ⟨y, hy, hlt⟩ : ∃ y, Representable p y ∧ |y - (1 - unit p) * (m * (2 : ℝ) ^ e)| < unit p * (m * (2 : ℝ) ^ e) := by
    rcases h1.eq_or_lt with h1 | h1
    · refine ⟨(1 - unit p) * (m * (2 : ℝ) ^ e), ⟨2 ^ p - 1, e - 1, ?_, ?_⟩, ?_⟩
      · rw [abs_of_nonneg]
        · omega
        · have : (1 : ℤ) ≤ 2 ^ p := one_le_pow₀ (by norm_num)
          omega
      · rw [← h1, zpow_sub₀ (by norm_num), zpow_one]
        push_cast
        have : (1 - unit p) * (2 ^ p / 2 * (2 : ℝ) ^ e) = (2 ^ p - unit p * 2 ^ p) / 2 * (2 : ℝ) ^ e := by ring
        rw [this, hup]; ring
      · rw [sub_self, abs_zero]; positivity
    · refine ⟨((m - 1 : ℤ) : ℝ) * (2 : ℝ) ^ e, ⟨m - 1, e, ?_, rfl⟩, ?_⟩
      · have : (1 : ℝ) ≤ 2 ^ p / 2 := by
          have : (2 : ℝ) ^ 1 ≤ 2 ^ p := pow_le_pow_right₀ (by norm_num) hp
          linarith
        have : (1 : ℝ) < m := by linarith
        have : (1 : ℤ) < m := by exact_mod_cast this
        rw [abs_of_nonneg (by omega)]; omega
      · have e1 : ((m - 1 : ℤ) : ℝ) * (2 : ℝ) ^ e - (1 - unit p) * (m * (2 : ℝ) ^ e) = -(1 - unit p * m) * (2 : ℝ) ^ e := by
          push_cast; ring
        have h6 : unit p * m < 1 := by
          have := mul_lt_mul_of_pos_left h2' hu; rw [hup] at this; exact this
        have h7 : 1 / 2 < unit p * m := by
          have := mul_lt_mul_of_pos_left h1 hu
          have e2 : unit p * (2 ^ p / 2) = (unit p * 2 ^ p) / 2 := by ring
          rw [e2, hup] at this; exact this
        rw [e1, abs_mul, abs_of_pos he, abs_neg, abs_of_pos (by linarith), ← mul_assoc]
        exact mul_lt_mul_of_pos_right (by linarith) he
  have h8 := R.near ((1 - unit p) * (m * (2 : ℝ) ^ e)) y hy
  have h9 : unit p * (m * (2 : ℝ) ^ e) ≤ |R.fl ((1 - unit p) * (m * (2 : ℝ) ^ e)) - (1 - unit p) * (m * (2 : ℝ) ^ e)| := by
    refine le_trans ?_ (le_abs_self _)
    linarith
  linarith

/-- A number below 1 is at most the number before 1. -/
theorem le_pred_one (hp : 1 ≤ p) {r : ℝ} (h : Representable p r) (h1 : r < 1) : r ≤ 1 - unit p := by
  obtain ⟨m, e, hm, rfl⟩ := h
  have he : (0 : ℝ) < (2 : ℝ) ^ e := zpow_pos (by norm_num) _
  have hm2 : (m : ℝ) ≤ 2 ^ p := by exact_mod_cast (_root_.abs_le.1 hm).2
  have hup : unit p * 2 ^ p = 1 := by unfold unit; rw [← mul_pow]; norm_num
  rcases le_or_gt (-(p : ℤ)) e with hpe | hpe
  · obtain ⟨d, hd⟩ := Int.le.dest hpe
    rw [← hd, zpow_add₀ (by norm_num), ← unit_eq, zpow_natCast] at h1 ⊢
    have e1 : (m : ℝ) * (unit p * 2 ^ d) = unit p * ((m * 2 ^ d : ℤ) : ℝ) := by push_cast; ring
    rw [e1] at h1 ⊢
    have h2 : ((m * 2 ^ d : ℤ) : ℝ) < ((2 ^ p : ℤ) : ℝ) := by
      push_cast
      by_contra hc
      rw [not_lt] at hc
      have := mul_le_mul_of_nonneg_left hc (unit_pos (p := p)).le
      rw [hup] at this
      push_cast at h1
      linarith
    have h3 : m * 2 ^ d ≤ 2 ^ p - 1 := by have := Int.cast_lt.1 h2; omega
    have h4 : ((m * 2 ^ d : ℤ) : ℝ) ≤ 2 ^ p - 1 := by exact_mod_cast h3
    have := mul_le_mul_of_nonneg_left h4 (unit_pos (p := p)).le
    rw [mul_sub, hup, mul_one] at this
    exact this
  · have h2 : (2 : ℝ) ^ e ≤ (2 : ℝ) ^ (-(p : ℤ) - 1) := zpow_le_zpow_right₀ (by norm_num) (by omega)
    have h3 : (2 : ℝ) ^ (-(p : ℤ) - 1) = unit p / 2 := by rw [zpow_sub₀ (by norm_num), ← unit_eq, zpow_one]
    have h4 : unit p ≤ 1 / 2 := by
      unfold unit
      calc (2 : ℝ)⁻¹ ^ p ≤ (2 : ℝ)⁻¹ ^ 1 := pow_le_pow_of_le_one (by norm_num) (by norm_num) hp
        _ = _ := by norm_num
    rw [h3] at h2
    have h5 : (m : ℝ) * (2 : ℝ) ^ e ≤ 2 ^ p * (unit p / 2) := by
      calc _ ≤ 2 ^ p * (2 : ℝ) ^ e := mul_le_mul_of_nonneg_right hm2 he.le
        _ ≤ _ := mul_le_mul_of_nonneg_left h2 (by positivity)
    have h6 : 2 ^ p * (unit p / 2) = 1 / 2 := by
      rw [← mul_div_assoc, mul_comm, hup]
    linarith

/-- The fractional part of a number is exact. -/
theorem fract_rep {x : ℝ} (h0 : 0 ≤ x) (h : Representable p x) : Representable p (x - (⌊x⌋ : ℤ)) := by
  obtain ⟨m, e, hm, rfl⟩ := h
  have he : (0 : ℝ) < (2 : ℝ) ^ e := zpow_pos (by norm_num) _
  have hm0 : (0 : ℝ) ≤ m := by
    by_contra hc
    rw [not_le] at hc
    have := mul_neg_of_neg_of_pos hc he
    linarith
  have hm0' : 0 ≤ m := by exact_mod_cast hm0
  rcases le_or_gt 0 e with hpe | hpe
  · obtain ⟨d, rfl⟩ := Int.eq_ofNat_of_zero_le hpe
    have e1 : (m : ℝ) * (2 : ℝ) ^ (Int.ofNat d) = ((m * 2 ^ d : ℤ) : ℝ) := by push_cast; simp
    have : Representable p ((m : ℝ) * (2 : ℝ) ^ (Int.ofNat d) - (⌊(m : ℝ) * (2 : ℝ) ^ (Int.ofNat d)⌋ : ℤ)) := by
      rw [e1, Int.floor_intCast, sub_self]; exact zero_rep
    exact this
  · obtain ⟨d, hd⟩ : ∃ d : Nat, e = -(d : ℤ) := ⟨(-e).toNat, by omega⟩
    subst hd
    set f := ⌊(m : ℝ) * (2 : ℝ) ^ (-(d : ℤ))⌋ with hf
    have hf0 : 0 ≤ f := Int.floor_nonneg.2 h0
    have h1 : (f : ℝ) ≤ (m : ℝ) * (2 : ℝ) ^ (-(d : ℤ)) := Int.floor_le _
    have e2 : (2 : ℝ) ^ (-(d : ℤ)) * 2 ^ d = 1 := by
      rw [zpow_neg, zpow_natCast]; exact inv_mul_cancel₀ (by positivity)
    have h2 : (f : ℝ) * 2 ^ d ≤ m := by
      have := mul_le_mul_of_nonneg_right h1 (show (0 : ℝ) ≤ 2 ^ d by positivity)
      rwa [mul_assoc, e2, mul_one] at this
    have h2' : f * 2 ^ d ≤ m := by exact_mod_cast h2
    have h3 : 0 ≤ f * 2 ^ d := by positivity
    refine ⟨m - f * 2 ^ d, -(d : ℤ), ?_, ?_⟩
    · rw [abs_of_nonneg hm0'] at hm
      rw [abs_of_nonneg (by omega)]; omega
    · push_cast
      rw [sub_mul, mul_assoc (f : ℝ), mul_comm ((2 : ℝ) ^ d), e2, mul_one]

/-- Interpolating between two numbers with a fraction below 1 stays between them. -/
theorem interpolate_le (hp : 1 ≤ p) {a b r : ℝ} (ha : Representable p a) (hb : Representable p b) (hab : a ≤ b)
    (hr : Representable p r) (hr0 : 0 ≤ r) (hr1 : r < 1) :
    a ≤ R.fl (a + R.fl (r * R.fl (b - a))) ∧ R.fl (a + R.fl (r * R.fl (b - a))) ≤ b := by
  have hd0 : 0 ≤ R.fl (b - a) := R.nonneg (by linarith)
  have hz0 : 0 ≤ R.fl (r * R.fl (b - a)) := R.nonneg (mul_nonneg hr0 hd0)
  constructor
  · have := R.mono (show a ≤ a + R.fl (r * R.fl (b - a)) by linarith)
    rwa [R.exact ha] at this
  · suffices h : R.fl (r * R.fl (b - a)) ≤ b - a by
      have := R.mono (show a + R.fl (r * R.fl (b - a)) ≤ b by linarith)
      rwa [R.exact hb] at this
    rcases le_or_gt (R.fl (b - a)) (b - a) with h | h
    · have h1 := R.mono (show r * R.fl (b - a) ≤ R.fl (b - a) from mul_le_of_le_one_left hd0 hr1.le)
      rw [R.exact (R.rep _)] at h1
      linarith
    · have hd : 0 < R.fl (b - a) := lt_of_le_of_lt (by linarith) h
      have h1 := R.mono (mul_le_mul_of_nonneg_right (le_pred_one hp hr hr1) hd0)
      have h2 := R.pred_lt hp hd (R.rep _)
      by_contra hc
      rw [not_le] at hc
      have h3 := R.near (b - a) _ (R.rep (r * R.fl (b - a)))
      rw [abs_of_pos (by linarith), abs_of_pos (by linarith)] at h3
      linarith

end Rounding

variable {R : Rounding p}

/-- Positions among `n` numbers: the rounded product stays between 0 and `n - 1`. -/
noncomputable def posOf (R : Rounding p) (n : Nat) (q : ℝ) : ℝ := R.fl (((n - 1 : Nat) : ℝ) * q)

theorem nat_rep {n : Nat} (h : n ≤ 2 ^ p) : Representable p (n : ℝ) := by
  have := Rounding.int_rep (p := p) (n := (n : ℤ)) (by rw [abs_of_nonneg (by positivity)]; exact_mod_cast h)
  simpa using this

/-- What `quantile` computes in rounded arithmetic. -/
theorem quantile_run (hp : 32 ≤ p) {srt : StdSort} (hs : srt.Correct) {s : Serie (Dbl R)} (h : WF s)
    (h1 : s.itemSize = 1) (h0 : 0 < s.count) :
    ∃ xs, SortedFrom xs (scalars s) ∧ ∀ q : Dbl R, 0 ≤ q → q ≤ 1 → ∃ v, quantile srt s q = .ok v ∧
      ∃ (k : Nat) (a : Dbl R), (k : ℝ) ≤ posOf R s.count q.val ∧ posOf R s.count q.val < (k : ℝ) + 1 ∧ xs[k]? = some a ∧
      ((∃ b, xs[k + 1]? = some b ∧
        v.val = R.fl (a.val + R.fl ((posOf R s.count q.val - k) * R.fl (b.val - a.val)))) ∨
       (xs.length = k + 1 ∧ posOf R s.count q.val = k ∧ v = a)) := by
  obtain ⟨xs, he, hpm, ho⟩ := sortWith_scalar hs h h1 (fun _ _ => .ub)
  refine ⟨xs, ⟨hpm, ho⟩, fun q hq0 hq1 => ?_⟩
  have hn : xs.length = s.count := by rw [hpm.length_eq, h.scalars_length]
  have hn32 := h.count_lt
  have h32 : 2 ^ 32 ≤ 2 ^ p := Nat.pow_le_pow_right (by norm_num) hp
  have hq0' : 0 ≤ q.val := hq0
  have hq1' : q.val ≤ 1 := hq1
  unfold quantile
  rw [h.valid, if_neg (by simp), if_neg (by simpa using h1), if_neg (by rw [not_or]; exact ⟨not_lt.2 hq0, not_lt.2 hq1⟩)]
  have he' : sortDefault srt s = .ok (ofScalars xs) := by unfold sortDefault; rw [if_pos h1]; exact he
  rw [he', Res.ok_bind]
  have hd : (ofScalars xs).data = xs := rfl
  simp only [hd]
  rw [if_neg (by omega), hn]
  have hcast : (((s.count - 1 : Nat) : Dbl R)).val = ((s.count - 1 : Nat) : ℝ) := Dbl.val_cast (by omega)
  have hpv : ((((s.count - 1 : Nat) : Dbl R)) * q).val = posOf R s.count q.val := by
    rw [Dbl.val_mul, hcast]; rfl
  have hnn : (0 : ℝ) ≤ ((s.count - 1 : Nat) : ℝ) := Nat.cast_nonneg _
  have hpos0 : 0 ≤ posOf R s.count q.val := R.nonneg (mul_nonneg hnn hq0')
  have hposn : posOf R s.count q.val ≤ ((s.count - 1 : Nat) : ℝ) := by
    have := R.mono (mul_le_of_le_one_right hnn hq1')
    rwa [R.exact (nat_rep (by omega))] at this
  have hrep : Representable p (posOf R s.count q.val) := R.rep _
  generalize posOf R s.count q.val = pos at *
  generalize (((s.count - 1 : Nat) : Dbl R)) * q = P at *
  have hfl0 : 0 ≤ ⌊pos⌋ := Int.floor_nonneg.2 hpos0
  obtain ⟨k, hk⟩ := Int.eq_ofNat_of_zero_le hfl0
  have hk' : ((⌊pos⌋ : Int) : ℝ) = (k : ℝ) := by rw [hk]; simp
  have hle : (k : ℝ) ≤ pos := by rw [← hk']; exact Int.floor_le pos
  have hlt : pos < (k : ℝ) + 1 := by rw [← hk']; exact Int.lt_floor_add_one pos
  have hkn : k < s.count := by
    have : (k : ℝ) ≤ ((s.count - 1 : Nat) : ℝ) := hle.trans hposn
    have := Nat.cast_le.1 this
    omega
  have hbase : (Trunc.floor P : Dbl R).val = k := by
    show ((⌊P.val⌋ : ℤ) : ℝ) = k
    rw [hpv, hk']
  have hnext : (Trunc.floor P + 1 : Dbl R).val = ((k + 1 : Nat) : ℝ) := by
    rw [Dbl.val_add, hbase]
    show R.fl ((k : ℝ) + 1) = _
    rw [show ((k : ℝ) + 1) = ((k + 1 : Nat) : ℝ) by push_cast; rfl, R.exact (nat_rep (by omega))]
  have hrest : (P - Trunc.floor P : Dbl R).val = pos - k := by
    rw [Dbl.val_sub, hbase, hpv, R.exact]
    have := Rounding.fract_rep hpos0 hrep
    rwa [hk'] at this
  have hu : ∀ (x : Dbl R) (m : Nat), x.val = (m : ℝ) → m < 2 ^ 32 → Trunc.toU32 x = .ok m := by
    intro x m hx hm
    show toU32 x.val = _
    rw [hx]; exact toU32_nat hm
  rw [hu _ _ hnext (by omega), Res.ok_bind, hu _ _ hbase (by omega), Res.ok_bind, Res.ok_bind,
    rd_of_lt (show k < xs.length by omega), Res.ok_bind]
  by_cases hkn' : k + 1 < s.count
  · rw [if_pos hkn', rd_of_lt (show k + 1 < xs.length by omega), Res.ok_bind]
    refine ⟨_, rfl, k, xs[k], hle, hlt, by simp [hn, hkn], Or.inl ⟨xs[k + 1], by simp [hn, hkn'], ?_⟩⟩
    rw [Dbl.val_add, Dbl.val_mul, hrest, Dbl.val_sub]
  · rw [if_neg hkn']
    refine ⟨_, rfl, k, xs[k], hle, hlt, by simp [hn, hkn], Or.inr ⟨by omega, ?_, rfl⟩⟩
    have : s.count - 1 = k := by omega
    rw [this] at hposn
    exact le_antisymm hposn hle

/-! ## bins -/

/-- The bin the code puts `v` into, with rounding. -/
noncomputable def binIdxR (nb : Nat) (start size v : Dbl R) : Nat := min ⌊((v - start) / size).val⌋.toNat (nb - 1)

theorem binOne_run {nb : Nat} (hnb : 0 < nb) {start size v : Dbl R} (hs : 0 < size.val)
    (h0 : 0 ≤ ((v - start) / size).val) (h1 : ((v - start) / size).val < 2 ^ 32) {b : List (Dbl R)} (hb : b.length = nb) :
    binOne nb start size v b = (.ok (), b.modify (binIdxR nb start size v) (· + 1)) := by
  have hne : (size == 0) = false := by
    rw [beq_eq_false_iff_ne]
    rintro rfl
    exact lt_irrefl (0 : ℝ) hs
  unfold binOne
  rw [hne, if_neg (by simp)]
  have ht : Trunc.toU32 ((v - start) / size) = .ok ⌊((v - start) / size).val⌋.toNat := toU32_of h0 h1
  rw [ht, Eff.lift_ok, pure_bind]
  have hidx : (if ⌊((v - start) / size).val⌋.toNat ≥ nb then nb - 1 else ⌊((v - start) / size).val⌋.toNat) =
      binIdxR nb start size v := by
    unfold binIdxR; split <;> omega
  have hlt : binIdxR nb start size v < nb := by unfold binIdxR; omega
  simp only [hidx]
  rw [if_neg (by omega)]
  apply Eff.update_ok
  rw [rd_of_lt (by omega), Res.ok_bind, wr_of_lt (by omega), List.modify_eq_set_getElem?,
    List.getElem?_eq_getElem (by omega)]
  rfl

/-- Counting is exact. -/
theorem foldl_modify_dbl {γ : Type} {idx : γ → Nat} : ∀ (l : List γ) (b : List (Dbl R)) (i c : Nat) (x : Dbl R), b[i]? = some x →
    x.val = c → c + l.length ≤ 2 ^ p → ∃ y, (l.foldl (fun b v => b.modify (idx v) (· + 1)) b)[i]? = some y ∧
      y.val = ((c + l.countP (fun v => idx v = i) : Nat) : ℝ)
  | [], b, i, c, x, hb, hx, _ => ⟨x, hb, by simpa using hx⟩
  | v :: l, b, i, c, x, hb, hx, hc => by
    rw [List.length_cons] at hc
    rw [List.foldl_cons]
    by_cases hi : idx v = i
    · have e : (x + 1).val = ((c + 1 : Nat) : ℝ) := by
        rw [Dbl.val_add, Dbl.val_one, hx, show ((c : ℝ) + 1) = ((c + 1 : Nat) : ℝ) by push_cast; rfl, R.exact (nat_rep (by omega))]
      obtain ⟨y, h1, h2⟩ := foldl_modify_dbl (idx := idx) l (b.modify (idx v) (· + 1)) i (c + 1) (x + 1)
        (by rw [List.getElem?_modify, hb]; simp [hi]) e (by omega)
      refine ⟨y, h1, ?_⟩
      rw [h2, List.countP_cons_of_pos (by simpa using hi)]
      push_cast; ring
    · obtain ⟨y, h1, h2⟩ := foldl_modify_dbl (idx := idx) l (b.modify (idx v) (· + 1)) i c x
        (by rw [List.getElem?_modify, hb]; simp [hi]) hx (by omega)
      exact ⟨y, h1, by rw [h2, List.countP_cons_of_neg (by simpa using hi)]⟩

/-- What `bins` computes in rounded arithmetic. -/
theorem binsIn_run (hp : 34 ≤ p) {s : Serie (Dbl R)} (h : WF s) (h1 : s.itemSize = 1) {nb : Nat} (hnb : 0 < nb)
    (hnb' : nb < 2 ^ 32) {start stop size : Dbl R} (hsize : size = (stop - start) / (nb : Dbl R)) (hs : 0 < size.val)
    (hv : ∀ v ∈ scalars s, 0 ≤ ((v - start) / size).val ∧ ((v - start) / size).val < 2 ^ 32) :
    ∃ b : List (Dbl R), binsIn s nb start stop = .ok (ofScalars b) ∧ b.length = nb ∧
      ∀ i, i < nb → ∃ y, b[i]? = some y ∧
        y.val = (((scalars s).countP (fun v => binIdxR nb start size v = i) : Nat) : ℝ) := by
  unfold binsIn
  rw [if_neg (by simpa using h1), if_neg (by omega), ← hsize]
  obtain ⟨e1, e2⟩ := exec_forEachS (σ := List (Dbl R)) h h1 (f := fun v _ => binOne nb start size v)
    (step := fun b v => b.modify (binIdxR nb start size v) (· + 1)) (Inv := fun b => b.length = nb)
    (st := List.replicate nb 0) (by simp) (by
      intro v hv' i b hb
      exact ⟨binOne_run hnb hs (hv v hv').1 (hv v hv').2 hb, by simp [hb]⟩)
  simp only [e1, Res.ok_bind]
  refine ⟨_, ofArray_one (by omega), e2, ?_⟩
  intro i hi
  have h32 : 2 ^ 32 ≤ 2 ^ p := Nat.pow_le_pow_right (by norm_num) (by omega)
  have hlt := h.count_lt
  obtain ⟨y, hy1, hy2⟩ := foldl_modify_dbl (idx := binIdxR nb start size) (scalars s) (List.replicate nb (0 : Dbl R)) i 0 0
    (by simp [hi]) (by simp [Dbl.val_zero]) (by rw [h.scalars_length]; omega)
  exact ⟨y, hy1, by rw [hy2, Nat.zero_add]⟩

end DF
