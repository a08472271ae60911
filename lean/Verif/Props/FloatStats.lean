import Verif.Lemmas.FloatQuantile
import Verif.Props.Stats
import Verif.Props.Float

/-!
# Quantiles, outliers and bins in rounded arithmetic (C99-C101)

The numbers are `Dbl R`, as in Props/Float.
-/

namespace DF

open Spec

variable {p : Nat} {R : Rounding p}

/-! ## C99: quantile -/

theorem posOf_mono (n : Nat) {q q' : ℝ} (h : q ≤ q') : posOf R n q ≤ posOf R n q' :=
  R.mono (mul_le_mul_of_nonneg_left h (Nat.cast_nonneg _))

/-- The computed value lies between neighbours. -/
theorem quantile_bracket (hp : 32 ≤ p) {xs : List (Dbl R)} (ho : xs.Pairwise (· ≤ ·)) {P : ℝ}
    {k : Nat} (hP : Representable p (P - k)) {a v : Dbl R} (h1 : (k : ℝ) ≤ P) (h2 : P < (k : ℝ) + 1) (ha : xs[k]? = some a)
    (h : (∃ b, xs[k + 1]? = some b ∧ v.val = R.fl (a.val + R.fl ((P - k) * R.fl (b.val - a.val)))) ∨
       (xs.length = k + 1 ∧ P = k ∧ v = a)) :
    a ≤ v ∧ (∀ b, xs[k + 1]? = some b → v ≤ b) ∧ (xs.length = k + 1 → v = a) := by
  rcases h with ⟨b, hb, hv⟩ | ⟨hl, _, rfl⟩
  · have hab : a.val ≤ b.val := getElem?_le_of_sorted ho (Nat.le_succ k) ha hb
    have := R.interpolate_le (by omega) a.rep b.rep hab hP (by linarith) (by linarith)
    rw [← hv] at this
    refine ⟨this.1, fun b' hb' => ?_, fun hl => ?_⟩
    · rw [hb] at hb'; cases hb'; exact this.2
    · have := (List.getElem?_eq_some_iff.1 hb).1; omega
  · refine ⟨le_refl _, fun b hb => ?_, fun _ => rfl⟩
    have := (List.getElem?_eq_some_iff.1 hb).1
    omega

theorem posOf_fract {n k : Nat} {q : ℝ} (h1 : (k : ℝ) ≤ posOf R n q) (h2 : posOf R n q < (k : ℝ) + 1) :
    Representable p (posOf R n q - k) := by
  have h : 0 ≤ posOf R n q := le_trans (Nat.cast_nonneg k) h1
  have := Rounding.fract_rep h (R.rep _)
  have e : ⌊posOf R n q⌋ = k := by rw [Int.floor_eq_iff]; exact ⟨by exact_mod_cast h1, by exact_mod_cast h2⟩
  rwa [e, Int.cast_natCast] at this

/-- C99: `quantile` with rounding lies between two neighbours of the sorted values: numbers `k` and `k + 1` (number `k` itself when it
is the last), where `k` is the whole part of `(n - 1) q` up to one rounding. -/
theorem C99_between_neighbours (hp : 32 ≤ p) {srt : StdSort} (hs : srt.Correct) {s : Serie (Dbl R)} (h : WF s)
    (h1 : s.itemSize = 1) (h0 : 0 < s.count) {q : Dbl R} (hq0 : 0 ≤ q) (hq1 : q ≤ 1) :
    ∃ xs v k a, SortedFrom xs (scalars s) ∧ quantile srt s q = .ok v ∧ xs[k]? = some a ∧ a ≤ v ∧
      (∀ b, xs[k + 1]? = some b → v ≤ b) ∧ (s.count = k + 1 → v = a) ∧
      (k : ℝ) ≤ ((s.count : ℝ) - 1) * q.val * (1 + unit p) ∧ ((s.count : ℝ) - 1) * q.val * (1 - unit p) < (k : ℝ) + 1 := by
  obtain ⟨xs, hx, hr⟩ := quantile_run hp hs h h1 h0
  obtain ⟨v, hv, k, a, e1, e2, ha, e3⟩ := hr q hq0 hq1
  have hq0' : (0 : ℝ) ≤ q.val := hq0
  have hb := quantile_bracket hp hx.2 (posOf_fract e1 e2) e1 e2 ha e3
  have hl : xs.length = s.count := by rw [hx.1.length_eq, h.scalars_length]
  have hc : ((s.count - 1 : Nat) : ℝ) = (s.count : ℝ) - 1 := by rw [Nat.cast_sub (by omega), Nat.cast_one]
  have hnn : 0 ≤ ((s.count : ℝ) - 1) * q.val := by rw [← hc]; exact mul_nonneg (Nat.cast_nonneg _) hq0'
  have herr := R.error (((s.count : ℝ) - 1) * q.val)
  rw [abs_of_nonneg hnn, abs_le] at herr
  have hpos : posOf R s.count q.val = R.fl (((s.count : ℝ) - 1) * q.val) := by unfold posOf; rw [hc]
  rw [hpos] at e1 e2
  exact ⟨xs, v, k, a, hx, hv, ha, hb.1, hb.2.1, fun e => hb.2.2 (hl.trans e), by linarith [herr.2], by linarith [herr.1]⟩

theorem quarter_rep (hp : 32 ≤ p) (m : ℤ) (h : |m| ≤ 4) : Representable p ((m : ℝ) / 4) := by
  refine ⟨m, -2, h.trans ?_, by norm_num [zpow_neg]; ring⟩
  calc (4 : ℤ) = 2 ^ 2 := by norm_num
    _ ≤ 2 ^ p := pow_le_pow_right₀ (by norm_num) (by omega)

theorem val_025 (hp : 32 ≤ p) : (0.25 : Dbl R).val = 1 / 4 := by
  show R.fl (0.25 : ℝ) = _
  have := quarter_rep (p := p) hp 1 (by norm_num)
  push_cast at this
  rw [show (0.25 : ℝ) = 1 / 4 by norm_num, R.exact this]

theorem val_05 (hp : 32 ≤ p) : (0.5 : Dbl R).val = 1 / 2 := by
  show R.fl (0.5 : ℝ) = _
  have := quarter_rep (p := p) hp 2 (by norm_num)
  push_cast at this
  rw [show (0.5 : ℝ) = 2 / 4 by norm_num, R.exact this]; norm_num

/-- The fractions of the examples. -/
theorem dbl_zero_le_one : (0 : Dbl R) ≤ 1 := by
  show (0 : Dbl R).val ≤ (1 : Dbl R).val
  rw [Dbl.val_zero, Dbl.val_one]; norm_num

theorem half_nonneg (R : Rounding 53) : (0 : Dbl R) ≤ 0.5 := by
  show (0 : Dbl R).val ≤ (0.5 : Dbl R).val
  rw [Dbl.val_zero, val_05 (by decide)]; norm_num

theorem half_le_one (R : Rounding 53) : (0.5 : Dbl R) ≤ 1 := by
  show (0.5 : Dbl R).val ≤ (1 : Dbl R).val
  rw [Dbl.val_one, val_05 (by decide)]; norm_num

example (R : Rounding 53) := C99_between_neighbours (by decide) stdSort_exists.choose_spec (exC_WF R) rfl (of_decide_eq_true rfl)
  (half_nonneg R) (half_le_one R)

/-- C99: `quantile` with rounding is monotone in `q`. -/
theorem C99_monotone (hp : 32 ≤ p) {srt : StdSort} (hs : srt.Correct) {s : Serie (Dbl R)} (h : WF s) (h1 : s.itemSize = 1)
    (h0 : 0 < s.count) {q q' : Dbl R} (hq0 : 0 ≤ q) (hqq : q ≤ q') (hq1 : q' ≤ 1) :
    ∃ v v', quantile srt s q = .ok v ∧ quantile srt s q' = .ok v' ∧ v ≤ v' := by
  obtain ⟨xs, hx, hr⟩ := quantile_run hp hs h h1 h0
  obtain ⟨v, hv, k, a, e1, e2, ha, e3⟩ := hr q hq0 (hqq.trans hq1)
  obtain ⟨v', hv', k', a', e1', e2', ha', e3'⟩ := hr q' (hq0.trans hqq) hq1
  have hq0' : (0 : ℝ) ≤ q.val := hq0
  have hqq' : q.val ≤ q'.val := hqq
  have hm := posOf_mono (R := R) s.count hqq'
  obtain ⟨l1, l2, l3⟩ := quantile_bracket hp hx.2 (posOf_fract e1 e2) e1 e2 ha e3
  obtain ⟨l1', l2', l3'⟩ := quantile_bracket hp hx.2 (posOf_fract e1' e2') e1' e2' ha' e3'
  refine ⟨v, v', hv, hv', ?_⟩
  have hkk : k ≤ k' := by
    by_contra hlt
    have : ((k' + 1 : Nat) : ℝ) ≤ (k : ℝ) := Nat.cast_le.2 (by omega)
    push_cast at this
    linarith
  rcases Nat.eq_or_lt_of_le hkk with heq | hlt
  · subst heq
    rw [ha] at ha'; cases ha'
    rcases e3 with ⟨b, hb, e3⟩ | ⟨_, _, rfl⟩
    · rcases e3' with ⟨b', hb', e3'⟩ | ⟨hl, _⟩
      · rw [hb] at hb'; cases hb'
        show v.val ≤ v'.val
        rw [e3, e3']
        have hab : a.val ≤ b.val := getElem?_le_of_sorted hx.2 (Nat.le_succ k) ha hb
        have hd : 0 ≤ R.fl (b.val - a.val) := R.nonneg (by linarith)
        have := R.mono (mul_le_mul_of_nonneg_right (show posOf R s.count q.val - k ≤ posOf R s.count q'.val - k by linarith) hd)
        exact R.mono (by linarith)
      · have := (List.getElem?_eq_some_iff.1 hb).1; omega
    · exact l1'
  · obtain ⟨hk', _⟩ := List.getElem?_eq_some_iff.1 ha'
    obtain ⟨b, hb⟩ : ∃ b, xs[k + 1]? = some b := ⟨_, List.getElem?_eq_getElem (by omega)⟩
    exact (l2 b hb).trans ((getElem?_le_of_sorted hx.2 (Nat.succ_le_of_lt hlt) hb ha').trans l1')

example (R : Rounding 53) := C99_monotone (by decide) stdSort_exists.choose_spec (exC_WF R) rfl (of_decide_eq_true rfl)
  (half_nonneg R) (half_le_one R) le_rfl

/-- When `(n - 1) q` is a whole number `k`, and is computed exactly, the quantile is number `k` of the sorted values, exactly. -/
theorem C99_node (hp : 32 ≤ p) {srt : StdSort} (hs : srt.Correct) {s : Serie (Dbl R)} (h : WF s) (h1 : s.itemSize = 1)
    (h0 : 0 < s.count) {q : Dbl R} (hq0 : 0 ≤ q) (hq1 : q ≤ 1) {k : Nat} (hk : ((s.count : ℝ) - 1) * q.val = k) :
    ∃ xs v, SortedFrom xs (scalars s) ∧ quantile srt s q = .ok v ∧ xs[k]? = some v := by
  obtain ⟨xs, hx, hr⟩ := quantile_run hp hs h h1 h0
  obtain ⟨v, hv, k', a, e1, e2, ha, e3⟩ := hr q hq0 hq1
  have hc : ((s.count - 1 : Nat) : ℝ) = (s.count : ℝ) - 1 := by rw [Nat.cast_sub (by omega), Nat.cast_one]
  have hkn : k ≤ s.count - 1 := by
    have : (k : ℝ) ≤ ((s.count - 1 : Nat) : ℝ) := by
      rw [← hk, hc]; exact mul_le_of_le_one_right (by rw [← hc]; exact Nat.cast_nonneg _) hq1
    exact Nat.cast_le.1 this
  have h32 : 2 ^ 32 ≤ 2 ^ p := Nat.pow_le_pow_right (by norm_num) hp
  have hlt := h.count_lt
  have hpos : posOf R s.count q.val = k := by unfold posOf; rw [hc, hk, R.exact (nat_rep (by omega))]
  rw [hpos] at e1 e2 e3
  have : k' = k := by
    have h3 : k' ≤ k := Nat.cast_le.1 e1
    have h4 : k < k' + 1 := by exact_mod_cast e2
    omega
  subst this
  refine ⟨xs, v, hx, hv, ?_⟩
  rcases e3 with ⟨b, hb, e3⟩ | ⟨_, _, rfl⟩
  · rw [ha]
    congr 1
    apply Dbl.val_injective
    rw [e3, sub_self, zero_mul, R.exact Rounding.zero_rep, add_zero, R.exact a.rep]
  · exact ha

example (R : Rounding 53) := C99_node (by decide) stdSort_exists.choose_spec (exC_WF R) rfl (of_decide_eq_true rfl)
  (half_nonneg R) (half_le_one R) (k := 1) (by
    rw [val_05 (by decide), show (exC R).count = 3 from rfl]; norm_num)

/-- C99: with rounding too, the quantile at 0 is the smallest value, at 1 the largest, exactly. -/
theorem C99_endpoints (hp : 32 ≤ p) {srt : StdSort} (hs : srt.Correct) {s : Serie (Dbl R)} (h : WF s) (h1 : s.itemSize = 1)
    (h0 : 0 < s.count) :
    ∃ a b, quantile srt s 0 = .ok a ∧ quantile srt s 1 = .ok b ∧ Least a (scalars s) ∧ Greatest b (scalars s) := by
  have z1 : (0 : Dbl R) ≤ 1 := by show (0 : ℝ) ≤ 1; norm_num
  obtain ⟨xs, v, hx, e, hz⟩ := C99_node hp hs h h1 h0 (q := 0) (le_refl _) z1 (k := 0) (by
    show _ * (0 : ℝ) = _; simp)
  obtain ⟨xs', v', hx', e', ho⟩ := C99_node hp hs h h1 h0 (q := 1) z1 (le_refl _) (k := s.count - 1) (by
    show _ * (1 : ℝ) = _; rw [Nat.cast_sub (by omega)]; simp)
  have := SortedFrom.unique hx hx' (List.Perm.refl _)
  subst this
  have hl : xs.length = s.count := by rw [hx.1.length_eq, h.scalars_length]
  refine ⟨v, v', e, e', ⟨hx.1.mem_iff.1 (List.mem_of_getElem? hz), fun y hy => ?_⟩,
    ⟨hx.1.mem_iff.1 (List.mem_of_getElem? ho), fun y hy => ?_⟩⟩
  · obtain ⟨i, hi⟩ := List.mem_iff_getElem?.1 (hx.1.mem_iff.2 hy)
    exact getElem?_le_of_sorted hx.2 (Nat.zero_le i) hz hi
  · obtain ⟨i, hi⟩ := List.mem_iff_getElem?.1 (hx.1.mem_iff.2 hy)
    have : i < xs.length := (List.getElem?_eq_some_iff.1 hi).1
    exact getElem?_le_of_sorted hx.2 (by omega) hi ho

example (R : Rounding 53) := C99_endpoints (by decide) stdSort_exists.choose_spec (exC_WF R) rfl (of_decide_eq_true rfl)

/-- C99: with rounding too, the quantile lies between the smallest and the largest value. -/
theorem C99_in_range (hp : 32 ≤ p) {srt : StdSort} (hs : srt.Correct) {s : Serie (Dbl R)} (h : WF s) (h1 : s.itemSize = 1)
    (h0 : 0 < s.count) {q : Dbl R} (hq0 : 0 ≤ q) (hq1 : q ≤ 1) {a b : Dbl R} (ha : ∀ y ∈ scalars s, a ≤ y)
    (hb : ∀ y ∈ scalars s, y ≤ b) : ∃ v, quantile srt s q = .ok v ∧ a ≤ v ∧ v ≤ b := by
  obtain ⟨v0, v, e0, e, l1⟩ := C99_monotone hp hs h h1 h0 (le_refl 0) hq0 hq1
  obtain ⟨v', v1, e', e1, l2⟩ := C99_monotone hp hs h h1 h0 hq0 hq1 (le_refl 1)
  obtain ⟨a', b', f0, f1, g0, g1⟩ := C99_endpoints hp hs h h1 h0
  rw [e] at e'; cases e'
  rw [e0] at f0; cases f0
  rw [e1] at f1; cases f1
  exact ⟨v, e, (ha _ g0.1).trans l1, l2.trans (hb _ g1.1)⟩

example (R : Rounding 53) := C99_in_range (by decide) stdSort_exists.choose_spec (exC_WF R) rfl (of_decide_eq_true rfl)
  (half_nonneg R) (half_le_one R) (fun y hy => (exC_range R y hy).1) (fun y hy => (exC_range R y hy).2)

theorem val_075 (hp : 32 ≤ p) : (0.75 : Dbl R).val = 3 / 4 := by
  show R.fl (0.75 : ℝ) = _
  have := quarter_rep (p := p) hp 3 (by norm_num)
  push_cast at this
  rw [show (0.75 : ℝ) = 3 / 4 by norm_num, R.exact this]

theorem dbl_le {a b : Dbl R} (h : a.val ≤ b.val) : a ≤ b := h

/-- C99: the quartiles are in ascending order, and `IQR` is never negative: it is the rounded difference of the outer two. -/
theorem C99_quartiles (hp : 32 ≤ p) {srt : StdSort} (hs : srt.Correct) {s : Serie (Dbl R)} (h : WF s) (h1 : s.itemSize = 1)
    (h0 : 0 < s.count) : ∃ a m b d, q25 srt s = .ok a ∧ q50 srt s = .ok m ∧ q75 srt s = .ok b ∧ iqr srt s = .ok d ∧
      a ≤ m ∧ m ≤ b ∧ 0 ≤ d ∧ d.val = R.fl (b.val - a.val) := by
  have v1 := val_025 (R := R) hp
  have v2 := val_05 (R := R) hp
  have v3 := val_075 (R := R) hp
  obtain ⟨a, m, ea, em, l1⟩ := C99_monotone hp hs h h1 h0 (q := 0.25) (q' := 0.5)
    (dbl_le (by rw [v1, Dbl.val_zero]; norm_num)) (dbl_le (by rw [v1, v2]; norm_num)) (dbl_le (by rw [v2, Dbl.val_one]; norm_num))
  obtain ⟨m', b, em', eb, l2⟩ := C99_monotone hp hs h h1 h0 (q := 0.5) (q' := 0.75)
    (dbl_le (by rw [v2, Dbl.val_zero]; norm_num)) (dbl_le (by rw [v2, v3]; norm_num)) (dbl_le (by rw [v3, Dbl.val_one]; norm_num))
  rw [em] at em'; cases em'
  have hab : a.val ≤ b.val := l1.trans l2
  refine ⟨a, m, b, b - a, ea, em, eb, by unfold iqr; rw [ea, eb]; rfl, l1, l2, ?_, rfl⟩
  show (0 : ℝ) ≤ R.fl (b.val - a.val)
  exact R.nonneg (by linarith)

example (R : Rounding 53) := C99_quartiles (by decide) stdSort_exists.choose_spec (exC_WF R) rfl (of_decide_eq_true rfl)

/-- C99: the median of an odd number of values is the middle value, exactly. -/
theorem C99_median_odd (hp : 32 ≤ p) {srt : StdSort} (hs : srt.Correct) {s : Serie (Dbl R)} (h : WF s) (h1 : s.itemSize = 1)
    {k : Nat} (hk : s.count = 2 * k + 1) :
    ∃ xs v, SortedFrom xs (scalars s) ∧ q50 srt s = .ok v ∧ xs[k]? = some v := by
  have v2 := val_05 (R := R) hp
  refine C99_node hp hs h h1 (by omega) (dbl_le (by rw [v2, Dbl.val_zero]; norm_num))
    (dbl_le (by rw [v2, Dbl.val_one]; norm_num)) ?_
  rw [v2, hk]; push_cast; ring

example (R : Rounding 53) := C99_median_odd (by decide) stdSort_exists.choose_spec (exC_WF R) rfl (k := 1) rfl

/-- C99: with rounding too, the order of the values and the sorting algorithm do not matter. -/
theorem C99_order_independent (hp : 32 ≤ p) {srt srt' : StdSort} (hs : srt.Correct) (hs' : srt'.Correct) {s t : Serie (Dbl R)}
    (h : WF s) (ht : WF t) (h1 : s.itemSize = 1) (h1' : t.itemSize = 1) (hp' : (scalars s).Perm (scalars t)) (h0 : 0 < s.count)
    {q : Dbl R} (hq0 : 0 ≤ q) (hq1 : q ≤ 1) : quantile srt s q = quantile srt' t q := by
  have hc : s.count = t.count := by rw [← h.scalars_length, hp'.length_eq, ht.scalars_length]
  obtain ⟨xs, hx, hr⟩ := quantile_run hp hs h h1 h0
  obtain ⟨xs', hx', hr'⟩ := quantile_run hp hs' ht h1' (hc ▸ h0)
  have := SortedFrom.unique hx hx' hp'
  subst this
  obtain ⟨v, hv, k, a, e1, e2, ha, e3⟩ := hr q hq0 hq1
  obtain ⟨v', hv', k', a', e1', e2', ha', e3'⟩ := hr' q hq0 hq1
  rw [← hc] at e1' e2' e3'
  have : k = k' := by
    have h3 : (k : ℝ) < k' + 1 := lt_of_le_of_lt e1 e2'
    have h4 : (k' : ℝ) < k + 1 := lt_of_le_of_lt e1' e2
    have h3 : k < k' + 1 := by exact_mod_cast h3
    have h4 : k' < k + 1 := by exact_mod_cast h4
    omega
  subst this
  rw [ha] at ha'; cases ha'
  rw [hv, hv']
  congr 1
  rcases e3 with ⟨b, hb, e3⟩ | ⟨hl, _, rfl⟩
  · rcases e3' with ⟨b', hb', e3'⟩ | ⟨hl, _⟩
    · rw [hb] at hb'; cases hb'
      exact Dbl.val_injective (e3.trans e3'.symm)
    · have := (List.getElem?_eq_some_iff.1 hb).1; omega
  · rcases e3' with ⟨b', hb', e3'⟩ | ⟨_, _, rfl⟩
    · have := (List.getElem?_eq_some_iff.1 hb').1; omega
    · rfl

example (R : Rounding 53) := C99_order_independent (by decide) stdSort_exists.choose_spec stdSort_exists.choose_spec (exC_WF R)
  (t := ⟨[dbl R 49, dbl R 0, dbl R 7], 3, 1, 3⟩) (of_decide_eq_true rfl) rfl rfl (.swap _ _ _) (of_decide_eq_true rfl)
  (half_nonneg R) (half_le_one R)

/-! ## C100: outliers -/

/-- C100: with rounding, `outliers` are the values below `lo` or above `hi`, `notOutliers` the others, `isOutliers` the mask; with a
mustache that is not negative `lo` is at most the first quartile and `hi` at least the third. -/
theorem C100_outliers (hp : 32 ≤ p) {srt : StdSort} (hs : srt.Correct) {s : Serie (Dbl R)} (h : WF s) (h1 : s.itemSize = 1)
    (h0 : 0 < s.count) (m : Dbl R) : ∃ a b lo hi, q25 srt s = .ok a ∧ q75 srt s = .ok b ∧
      outliers srt s m = .ok (ofScalars ((scalars s).filter (fun v => decide (v < lo ∨ hi < v)))) ∧
      notOutliers srt s m = .ok (ofScalars ((scalars s).filter (fun v => !decide (v < lo ∨ hi < v)))) ∧
      isOutliers srt s m = .ok (ofScalars ((scalars s).map (fun v => if v < lo ∨ hi < v then 1 else 0))) ∧
      (0 ≤ m → lo ≤ a ∧ b ≤ hi) := by
  obtain ⟨a, _, b, d, ea, _, eb, _, l1, l2, _, _⟩ := C99_quartiles hp hs h h1 h0
  have ho : outlierBounds srt s m = .ok (a - m * (b - a), b + m * (b - a)) := by
    unfold outlierBounds
    rw [ea, eb]; rfl
  refine ⟨a, b, _, _, ea, eb, outliers_run h ho, ?_, isOutliers_run h ho, fun hm => ?_⟩
  · rw [notOutliers_run h ho]
    congr 3
    funext v
    simp only [not_or, not_lt, ← decide_not]
  · have hab : a.val ≤ b.val := l1.trans l2
    have hm' : (0 : ℝ) ≤ m.val := hm
    have hz : 0 ≤ R.fl (m.val * R.fl (b.val - a.val)) := R.nonneg (mul_nonneg hm' (R.nonneg (by linarith)))
    constructor
    · show R.fl (a.val - R.fl (m.val * R.fl (b.val - a.val))) ≤ a.val
      have := R.mono (show a.val - R.fl (m.val * R.fl (b.val - a.val)) ≤ a.val by linarith)
      rwa [R.exact a.rep] at this
    · show b.val ≤ R.fl (b.val + R.fl (m.val * R.fl (b.val - a.val)))
      have := R.mono (show b.val ≤ b.val + R.fl (m.val * R.fl (b.val - a.val)) by linarith)
      rwa [R.exact b.rep] at this

example (R : Rounding 53) := C100_outliers (by decide) stdSort_exists.choose_spec (exC_WF R) rfl (of_decide_eq_true rfl) (dbl R 2)

/-- C100: with rounding, each value is in exactly one of `outliers` and `notOutliers`. -/
theorem C100_split (hp : 32 ≤ p) {srt : StdSort} (hs : srt.Correct) {s : Serie (Dbl R)} (h : WF s) (h1 : s.itemSize = 1)
    (h0 : 0 < s.count) (m : Dbl R) : ∃ o n, outliers srt s m = .ok o ∧ notOutliers srt s m = .ok n ∧
      o.count + n.count = s.count ∧ (scalars o ++ scalars n).Perm (scalars s) ∧ (∀ v ∈ scalars o, v ∉ scalars n) := by
  obtain ⟨a, b, lo, hi, _, _, e1, e2, _⟩ := C100_outliers hp hs h h1 h0 m
  have hperm := List.filter_append_perm (fun v => decide (v < lo ∨ hi < v)) (scalars s)
  refine ⟨_, _, e1, e2, ?_, ?_, ?_⟩
  · have := hperm.length_eq
    rw [List.length_append, h.scalars_length] at this
    exact this
  · rw [scalars_ofScalars, scalars_ofScalars]; exact hperm
  · rw [scalars_ofScalars, scalars_ofScalars]
    intro v hv hv'
    have := (List.mem_filter.1 hv).2
    have := (List.mem_filter.1 hv').2
    simp_all

example (R : Rounding 53) := C100_split (by decide) stdSort_exists.choose_spec (exC_WF R) rfl (of_decide_eq_true rfl) (dbl R 2)

/-- C100: with rounding, a value between the first and the third quartile is never an outlier, for a mustache that is not
negative; in particular the median of an odd number of values is not. -/
theorem C100_quartiles_kept (hp : 32 ≤ p) {srt : StdSort} (hs : srt.Correct) {s : Serie (Dbl R)} (h : WF s) (h1 : s.itemSize = 1)
    (h0 : 0 < s.count) {m : Dbl R} (hm : 0 ≤ m) : ∃ a b o, q25 srt s = .ok a ∧ q75 srt s = .ok b ∧ outliers srt s m = .ok o ∧
      ∀ v ∈ scalars o, ¬ (a ≤ v ∧ v ≤ b) := by
  obtain ⟨a, b, lo, hi, ea, eb, e1, _, _, e4⟩ := C100_outliers hp hs h h1 h0 m
  obtain ⟨l1, l2⟩ := e4 hm
  refine ⟨a, b, _, ea, eb, e1, ?_⟩
  rw [scalars_ofScalars]
  intro v hv ⟨h3, h4⟩
  have := (List.mem_filter.1 hv).2
  rw [decide_eq_true_eq] at this
  rcases this with h5 | h5
  · exact absurd (lt_of_lt_of_le h5 l1) (not_lt.2 h3)
  · exact absurd (lt_of_le_of_lt l2 h5) (not_lt.2 h4)

example (R : Rounding 53) := C100_quartiles_kept (by decide) stdSort_exists.choose_spec (exC_WF R) rfl (of_decide_eq_true rfl)
  dbl_zero_le_one

/-- C100: with rounding, a longer mustache leaves fewer outliers. -/
theorem C100_antitone (hp : 32 ≤ p) {srt : StdSort} (hs : srt.Correct) {s : Serie (Dbl R)} (h : WF s) (h1 : s.itemSize = 1)
    (h0 : 0 < s.count) {m m' : Dbl R} (hm : m ≤ m') : ∃ o o', outliers srt s m = .ok o ∧ outliers srt s m' = .ok o' ∧
      (scalars o').Sublist (scalars o) := by
  obtain ⟨a, _, b, d, ea, _, eb, _, l1, l2, _, _⟩ := C99_quartiles hp hs h h1 h0
  have ho : ∀ m, outlierBounds srt s m = .ok (a - m * (b - a), b + m * (b - a)) := by
    intro m
    unfold outlierBounds
    rw [ea, eb]; rfl
  refine ⟨_, _, outliers_run h (ho m), outliers_run h (ho m'), ?_⟩
  rw [scalars_ofScalars, scalars_ofScalars]
  apply List.monotone_filter_right
  intro v hv
  have hab : a.val ≤ b.val := l1.trans l2
  have hmm : m.val ≤ m'.val := hm
  have hd := R.mono (mul_le_mul_of_nonneg_right hmm (R.nonneg (show 0 ≤ b.val - a.val by linarith)))
  have k1 : a - m' * (b - a) ≤ a - m * (b - a) :=
    R.mono (show a.val - R.fl (m'.val * R.fl (b.val - a.val)) ≤ a.val - R.fl (m.val * R.fl (b.val - a.val)) by linarith)
  have k2 : b + m * (b - a) ≤ b + m' * (b - a) :=
    R.mono (show b.val + R.fl (m.val * R.fl (b.val - a.val)) ≤ b.val + R.fl (m'.val * R.fl (b.val - a.val)) by linarith)
  simp only [decide_eq_true_eq] at hv ⊢
  rcases hv with hv | hv
  · exact Or.inl (lt_of_lt_of_le hv k1)
  · exact Or.inr (lt_of_le_of_lt k2 hv)

example (R : Rounding 53) := C100_antitone (by decide) stdSort_exists.choose_spec (exC_WF R) rfl (of_decide_eq_true rfl)
  (half_le_one R)

/-! ## C101: bins -/

/-- Facts on the width of the bins and the quotients. -/
theorem bins_arith (hp : 34 ≤ p) {nb : Nat} (hnb : 0 < nb) (hnb' : nb < 2 ^ 32) {start stop size : Dbl R} (hss : start < stop)
    (hsize : size = (stop - start) / (nb : Dbl R)) :
    0 < size.val ∧ ∀ v : Dbl R, start ≤ v → v ≤ stop →
      0 ≤ ((v - start) / size).val ∧ ((v - start) / size).val < 2 ^ 32 ∧
      (v = stop → ((nb - 1 : Nat) : ℝ) ≤ ((v - start) / size).val) ∧
      (v = start → ((v - start) / size).val = 0) ∧
      ((v - start) / size).val * ((stop.val - start.val) / nb) * (1 - unit p) ^ 2 ≤ (v.val - start.val) * (1 + unit p) ^ 2 ∧
      (v.val - start.val) * (1 - unit p) ^ 2 ≤ ((v - start) / size).val * ((stop.val - start.val) / nb) * (1 + unit p) ^ 2 := by
  have hss' : start.val < stop.val := hss
  have hu0 := unit_pos (p := p)
  have hu : unit p ≤ 1 / 2 ^ 34 := by
    unfold unit
    calc (2 : ℝ)⁻¹ ^ p ≤ (2 : ℝ)⁻¹ ^ 34 := pow_le_pow_of_le_one (by norm_num) (by norm_num) hp
      _ = _ := by norm_num
  have hu1 : unit p < 1 / 2 := by
    refine lt_of_le_of_lt hu (by norm_num)
  have hnb0 : (0 : ℝ) < nb := Nat.cast_pos.2 hnb
  have hnb1 : (nb : ℝ) ≤ 2 ^ 32 - 1 := by
    have : nb ≤ 2 ^ 32 - 1 := by omega
    have : (nb : ℝ) ≤ ((2 ^ 32 - 1 : Nat) : ℝ) := Nat.cast_le.2 this
    norm_num at this ⊢
    exact this
  have hcast : (nb : Dbl R).val = nb := Dbl.val_cast (by
    have : 2 ^ 32 ≤ 2 ^ p := Nat.pow_le_pow_right (by norm_num) (by omega)
    omega)
  -- the rounded difference and the rounded width
  have bound : ∀ x : ℝ, 0 ≤ x → x * (1 - unit p) ≤ R.fl x ∧ R.fl x ≤ x * (1 + unit p) := by
    intro x hx
    have := R.error x
    rw [abs_of_nonneg hx, abs_le] at this
    constructor <;> linarith [this.1, this.2]
  obtain ⟨d1, d2⟩ := bound (stop.val - start.val) (by linarith)
  have hD0 : 0 < R.fl (stop.val - start.val) := lt_of_lt_of_le (mul_pos (by linarith) (by linarith)) d1
  have hsv : size.val = R.fl (R.fl (stop.val - start.val) / nb) := by
    rw [hsize, Dbl.val_div, Dbl.val_sub, hcast]
  set D := R.fl (stop.val - start.val) with hD
  obtain ⟨w1, w2⟩ := bound (D / nb) (div_pos hD0 hnb0).le
  rw [← hsv] at w1 w2
  have hw0 : 0 < size.val := lt_of_lt_of_le (mul_pos (div_pos hD0 hnb0) (by linarith)) w1
  refine ⟨hw0, fun v hv1 hv2 => ?_⟩
  have hv1' : start.val ≤ v.val := hv1
  have hv2' : v.val ≤ stop.val := hv2
  have hq : ((v - start) / size).val = R.fl (R.fl (v.val - start.val) / size.val) := rfl
  rw [hq]
  obtain ⟨n1, n2⟩ := bound (v.val - start.val) (by linarith)
  have hn0 : 0 ≤ R.fl (v.val - start.val) := R.nonneg (by linarith)
  have hnD : R.fl (v.val - start.val) ≤ D := R.mono (by linarith)
  obtain ⟨q1, q2⟩ := bound (R.fl (v.val - start.val) / size.val) (div_nonneg hn0 hw0.le)
  have hq0 : 0 ≤ R.fl (R.fl (v.val - start.val) / size.val) := R.nonneg (div_nonneg hn0 hw0.le)
  generalize R.fl (R.fl (v.val - start.val) / size.val) = Q at *
  -- multiply out the divisions
  have w1' : D * (1 - unit p) ≤ size.val * nb := by
    have := mul_le_mul_of_nonneg_right w1 hnb0.le
    have e : D / nb * (1 - unit p) * nb = D * (1 - unit p) := by field_simp
    rwa [e] at this
  have w2' : size.val * nb ≤ D * (1 + unit p) := by
    have := mul_le_mul_of_nonneg_right w2 hnb0.le
    have e : D / nb * (1 + unit p) * nb = D * (1 + unit p) := by field_simp
    rwa [e] at this
  have q1' : R.fl (v.val - start.val) * (1 - unit p) ≤ Q * size.val := by
    have := mul_le_mul_of_nonneg_right q1 hw0.le
    have e : R.fl (v.val - start.val) / size.val * (1 - unit p) * size.val = R.fl (v.val - start.val) * (1 - unit p) := by field_simp
    rwa [e] at this
  have q2' : Q * size.val ≤ R.fl (v.val - start.val) * (1 + unit p) := by
    have := mul_le_mul_of_nonneg_right q2 hw0.le
    have e : R.fl (v.val - start.val) / size.val * (1 + unit p) * size.val = R.fl (v.val - start.val) * (1 + unit p) := by field_simp
    rwa [e] at this
  have hA : 0 < 1 - unit p := by linarith
  have hB : 0 < 1 + unit p := by linarith
  refine ⟨hq0, ?_, ?_, ?_, ?_, ?_⟩
  · -- Q size ≤ D (1+u), D (1-u) ≤ size nb  ⟹ Q (1-u) ≤ nb (1+u)
    have c1 : Q * size.val ≤ D * (1 + unit p) := q2'.trans (mul_le_mul_of_nonneg_right hnD hB.le)
    have c2 : Q * size.val * (1 - unit p) ≤ nb * (1 + unit p) * size.val := by
      calc Q * size.val * (1 - unit p) ≤ D * (1 + unit p) * (1 - unit p) := mul_le_mul_of_nonneg_right c1 hA.le
        _ = D * (1 - unit p) * (1 + unit p) := by ring
        _ ≤ size.val * nb * (1 + unit p) := mul_le_mul_of_nonneg_right w1' hB.le
        _ = _ := by ring
    have c3 : Q * (1 - unit p) ≤ nb * (1 + unit p) := by
      have : Q * (1 - unit p) * size.val ≤ nb * (1 + unit p) * size.val := by linarith
      exact le_of_mul_le_mul_right this hw0
    by_contra hc
    rw [not_lt] at hc
    have c4 : (2 : ℝ) ^ 32 * (1 - unit p) ≤ Q * (1 - unit p) := mul_le_mul_of_nonneg_right hc hA.le
    have c5 : (nb : ℝ) * (1 + unit p) ≤ (2 ^ 32 - 1) * (1 + unit p) := mul_le_mul_of_nonneg_right hnb1 hB.le
    norm_num at hu c4 c5
    linarith
  · rintro rfl
    -- Q size ≥ D (1-u), size nb ≤ D (1+u) ⟹ nb (1-u) ≤ Q (1+u)
    have c2 : nb * (1 - unit p) * size.val ≤ Q * (1 + unit p) * size.val := by
      calc nb * (1 - unit p) * size.val = size.val * nb * (1 - unit p) := by ring
        _ ≤ D * (1 + unit p) * (1 - unit p) := mul_le_mul_of_nonneg_right w2' hA.le
        _ = D * (1 - unit p) * (1 + unit p) := by ring
        _ ≤ Q * size.val * (1 + unit p) := mul_le_mul_of_nonneg_right q1' hB.le
        _ = _ := by ring
    have c3 := le_of_mul_le_mul_right c2 hw0
    rw [Nat.cast_sub (by omega), Nat.cast_one]
    by_contra hc
    rw [not_le] at hc
    have c4 : Q * (1 + unit p) < (nb - 1) * (1 + unit p) := mul_lt_mul_of_pos_right hc hB
    have c5 : (nb : ℝ) * unit p ≤ (2 ^ 32 - 1) * unit p := mul_le_mul_of_nonneg_right hnb1 hu0.le
    norm_num at hu c5
    nlinarith
  · rintro rfl
    have : R.fl (v.val - v.val) = 0 := by rw [sub_self, R.exact Rounding.zero_rep]
    rw [this, zero_mul] at q2'
    have h3 : Q * size.val ≤ 0 * size.val := by rw [zero_mul]; exact q2'
    exact le_antisymm (le_of_mul_le_mul_right h3 hw0) hq0
  · have c1 : Q * (D * (1 - unit p)) ≤ Q * (size.val * nb) := mul_le_mul_of_nonneg_left w1' hq0
    have c2 : Q * ((stop.val - start.val) * (1 - unit p) * (1 - unit p)) ≤ Q * (D * (1 - unit p)) :=
      mul_le_mul_of_nonneg_left (mul_le_mul_of_nonneg_right d1 hA.le) hq0
    have c3 : Q * size.val * nb ≤ (v.val - start.val) * (1 + unit p) * (1 + unit p) * nb :=
      mul_le_mul_of_nonneg_right (q2'.trans (mul_le_mul_of_nonneg_right n2 hB.le)) hnb0.le
    have e : Q * ((stop.val - start.val) / nb) * (1 - unit p) ^ 2 = Q * ((stop.val - start.val) * (1 - unit p) * (1 - unit p)) / nb := by
      field_simp
    rw [e, div_le_iff₀ hnb0]
    calc _ ≤ Q * (D * (1 - unit p)) := c2
      _ ≤ Q * (size.val * nb) := c1
      _ = Q * size.val * nb := by ring
      _ ≤ _ := c3
      _ = _ := by ring
  · have c1 : Q * (size.val * nb) ≤ Q * (D * (1 + unit p)) := mul_le_mul_of_nonneg_left w2' hq0
    have c2 : Q * (D * (1 + unit p)) ≤ Q * ((stop.val - start.val) * (1 + unit p) * (1 + unit p)) :=
      mul_le_mul_of_nonneg_left (mul_le_mul_of_nonneg_right d2 hB.le) hq0
    have c3 : (v.val - start.val) * (1 - unit p) * (1 - unit p) * nb ≤ Q * size.val * nb :=
      mul_le_mul_of_nonneg_right ((mul_le_mul_of_nonneg_right n1 hA.le).trans q1') hnb0.le
    have e : Q * ((stop.val - start.val) / nb) * (1 + unit p) ^ 2 = Q * ((stop.val - start.val) * (1 + unit p) * (1 + unit p)) / nb := by
      field_simp
    rw [e, le_div_iff₀ hnb0]
    calc _ = (v.val - start.val) * (1 - unit p) * (1 - unit p) * nb := by ring
      _ ≤ _ := c3
      _ = Q * (size.val * nb) := by ring
      _ ≤ _ := c1
      _ ≤ _ := c2

/-- C101: with rounding, for values between `start` and `stop`: `bins` gives `nb` exact counts, whose total is the number of values;
each value is counted in one bin, larger values never in an earlier bin, `start` in the first, `stop` in the last; and a value
counted in bin `i` lies in `[start + i w, start + (i + 1) w]`, `w = (stop - start) / nb`, up to the relative error of four roundings
(the last bin has no upper bound here). -/
theorem C101_bins (hp : 34 ≤ p) {s : Serie (Dbl R)} (h : WF s) (h1 : s.itemSize = 1) {nb : Nat} (hnb : 0 < nb)
    (hnb' : nb < 2 ^ 32) {start stop : Dbl R} (hss : start < stop) (hv : ∀ v ∈ scalars s, start ≤ v ∧ v ≤ stop) :
    ∃ (r : Serie (Dbl R)) (bin : Dbl R → Nat), binsIn s nb start stop = .ok r ∧ WF r ∧ r.itemSize = 1 ∧ r.count = nb ∧
      (∀ v, bin v < nb) ∧
      (∀ i, i < nb → (vals (scalars r))[i]? = some (((scalars s).countP (fun v => bin v = i) : Nat) : ℝ)) ∧
      (vals (scalars r)).sum = s.count ∧
      (∀ v ∈ scalars s, ∀ w ∈ scalars s, v ≤ w → bin v ≤ bin w) ∧
      bin start = 0 ∧ bin stop = nb - 1 ∧
      ∀ v ∈ scalars s, (bin v : ℝ) * ((stop.val - start.val) / nb) * (1 - unit p) ^ 2 ≤ (v.val - start.val) * (1 + unit p) ^ 2 ∧
        (bin v + 1 < nb →
          (v.val - start.val) * (1 - unit p) ^ 2 ≤ ((bin v : ℝ) + 1) * ((stop.val - start.val) / nb) * (1 + unit p) ^ 2) := by
  obtain ⟨hw, hq⟩ := bins_arith hp hnb hnb' hss (size := (stop - start) / (nb : Dbl R)) rfl
  generalize hsz : (stop - start) / (nb : Dbl R) = size at *
  have hss' : start ≤ stop := hss.le
  obtain ⟨b, e1, e2, e3⟩ := binsIn_run hp h h1 hnb hnb' hsz.symm hw (fun v hv' =>
    ⟨(hq v (hv v hv').1 (hv v hv').2).1, (hq v (hv v hv').1 (hv v hv').2).2.1⟩)
  have hlt : ∀ v, binIdxR nb start size v < nb := fun v => by unfold binIdxR; omega
  have hent : ∀ i, i < nb → (vals b)[i]? = some (((scalars s).countP (fun v => binIdxR nb start size v = i) : Nat) : ℝ) := by
    intro i hi
    obtain ⟨y, hy1, hy2⟩ := e3 i hi
    unfold vals
    rw [List.getElem?_map, hy1, Option.map_some, hy2]
  have hW : 0 < (stop.val - start.val) / nb :=
    div_pos (by have : start.val < stop.val := hss; linarith) (Nat.cast_pos.2 hnb)
  refine ⟨_, binIdxR nb start size, e1, WF_ofScalars (by omega), rfl, by simpa [ofScalars] using e2, hlt, ?_, ?_, ?_, ?_, ?_, ?_⟩
  · rw [scalars_ofScalars]; exact hent
  · rw [scalars_ofScalars]
    obtain ⟨f1, f2, f3⟩ := foldl_modify_facts (α := ℝ) (nb := nb) (idx := binIdxR nb start size) hlt (scalars s)
      (List.replicate nb 0) (by simp)
    have : vals b = (scalars s).foldl (fun b v => b.modify (binIdxR nb start size v) (· + 1)) (List.replicate nb (0 : ℝ)) := by
      apply List.ext_getElem?
      intro i
      by_cases hi : i < nb
      · rw [hent i hi, f3 i 0 (by simp [hi]), zero_add]
      · rw [List.getElem?_eq_none (by simp [vals, e2]; omega), List.getElem?_eq_none (by omega)]
    rw [this, f2, h.scalars_length]; simp
  · intro v hv' w hw' hvw
    have hm : ((v - start) / size).val ≤ ((w - start) / size).val := by
      have hvw' : v.val ≤ w.val := hvw
      exact R.mono (div_le_div_of_nonneg_right (R.mono (by linarith)) hw.le)
    have := Int.floor_le_floor hm
    unfold binIdxR
    omega
  · have := (hq start (le_refl _) hss').2.2.2.1 rfl
    unfold binIdxR
    rw [this]; simp
  · have := (hq stop hss' (le_refl _)).2.2.1 rfl
    have h5 : ((nb - 1 : Nat) : ℤ) ≤ ⌊((stop - start) / size).val⌋ := by
      rw [Int.le_floor]; exact_mod_cast this
    unfold binIdxR
    omega
  · intro v hv'
    obtain ⟨q0, _, _, _, b1, b2⟩ := hq v (hv v hv').1 (hv v hv').2
    have hf0 : 0 ≤ ⌊((v - start) / size).val⌋ := Int.floor_nonneg.2 q0
    constructor
    · refine le_trans ?_ b1
      have h5 : (binIdxR nb start size v : ℝ) ≤ ((v - start) / size).val := by
        refine le_trans ?_ (Int.floor_le _)
        have : (binIdxR nb start size v : ℤ) ≤ ⌊((v - start) / size).val⌋ := by unfold binIdxR; omega
        exact_mod_cast this
      exact mul_le_mul_of_nonneg_right (mul_le_mul_of_nonneg_right h5 hW.le) (sq_nonneg _)
    · intro hl
      refine le_trans b2 ?_
      have h5 : ((v - start) / size).val ≤ (binIdxR nb start size v : ℝ) + 1 := by
        refine (Int.lt_floor_add_one _).le.trans ?_
        have : ⌊((v - start) / size).val⌋ + 1 ≤ (binIdxR nb start size v : ℤ) + 1 := by unfold binIdxR at hl ⊢; omega
        exact_mod_cast this
      exact mul_le_mul_of_nonneg_right (mul_le_mul_of_nonneg_right h5 hW.le) (sq_nonneg _)

example (R : Rounding 53) := C101_bins (by decide) (exC_WF R) rfl (nb := 3) (by decide) (by decide)
  (start := dbl R 0) (stop := dbl R 49) (dbl_strictMono (by norm_num) (by norm_num) (by norm_num)) (exC_range R)

/-- C101 for `bins(s, nb)`: when two values differ, the smallest is in the first bin and the largest in the last, and the total is
the number of values. -/
theorem C101_bins_range [Limits (Dbl R)] (hp : 34 ≤ p) {s : Serie (Dbl R)} (h : WF s) (h1 : s.itemSize = 1) {nb : Nat}
    (hnb : 0 < nb) (hnb' : nb < 2 ^ 32) (hlim : ∀ x ∈ scalars s, Limits.lowest ≤ x ∧ x ≤ Limits.highest)
    (hne : ∃ x ∈ scalars s, ∃ y ∈ scalars s, x ≠ y) :
    ∃ (a b : Dbl R) (r : Serie (Dbl R)) (bin : Dbl R → Nat), Least a (scalars s) ∧ Greatest b (scalars s) ∧ bins s nb = .ok r ∧
      r.count = nb ∧ (∀ v, bin v < nb) ∧
      (∀ i, i < nb → (vals (scalars r))[i]? = some (((scalars s).countP (fun v => bin v = i) : Nat) : ℝ)) ∧
      (vals (scalars r)).sum = s.count ∧ bin a = 0 ∧ bin b = nb - 1 ∧
      (∀ v ∈ scalars s, ∀ w ∈ scalars s, v ≤ w → bin v ≤ bin w) := by
  obtain ⟨x0, hx0, y0, hy0, hxy⟩ := hne
  have h0 : 0 < s.count := by rw [← h.scalars_length]; exact List.length_pos_of_mem hx0
  obtain ⟨a, b, hm, ha, hb⟩ := minMax_scalar h h0 h1 hlim
  have hab : a < b := by
    rcases lt_or_ge a b with hlt | hge
    · exact hlt
    · have e : ∀ z ∈ scalars s, z = a := fun z hz => le_antisymm ((hb.2 z hz).trans hge) (ha.2 z hz)
      exact absurd ((e x0 hx0).trans (e y0 hy0).symm) hxy
  obtain ⟨r, bin, e1, _, _, e4, e5, e6, e7, e8, e9, e10, _⟩ := C101_bins hp h h1 hnb hnb' hab
    (fun v hv => ⟨ha.2 v hv, hb.2 v hv⟩)
  refine ⟨a, b, r, bin, ha, hb, ?_, e4, e5, e6, e7, e9, e10, e8⟩
  unfold bins
  rw [hm]
  exact e1

example (R : Rounding 53) := @C101_bins_range 53 R ⟨dbl R 49, dbl R 0⟩ (by decide) (exC R) (exC_WF R) rfl 3 (by decide) (by decide)
  (exC_range R) (exC_ne R)

end DF
