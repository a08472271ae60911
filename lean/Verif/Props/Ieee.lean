import Verif.Lemmas.Ieee
import Verif.Props.FloatNorm

/-!
# Properties of machine numbers with a limited range (C118-C120)

The numbers are `double` with infinities and NaN: results that are too large become infinite, results close to zero are
rounded to a multiple of the smallest positive number.
-/

namespace DF

open Spec

variable {D : Machine}

/-- The number `x` rounded, for the examples. -/
noncomputable def mach (D : Machine) (x : ℝ) : Ext (Num D) := Ext.ofReal D x

/-- Two items of three numbers, for the examples. -/
noncomputable def exI (D : Machine) : Serie (Ext (Num D)) :=
  ⟨[mach D 1, mach D 2, mach D 3, .pinf, mach D 5, .nan], 2, 3, 3⟩

/-- Two items of three numbers, for the examples. -/
noncomputable def exJ (D : Machine) : Serie (Ext (Num D)) :=
  ⟨[mach D 4, mach D 0, mach D (-3), mach D 7, mach D 5, mach D 1], 2, 3, 3⟩

theorem exI_WF (D : Machine) : WF (exI D) := ⟨of_decide_eq_true rfl, of_decide_eq_true rfl, of_decide_eq_true rfl, of_decide_eq_true rfl⟩
theorem exJ_WF (D : Machine) : WF (exJ D) := ⟨of_decide_eq_true rfl, of_decide_eq_true rfl, of_decide_eq_true rfl, of_decide_eq_true rfl⟩

namespace Ext

theorem ofReal_cases (x : ℝ) : IsFinite (ofReal D x) ∨ ofReal D x = pinf ∧ D.top < x ∨ ofReal D x = ninf ∧ x < -D.top := by
  by_cases h : |x| ≤ D.top
  · exact .inl (finite_of_le h)
  by_cases h1 : |D.fl x| ≤ D.top
  · exact .inl ⟨_, ofReal_fin h1⟩
  · unfold ofReal
    rw [dif_neg h1]
    have ht := D.top_pos
    rcases lt_abs.1 (not_le.1 h) with h2 | h2
    · rw [if_pos (by linarith)]; exact .inr (.inl ⟨rfl, h2⟩)
    · rw [if_neg (by linarith)]; exact .inr (.inr ⟨rfl, by linarith⟩)

end Ext

/-! ## C118: one operation for each number -/

/-- C118: where the result of `add` is finite, both operands are, and it is their sum up to one rounding (even close to
zero); the sum of finite numbers is finite unless it is beyond the largest number. -/
theorem C118_add {a b : Serie (Ext (Num D))} (ha : WF a) (hb : WF b) (hs : SameShape a b) :
    ∃ r, add2 a b = .ok r ∧ WF r ∧ SameShape r a ∧ ∀ i j x y, cell a i j = some x → cell b i j = some y →
      ∃ z, cell r i j = some z ∧
        (IsFinite z → IsFinite x ∧ IsFinite y ∧ |real z - (real x + real y)| ≤ ulp D * |real x + real y|) ∧
        (IsFinite x → IsFinite y → InRange D z (real x + real y)) := by
  obtain ⟨r, h1, h2, h3, h4⟩ := (C35_add ha hb).2 hs
  refine ⟨r, h1, h2, h3, fun i j x y hx hy => ⟨_, h4 i j x y hx hy, fun hz => ?_, ?_⟩⟩
  · obtain ⟨f1, f2, _⟩ := Ext.add_finite hz
    exact ⟨f1, f2, Ext.add_err hz⟩
  · rintro ⟨x, rfl⟩ ⟨y, rfl⟩
    exact Ext.ofReal_cases _

example (D : Machine) := C118_add (exI_WF D) (exJ_WF D) ⟨rfl, rfl⟩

/-- C118: the same for `sub`; a difference of finite numbers is zero only for equal numbers. -/
theorem C118_sub {a b : Serie (Ext (Num D))} (ha : WF a) (hb : WF b) (hs : SameShape a b) :
    ∃ r, sub2 a b = .ok r ∧ WF r ∧ SameShape r a ∧ ∀ i j x y, cell a i j = some x → cell b i j = some y →
      ∃ z, cell r i j = some z ∧
        (IsFinite z → IsFinite x ∧ IsFinite y ∧ |real z - (real x - real y)| ≤ ulp D * |real x - real y|) ∧
        (IsFinite x → IsFinite y → InRange D z (real x - real y) ∧ (z = 0 ↔ x = y)) := by
  obtain ⟨r, h1, h2, h3, h4⟩ := (C35_sub ha hb).2 hs
  refine ⟨r, h1, h2, h3, fun i j x y hx hy => ⟨_, h4 i j x y hx hy, fun hz => ?_, fun fx fy => ?_⟩⟩
  · obtain ⟨f1, f2, _⟩ := Ext.sub_finite hz
    exact ⟨f1, f2, Ext.sub_err hz⟩
  · refine ⟨?_, fun h0 => ?_, ?_⟩
    · obtain ⟨x, rfl⟩ := fx
      obtain ⟨y, rfl⟩ := fy
      exact Ext.ofReal_cases _
    · have hz : IsFinite (x - y) := ⟨0, h0⟩
      obtain ⟨_, _, e⟩ := Ext.sub_finite hz
      rw [h0] at e
      have := D.fl_eq_zero ((Ext.finite_real fx).1.onGrid.sub (Ext.finite_real fy).1.onGrid) e.symm
      exact Ext.real_inj fx fy (by linarith)
    · rintro rfl
      have hz : IsFinite (x - x) := Ext.sub_of_le fx fx (by rw [sub_self, abs_zero]; exact D.top_pos.le)
      refine Ext.real_inj hz ⟨0, rfl⟩ ?_
      rw [(Ext.sub_finite hz).2.2, sub_self, D.fl_zero]
      rfl

example (D : Machine) := C118_sub (exI_WF D) (exJ_WF D) ⟨rfl, rfl⟩

/-- C118: where the result of `scale` or `mult` by a number is finite, number and factor are, and it is their product up to
one rounding, plus half the smallest positive number; the product of finite numbers is finite unless it is beyond the
largest number. -/
theorem C118_scale {s : Serie (Ext (Num D))} (h : WF s) (h0 : 0 < s.count) (w : Ext (Num D)) :
    ∃ r, scale s w = .ok r ∧ mult s w = .ok r ∧ WF r ∧ SameShape r s ∧ ∀ i j x, cell s i j = some x →
      ∃ z, cell r i j = some z ∧
        (IsFinite z → IsFinite x ∧ IsFinite w ∧ |real z - real x * real w| ≤ ulp D * |real x * real w| + tiny D) ∧
        (IsFinite x → IsFinite w → InRange D z (real x * real w)) := by
  obtain ⟨h2, h3, h4⟩ := onNumbers_cells (f := (· * w)) h
  refine ⟨_, C36_scale h h0 w, C36_mult h h0 w, h2, h3, fun i j x hx => ⟨_, h4 i j x hx, fun hz => ?_, ?_⟩⟩
  · obtain ⟨f1, f2, _⟩ := Ext.mul_finite hz
    exact ⟨f1, f2, Ext.mul_err hz⟩
  · rintro ⟨x, rfl⟩ ⟨y, rfl⟩
    exact Ext.ofReal_cases _

example (D : Machine) := C118_scale (exI_WF D) (of_decide_eq_true rfl) (mach D 3)

/-- C118: where the result of `div` by a finite number is finite, the divisor is not zero, the number is finite, and it is
the quotient up to one rounding, plus half the smallest positive number; the quotient of finite numbers is finite unless
it is beyond the largest number. -/
theorem C118_div {s : Serie (Ext (Num D))} (h : WF s) (h0 : 0 < s.count) {w : Ext (Num D)} (hw : IsFinite w) :
    ∃ r, divNum w s = .ok r ∧ WF r ∧ SameShape r s ∧ ∀ i j x, cell s i j = some x →
      ∃ z, cell r i j = some z ∧
        (IsFinite z → real w ≠ 0 ∧ IsFinite x ∧ |real z - real x / real w| ≤ ulp D * |real x / real w| + tiny D) ∧
        (IsFinite x → real w ≠ 0 → InRange D z (real x / real w)) := by
  obtain ⟨h2, h3, h4⟩ := onNumbers_cells (f := (· / w)) h
  refine ⟨_, C36_div h h0 w, h2, h3, fun i j x hx => ⟨_, h4 i j x hx, fun hz => ?_, ?_⟩⟩
  · obtain ⟨f1, f2, e⟩ := Ext.div_finite hw hz
    refine ⟨f2, f1, ?_⟩
    show |real (x / w) - _| ≤ _
    rw [e]
    exact D.error _
  · rintro ⟨x, rfl⟩ hn
    obtain ⟨w, rfl⟩ := hw
    show InRange D (Ext.fin x / Ext.fin w) _
    rw [Ext.fin_div' (fun hc => hn (by rw [hc]; rfl))]
    exact Ext.ofReal_cases _

example (D : Machine) := C118_div (exI_WF D) (of_decide_eq_true rfl) (w := .fin 1) ⟨_, rfl⟩

/-- C118: the same for the product of two Series of the same shape. -/
theorem C118_mult {a b : Serie (Ext (Num D))} (ha : WF a) (hb : WF b) (hs : SameShape a b) (h0 : 0 < a.count)
    (h1 : a.itemSize ≠ 1) :
    ∃ r, multSerie a b = .ok r ∧ WF r ∧ SameShape r a ∧ ∀ i j x y, cell a i j = some x → cell b i j = some y →
      ∃ z, cell r i j = some z ∧
        (IsFinite z → IsFinite x ∧ IsFinite y ∧ |real z - real x * real y| ≤ ulp D * |real x * real y| + tiny D) ∧
        (IsFinite x → IsFinite y → InRange D z (real x * real y)) := by
  obtain ⟨h2, h3, _⟩ := WF_pointwise (op := (· * ·)) ha hb hs
  refine ⟨_, multSerie_same ha hb h0 hs h1, h2, h3, fun i j x y hx hy => ⟨_, cell_pointwise ha hb hs hx hy, fun hz => ?_, ?_⟩⟩
  · obtain ⟨f1, f2, _⟩ := Ext.mul_finite hz
    exact ⟨f1, f2, Ext.mul_err hz⟩
  · rintro ⟨x, rfl⟩ ⟨y, rfl⟩
    exact Ext.ofReal_cases _

example (D : Machine) := C118_mult (exI_WF D) (exJ_WF D) ⟨rfl, rfl⟩ (of_decide_eq_true rfl) (of_decide_eq_true rfl)

/-! ## C119: sums -/

namespace Ext

theorem top_large (hD : IsDouble D) : (2 : ℝ) ^ 1023 ≤ D.top := by
  rw [hD.2.2, show (1023 : ℕ) = 52 + 971 from rfl, pow_add]
  exact mul_le_mul_of_nonneg_right (by norm_num) (by positivity)

theorem top_small (hD : IsDouble D) : D.top < (2 : ℝ) ^ (1024 : ℤ) := by
  rw [hD.2.2, show (1024 : ℤ) = 53 + 971 from rfl, zpow_add₀ (by norm_num)]
  have : (2 : ℝ) ^ 971 = (2 : ℝ) ^ (971 : ℤ) := (zpow_natCast _ _).symm
  rw [this]
  exact mul_lt_mul_of_pos_right (by norm_num) (zpow_pos (by norm_num) _)

theorem ofReal_large {x : ℝ} (hr : RepMin D.p D.emin x) (h : D.top < x) : ofReal D x = pinf := by
  have := D.top_pos
  unfold ofReal
  rw [dif_neg (by rw [D.exact hr, abs_of_pos (by linarith)]; exact not_le.2 h), if_pos (by linarith)]

theorem rep_power (hD : IsDouble D) {e : ℤ} (h : -1074 ≤ e) : RepMin D.p D.emin ((2 : ℝ) ^ e) :=
  ⟨1, e, by simp [one_le_pow₀], by rw [hD.2.1]; exact h, by simp⟩

theorem ofReal_power (hD : IsDouble D) {e : ℤ} (h : 1024 ≤ e) : ofReal D ((2 : ℝ) ^ e) = pinf :=
  ofReal_large (rep_power hD (by omega)) (lt_of_lt_of_le (top_small hD) (zpow_le_zpow_right₀ (by norm_num) h))

theorem ofReal_val (x : Num D) : ofReal D x.val = fin x := by
  have hf := finite_of_le x.le
  refine real_inj hf ⟨x, rfl⟩ ?_
  rw [real_ofReal hf]
  exact D.exact x.rep

theorem zero_plus (x : Num D) : (0 + fin x : Ext (Num D)) = fin x := by
  show ofReal D (0 + x.val) = _
  rw [zero_add, ofReal_val]

theorem natCast_finite (hD : IsDouble D) {n : Nat} (h : n < 2 ^ 32) :
    IsFinite ((n : Nat) : Ext (Num D)) ∧ real ((n : Nat) : Ext (Num D)) = n := by
  have hn : (n : ℝ) ≤ 2 ^ 32 := by exact_mod_cast h.le
  have hf : IsFinite (ofReal D (n : ℝ)) := finite_of_le (by
    rw [abs_of_nonneg (by positivity)]
    exact hn.trans ((pow_le_pow_right₀ (by norm_num) (by norm_num)).trans (top_large hD)))
  refine ⟨hf, ?_⟩
  show real (ofReal D n) = n
  rw [real_ofReal hf]
  refine D.exact ⟨n, 0, ?_, by rw [hD.2.1]; norm_num, by simp⟩
  rw [hD.1, abs_of_nonneg (by positivity)]
  have : n ≤ 2 ^ 53 := h.le.trans (by norm_num)
  exact_mod_cast this

theorem reals_abs_le (l : List (Ext (Num D))) : |(reals l).sum| ≤ (absReals l).sum := by
  induction l with
  | nil => simp [reals, absReals]
  | cons x l ih =>
    simp only [reals, absReals, List.map_cons, List.sum_cons] at ih ⊢
    exact (abs_add_le _ _).trans (by linarith)

theorem mean_err (hD : IsDouble D) {l : List (Ext (Num D))} {n : Nat} (hn : n < 2 ^ 32) (hl : l.length = n)
    (h : IsFinite (l.foldl (· + ·) 0 / ((n : Nat) : Ext (Num D)))) :
    (∀ y ∈ l, IsFinite y) ∧ |real (l.foldl (· + ·) 0 / ((n : Nat) : Ext (Num D))) - average (reals l)| ≤
      growth D.p (n + 1) * average (absReals l) + tiny D := by
  obtain ⟨c1, c2⟩ := natCast_finite hD hn
  obtain ⟨h1, h2, h3⟩ := div_finite c1 h
  obtain ⟨_, h4, h5⟩ := fold_err l 0 h1
  refine ⟨h4, ?_⟩
  rw [h3]
  have he := D.error (real (l.foldl (· + ·) 0) / real ((n : Nat) : Ext (Num D)))
  rw [c2] at he h2 ⊢
  have hn0 : (0 : ℝ) < n := lt_of_le_of_ne (by positivity) (Ne.symm h2)
  simp only [show real (0 : Ext (Num D)) = 0 from rfl, abs_zero, zero_add, hl] at h5
  have e1 : average (reals l) = (reals l).sum / n := by simp [average, reals, hl]
  have e2 : average (absReals l) = (absReals l).sum / n := by simp [average, absReals, hl]
  rw [e1, e2]
  have h6 : |real (l.foldl (· + ·) 0) / (n : ℝ) - (reals l).sum / n| ≤ growth D.p n * ((absReals l).sum / n) := by
    rw [← sub_div, abs_div, abs_of_pos hn0, ← mul_div_assoc]
    exact div_le_div_of_nonneg_right h5 hn0.le
  have h7 : |(reals l).sum / (n : ℝ)| ≤ (absReals l).sum / n := by
    rw [abs_div, abs_of_pos hn0]
    refine div_le_div_of_nonneg_right ?_ hn0.le
    exact reals_abs_le l
  generalize real (l.foldl (· + ·) 0) / (n : ℝ) = q at he h6 ⊢
  generalize (reals l).sum / (n : ℝ) = E at h6 h7 ⊢
  generalize (absReals l).sum / (n : ℝ) = A at h6 h7 ⊢
  have h8 := abs_of_error h6 h7
  have h9 := abs_add_le (D.fl q - q) (q - E)
  rw [sub_add_sub_cancel] at h9
  rw [growth_succ]
  unfold ulp at he
  have hu := unit_pos (p := D.p)
  nlinarith [mul_le_mul_of_nonneg_left h8 hu.le]

end Ext

/-- C119: where `mean` is finite, all the numbers are, and it is their average up to `count + 1` roundings relative to the
average of the absolute values, plus half the smallest positive number. It is finite if the numbers are and the sum of
their absolute values is at most half the largest number. -/
theorem C119_mean_partial (hD : IsDouble D) {s : Serie (Ext (Num D))} (h : WF s) (h0 : 0 < s.count) :
    ∃ t, mean s = .ok t ∧ ∀ j, j < s.itemSize → ∃ x, tupleAt t j = some x ∧
      (IsFinite x → (∀ y ∈ component s j, IsFinite y) ∧
        |real x - average (reals (component s j))| ≤
          growth 53 (s.count + 1) * average (absReals (component s j)) + tiny D) ∧
      ((∀ y ∈ component s j, IsFinite y) → (absReals (component s j)).sum ≤ D.top / 2 → IsFinite x) := by
  have hn := h.count_lt
  have key : ∀ l : List (Ext (Num D)), l.length = s.count →
      (IsFinite (l.foldl (· + ·) 0 / ((s.count : Nat) : Ext (Num D))) → (∀ y ∈ l, IsFinite y) ∧
        |real (l.foldl (· + ·) 0 / ((s.count : Nat) : Ext (Num D))) - average (reals l)| ≤
          growth 53 (s.count + 1) * average (absReals l) + tiny D) ∧
      ((∀ y ∈ l, IsFinite y) → (absReals l).sum ≤ D.top / 2 →
        IsFinite (l.foldl (· + ·) 0 / ((s.count : Nat) : Ext (Num D)))) := by
    intro l hl
    refine ⟨fun hf => ?_, fun hf hb => ?_⟩
    · have := Ext.mean_err hD (by omega) hl hf
      rwa [hD.1] at this
    · obtain ⟨c1, c2⟩ := Ext.natCast_finite hD (n := s.count) (by omega)
      have hg : growth D.p l.length ≤ 1 := by
        rw [hD.1, hl]
        have hu : unit 53 = 1 / 2 ^ 53 := by unfold unit; norm_num
        have hc : (s.count : ℝ) ≤ 2 ^ 32 := by exact_mod_cast (by omega : s.count ≤ 2 ^ 32)
        have := growth_le (p := 53) (n := s.count) (by rw [hu]; nlinarith)
        rw [hu] at this
        nlinarith
      have hT := Ext.absReals_nonneg l
      have hS : IsFinite (l.foldl (· + ·) 0) := Ext.fold_of_le l 0 ⟨0, rfl⟩ hf (by
        simp only [show real (0 : Ext (Num D)) = 0 from rfl, abs_zero, zero_add]
        nlinarith)
      have hc0 : (1 : ℝ) ≤ s.count := by exact_mod_cast h0
      refine Ext.div_of_le hS c1 (by rw [c2]; linarith) ?_
      rw [c2, abs_div, abs_of_pos (a := (s.count : ℝ)) (by linarith)]
      exact (div_le_self (abs_nonneg _) hc0).trans (Ext.finite_real hS).2
  by_cases h1 : s.itemSize = 1
  · refine ⟨_, mean_scalar_run h h1, fun j hj => ?_⟩
    have : j = 0 := by omega
    subst this
    refine ⟨_, rfl, ?_⟩
    rw [component_scalar h h1]
    exact key _ h.scalars_length
  · obtain ⟨b, h2, h3, h4⟩ := mean_items_run h h1
    exact ⟨_, h2, fun j hj => ⟨_, h4 j hj, key _ (component_length h hj)⟩⟩

example := C119_mean_partial binary64_isDouble (exI_WF binary64) (of_decide_eq_true rfl)

/-- A power of two in the range of `double`. -/
noncomputable def power (hD : IsDouble D) (e : ℤ) (h1 : -1074 ≤ e) (h2 : e ≤ 1023) : Num D :=
  ⟨(2 : ℝ) ^ e, Ext.rep_power hD h1, by
    rw [abs_of_pos (zpow_pos (by norm_num) _)]
    refine le_trans (zpow_le_zpow_right₀ (by norm_num) h2) ?_
    exact_mod_cast Ext.top_large hD⟩

/-- C119: without that restriction the claim is violated: the mean of two finite numbers whose average is a `double` is
infinite. -/
theorem C119_mean_violated (hD : IsDouble D) : ∃ s : Serie (Ext (Num D)), ∃ x : Num D, WF s ∧ s.count = 2 ∧
    scalars s = [.fin x, .fin x] ∧ mean s = .ok (.number .pinf) := by
  have h : WF (⟨[.fin (power hD 1023 (by norm_num) le_rfl), .fin (power hD 1023 (by norm_num) le_rfl)], 2, 1, 3⟩ : Serie (Ext (Num D))) :=
    ⟨of_decide_eq_true rfl, of_decide_eq_true rfl, of_decide_eq_true rfl, of_decide_eq_true rfl⟩
  refine ⟨_, power hD 1023 (by norm_num) le_rfl, h, rfl, rfl, ?_⟩
  rw [mean_scalar_run h rfl]
  obtain ⟨⟨c, hc⟩, hc2⟩ := Ext.natCast_finite hD (n := 2) (by norm_num)
  congr 2
  generalize hx : power hD 1023 (by norm_num) le_rfl = x
  have hxv : x.val = (2 : ℝ) ^ (1023 : ℤ) := by rw [← hx]; rfl
  show (0 + Ext.fin x + Ext.fin x) / ((2 : Nat) : Ext (Num D)) = .pinf
  have e1 : (Ext.fin x + Ext.fin x : Ext (Num D)) = .pinf := by
    show Ext.ofReal D (x.val + x.val) = _
    rw [hxv, ← two_mul, ← zpow_one_add₀ (by norm_num)]
    exact Ext.ofReal_power hD (by norm_num)
  rw [Ext.zero_plus, e1, hc]
  rw [hc] at hc2
  show (if c < 0 then Ext.ninf else Ext.pinf) = _
  refine if_neg (not_lt.2 ?_)
  show (0 : ℝ) ≤ c.val
  rw [show c.val = 2 from by simpa [real] using hc2]
  norm_num

example := C119_mean_violated binary64_isDouble

namespace Ext

theorem zip_real : ∀ u v : List (Ext (Num D)),
    List.zipWith (· * ·) u v = (u.zip v).map (fun q => q.1 * q.2) ∧
    dotL (reals u) (reals v) = ((u.zip v).map fun q => real q.1 * real q.2).sum ∧
    dotL (absReals u) (absReals v) = ((u.zip v).map fun q => |real q.1 * real q.2|).sum
  | [], v => by simp [dotL, reals, absReals]
  | x :: u, [] => by simp [dotL, reals, absReals]
  | x :: u, y :: v => by
    obtain ⟨h1, h2, h3⟩ := zip_real u v
    refine ⟨by simp [h1], ?_, ?_⟩
    · simp only [dotL, reals, List.map_cons, List.zipWith_cons_cons, List.sum_cons, List.zip_cons_cons] at h2 ⊢
      rw [h2]
    · simp only [dotL, absReals, List.map_cons, List.zipWith_cons_cons, List.sum_cons, List.zip_cons_cons] at h3 ⊢
      rw [h3, abs_mul]

theorem zip_all {P : Ext (Num D) → Prop} : ∀ {u v : List (Ext (Num D))}, u.length = v.length →
    (∀ q ∈ u.zip v, P q.1 ∧ P q.2) → (∀ x ∈ u, P x) ∧ ∀ x ∈ v, P x
  | [], [], _, _ => by simp
  | x :: u, y :: v, hl, h => by
    simp only [List.zip_cons_cons, List.forall_mem_cons] at h ⊢
    obtain ⟨h1, h2⟩ := zip_all (by simpa using hl) h.2
    exact ⟨⟨h.1.1, h1⟩, h.1.2, h2⟩

theorem dot_err {u v : List (Ext (Num D))} (hl : u.length = v.length)
    (h : IsFinite ((List.zipWith (· * ·) u v).foldl (· + ·) 0)) :
    (∀ x ∈ u, IsFinite x) ∧ (∀ x ∈ v, IsFinite x) ∧
    |real ((List.zipWith (· * ·) u v).foldl (· + ·) 0) - dotL (reals u) (reals v)| ≤
      growth D.p (u.length + 1) * dotL (absReals u) (absReals v) + (1 + growth D.p u.length) * (u.length * tiny D) := by
  obtain ⟨e1, e2, e3⟩ := zip_real u v
  rw [e1] at h ⊢
  rw [e2, e3]
  obtain ⟨h1, h2⟩ := terms_err (u.zip v) (fun q => q.1 * q.2) (fun q => real q.1 * real q.2)
    (fun q => |real q.1 * real q.2|) 1 (t := tiny D) (fun q _ hq => by rw [growth_one]; exact mul_err hq)
    (fun _ _ => le_rfl) h
  obtain ⟨h3, h4⟩ := zip_all (P := IsFinite) hl (fun q hq => ⟨(mul_finite (h1 q hq)).1, (mul_finite (h1 q hq)).2.1⟩)
  have hlz : (u.zip v).length = u.length := by simp [hl]
  rw [hlz] at h2
  exact ⟨h3, h4, h2⟩

theorem growth_small (hD : IsDouble D) {n : Nat} (h : n < 2 ^ 32) : growth D.p n ≤ 1 / 100 := by
  have hu : unit 53 = 1 / 2 ^ 53 := by unfold unit; norm_num
  have hc : (n : ℝ) ≤ 2 ^ 32 := by exact_mod_cast h.le
  rw [hD.1]
  have := growth_le (p := 53) (n := n) (by rw [hu]; nlinarith)
  rw [hu] at this
  nlinarith

theorem tiny_small (hD : IsDouble D) : tiny D ≤ 1 / 2 ^ 100 := by
  unfold tiny
  rw [hD.2.1]
  have : (2 : ℝ) ^ (-1074 : ℤ) ≤ (2 : ℝ) ^ (-100 : ℤ) := zpow_le_zpow_right₀ (by norm_num) (by norm_num)
  have e : (2 : ℝ) ^ (-100 : ℤ) = 1 / 2 ^ 100 := by rw [zpow_neg, one_div]; norm_cast
  have h0 : (0 : ℝ) < 1 / 2 ^ 100 := by positivity
  rw [e] at this
  linarith

theorem dot_of_le (hD : IsDouble D) {u v : List (Ext (Num D))} (hn : u.length < 2 ^ 32)
    (hu : ∀ x ∈ u, IsFinite x) (hv : ∀ x ∈ v, IsFinite x) (h : dotL (absReals u) (absReals v) ≤ D.top / 2) :
    IsFinite ((List.zipWith (· * ·) u v).foldl (· + ·) 0) := by
  obtain ⟨e1, e2, e3⟩ := zip_real u v
  rw [e1]
  rw [e3] at h
  have ht := D.top_pos
  have hlz : (u.zip v).length ≤ u.length := by simp
  generalize hps : u.zip v = ps at h hlz ⊢
  have hA : ∀ q ∈ ps, |real q.1 * real q.2| ≤ D.top / 2 := fun q hq =>
    le_trans (List.single_le_sum (l := ps.map fun q => |real q.1 * real q.2|) (by
      intro x hx
      obtain ⟨y, _, rfl⟩ := List.mem_map.1 hx
      exact abs_nonneg _) _ (List.mem_map.2 ⟨q, hq, rfl⟩)) h
  have hf : ∀ q ∈ ps, IsFinite (q.1 * q.2) := fun q hq => by
    have hm : q ∈ u.zip v := by rw [hps]; exact hq
    exact mul_of_le (hu _ (List.of_mem_zip (by rw [Prod.mk.eta]; exact hm)).1)
      (hv _ (List.of_mem_zip (by rw [Prod.mk.eta]; exact hm)).2) (by linarith [hA q hq])
  have hgn := growth_small hD (n := ps.length) (by omega)
  have hg0 := growth_nonneg (p := D.p) ps.length
  have ht1 := tiny_small hD
  have ht0 := D.tiny_pos
  have hu1 : ulp D ≤ 1 / 100 := by
    have := growth_small hD (n := 1) (by norm_num)
    rwa [growth_one] at this
  have hT : (absReals (ps.map fun q => q.1 * q.2)).sum ≤
      (1 + 1 / 100) * (ps.map fun q => |real q.1 * real q.2|).sum + ps.length * (1 / 2 ^ 100) := by
    clear hps hlz hgn hg0 h hA
    induction ps with
    | nil => simp [absReals]
    | cons q l ih =>
      have h1 := ih (fun q hq => hf q (by simp [hq]))
      have h2 := mul_err (hf q (by simp))
      simp only [absReals, List.map_cons, List.sum_cons, List.length_cons] at h1 ⊢
      push_cast
      have h3 := abs_add_le (real (q.1 * q.2) - real q.1 * real q.2) (real q.1 * real q.2)
      rw [sub_add_cancel] at h3
      have h4 := mul_le_mul_of_nonneg_right hu1 (abs_nonneg (real q.1 * real q.2))
      linarith
  refine fold_of_le _ 0 ⟨0, rfl⟩ (fun x hx => ?_) ?_
  · obtain ⟨q, hq, rfl⟩ := List.mem_map.1 hx
    exact hf q hq
  · have hlen : (ps.length : ℝ) ≤ 2 ^ 32 := by exact_mod_cast (by omega : ps.length ≤ 2 ^ 32)
    have h5 : (ps.length : ℝ) * (1 / 2 ^ 100) ≤ 1 / 100 := by
      calc (ps.length : ℝ) * (1 / 2 ^ 100) ≤ 2 ^ 32 * (1 / 2 ^ 100) := mul_le_mul_of_nonneg_right hlen (by positivity)
        _ ≤ 1 / 100 := by norm_num
    have h6 := D.top_le
    simp only [show real (0 : Ext (Num D)) = 0 from rfl, abs_zero, zero_add, List.length_map]
    have h7 := absReals_nonneg (ps.map fun q => q.1 * q.2)
    nlinarith

end Ext

/-- The claim of C119 on a computed sum of products `z` of the numbers `u` and `v`: if `z` is finite so are the numbers, and
it is the sum of the products up to one rounding more than there are products, relative to the sum of the absolute values,
plus a multiple of the smallest positive number; it is finite if the numbers are and that sum is at most half the largest
number. -/
def SumOK (D : Machine) (n : Nat) (u v : List (Ext (Num D))) (z : Ext (Num D)) : Prop :=
  (IsFinite z → (∀ x ∈ u, IsFinite x) ∧ (∀ x ∈ v, IsFinite x) ∧
    |real z - dotL (reals u) (reals v)| ≤
      growth 53 (n + 1) * dotL (absReals u) (absReals v) + (1 + growth 53 n) * (n * tiny D)) ∧
  ((∀ x ∈ u, IsFinite x) → (∀ x ∈ v, IsFinite x) → dotL (absReals u) (absReals v) ≤ D.top / 2 → IsFinite z)

theorem sumOK (hD : IsDouble D) {u v : List (Ext (Num D))} (hl : u.length = v.length) (hn : u.length < 2 ^ 32) :
    SumOK D u.length u v ((List.zipWith (· * ·) u v).foldl (· + ·) 0) := by
  refine ⟨fun h => ?_, Ext.dot_of_le hD hn⟩
  have := Ext.dot_err hl h
  rwa [hD.1] at this

/-- C119: `dot` of two Series. -/
theorem C119_dot (hD : IsDouble D) {a b : Serie (Ext (Num D))} (ha : WF a) (hb : WF b) (hs : SameShape a b)
    (h0 : 0 < a.count) :
    ∃ r, dot a b = .ok r ∧ WF r ∧ r.itemSize = 1 ∧
      ItemWise3 (fun u v w => ∃ z, w = [z] ∧ SumOK D a.itemSize u v z) a b r := by
  have := ha.pos
  have hi := ha.int
  have hf := ofItems_zip_facts ha hb hs.2 (k := 1) (g := fun u v => [(List.zipWith (· * ·) u v).foldl (· + ·) 0])
    (by omega) (by omega) (fun _ _ _ _ => rfl)
  refine ⟨_, dot_run_raw ha hb hs h0, hf.1, hf.2.1, ItemWise3_zip hs.2 hf.2.2.2 (fun u hu v hv => ⟨_, rfl, ?_⟩)⟩
  have h1 := ha.item_length hu
  have h2 := hb.item_length hv
  have := sumOK hD (u := u) (v := v) (by rw [h1, h2, hs.1]) (by omega)
  rwa [h1] at this

example := C119_dot binary64_isDouble (exI_WF binary64) (exJ_WF binary64) ⟨rfl, rfl⟩ (of_decide_eq_true rfl)

/-- C119: `insar`. -/
theorem C119_insar (hD : IsDouble D) {u : Serie (Ext (Num D))} (h : WF u) (h0 : 0 < u.count) (h3 : u.itemSize = 3)
    {los : List (Ext (Num D))} (hl : los.length = 3) : ∃ r, insar u los = .ok r ∧ WF r ∧ r.itemSize = 1 ∧
      ItemWise (fun v w => ∃ z, w = [z] ∧ SumOK D 3 v los z) u r := by
  have hf := ofItems_map_facts h (k := 1) (g := fun v => [(List.zipWith (· * ·) v los).foldl (· + ·) 0]) (by omega)
    (by omega) (fun _ _ => rfl)
  refine ⟨_, ?_, hf.1, hf.2.1, ItemWise_map hf.2.2.2 (fun v hv => ⟨_, rfl, ?_⟩)⟩
  · unfold insar dotArray
    rw [h.valid, if_neg (by simp [h3]), if_neg (by simp [hl]), Serie.value_eq h h0, Res.ok_bind, chunk_length (h.item_fits h0),
      if_neg (by simp [hl, h3])]
    exact mapArr_items h h0 (by omega) (by omega) (fun _ _ => rfl) (fun v hv i => dotItem_run hv (by omega))
  · have h1 := h.item_length hv
    have := sumOK hD (u := v) (v := los) (by rw [h1, hl, h3]) (by omega)
    rwa [h1, h3] at this

example := C119_insar binary64_isDouble (exI_WF binary64) (of_decide_eq_true rfl) rfl (los := [1, 0, 1]) rfl

/-- C119: `weigthedSum` (of fewer than `2^32` Series). -/
theorem C119_weightedSum (hD : IsDouble D) {series : List (Serie (Ext (Num D)))} {weights : List (Ext (Num D))} {k n : Nat}
    (hne : series ≠ []) (hlen : series.length = weights.length) (hm : series.length < 2 ^ 32)
    (hss : ∀ s ∈ series, WF s ∧ s.itemSize = k ∧ s.count = n) (h0 : 0 < n) :
    ∃ r, weightedSum series weights = .ok r ∧ WF r ∧ r.itemSize = k ∧ r.count = n ∧
      ∀ i j, i < n → j < k → ∃ xs z, series.map (fun s => cell s i j) = xs.map some ∧ cell r i j = some z ∧
        SumOK D series.length xs weights z := by
  obtain ⟨r, h1, h2, h3, h4, h5⟩ := weightedSum_eq hne hlen hss h0
  refine ⟨r, h1, h2, h3, h4, fun i j hi hj => ?_⟩
  obtain ⟨xs, a, b⟩ := h5 i j hi hj
  refine ⟨xs, _, a, b, ?_⟩
  have hl : series.length = xs.length := by simpa using congrArg List.length a
  have := sumOK hD (u := xs) (v := weights) (by omega) (by omega)
  rwa [← hl] at this

example := C119_weightedSum binary64_isDouble (series := [exI binary64, exJ binary64]) (weights := [1, 0]) (k := 3) (n := 2)
  (by simp) rfl (of_decide_eq_true rfl)
  (List.forall_mem_cons.2 ⟨⟨exI_WF _, rfl, rfl⟩, List.forall_mem_singleton.2 ⟨exJ_WF _, rfl, rfl⟩⟩) (of_decide_eq_true rfl)

end DF
