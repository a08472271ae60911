import Verif.Model.IeeeTrunc
import Verif.Props.QuantileError
import Verif.Props.MonotoneRange
import Verif.Props.Special

/-!
# Quantiles in double, with overflow and underflow (C173)

The numbers are `Ext (Num D)` (Model/Ieee, Model/IeeeTrunc); for `IsDouble D` they are the values of `double`. The exact quantiles are
those of the same function over the real numbers (C47).
-/

namespace DF

open Spec

variable {D : Machine}

/-! ## Helpers -/

theorem nat_repMin (hD : IsDouble D) {n : Nat} (h : n ≤ 2 ^ 32) : RepMin D.p D.emin (n : ℝ) := by
  refine ⟨n, 0, ?_, by rw [hD.2.1]; norm_num, by simp⟩
  rw [hD.1, abs_of_nonneg (by positivity)]
  have : n ≤ 2 ^ 53 := h.trans (by norm_num)
  exact_mod_cast this

theorem nat_le_top (hD : IsDouble D) {n : Nat} (h : n ≤ 2 ^ 32) : (n : ℝ) ≤ D.top := by
  have hn : (n : ℝ) ≤ 2 ^ 32 := by exact_mod_cast h
  exact hn.trans ((pow_le_pow_right₀ (by norm_num) (by norm_num)).trans (Ext.top_large hD))

theorem ofReal_nat (hD : IsDouble D) {n : Nat} (h : n ≤ 2 ^ 32) : ∃ x : Num D, Ext.ofReal D (n : ℝ) = .fin x ∧ x.val = n := by
  have hr := nat_repMin hD h
  have hl : |(n : ℝ)| ≤ D.top := by rw [abs_of_nonneg (by positivity)]; exact nat_le_top hD h
  exact ⟨_, Ext.ofReal_of_le hl, D.exact hr⟩

/-- A number with `p` digits that is a multiple of the smallest number is a value of the format. -/
theorem OnGrid.rep_of {p : Nat} {e : ℤ} {x : ℝ} (h : OnGrid e x) (hr : Representable p x) : RepMin p e x := by
  obtain ⟨m, f, hm, hx⟩ := hr
  rcases le_or_gt e f with hef | hef
  · exact ⟨m, f, hm, hef, hx⟩
  · refine h.rep ?_
    rw [hx, abs_mul, abs_of_pos (zpow_pos (show (0 : ℝ) < 2 by norm_num) f), zpow_add₀ (by norm_num), zpow_natCast]
    refine mul_le_mul ?_ (zpow_le_zpow_right₀ (by norm_num) hef.le) (by positivity) (by positivity)
    exact_mod_cast hm

/-- What `quantile` computes. -/
theorem quantile_range_run (hD : IsDouble D) {srt : StdSort} (hs : srt.Correct) {s : Serie (Ext (Num D))} (h : WF s)
    (h1 : s.itemSize = 1) (h0 : 0 < s.count) (hf : ∀ x ∈ scalars s, IsFinite x) :
    ∃ xs : List (Ext (Num D)), xs.Perm (scalars s) ∧ xs.Pairwise (· ≤ ·) ∧ ∀ q : Num D, 0 ≤ q.val → q.val ≤ 1 →
      ∃ (v : Ext (Num D)) (k : Nat) (a : Ext (Num D)), quantile srt s (.fin q) = .ok v ∧
      (k : ℝ) ≤ D.fl (((s.count - 1 : Nat) : ℝ) * q.val) ∧ D.fl (((s.count - 1 : Nat) : ℝ) * q.val) < (k : ℝ) + 1 ∧ xs[k]? = some a ∧
      ((∃ (b : Ext (Num D)) (r : Num D), xs[k + 1]? = some b ∧ r.val = D.fl (((s.count - 1 : Nat) : ℝ) * q.val) - k ∧ v = a + .fin r * (b - a)) ∨
       (xs.length = k + 1 ∧ D.fl (((s.count - 1 : Nat) : ℝ) * q.val) = k ∧ v = a)) := by
  obtain ⟨xs, he, hpm, ho⟩ := C97_sort_partial hs h h1 (fun hc => by obtain ⟨y, hy⟩ := hf _ hc; cases hy)
  refine ⟨xs, hpm, ho, fun q hq0 hq1 => ?_⟩
  have hn : xs.length = s.count := by rw [hpm.length_eq, h.scalars_length]
  have hn32 := h.count_lt
  have c0 : ¬ ((Ext.fin q : Ext (Num D)) < 0 ∨ (Ext.fin q : Ext (Num D)) > 1) := by
    rw [not_or]
    exact ⟨fun hc => absurd (show q.val < 0 from hc) (not_lt.2 hq0), fun hc => absurd (show 1 < q.val from hc) (not_lt.2 hq1)⟩
  unfold quantile
  rw [h.valid, if_neg (by simp), if_neg (by simpa using h1), if_neg c0, he, Res.ok_bind]
  have hd : (ofScalars xs).data = xs := rfl
  simp only [hd]
  rw [if_neg (by omega), hn]
  obtain ⟨c, ec, vc⟩ := ofReal_nat hD (n := s.count - 1) (by omega)
  have hnn : (0 : ℝ) ≤ ((s.count - 1 : Nat) : ℝ) := Nat.cast_nonneg _
  have hle1 : ((s.count - 1 : Nat) : ℝ) * q.val ≤ ((s.count - 1 : Nat) : ℝ) := mul_le_of_le_one_right hnn hq1
  have hpv0 : 0 ≤ ((s.count - 1 : Nat) : ℝ) * q.val := mul_nonneg hnn hq0
  have hPl : |((s.count - 1 : Nat) : ℝ) * q.val| ≤ D.top := by
    rw [abs_of_nonneg hpv0]; exact hle1.trans (nat_le_top hD (by omega))
  obtain ⟨P, hP, hPv⟩ : ∃ P : Num D, ((((s.count - 1 : Nat)) : Ext (Num D)) * .fin q : Ext (Num D)) = .fin P ∧
      P.val = D.fl (((s.count - 1 : Nat) : ℝ) * q.val) := by
    refine ⟨⟨D.fl (((s.count - 1 : Nat) : ℝ) * q.val), D.rep _, D.abs_fl_le D.top_rep hPl⟩, ?_, rfl⟩
    show (Ext.ofReal D ((s.count - 1 : Nat) : ℝ) * .fin q : Ext (Num D)) = _
    rw [ec, Ext.fin_mul', vc, Ext.ofReal_of_le hPl]
  have hpos0 : 0 ≤ D.fl (((s.count - 1 : Nat) : ℝ) * q.val) := by
    have := D.fl_mono hpv0; rwa [D.fl_zero] at this
  have hposn : D.fl (((s.count - 1 : Nat) : ℝ) * q.val) ≤ ((s.count - 1 : Nat) : ℝ) := by
    have := D.fl_mono hle1
    rwa [D.exact (nat_repMin hD (by omega))] at this
  have hrep : RepMin D.p D.emin (D.fl (((s.count - 1 : Nat) : ℝ) * q.val)) := D.rep _
  rw [hP]
  generalize D.fl (((s.count - 1 : Nat) : ℝ) * q.val) = pos at *
  have hfl0 : 0 ≤ ⌊pos⌋ := Int.floor_nonneg.2 hpos0
  obtain ⟨k, hk⟩ := Int.eq_ofNat_of_zero_le hfl0
  have hk' : ((⌊pos⌋ : Int) : ℝ) = (k : ℝ) := by rw [hk]; simp
  have hle : (k : ℝ) ≤ pos := by rw [← hk']; exact Int.floor_le pos
  have hlt : pos < (k : ℝ) + 1 := by rw [← hk']; exact Int.lt_floor_add_one pos
  have hkn : k < s.count := by
    have := Nat.cast_le.1 (hle.trans hposn)
    omega
  obtain ⟨x, ex, vx⟩ := ofReal_nat hD (n := k) (by omega)
  obtain ⟨y, ey, vy⟩ := ofReal_nat hD (n := k + 1) (by omega)
  have hrr : RepMin D.p D.emin (pos - k) := by
    refine OnGrid.rep_of (hrep.onGrid.sub (nat_repMin hD (n := k) (by omega)).onGrid) ?_
    have := Rounding.fract_rep hpos0 hrep.toRep
    rwa [hk'] at this
  have hrl : |pos - k| ≤ D.top := by
    rw [abs_of_nonneg (by linarith)]
    have := D.top_le
    linarith
  have hbase : (Trunc.floor (Ext.fin P) : Ext (Num D)) = .fin x := by
    show Ext.ofReal D ((⌊P.val⌋ : ℤ) : ℝ) = _
    rw [hPv, hk', ex]
  have hnext : (Trunc.floor (Ext.fin P) + 1 : Ext (Num D)) = .fin y := by
    rw [hbase]
    show Ext.ofReal D (x.val + 1) = _
    rw [vx, ← ey]; push_cast; rfl
  have hrest : (Ext.fin P - Trunc.floor (Ext.fin P) : Ext (Num D)) = .fin ⟨pos - k, hrr, hrl⟩ := by
    rw [hbase, Ext.fin_sub', hPv, vx, Ext.ofReal_of_le hrl]
    congr 1
    exact Num.val_injective (D.exact hrr)
  have hu : ∀ (x : Num D) (m : Nat), x.val = (m : ℝ) → m < 2 ^ 32 → Trunc.toU32 (Ext.fin x) = .ok m := by
    intro x m hx hm
    show toU32 x.val = _
    rw [hx]; exact toU32_nat hm
  rw [hrest, hnext, hbase, hu y (k + 1) vy (by omega), Res.ok_bind, hu x k vx (by omega), Res.ok_bind, Res.ok_bind,
    rd_of_lt (show k < xs.length by omega), Res.ok_bind]
  by_cases hkn' : k + 1 < s.count
  · rw [if_pos hkn', rd_of_lt (show k + 1 < xs.length by omega), Res.ok_bind]
    exact ⟨_, k, xs[k], rfl, hle, hlt, by simp [hn, hkn], Or.inl ⟨xs[k + 1], _, by simp [hn, hkn'], rfl, rfl⟩⟩
  · rw [if_neg hkn']
    refine ⟨_, k, xs[k], rfl, hle, hlt, by simp [hn, hkn], Or.inr ⟨by omega, ?_, rfl⟩⟩
    have : s.count - 1 = k := by omega
    rw [this] at hposn
    exact le_antisymm hposn hle

theorem ulp_tiny (hD : IsDouble D) : ulp D ≤ 1 / 8 ∧ tiny D ≤ ulp D / 16 := by
  have hu : ulp D = 1 / 2 ^ 53 := by unfold ulp unit; rw [hD.1]; norm_num
  refine ⟨by rw [hu]; norm_num, (Ext.tiny_small hD).trans ?_⟩
  rw [hu]; norm_num

/-- Rounding of an interpolation. -/
theorem interpolate_range (hD : IsDouble D) {a b : Ext (Num D)} {r : Num D} {M : ℝ} (hMt : 2 * M ≤ D.top) (r0 : 0 ≤ r.val) (r1 : r.val ≤ 1)
    (ha : IsFinite a ∧ |real a| ≤ M) (hb : IsFinite b ∧ |real b| ≤ M) :
    IsFinite (a + .fin r * (b - a)) ∧
      |real (a + .fin r * (b - a)) - (real a + r.val * (real b - real a))| ≤ 47 / 8 * ulp D * M + 2 * tiny D := by
  obtain ⟨hu8, ht⟩ := ulp_tiny hD
  have hu : 0 < ulp D := unit_pos (p := D.p)
  have ht0 := D.tiny_pos
  have htop := D.top_le
  have hM := (abs_nonneg _).trans ha.2
  have g : |real b - real a| ≤ 2 * M := (abs_sub _ _).trans (by linarith [ha.2, hb.2])
  have fd : IsFinite (b - a) := Ext.sub_of_le hb.1 ha.1 (g.trans hMt)
  have e1 := Ext.sub_err fd
  have h1 : |real (b - a) - (real b - real a)| ≤ 2 * ulp D * M := e1.trans (by nlinarith)
  have h2 : |real (b - a)| ≤ 2 * M * (1 + ulp D) := by
    have := abs_add_le (real (b - a) - (real b - real a)) (real b - real a)
    rw [sub_add_cancel] at this
    linarith
  have h2t : |real (b - a)| ≤ D.top := by
    obtain ⟨y, hy⟩ := fd
    rw [hy]; exact y.le
  generalize b - a = d at *
  have h3 : |r.val * real d| ≤ |real d| := by
    rw [abs_mul, abs_of_nonneg r0]
    exact mul_le_of_le_one_left (abs_nonneg _) r1
  have fm : IsFinite (.fin r * d) := Ext.mul_of_le ⟨r, rfl⟩ fd (h3.trans h2t)
  have e2 : |real (.fin r * d) - r.val * real d| ≤ ulp D * |r.val * real d| + tiny D := Ext.mul_err fm
  generalize (Ext.fin r * d : Ext (Num D)) = m at *
  have h4 : |real m - r.val * real d| ≤ ulp D * (2 * M * (1 + ulp D)) + tiny D :=
    e2.trans (add_le_add_left (mul_le_mul_of_nonneg_left (h3.trans h2) hu.le) _)
  have h5 : |r.val * real d - r.val * (real b - real a)| ≤ 2 * ulp D * M := by
    rw [← mul_sub, abs_mul, abs_of_nonneg r0]
    exact (mul_le_of_le_one_left (abs_nonneg _) r1).trans h1
  have h6 : |real a + real m - (real a + r.val * (real b - real a))| ≤ ulp D * (2 * M * (1 + ulp D)) + tiny D + 2 * ulp D * M := by
    rw [show real a + real m - (real a + r.val * (real b - real a)) = (real m - r.val * real d) + (r.val * real d - r.val * (real b - real a)) by ring]
    exact (abs_add_le _ _).trans (add_le_add h4 h5)
  have h7 : |real a + r.val * (real b - real a)| ≤ M := by
    rw [show real a + r.val * (real b - real a) = (1 - r.val) * real a + r.val * real b by ring]
    refine (abs_add_le _ _).trans ?_
    rw [abs_mul, abs_mul, abs_of_nonneg r0, abs_of_nonneg (show 0 ≤ 1 - r.val by linarith)]
    nlinarith [ha.2, hb.2]
  have h8 : |real a + real m| ≤ M + (ulp D * (2 * M * (1 + ulp D)) + tiny D + 2 * ulp D * M) := by
    have := abs_add_le (real a + real m - (real a + r.val * (real b - real a))) (real a + r.val * (real b - real a))
    rw [sub_add_cancel] at this
    linarith
  have q0 : ulp D * M ≤ 1 / 8 * M := mul_le_mul_of_nonneg_right hu8 hM
  have q1 : ulp D * ulp D ≤ ulp D * (1 / 8) := mul_le_mul_of_nonneg_left hu8 hu.le
  have q2 : ulp D * ulp D * ulp D ≤ ulp D * (1 / 64) := by nlinarith
  have q1' := mul_le_mul_of_nonneg_right q1 hM
  have q2' := mul_le_mul_of_nonneg_right q2 hM
  have fz : IsFinite (a + m) := Ext.add_of_le ha.1 fm (h8.trans (by nlinarith))
  have e3 := Ext.add_err fz
  refine ⟨fz, ?_⟩
  have h9 := e3.trans (mul_le_mul_of_nonneg_left h8 hu.le)
  have h10 := abs_add_le (real (a + m) - (real a + real m)) (real a + real m - (real a + r.val * (real b - real a)))
  rw [sub_add_sub_cancel] at h10
  refine h10.trans ((add_le_add h9 h6).trans ?_)
  have q3 : ulp D * tiny D ≤ 1 / 8 * tiny D := mul_le_mul_of_nonneg_right hu8 ht0.le
  nlinarith

/-- One quantile against the exact one of the same numbers. -/
theorem quantile_range_near (hD : IsDouble D) {srt : StdSort} (hs : srt.Correct) {s : Serie (Ext (Num D))} {t : Serie ℝ} (h : WF s) (h' : WF t)
    (h1 : s.itemSize = 1) (h1' : t.itemSize = 1) (h0 : 0 < s.count) (hst : scalars t = (scalars s).map real) {M : ℝ} (hMt : 2 * M ≤ D.top)
    (hM : ∀ x ∈ scalars s, IsFinite x ∧ |real x| ≤ M) {q : Num D} (hq0 : 0 ≤ q.val) (hq1 : q.val ≤ 1) :
    ∃ v w, quantile srt s (.fin q) = .ok v ∧ quantile srt t q.val = .ok w ∧ IsFinite v ∧
      |real v - w| ≤ 2 * (s.count + 2) * ulp D * M + 2 * tiny D := by
  obtain ⟨hu8, ht⟩ := ulp_tiny hD
  have hu : 0 < ulp D := unit_pos (p := D.p)
  have ht0 := D.tiny_pos
  have hc : s.count = t.count := by rw [← h.scalars_length, ← h'.scalars_length, hst, List.length_map]
  obtain ⟨xs, hx, ho, hr⟩ := quantile_range_run hD hs h h1 h0 (fun x hx => (hM x hx).1)
  obtain ⟨v, k, a, hv, k1, k2, ha, hcase⟩ := hr q hq0 hq1
  obtain ⟨ys, w, hy, hw, hi⟩ := C47_interpolates hs h' h1' (by omega) (q := q.val) hq0 hq1
  have hMx : ∀ {i : Nat} {z : Ext (Num D)}, xs[i]? = some z → IsFinite z ∧ |real z| ≤ M :=
    fun hz => hM _ (hx.mem_iff.1 (List.mem_of_getElem? hz))
  have hys : ys = xs.map real := by
    refine SortedFrom.unique (l := scalars t) (m := scalars t) hy ⟨?_, ?_⟩ (.refl _)
    · rw [hst]; exact hx.map _
    · refine List.pairwise_map.2 (ho.imp_of_mem fun {x y} hx' hy' hxy => ?_)
      obtain ⟨x', rfl⟩ := (hM x (hx.mem_iff.1 hx')).1
      obtain ⟨y', rfl⟩ := (hM y (hx.mem_iff.1 hy')).1
      exact hxy
  have hlen : xs.length = s.count := by rw [hx.length_eq, h.scalars_length]
  have hM0 : 0 ≤ M := (abs_nonneg _).trans (hMx ha).2
  have hG : ∀ i a b, ys[i]? = some a → ys[i + 1]? = some b → |b - a| ≤ 2 * M := by
    intro i a b ha hb
    rw [hys, List.getElem?_map, Option.map_eq_some_iff] at ha hb
    obtain ⟨a, ha, rfl⟩ := ha
    obtain ⟨b, hb, rfl⟩ := hb
    have := (hMx ha).2
    have := (hMx hb).2
    exact (abs_sub _ _).trans (by linarith)
  have hga : ys[k]? = some (real a) := by rw [hys, List.getElem?_map, ha]; rfl
  obtain ⟨v0, hv0, hvf, hve⟩ : ∃ v0, AtPlace ys (D.fl (((s.count - 1 : Nat) : ℝ) * q.val)) v0 ∧ IsFinite v ∧
      |real v - v0| ≤ 47 / 8 * ulp D * M + 2 * tiny D := by
    rcases hcase with ⟨b, r, hb, er, rfl⟩ | ⟨hl, e, rfl⟩
    · have := interpolate_range hD hMt (r := r) (by linarith) (by linarith) (hMx ha) (hMx hb)
      exact ⟨_, ⟨k, r.val, real a, by linarith, by linarith, by linarith, hga,
        .inl ⟨real b, by rw [hys, List.getElem?_map, hb]; rfl, rfl⟩⟩, this⟩
    · refine ⟨real v, ⟨k, 0, real v, le_rfl, one_pos, by rw [e, add_zero], hga, .inr ⟨rfl, rfl⟩⟩, (hMx ha).1, ?_⟩
      rw [sub_self, abs_zero]
      positivity
  refine ⟨v, w, hv, hw, hvf, ?_⟩
  have hw0 := hi.atPlace
  have hn : ((s.count - 1 : Nat) : ℝ) = (s.count : ℝ) - 1 := by rw [Nat.cast_sub (by omega), Nat.cast_one]
  have hyl : (ys.length : ℝ) - 1 = ((s.count - 1 : Nat) : ℝ) := by rw [hys, List.length_map, hlen, hn]
  rw [hyl] at hw0
  have hpos : |D.fl (((s.count - 1 : Nat) : ℝ) * q.val) - ((s.count - 1 : Nat) : ℝ) * q.val| ≤ ulp D * ((s.count - 1 : Nat) : ℝ) + ulp D / 16 := by
    refine (D.error _).trans (add_le_add (mul_le_mul_of_nonneg_left ?_ hu.le) ht)
    rw [abs_of_nonneg (mul_nonneg (Nat.cast_nonneg _) hq0)]
    exact mul_le_of_le_one_right (Nat.cast_nonneg _) hq1
  have hlip : |v0 - w| ≤ 2 * M * (ulp D * ((s.count - 1 : Nat) : ℝ) + ulp D / 16) := by
    rcases le_total (((s.count - 1 : Nat) : ℝ) * q.val) (D.fl (((s.count - 1 : Nat) : ℝ) * q.val)) with hle | hle
    · refine (hw0.lipschitz (by positivity) hG hv0 hle).trans (mul_le_mul_of_nonneg_left ?_ (by positivity))
      exact (le_abs_self _).trans hpos
    · rw [abs_sub_comm]
      refine (hv0.lipschitz (by positivity) hG hw0 hle).trans (mul_le_mul_of_nonneg_left ?_ (by positivity))
      rw [abs_sub_comm] at hpos
      exact (le_abs_self _).trans hpos
  have h3 := abs_add_le (real v - v0) (v0 - w)
  rw [sub_add_sub_cancel] at h3
  rw [hn] at hlip
  nlinarith

/-- The decimal constants of the quartiles are exact. -/
theorem quarter_const (hD : IsDouble D) : (∃ x : Num D, (0.25 : Ext (Num D)) = .fin x ∧ x.val = 1 / 4) ∧
    (∃ x : Num D, (0.5 : Ext (Num D)) = .fin x ∧ x.val = 1 / 2) ∧ ∃ x : Num D, (0.75 : Ext (Num D)) = .fin x ∧ x.val = 3 / 4 := by
  have key : ∀ (m : ℤ), |m| ≤ 4 → RepMin D.p D.emin ((m : ℝ) * 2 ^ (-2 : ℤ)) := fun m hm => by
    refine ⟨m, -2, ?_, by rw [hD.2.1]; norm_num, rfl⟩
    rw [hD.1]
    exact hm.trans (by norm_num)
  have ht := D.top_le
  have gen : ∀ x y : ℝ, x = y → RepMin D.p D.emin y → |y| ≤ 1 → ∃ z : Num D, Ext.ofReal D x = .fin z ∧ z.val = y := by
    rintro x y rfl hr hl
    exact ⟨_, Ext.ofReal_of_le (hl.trans ht), D.exact hr⟩
  refine ⟨gen _ _ (by norm_num) ?_ (by norm_num [abs_of_pos]), gen _ _ (by norm_num) ?_ (by norm_num [abs_of_pos]),
    gen _ _ (by norm_num) ?_ (by norm_num [abs_of_pos])⟩
  · have := key 1 (by norm_num); norm_num at this ⊢; exact this
  · have := key 2 (by norm_num); norm_num at this ⊢; exact this
  · have := key 3 (by norm_num); norm_num at this ⊢; exact this

/-! ## C173 -/

/-- C173: for finite doubles of absolute value at most `M`, where `2 M` does not overflow, each within `d` of an exact number, any
quantile is finite and within `d + 2 (n + 2) u M + 2 t` of the exact quantile of the exact numbers, `u` being the rounding unit and `t`
half of the smallest positive double. -/
theorem C173_quantile_partial (hD : IsDouble D) {srt : StdSort} (hs : srt.Correct) {s : Serie (Ext (Num D))} {t : Serie ℝ} (h : WF s) (h' : WF t)
    (h1 : s.itemSize = 1) (h1' : t.itemSize = 1) (h0 : 0 < s.count) {M d : ℝ} (hMt : 2 * M ≤ D.top)
    (hM : ∀ x ∈ scalars s, IsFinite x ∧ |real x| ≤ M)
    (hd : List.Forall₂ (fun x y => |real x - y| ≤ d) (scalars s) (scalars t)) {q : Num D} (hq0 : 0 ≤ q.val) (hq1 : q.val ≤ 1) :
    ∃ v w, quantile srt s (.fin q) = .ok v ∧ quantile srt t q.val = .ok w ∧ IsFinite v ∧
      |real v - w| ≤ d + 2 * (s.count + 2) * ulp D * M + 2 * tiny D := by
  have hl := h.scalars_length
  have hn := h.count_lt
  have hwf : WF (ofScalars ((scalars s).map real)) := WF_ofScalars (by rw [List.length_map]; omega)
  have hsc : scalars (ofScalars ((scalars s).map real)) = (scalars s).map real := by simp [scalars, ofScalars]
  obtain ⟨v, w0, hv, hw0, hf, e1⟩ := quantile_range_near hD hs h hwf h1 rfl h0 hsc hMt hM hq0 hq1
  obtain ⟨_, _, hq, _⟩ := C160_close hs hwf h' rfl h1' (by show 0 < ((scalars s).map real).length; rw [List.length_map]; omega) (d := d) (by
    rw [hsc]; exact List.forall₂_map_left_iff.2 hd)
  obtain ⟨w0', w, ew0, ew, e2⟩ := hq q.val hq0 hq1
  rw [hw0] at ew0; cases ew0
  refine ⟨v, w, hv, ew, hf, ?_⟩
  have h3 := abs_add_le (real v - w0) (w0 - w)
  rw [sub_add_sub_cancel] at h3
  linarith

/-- A Serie for the examples: 1 and 2^1020. -/
noncomputable def exVast : Serie (Ext (Num binary64)) :=
  ofScalars [.fin (power binary64_isDouble 0 (by norm_num) (by norm_num)), .fin (power binary64_isDouble 1020 (by norm_num) (by norm_num))]

theorem exVast_WF : WF exVast := WF_ofScalars (by simp)

theorem exVast_le : ∀ x ∈ scalars exVast, IsFinite x ∧ |real x| ≤ (2 : ℝ) ^ (1020 : ℤ) := by
  unfold exVast
  rw [scalars_ofScalars]
  intro x hx
  simp only [List.mem_cons, List.not_mem_nil, or_false] at hx
  rcases hx with rfl | rfl
  · refine ⟨⟨_, rfl⟩, ?_⟩
    show |(2 : ℝ) ^ (0 : ℤ)| ≤ _
    rw [abs_of_pos (by positivity)]
    exact zpow_le_zpow_right₀ (by norm_num) (by norm_num)
  · refine ⟨⟨_, rfl⟩, ?_⟩
    show |(2 : ℝ) ^ (1020 : ℤ)| ≤ _
    rw [abs_of_pos (by positivity)]

theorem exVast_top : 4 * (2 : ℝ) ^ (1020 : ℤ) ≤ binary64.top := by
  refine le_trans ?_ (Ext.top_large binary64_isDouble)
  rw [show (4 : ℝ) = 2 ^ (2 : ℤ) by norm_num, ← zpow_add₀ (by norm_num), ← zpow_natCast]
  exact zpow_le_zpow_right₀ (by norm_num) (by norm_num)

theorem exVast_near : List.Forall₂ (fun x y => |real x - y| ≤ 1) (scalars exVast) (scalars (ofScalars [(2 : ℝ), 2 ^ (1020 : ℤ)])) := by
  refine .cons ?_ (.cons ?_ .nil)
  · show |(2 : ℝ) ^ (0 : ℤ) - 2| ≤ 1
    norm_num
  · show |(2 : ℝ) ^ (1020 : ℤ) - 2 ^ (1020 : ℤ)| ≤ 1
    rw [sub_self, abs_zero]; exact zero_le_one

example := C173_quantile_partial binary64_isDouble stdSort_exists.choose_spec exVast_WF (WF_ofScalars (by simp)) rfl rfl Nat.two_pos
  ((mul_le_mul_of_nonneg_right (by norm_num) (by positivity)).trans exVast_top) exVast_le exVast_near
  (q := power binary64_isDouble (-1) (by norm_num) (by norm_num)) (show (0 : ℝ) ≤ 2 ^ (-1 : ℤ) by positivity)
  (show (2 : ℝ) ^ (-1 : ℤ) ≤ 1 by norm_num)

/-- C173: the quartiles, and the IQR when the numbers are at most a quarter of the largest double. -/
theorem C173_quartiles_partial (hD : IsDouble D) {srt : StdSort} (hs : srt.Correct) {s : Serie (Ext (Num D))} {t : Serie ℝ} (h : WF s) (h' : WF t)
    (h1 : s.itemSize = 1) (h1' : t.itemSize = 1) (h0 : 0 < s.count) {M d : ℝ} (hMt : 4 * M ≤ D.top)
    (hM : ∀ x ∈ scalars s, IsFinite x ∧ |real x| ≤ M)
    (hd : List.Forall₂ (fun x y => |real x - y| ≤ d) (scalars s) (scalars t)) :
    ∃ a m b i a' m' b' i', q25 srt s = .ok a ∧ q50 srt s = .ok m ∧ q75 srt s = .ok b ∧ iqr srt s = .ok i ∧
      q25 srt t = .ok a' ∧ q50 srt t = .ok m' ∧ q75 srt t = .ok b' ∧ iqr srt t = .ok i' ∧
      IsFinite a ∧ IsFinite m ∧ IsFinite b ∧ IsFinite i ∧
      |real a - a'| ≤ d + 2 * (s.count + 2) * ulp D * M + 2 * tiny D ∧ |real m - m'| ≤ d + 2 * (s.count + 2) * ulp D * M + 2 * tiny D ∧
      |real b - b'| ≤ d + 2 * (s.count + 2) * ulp D * M + 2 * tiny D ∧ |real i - i'| ≤ 2 * d + (4 * s.count + 11) * ulp D * M + 5 * tiny D := by
  obtain ⟨⟨x1, c1, v1⟩, ⟨x2, c2, v2⟩, ⟨x3, c3, v3⟩⟩ := quarter_const hD
  obtain ⟨hu8, ht⟩ := ulp_tiny hD
  have hu : 0 < ulp D := unit_pos (p := D.p)
  have ht0 := D.tiny_pos
  have hl := h.scalars_length
  have hn := h.count_lt
  have hc : s.count = t.count := by rw [← h.scalars_length, ← h'.scalars_length, hd.length_eq]
  obtain ⟨z, hz⟩ := List.exists_mem_of_length_pos (by rw [hl]; exact h0)
  have hM0 : 0 ≤ M := (abs_nonneg _).trans (hM z hz).2
  obtain ⟨a', m', b', fa, fm, fb, ga, gm, gb, gi, _⟩ := C47_quartiles hs h' h1' (by omega)
  obtain ⟨a, y, ea, ey, ka, l1⟩ := C173_quantile_partial hD hs h h' h1 h1' h0 (by linarith) hM hd (q := x1) (by rw [v1]; norm_num) (by rw [v1]; norm_num)
  rw [v1, fa] at ey; cases ey
  obtain ⟨m, y, em, ey, km, l2⟩ := C173_quantile_partial hD hs h h' h1 h1' h0 (by linarith) hM hd (q := x2) (by rw [v2]; norm_num) (by rw [v2]; norm_num)
  rw [v2, fm] at ey; cases ey
  obtain ⟨b, y, eb, ey, kb, l3⟩ := C173_quantile_partial hD hs h h' h1 h1' h0 (by linarith) hM hd (q := x3) (by rw [v3]; norm_num) (by rw [v3]; norm_num)
  rw [v3, fb] at ey; cases ey
  rw [← c1] at ea; rw [← c2] at em; rw [← c3] at eb
  have hwf : WF (ofScalars ((scalars s).map real)) := WF_ofScalars (by rw [List.length_map]; omega)
  have hsc : scalars (ofScalars ((scalars s).map real)) = (scalars s).map real := by simp [scalars, ofScalars]
  have bound : ∀ {q : Num D} {v : Ext (Num D)}, 0 ≤ q.val → q.val ≤ 1 → quantile srt s (.fin q) = .ok v →
      |real v| ≤ M + (2 * (s.count + 2) * ulp D * M + 2 * tiny D) := by
    intro q v hq0 hq1 e
    obtain ⟨v', w, ev, ew, _, e1⟩ := quantile_range_near hD hs h hwf h1 rfl h0 hsc (by linarith) hM hq0 hq1
    rw [e] at ev; cases ev
    obtain ⟨w', ew', l, r⟩ := C47_between hs hwf rfl (by show 0 < ((scalars s).map real).length; rw [List.length_map]; omega) hq0 hq1
      (a := -M) (b := M) (by
        rw [hsc]; intro y hy
        obtain ⟨x, hx, rfl⟩ := List.mem_map.1 hy
        exact (abs_le.1 (hM x hx).2).1) (by
        rw [hsc]; intro y hy
        obtain ⟨x, hx, rfl⟩ := List.mem_map.1 hy
        exact (abs_le.1 (hM x hx).2).2)
    rw [ew] at ew'; cases ew'
    have := abs_add_le (real v - w) w
    rw [sub_add_cancel] at this
    have := abs_le.2 ⟨l, r⟩
    linarith
  have ma := bound (q := x1) (by rw [v1]; norm_num) (by rw [v1]; norm_num) (by rw [← c1]; exact ea)
  have mb := bound (q := x3) (by rw [v3]; norm_num) (by rw [v3]; norm_num) (by rw [← c3]; exact eb)
  have hcu : 4 * ((s.count : ℝ) + 2) * ulp D ≤ 1 := by
    have h32 : (s.count : ℝ) ≤ 2 ^ 32 := by exact_mod_cast hn.le
    have : ulp D = 1 / 2 ^ 53 := by unfold ulp unit; rw [hD.1]; norm_num
    rw [this]
    linarith
  have hcM := mul_le_mul_of_nonneg_right hcu hM0
  have htop := D.top_le
  have g : |real b - real a| ≤ 3 * M + 4 * tiny D := (abs_sub _ _).trans (by linarith)
  have fi : IsFinite (b - a) := Ext.sub_of_le kb ka (g.trans (by linarith))
  have e1 := (Ext.sub_err fi).trans (mul_le_mul_of_nonneg_left g hu.le)
  refine ⟨a, m, b, b - a, a', m', b', b' - a', ea, em, eb, by unfold iqr; rw [ea, eb]; rfl, ga, gm, gb, gi, ka, km, kb, fi, l1, l2, l3, ?_⟩
  rw [show real (b - a) - (b' - a') = (real (b - a) - (real b - real a)) + ((real b - b') - (real a - a')) by ring]
  have e5 := abs_add_le (real (b - a) - (real b - real a)) ((real b - b') - (real a - a'))
  have e6 := abs_sub (real b - b') (real a - a')
  have q3 : ulp D * tiny D ≤ 1 / 8 * tiny D := mul_le_mul_of_nonneg_right hu8 ht0.le
  nlinarith

example := C173_quartiles_partial binary64_isDouble stdSort_exists.choose_spec exVast_WF (WF_ofScalars (by simp)) rfl rfl Nat.two_pos
  exVast_top exVast_le exVast_near

/-- C173 is violated for larger numbers: the median of -2^1023 and 2^1023 is an infinity; exactly, it is 0. -/
theorem C173_median_violated (hD : IsDouble D) : ∃ (s : Serie (Ext (Num D))) (t : Serie ℝ), WF s ∧ WF t ∧ s.itemSize = 1 ∧ s.count = 2 ∧
    (∀ x ∈ scalars s, IsFinite x) ∧ scalars t = (scalars s).map real ∧
    ∀ srt : StdSort, srt.Correct → q50 srt s = .ok .pinf ∧ q50 srt t = .ok 0 := by
  obtain ⟨_, ⟨x2, c2, v2⟩, _⟩ := quarter_const hD
  obtain ⟨b, hb⟩ : ∃ b : Num D, b.val = (2 : ℝ) ^ (1023 : ℤ) := ⟨power hD 1023 (by norm_num) le_rfl, rfl⟩
  have hb0 : 0 < b.val := by rw [hb]; positivity
  have hnb : (-b).val = -b.val := rfl
  have w1 : WF (ofScalars [.fin (-b), .fin b] : Serie (Ext (Num D))) := WF_ofScalars (by simp)
  have w2 : WF (ofScalars [-b.val, b.val] : Serie ℝ) := WF_ofScalars (by simp)
  have hf : ∀ x ∈ scalars (ofScalars [.fin (-b), .fin b] : Serie (Ext (Num D))), IsFinite x := by
    rw [scalars_ofScalars]
    intro x hx
    simp only [List.mem_cons, List.not_mem_nil, or_false] at hx
    rcases hx with rfl | rfl <;> exact ⟨_, rfl⟩
  refine ⟨ofScalars [.fin (-b), .fin b], ofScalars [-b.val, b.val], w1, w2, rfl, rfl, hf, rfl, fun srt hs => ⟨?_, ?_⟩⟩
  · obtain ⟨xs, hp, ho, hr⟩ := quantile_range_run hD hs w1 rfl Nat.two_pos hf
    obtain ⟨v, k, a, hv, k1, k2, ha, hcase⟩ := hr x2 (by rw [v2]; norm_num) (by rw [v2]; norm_num)
    have hpos : D.fl ((((ofScalars [.fin (-b), .fin b] : Serie (Ext (Num D))).count - 1 : Nat) : ℝ) * x2.val) = 1 / 2 := by
      show D.fl (((2 - 1 : Nat) : ℝ) * x2.val) = 1 / 2
      rw [show ((2 - 1 : Nat) : ℝ) * x2.val = x2.val by norm_num, D.exact x2.rep, v2]
    rw [hpos] at k1 k2 hcase
    have k0 : k = 0 := by
      rcases Nat.eq_zero_or_pos k with h | h
      · exact h
      · have : (1 : ℝ) ≤ k := by exact_mod_cast h
        linarith
    subst k0
    rw [scalars_ofScalars] at hp
    have hlen := hp.length_eq
    have hne : ¬ (Ext.fin b : Ext (Num D)) ≤ .fin (-b) := fun hc => by
      have h : b.val ≤ -b.val := hc
      exact absurd (h.trans_lt (neg_lt_zero.2 hb0)) (not_lt.2 hb0.le)
    have hxs : xs = [.fin (-b), .fin b] := by
      match xs, hlen, hp, ho with
      | [x, y], _, hp, ho =>
        have hx : x ∈ [Ext.fin (-b), Ext.fin b] := hp.mem_iff.1 (by simp)
        simp only [List.mem_cons, List.not_mem_nil, or_false] at hx
        rcases hx with rfl | rfl
        · rw [(List.singleton_perm_singleton.1 ((List.perm_cons _).1 hp))]
        · have hq := (List.perm_cons _).1 (hp.trans (List.Perm.swap _ _ _))
          rw [List.singleton_perm_singleton.1 hq] at ho
          exact absurd (List.rel_of_pairwise_cons ho (by simp)) hne
    subst hxs
    rcases hcase with ⟨y, r, hy, er, rfl⟩ | ⟨hl, _⟩
    · have ea : Ext.fin (-b) = a := Option.some.inj ha
      have ey : Ext.fin b = y := Option.some.inj hy
      subst ea; subst ey
      have e1 : (.fin b - .fin (-b) : Ext (Num D)) = .pinf := by
        rw [Ext.fin_sub', hnb, sub_neg_eq_add, hb, ← two_mul, ← zpow_one_add₀ (by norm_num)]
        exact Ext.ofReal_power hD (by norm_num)
      have e2 : (.fin r * .pinf : Ext (Num D)) = .pinf := by
        show Ext.infTimes r = _
        unfold Ext.infTimes
        refine if_pos ?_
        show (0 : ℝ) < r.val
        rw [er]; norm_num
      unfold q50
      rw [c2, hv, e1, e2]
      rfl
    · simp at hl
  · obtain ⟨xs, v, hx, hv, hi⟩ := C47_interpolates hs w2 rfl Nat.two_pos (q := 1 / 2) (by norm_num) (by norm_num)
    obtain ⟨_, m, _, _, em, _, _, gm, _⟩ := C47_quartiles hs w2 rfl Nat.two_pos
    rw [hv] at em; cases em
    rw [gm]
    have hxs : xs = [-b.val, b.val] := SortedFrom.unique (l := [-b.val, b.val]) (m := [-b.val, b.val]) hx ⟨.refl _,
      List.pairwise_pair.2 ((neg_nonpos.2 hb0.le).trans hb0.le)⟩ (.refl _)
    subst hxs
    obtain ⟨k, r, a, y, r0, r1, hk, ha, hy, rfl⟩ := hi
    have hk' : (1 : ℝ) / 2 = (k : ℝ) + r := by rw [← hk]; norm_num
    have k0 : k = 0 := by
      rcases Nat.eq_zero_or_pos k with h | h
      · exact h
      · have : (1 : ℝ) ≤ k := by exact_mod_cast h
        clear hb
        linarith
    subst k0
    have er : r = 1 / 2 := by rw [hk']; simp
    have ea : -b.val = a := Option.some.inj ha
    subst er
    rcases hy with hy | hy
    · have ey : b.val = y := Option.some.inj hy
      rw [← ea, ← ey]
      congr 1
      ring
    · norm_num at hy

example := C173_median_violated binary64_isDouble

/-- C173: a level that is infinite, or outside [0, 1], is rejected. -/
theorem C173_level_throws {srt : StdSort} (s : Serie (Ext (Num D))) {q : Ext (Num D)} (hq : q < 0 ∨ q > 1) :
    quantile srt s q = .throw .invalidArgument := by
  unfold quantile
  by_cases hv : s.isValid = true
  · rw [hv, if_neg (by simp)]
    by_cases h1 : s.itemSize = 1
    · rw [if_neg (by simpa using h1), if_pos hq]
    · rw [if_pos h1]
  · rw [if_pos (by simpa using hv)]

example := C173_level_throws (srt := stdSort_exists.choose) exVast (q := .pinf) (.inr trivial)

/-- C173 is violated by a NaN level: it is not rejected, and then the behaviour is undefined. -/
theorem C173_level_violated {srt : StdSort} (hs : srt.Correct) {s : Serie (Ext (Num D))} (h : WF s) (h1 : s.itemSize = 1)
    (hf : ∀ x ∈ scalars s, IsFinite x) : quantile srt s .nan = .ub := by
  obtain ⟨xs, e1, _, _⟩ := C97_sort_partial hs h h1 (fun hc => by obtain ⟨y, hy⟩ := hf _ hc; cases hy)
  unfold quantile
  rw [h.valid, if_neg (by simp), if_neg (by simpa using h1),
    if_neg (by rw [not_or]; exact ⟨Ext.not_nan_lt _, Ext.not_lt_nan _⟩), e1, Res.ok_bind]
  have : ∀ n : Nat, ((n : Ext (Num D)) * Ext.nan : Ext (Num D)) = .nan := fun n => by
    cases (n : Ext (Num D)) <;> rfl
  simp only [this]
  rfl

example := C173_level_violated stdSort_exists.choose_spec exVast_WF rfl (fun x hx => (exVast_le x hx).1)

/-- The number before a normal number. -/
theorem Machine.pred_lt (hD : IsDouble D) (R : Rounding D.p) {f : ℝ} (hf : RepMin D.p D.emin f) (hb : (2 : ℝ) ^ ((D.p : ℤ) + D.emin) < f) :
    D.fl ((1 - ulp D) * f) < f := by
  have hu0 : 0 < ulp D := unit_pos (p := D.p)
  have hu8 := (ulp_tiny hD).1
  have hp1 : 1 ≤ D.p := by rw [hD.1]; norm_num
  have hB : (0 : ℝ) < (2 : ℝ) ^ ((D.p : ℤ) + D.emin) := by positivity
  have hf0 : 0 < f := hB.trans hb
  have huB : ulp D * (2 : ℝ) ^ ((D.p : ℤ) + D.emin) = (2 : ℝ) ^ D.emin := by
    have e : ulp D * 2 ^ D.p = 1 := by unfold ulp unit; rw [← mul_pow]; norm_num
    rw [zpow_add₀ (by norm_num), zpow_natCast, ← mul_assoc, e, one_mul]
  -- the next number after 2^(p + emin)
  have hnext : (2 : ℝ) ^ ((D.p : ℤ) + D.emin) * (1 + 2 * ulp D) ≤ f := by
    obtain ⟨m, e, hm, he, hx⟩ := hf
    have hee : D.emin + 1 ≤ e := by
      by_contra hc
      have : e = D.emin := by omega
      rw [this] at hx
      have h1 : (m : ℝ) ≤ 2 ^ D.p := by exact_mod_cast (abs_le.1 hm).2
      have h2 := mul_le_mul_of_nonneg_right h1 (show (0 : ℝ) ≤ (2 : ℝ) ^ D.emin by positivity)
      rw [← hx, ← zpow_natCast, ← zpow_add₀ (by norm_num)] at h2
      linarith
    obtain ⟨d, hd⟩ := Int.le.dest hee
    obtain ⟨k, hk⟩ : ∃ k : ℕ, D.p = k + 1 := ⟨D.p - 1, by omega⟩
    have e1 : f = ((m * 2 ^ d : ℤ) : ℝ) * (2 : ℝ) ^ (D.emin + 1) := by
      rw [hx, ← hd, zpow_add₀ (by norm_num) (D.emin + 1), zpow_natCast]; push_cast; ring
    have e2 : (2 : ℝ) ^ ((D.p : ℤ) + D.emin) = ((2 ^ k : ℤ) : ℝ) * (2 : ℝ) ^ (D.emin + 1) := by
      rw [hk]
      push_cast
      rw [show ((k : ℤ) + 1 + D.emin) = (k : ℤ) + (D.emin + 1) by ring, zpow_add₀ (by norm_num), zpow_natCast]
    have h3 : (2 ^ k : ℤ) < m * 2 ^ d := by
      rw [e1, e2] at hb
      exact_mod_cast lt_of_mul_lt_mul_right hb (by positivity)
    have h4 : ((2 ^ k : ℤ) : ℝ) + 1 ≤ ((m * 2 ^ d : ℤ) : ℝ) := by exact_mod_cast h3
    have h5 := mul_le_mul_of_nonneg_right h4 (show (0 : ℝ) ≤ (2 : ℝ) ^ (D.emin + 1) by positivity)
    rw [← e1, add_mul, ← e2, one_mul, zpow_add₀ (by norm_num) D.emin, zpow_one, ← huB] at h5
    linarith
  -- the candidate
  have hy := R.rep ((1 - ulp D) * f)
  have hyB : (2 : ℝ) ^ ((D.p : ℤ) + D.emin) ≤ R.fl ((1 - ulp D) * f) := by
    have hr : Representable D.p ((2 : ℝ) ^ ((D.p : ℤ) + D.emin)) := ⟨1, (D.p : ℤ) + D.emin, by simp [one_le_pow₀], by simp⟩
    have := R.mono (show (2 : ℝ) ^ ((D.p : ℤ) + D.emin) ≤ (1 - ulp D) * f by
      have h1 := mul_le_mul_of_nonneg_left hnext (show 0 ≤ 1 - ulp D by linarith)
      refine le_trans ?_ h1
      nlinarith [mul_nonneg hu0.le (show 0 ≤ 1 - 2 * ulp D by linarith), mul_nonneg hB.le (mul_nonneg hu0.le (show 0 ≤ 1 - 2 * ulp D by linarith))])
    rwa [R.exact hr] at this
  have hyR : RepMin D.p D.emin (R.fl ((1 - ulp D) * f)) := by
    obtain ⟨m, e, hm, hx⟩ := hy
    refine ⟨m, e, hm, ?_, hx⟩
    by_contra hc
    have h1 : (m : ℝ) ≤ 2 ^ D.p := by exact_mod_cast (abs_le.1 hm).2
    have h2 := mul_le_mul_of_nonneg_right h1 (show (0 : ℝ) ≤ (2 : ℝ) ^ e by positivity)
    rw [← hx, ← zpow_natCast, ← zpow_add₀ (by norm_num)] at h2
    have h3 : (2 : ℝ) ^ ((D.p : ℤ) + e) < (2 : ℝ) ^ ((D.p : ℤ) + D.emin) := zpow_lt_zpow_right₀ (by norm_num) (by omega)
    linarith
  have h1 := D.near ((1 - ulp D) * f) _ hyR
  have h2 := R.error ((1 - ulp D) * f)
  have h3 : 0 < (1 - ulp D) * f := mul_pos (by linarith) hf0
  rw [abs_of_pos h3] at h2
  have h4 := (le_abs_self _).trans (h1.trans h2)
  have h5 : unit D.p * ((1 - ulp D) * f) < ulp D * f := by
    show ulp D * ((1 - ulp D) * f) < _
    nlinarith [mul_pos (mul_pos hu0 hu0) hf0]
  linarith

/-- Interpolating between two numbers with a fraction below 1 stays between them. -/
theorem Machine.interpolate_le (hD : IsDouble D) (R : Rounding D.p) {a b r : ℝ} (ha : RepMin D.p D.emin a) (hb : RepMin D.p D.emin b) (hab : a ≤ b)
    (hr : Representable D.p r) (hr0 : 0 ≤ r) (hr1 : r < 1) :
    a ≤ D.fl (a + D.fl (r * D.fl (b - a))) ∧ D.fl (a + D.fl (r * D.fl (b - a))) ≤ b ∧ D.fl (r * D.fl (b - a)) ≤ b - a := by
  have nonneg : ∀ {x : ℝ}, 0 ≤ x → 0 ≤ D.fl x := fun hx => by have := D.fl_mono hx; rwa [D.fl_zero] at this
  have hd0 : 0 ≤ D.fl (b - a) := nonneg (by linarith)
  have hz0 : 0 ≤ D.fl (r * D.fl (b - a)) := nonneg (mul_nonneg hr0 hd0)
  have hp1 : 1 ≤ D.p := by rw [hD.1]; norm_num
  have h : D.fl (r * D.fl (b - a)) ≤ b - a := by
    rcases le_or_gt (D.fl (b - a)) (b - a) with h | h
    · have h1 := D.fl_mono (show r * D.fl (b - a) ≤ D.fl (b - a) from mul_le_of_le_one_left hd0 hr1.le)
      rw [D.exact (D.rep _)] at h1
      linarith
    · have hbig : (2 : ℝ) ^ ((D.p : ℤ) + D.emin) < b - a := by
        by_contra hc
        have := (hb.onGrid.sub ha.onGrid).rep (p := D.p) (by rw [abs_of_nonneg (by linarith)]; exact not_lt.1 hc)
        rw [D.exact this] at h
        exact lt_irrefl _ h
      have h1 := D.fl_mono (mul_le_mul_of_nonneg_right (Rounding.le_pred_one hp1 hr hr1) hd0)
      have h2 := Machine.pred_lt hD R (D.rep (b - a)) (hbig.trans h)
      by_contra hc
      rw [not_le] at hc
      have h3 := D.near (b - a) _ (D.rep (r * D.fl (b - a)))
      rw [abs_of_pos (by linarith), abs_of_pos (by linarith)] at h3
      have h4 : D.fl ((1 - unit D.p) * D.fl (b - a)) < D.fl (b - a) := h2
      linarith
  refine ⟨?_, ?_, h⟩
  · have := D.fl_mono (show a ≤ a + D.fl (r * D.fl (b - a)) by linarith)
    rwa [D.exact ha] at this
  · have := D.fl_mono (show a + D.fl (r * D.fl (b - a)) ≤ b by linarith)
    rwa [D.exact hb] at this

/-- A quantile and the values around it. -/
theorem quantile_range_between (hD : IsDouble D) {srt : StdSort} (hs : srt.Correct) {s : Serie (Ext (Num D))} (h : WF s)
    (h1 : s.itemSize = 1) (h0 : 0 < s.count) (hf : ∀ x ∈ scalars s, IsFinite x)
    (hw : ∀ x ∈ scalars s, ∀ y ∈ scalars s, real y - real x ≤ D.top) :
    ∃ xs, SortedFrom xs (scalars s) ∧ ∀ q : Num D, 0 ≤ q.val → q.val ≤ 1 → ∃ v k a, quantile srt s (.fin q) = .ok v ∧ IsFinite v ∧
      xs[k]? = some a ∧ real a ≤ real v ∧ (∀ b, xs[k + 1]? = some b → real v ≤ real b) ∧ (s.count = k + 1 → v = a) ∧
      (k : ℝ) ≤ D.fl (((s.count : ℝ) - 1) * q.val) ∧ D.fl (((s.count : ℝ) - 1) * q.val) < (k : ℝ) + 1 ∧
      ∀ b, xs[k + 1]? = some b → real v = D.fl (real a + D.fl ((D.fl (((s.count : ℝ) - 1) * q.val) - k) * D.fl (real b - real a))) := by
  obtain ⟨xs, hpm, ho, hr⟩ := quantile_range_run hD hs h h1 h0 hf
  have hl : xs.length = s.count := by rw [hpm.length_eq, h.scalars_length]
  have hc : ((s.count - 1 : Nat) : ℝ) = (s.count : ℝ) - 1 := by rw [Nat.cast_sub (by omega), Nat.cast_one]
  refine ⟨xs, ⟨hpm, ho⟩, fun q hq0 hq1 => ?_⟩
  obtain ⟨v, k, a, hv, k1, k2, ha, hcase⟩ := hr q hq0 hq1
  have hma : a ∈ scalars s := hpm.mem_iff.1 (List.mem_of_getElem? ha)
  have R : Rounding D.p := Rounding.even D.p (by rw [hD.1]; norm_num)
  refine ⟨v, k, a, hv, ?_⟩
  rw [← hc]
  rcases hcase with ⟨b, r, hb, hrv, rfl⟩ | ⟨hlen, _, rfl⟩
  · have hmb : b ∈ scalars s := hpm.mem_iff.1 (List.mem_of_getElem? hb)
    have hd := hw a hma b hmb
    have hk : k + 1 < xs.length := (List.getElem?_eq_some_iff.1 hb).1
    have hab : a ≤ b := by
      have := List.pairwise_iff_getElem.1 ho k (k + 1) (by omega) hk (by omega)
      rwa [(List.getElem?_eq_some_iff.1 ha).2, (List.getElem?_eq_some_iff.1 hb).2] at this
    obtain ⟨x, rfl⟩ := hf a hma
    obtain ⟨y, rfl⟩ := hf b hmb
    have hxy : x.val ≤ y.val := hab
    have hd' : y.val - x.val ≤ D.top := hd
    obtain ⟨i1, i2, i3⟩ := Machine.interpolate_le hD R x.rep y.rep hxy r.rep.toRep (by rw [hrv]; linarith) (by rw [hrv]; linarith)
    have r0 : 0 ≤ r.val := by rw [hrv]; linarith
    have r1 : r.val ≤ 1 := by rw [hrv]; linarith
    have hdd : |y.val - x.val| ≤ D.top := by rw [abs_of_nonneg (by linarith)]; exact hd'
    have hfd := D.abs_fl_le D.top_rep hdd
    have hm : |r.val * D.fl (y.val - x.val)| ≤ D.top := by
      rw [abs_mul, abs_of_nonneg r0]
      exact (mul_le_of_le_one_left (abs_nonneg _) r1).trans hfd
    have z0 : 0 ≤ D.fl (r.val * D.fl (y.val - x.val)) := by
      have e1 := D.fl_mono (show 0 ≤ y.val - x.val by linarith)
      rw [D.fl_zero] at e1
      have e2 := D.fl_mono (mul_nonneg r0 e1)
      rwa [D.fl_zero] at e2
    have hs' : |x.val + D.fl (r.val * D.fl (y.val - x.val))| ≤ D.top :=
      abs_le.2 ⟨by linarith [(abs_le.1 x.le).1], by linarith [(abs_le.1 y.le).2]⟩
    have e : (Ext.fin x + .fin r * (.fin y - .fin x) : Ext (Num D)) =
        .fin ⟨D.fl (x.val + D.fl (r.val * D.fl (y.val - x.val))), D.rep _, D.abs_fl_le D.top_rep hs'⟩ := by
      rw [Ext.fin_sub', Ext.ofReal_of_le hdd, Ext.fin_mul', Ext.ofReal_of_le hm, Ext.fin_add', Ext.ofReal_of_le hs']
    rw [e]
    refine ⟨⟨_, rfl⟩, ha, i1, fun b' hb' => ?_, fun hk' => by omega, k1, k2, fun b' hb' => ?_⟩
    · rw [hb] at hb'; cases hb'
      exact i2
    · rw [hb] at hb'; cases hb'
      rw [← hrv]
      rfl
  · exact ⟨hf _ hma, ha, le_refl _, fun b hb => absurd (List.getElem?_eq_some_iff.1 hb).1 (by omega), fun _ => rfl, k1, k2,
      fun b hb => absurd (List.getElem?_eq_some_iff.1 hb).1 (by omega)⟩

/-- C173: for finite doubles whose differences do not overflow, a quantile at a level in [0, 1] is finite and lies between the value at
the position `(n - 1) q` of the sorted values, rounded to a double and then down to a whole number, and the value after it. Rounding never
carries it past either one. -/
theorem C173_between_neighbours_partial (hD : IsDouble D) {srt : StdSort} (hs : srt.Correct) {s : Serie (Ext (Num D))} (h : WF s)
    (h1 : s.itemSize = 1) (h0 : 0 < s.count) (hf : ∀ x ∈ scalars s, IsFinite x)
    (hw : ∀ x ∈ scalars s, ∀ y ∈ scalars s, real y - real x ≤ D.top) :
    ∃ xs, SortedFrom xs (scalars s) ∧ ∀ q : Num D, 0 ≤ q.val → q.val ≤ 1 → ∃ v k a, quantile srt s (.fin q) = .ok v ∧ IsFinite v ∧
      xs[k]? = some a ∧ real a ≤ real v ∧ (∀ b, xs[k + 1]? = some b → real v ≤ real b) ∧ (s.count = k + 1 → v = a) ∧
      (k : ℝ) ≤ D.fl (((s.count : ℝ) - 1) * q.val) ∧ D.fl (((s.count : ℝ) - 1) * q.val) < (k : ℝ) + 1 := by
  obtain ⟨xs, hx, hr⟩ := quantile_range_between hD hs h h1 h0 hf hw
  refine ⟨xs, hx, fun q hq0 hq1 => ?_⟩
  obtain ⟨v, k, a, g1, g2, g3, g4, g5, g6, g7, g8, _⟩ := hr q hq0 hq1
  exact ⟨v, k, a, g1, g2, g3, g4, g5, g6, g7, g8⟩

example := C173_between_neighbours_partial binary64_isDouble stdSort_exists.choose_spec exVast_WF rfl Nat.two_pos
  (fun x hx => (exVast_le x hx).1) (fun x hx y hy => by
    have h1 := abs_le.1 (exVast_le x hx).2
    have h2 := abs_le.1 (exVast_le y hy).2
    have h3 := exVast_top
    generalize (2 : ℝ) ^ (1020 : ℤ) = z at *
    linarith [h1.1, h2.2])

/-- C173: for finite doubles from `lo` to `hi`, where `hi - lo` does not overflow, a quantile at a level in [0, 1] is finite and
between `lo` and `hi`. -/
theorem C173_in_range_partial (hD : IsDouble D) {srt : StdSort} (hs : srt.Correct) {s : Serie (Ext (Num D))} (h : WF s)
    (h1 : s.itemSize = 1) (h0 : 0 < s.count) {lo hi : ℝ} (hw : hi - lo ≤ D.top)
    (hf : ∀ x ∈ scalars s, IsFinite x ∧ lo ≤ real x ∧ real x ≤ hi) {q : Num D} (hq0 : 0 ≤ q.val) (hq1 : q.val ≤ 1) :
    ∃ v, quantile srt s (.fin q) = .ok v ∧ IsFinite v ∧ lo ≤ real v ∧ real v ≤ hi := by
  obtain ⟨xs, hx, hr⟩ := C173_between_neighbours_partial hD hs h h1 h0 (fun x hx => (hf x hx).1)
    (fun x hx y hy => by linarith [(hf x hx).2.1, (hf y hy).2.2])
  obtain ⟨v, k, a, hv, hfv, ha, hav, hvb, hlast, _⟩ := hr q hq0 hq1
  have hl : xs.length = s.count := by rw [hx.1.length_eq, h.scalars_length]
  have hma := hf a (hx.1.mem_iff.1 (List.mem_of_getElem? ha))
  refine ⟨v, hv, hfv, hma.2.1.trans hav, ?_⟩
  have hk : k < xs.length := (List.getElem?_eq_some_iff.1 ha).1
  rcases Nat.lt_or_ge (k + 1) xs.length with hk1 | hk1
  · have e := List.getElem?_eq_getElem hk1
    exact (hvb _ e).trans (hf _ (hx.1.mem_iff.1 (List.mem_of_getElem? e))).2.2
  · rw [hlast (by omega)]; exact hma.2.2

example := C173_in_range_partial binary64_isDouble stdSort_exists.choose_spec exVast_WF rfl Nat.two_pos (lo := -(2 : ℝ) ^ (1020 : ℤ))
  (hi := (2 : ℝ) ^ (1020 : ℤ)) (by
    have h3 := exVast_top
    have h4 : (0 : ℝ) < (2 : ℝ) ^ (1020 : ℤ) := by positivity
    generalize (2 : ℝ) ^ (1020 : ℤ) = z at *
    linarith) (fun x hx => ⟨(exVast_le x hx).1, abs_le.1 (exVast_le x hx).2⟩)
  (q := power binary64_isDouble (-1) (by norm_num) (by norm_num)) (by show (0 : ℝ) ≤ (2 : ℝ) ^ (-1 : ℤ); norm_num)
  (by show (2 : ℝ) ^ (-1 : ℤ) ≤ 1; norm_num)

/-- C173: for finite doubles whose differences do not overflow, a quantile never decreases when the level grows, the one at level 0 is
the smallest value and the one at level 1 the largest. -/
theorem C173_monotone_partial (hD : IsDouble D) {srt : StdSort} (hs : srt.Correct) {s : Serie (Ext (Num D))} (h : WF s)
    (h1 : s.itemSize = 1) (h0 : 0 < s.count) (hf : ∀ x ∈ scalars s, IsFinite x)
    (hw : ∀ x ∈ scalars s, ∀ y ∈ scalars s, real y - real x ≤ D.top) :
    (∀ q q' : Num D, 0 ≤ q.val → q.val ≤ q'.val → q'.val ≤ 1 → ∃ v v', quantile srt s (.fin q) = .ok v ∧
      quantile srt s (.fin q') = .ok v' ∧ real v ≤ real v') ∧
    (∀ q : Num D, q.val = 0 → ∃ v, quantile srt s (.fin q) = .ok v ∧ (∃ x ∈ scalars s, real v = real x) ∧
      ∀ x ∈ scalars s, real v ≤ real x) ∧
    (∀ q : Num D, q.val = 1 → ∃ v, quantile srt s (.fin q) = .ok v ∧ (∃ x ∈ scalars s, real v = real x) ∧
      ∀ x ∈ scalars s, real x ≤ real v) := by
  obtain ⟨xs, ⟨hpm, ho⟩, hr⟩ := quantile_range_between hD hs h h1 h0 hf hw
  have hl : xs.length = s.count := by rw [hpm.length_eq, h.scalars_length]
  have hn := h.count_lt
  have hc : ((s.count - 1 : Nat) : ℝ) = (s.count : ℝ) - 1 := by rw [Nat.cast_sub (by omega), Nat.cast_one]
  have hc0 : (0 : ℝ) ≤ (s.count : ℝ) - 1 := by rw [← hc]; exact Nat.cast_nonneg _
  have asc : ∀ (i j : Nat) (a b : Ext (Num D)), i ≤ j → xs[i]? = some a → xs[j]? = some b → real a ≤ real b := by
    intro i j a b hij ha hb
    rcases Nat.eq_or_lt_of_le hij with rfl | hij
    · rw [ha] at hb; cases hb; exact le_refl _
    · obtain ⟨hi, ea⟩ := List.getElem?_eq_some_iff.1 ha
      obtain ⟨hj, eb⟩ := List.getElem?_eq_some_iff.1 hb
      have hab := List.pairwise_iff_getElem.1 ho i j hi hj hij
      rw [ea, eb] at hab
      obtain ⟨x, rfl⟩ := hf a (hpm.mem_iff.1 (List.mem_of_getElem? ha))
      obtain ⟨y, rfl⟩ := hf b (hpm.mem_iff.1 (List.mem_of_getElem? hb))
      exact hab
  refine ⟨fun q q' hq0 hqq hq1 => ?_, fun q hq => ?_, fun q hq => ?_⟩
  · obtain ⟨v, k, a, g1, g2, g3, g4, g5, g6, g7, g8, g9⟩ := hr q hq0 (hqq.trans hq1)
    obtain ⟨v', k', a', f1, f2, f3, f4, f5, f6, f7, f8, f9⟩ := hr q' (hq0.trans hqq) hq1
    refine ⟨v, v', g1, f1, ?_⟩
    have hm := D.fl_mono (mul_le_mul_of_nonneg_left hqq hc0)
    have hkk : k ≤ k' := by
      have : (k : ℝ) < ((k' + 1 : Nat) : ℝ) := by push_cast; linarith
      exact Nat.lt_succ_iff.1 (Nat.cast_lt.1 this)
    have hk' : k' < xs.length := (List.getElem?_eq_some_iff.1 f3).1
    rcases Nat.eq_or_lt_of_le hkk with rfl | hlt
    · rw [g3] at f3; cases f3
      rcases Nat.lt_or_ge (k + 1) xs.length with hk1 | hk1
      · have e := List.getElem?_eq_getElem hk1
        rw [g9 _ e, f9 _ e]
        have hd : 0 ≤ D.fl (real (xs[k + 1]) - real a) := by
          have := D.fl_mono (show 0 ≤ real (xs[k + 1]) - real a by linarith [asc k (k + 1) _ _ (by omega) g3 e])
          rwa [D.fl_zero] at this
        refine D.fl_mono ?_
        have := D.fl_mono (mul_le_mul_of_nonneg_right (sub_le_sub_right hm (k : ℝ)) hd)
        linarith
      · rw [g6 (by omega), f6 (by omega)]
    · have e := List.getElem?_eq_getElem (show k + 1 < xs.length by omega)
      exact (g5 _ e).trans ((asc _ _ _ _ hlt e f3).trans f4)
  · obtain ⟨v, k, a, g1, g2, g3, g4, g5, g6, g7, g8, g9⟩ := hr q hq.ge (by rw [hq]; norm_num)
    rw [hq, mul_zero, D.fl_zero] at g7 g8 g9
    have hk : k = 0 := by
      have : (k : ℝ) ≤ ((0 : Nat) : ℝ) := by simpa using g7
      exact Nat.le_zero.1 (Nat.cast_le.1 this)
    subst hk
    have hma := hpm.mem_iff.1 (List.mem_of_getElem? g3)
    have hva : real v = real a := by
      rcases Nat.lt_or_ge 1 xs.length with hk1 | hk1
      · rw [g9 _ (List.getElem?_eq_getElem hk1), Nat.cast_zero, sub_zero, zero_mul, D.fl_zero, add_zero]
        obtain ⟨x, rfl⟩ := hf a hma
        exact D.exact x.rep
      · rw [g6 (by omega)]
    refine ⟨v, g1, ⟨a, hma, hva⟩, fun x hx => ?_⟩
    obtain ⟨j, hj⟩ := List.mem_iff_getElem?.1 (hpm.mem_iff.2 hx)
    rw [hva]
    exact asc 0 j _ _ (Nat.zero_le _) g3 hj
  · obtain ⟨v, k, a, g1, g2, g3, g4, g5, g6, g7, g8, g9⟩ := hr q (by rw [hq]; norm_num) hq.le
    rw [hq, mul_one, ← hc, D.exact (nat_repMin hD (by omega))] at g7 g8
    have hk : s.count = k + 1 := by
      have a1 := Nat.cast_le.1 g7
      have a2 : ((s.count - 1 : Nat) : ℝ) < ((k + 1 : Nat) : ℝ) := by push_cast; exact g8
      have a3 := Nat.cast_lt.1 a2
      omega
    have hma := hpm.mem_iff.1 (List.mem_of_getElem? g3)
    have hva := g6 hk
    refine ⟨v, g1, ⟨a, hma, by rw [hva]⟩, fun x hx => ?_⟩
    obtain ⟨j, hj⟩ := List.mem_iff_getElem?.1 (hpm.mem_iff.2 hx)
    have hjl := (List.getElem?_eq_some_iff.1 hj).1
    rw [hva]
    exact asc j k _ _ (by omega) hj g3

example := C173_monotone_partial binary64_isDouble stdSort_exists.choose_spec exVast_WF rfl Nat.two_pos
  (fun x hx => (exVast_le x hx).1) (fun x hx y hy => by
    have h1 := abs_le.1 (exVast_le x hx).2
    have h2 := abs_le.1 (exVast_le y hy).2
    have h3 := exVast_top
    generalize (2 : ℝ) ^ (1020 : ℤ) = z at *
    linarith [h1.1, h2.2])

/-- C173: for finite doubles from `lo` to `hi`, where `hi - lo` does not overflow, the quartiles are finite and in ascending order between
`lo` and `hi`; `IQR` is finite, not negative, and within `u` relative of the difference of the outer two. -/
theorem C173_quartiles_order_partial (hD : IsDouble D) {srt : StdSort} (hs : srt.Correct) {s : Serie (Ext (Num D))} (h : WF s)
    (h1 : s.itemSize = 1) (h0 : 0 < s.count) {lo hi : ℝ} (hw : hi - lo ≤ D.top)
    (hf : ∀ x ∈ scalars s, IsFinite x ∧ lo ≤ real x ∧ real x ≤ hi) :
    ∃ a m b i, q25 srt s = .ok a ∧ q50 srt s = .ok m ∧ q75 srt s = .ok b ∧ iqr srt s = .ok i ∧
      IsFinite a ∧ IsFinite m ∧ IsFinite b ∧ IsFinite i ∧ lo ≤ real a ∧ real a ≤ real m ∧ real m ≤ real b ∧ real b ≤ hi ∧
      0 ≤ real i ∧ |real i - (real b - real a)| ≤ ulp D * (real b - real a) := by
  obtain ⟨⟨x1, c1, v1⟩, ⟨x2, c2, v2⟩, ⟨x3, c3, v3⟩⟩ := quarter_const hD
  obtain ⟨a, ea, ka, a1, a2⟩ := C173_in_range_partial hD hs h h1 h0 hw hf (q := x1) (by rw [v1]; norm_num) (by rw [v1]; norm_num)
  obtain ⟨m, em, km, m1, m2⟩ := C173_in_range_partial hD hs h h1 h0 hw hf (q := x2) (by rw [v2]; norm_num) (by rw [v2]; norm_num)
  obtain ⟨b, eb, kb, b1, b2⟩ := C173_in_range_partial hD hs h h1 h0 hw hf (q := x3) (by rw [v3]; norm_num) (by rw [v3]; norm_num)
  have hm := (C173_monotone_partial hD hs h h1 h0 (fun x hx => (hf x hx).1)
    (fun x hx y hy => by linarith [(hf x hx).2.1, (hf y hy).2.2])).1
  obtain ⟨a', m', ea', em', l1⟩ := hm x1 x2 (by rw [v1]; norm_num) (by rw [v1, v2]; norm_num) (by rw [v2]; norm_num)
  obtain ⟨m'', b', em'', eb', l2⟩ := hm x2 x3 (by rw [v2]; norm_num) (by rw [v2, v3]; norm_num) (by rw [v3]; norm_num)
  rw [ea] at ea'; cases ea'
  rw [em] at em' em''; cases em'; cases em''
  rw [eb] at eb'; cases eb'
  rw [← c1] at ea; rw [← c2] at em; rw [← c3] at eb
  have hba : 0 ≤ real b - real a := by linarith
  have fi : IsFinite (b - a) := Ext.sub_of_le kb ka (by rw [abs_of_nonneg hba]; linarith)
  have e1 := Ext.sub_err fi
  rw [abs_of_nonneg hba] at e1
  refine ⟨a, m, b, b - a, ea, em, eb, by unfold iqr; rw [ea, eb]; rfl, ka, km, kb, fi, a1, l1, l2, b2, ?_, e1⟩
  have hu8 := (ulp_tiny hD).1
  have := (abs_le.1 e1).1
  nlinarith

example := C173_quartiles_order_partial binary64_isDouble stdSort_exists.choose_spec exVast_WF rfl Nat.two_pos (lo := -(2 : ℝ) ^ (1020 : ℤ))
  (hi := (2 : ℝ) ^ (1020 : ℤ)) (by
    have h3 := exVast_top
    have h4 : (0 : ℝ) < (2 : ℝ) ^ (1020 : ℤ) := by positivity
    generalize (2 : ℝ) ^ (1020 : ℤ) = z at *
    linarith) (fun x hx => ⟨(exVast_le x hx).1, abs_le.1 (exVast_le x hx).2⟩)

end DF
