import Verif.Props.FloatNorm

/-!
# Inverses in rounded arithmetic (C111)

The numbers are `Dbl R`, as in Verif/Props/Float.lean.
-/

namespace DF

open Spec

variable {p : Nat} {R : Rounding p}

/-- The determinant as computed by `inv`. -/
noncomputable def detR (a b c d e f g h i : Dbl R) : Dbl R :=
  a * (e * i - f * h) - b * (d * i - f * g) + c * (d * h - e * g)

theorem det2_bound (a b c d : Dbl R) : |a.val * d.val - b.val * c.val| ≤ |a.val| * |d.val| + |b.val| * |c.val| := by
  refine (abs_sub _ _).trans ?_
  rw [abs_mul, abs_mul]

theorem scaled_det2_error (x a b c d : Dbl R) :
    |(x * (a * d - b * c)).val - x.val * (a.val * d.val - b.val * c.val)| ≤
      growth p 3 * (|x.val| * (|a.val| * |d.val| + |b.val| * |c.val|)) := by
  rw [Dbl.val_mul]
  refine fl_error ?_ ?_
  · rw [← mul_sub, abs_mul]
    exact (mul_le_mul_of_nonneg_left (det2_error a b c d) (abs_nonneg _)).trans (le_of_eq (by ring))
  · rw [abs_mul]
    exact mul_le_mul_of_nonneg_left (det2_bound ..) (abs_nonneg _)

theorem detR_error (a b c d e f g h i : Dbl R) :
    |(detR a b c d e f g h i).val - (a.val * (e.val * i.val - f.val * h.val) - b.val * (d.val * i.val - f.val * g.val) +
        c.val * (d.val * h.val - e.val * g.val))| ≤
      growth p 5 * (|a.val| * (|e.val| * |i.val| + |f.val| * |h.val|) + |b.val| * (|d.val| * |i.val| + |f.val| * |g.val|) +
        |c.val| * (|d.val| * |h.val| + |e.val| * |g.val|)) := by
  have bd : ∀ x y z w v : Dbl R, |x.val * (y.val * v.val - z.val * w.val)| ≤
      |x.val| * (|y.val| * |v.val| + |z.val| * |w.val|) := by
    intro x y z w v
    rw [abs_mul]
    exact mul_le_mul_of_nonneg_left (det2_bound ..) (abs_nonneg _)
  have s1 := sub_error (R := R) (scaled_det2_error a e f h i) (scaled_det2_error b d f g i) (bd _ _ _ _ _) (bd _ _ _ _ _)
  exact add_error (R := R) s1 (weaken (scaled_det2_error c d e g h) (by positivity) (by omega))
    ((abs_sub _ _).trans (add_le_add (bd _ _ _ _ _) (bd _ _ _ _ _))) (bd _ _ _ _ _)

/-- An entry of the inverse. -/
theorem entry_error (a b c d D : Dbl R) (hD : D.val ≠ 0) {e A : ℝ} (he : e = a.val * d.val - b.val * c.val)
    (hA : A = |a.val| * |d.val| + |b.val| * |c.val|) :
    |((a * d - b * c) * (1 / D)).val * D.val - e| ≤ growth p 4 * A := by
  subst he hA
  have h1 := det2_error a b c d
  have h2 := abs_of_error h1 (det2_bound a b c d)
  generalize a.val * d.val - b.val * c.val = e at h1
  generalize hA : |a.val| * |d.val| + |b.val| * |c.val| = A at h1 h2
  generalize hx : a * d - b * c = x at h1 h2 ⊢
  have h3 : |(x * (1 / D)).val - x.val * (1 / D.val)| ≤ growth p (0 + 1 + 1) * |x.val * (1 / D.val)| := by
    rw [Dbl.val_mul, Dbl.val_div, Dbl.val_one]
    exact fl_mul_error (R := R) (self_error (p := p) x.val) (round_error (R := R) _)
  have h4 : |(x * (1 / D)).val * D.val - x.val| ≤ growth p 2 * |x.val| := by
    have := mul_le_mul_of_nonneg_right h3 (abs_nonneg D.val)
    rw [← abs_mul, mul_assoc, ← abs_mul] at this
    rwa [show ((x * (1 / D)).val - x.val * (1 / D.val)) * D.val = (x * (1 / D)).val * D.val - x.val by field_simp,
      show x.val * (1 / D.val) * D.val = x.val by field_simp] at this
  rw [show (x * (1 / D)).val * D.val - e = ((x * (1 / D)).val * D.val - x.val) + (x.val - e) by ring]
  refine (abs_add_le _ _).trans ((add_le_add (h4.trans (mul_le_mul_of_nonneg_left h2 (growth_nonneg _))) h1).trans ?_)
  rw [show growth p 4 = growth p 2 * (1 + growth p 2) + growth p 2 from growth_add 2 2]
  exact le_of_eq (by ring)

/-- The number `1e-10` of the code. -/
theorem eps_val : |((1e-10 : Dbl R)).val - 1 / 10 ^ 10| ≤ unit p * (1 / 10 ^ 10) := by
  have h : (1e-10 : Dbl R).val = R.fl (1e-10 : ℝ) := rfl
  have h1 : (1e-10 : ℝ) = 1 / 10 ^ 10 := by norm_num
  have := R.error (1 / 10 ^ 10)
  rw [h, h1]
  rwa [abs_of_pos (show (0 : ℝ) < 1 / 10 ^ 10 by positivity)] at this

/-- The inverse of a symmetric matrix, as computed. -/
noncomputable def symInvR (t : List (Dbl R)) : List (Dbl R) :=
  let D := detR (num t 0) (num t 1) (num t 2) (num t 1) (num t 3) (num t 4) (num t 2) (num t 4) (num t 5)
  [(num t 3 * num t 5 - num t 4 * num t 4) * (1 / D), (num t 2 * num t 4 - num t 1 * num t 5) * (1 / D),
   (num t 1 * num t 4 - num t 2 * num t 3) * (1 / D), (num t 0 * num t 5 - num t 2 * num t 2) * (1 / D),
   (num t 1 * num t 2 - num t 0 * num t 4) * (1 / D), (num t 0 * num t 3 - num t 1 * num t 1) * (1 / D)]

/-- The determinant of a symmetric matrix, as computed. -/
noncomputable def symDetR (t : List (Dbl R)) : Dbl R :=
  detR (num t 0) (num t 1) (num t 2) (num t 1) (num t 3) (num t 4) (num t 2) (num t 4) (num t 5)

theorem invSym_run {t : List (Dbl R)} (h : t.length = 6) :
    invSym t = if absv (symDetR t) < (1e-10 : Dbl R) then .throw .runtimeError else .ok (symInvR t) := by
  obtain ⟨a, b, c, d, e, f, rfl⟩ := len6 h
  rfl

theorem perm_sym (a b c d e f : ℝ) : (symMatrix3 [a, b, c, d, e, f]).permanent =
    a * (d * f + e * e) + b * (b * f + e * c) + c * (b * e + d * c) := by
  rw [permanent_fin_three]
  simp [symMatrix3, num]
  ring

theorem symDetR_error {t : List (Dbl R)} (h : t.length = 6) :
    |(symDetR t).val - (symMatrix3 (vals t)).det| ≤ growth p 5 * (symMatrix3 (absVals t)).permanent := by
  obtain ⟨a, b, c, d, e, f, rfl⟩ := len6 h
  have e1 : (symMatrix3 (vals [a, b, c, d, e, f])).det = _ := det_sym a.val b.val c.val d.val e.val f.val
  have e2 : (symMatrix3 (absVals [a, b, c, d, e, f])).permanent = _ :=
    perm_sym |a.val| |b.val| |c.val| |d.val| |e.val| |f.val|
  rw [e1, e2]
  exact detR_error a b c b d e c e f

theorem absAdjugate_eq (M : Matrix (Fin 3) (Fin 3) ℝ) : absAdjugate M = fun i j =>
    !![|M 1 1| * |M 2 2| + |M 1 2| * |M 2 1|, |M 0 1| * |M 2 2| + |M 0 2| * |M 2 1|, |M 0 1| * |M 1 2| + |M 0 2| * |M 1 1|;
       |M 1 0| * |M 2 2| + |M 1 2| * |M 2 0|, |M 0 0| * |M 2 2| + |M 0 2| * |M 2 0|, |M 0 0| * |M 1 2| + |M 0 2| * |M 1 0|;
       |M 1 0| * |M 2 1| + |M 1 1| * |M 2 0|, |M 0 0| * |M 2 1| + |M 0 1| * |M 2 0|, |M 0 0| * |M 1 1| + |M 0 1| * |M 1 0|]
      i j := by
  funext i j
  unfold absAdjugate
  rw [permanent_fin_two]
  fin_cases i <;> fin_cases j <;> simp [Fin.succAbove, Fin.lt_def]

theorem symInvR_error {t : List (Dbl R)} (h : t.length = 6) (hD : (symDetR t).val ≠ 0) (i j : Fin 3) :
    |symMatrix3 (vals (symInvR t)) i j * (symDetR t).val - (symMatrix3 (vals t)).adjugate i j| ≤
      growth p 4 * absAdjugate (symMatrix3 (vals t)) i j := by
  obtain ⟨a, b, c, d, e, f, rfl⟩ := len6 h
  rw [absAdjugate_eq, Matrix.adjugate_fin_three]
  fin_cases i <;> fin_cases j <;>
    refine entry_error _ _ _ _ _ hD ?_ ?_ <;> simp [symMatrix3, vals, num] <;> ring

/-- A map whose lambda either throws or returns `g`. -/
theorem mapArr_guard [Zero α] {s : Serie α} (h : WF s) (h0 : 0 < s.count) {cb : List α → Res (List α)} {g : List α → List α}
    {bad : List α → Prop} [DecidablePred bad] {e : Err} (hg : ∀ v, (g v).length = s.itemSize)
    (hcb : ∀ v, v.length = s.itemSize → cb v = if bad v then .throw e else .ok (g v)) :
    ((∃ t ∈ items s, bad t) ∧ mapArr (fun t _ => cb t) s = .throw e) ∨
      ((∀ t ∈ items s, ¬ bad t) ∧ mapArr (fun t _ => cb t) s = .ok (ofItems s.itemSize ((items s).map g))) := by
  by_cases hb : ∃ t ∈ items s, bad t
  · refine .inl ⟨hb, mapArr_throw h (k := s.itemSize) (fun v hv i => ?_) ?_⟩
    · by_cases hv' : bad v
      · exact .inl ((hcb v (h.item_length hv)).trans (if_pos hv'))
      · exact .inr ⟨g v, (hcb v (h.item_length hv)).trans (if_neg hv'), hg v⟩
    · obtain ⟨t, ht, hs⟩ := hb
      exact ⟨t, ht, fun i => (hcb t (h.item_length ht)).trans (if_pos hs)⟩
  · have hb' : ∀ t ∈ items s, ¬ bad t := fun t ht hc => hb ⟨t, ht, hc⟩
    have hfit := h.fits
    have hsm := h.small
    have hint := h.int
    have hpos := h.pos
    refine .inr ⟨hb', mapArr_ok h h0 (AllReturn_map (fun v hv i => (hcb v (h.item_length hv)).trans (if_neg (hb' v hv))))
      (by omega) (by omega) ?_ (by omega)⟩
    intro v hv
    obtain ⟨u, _, rfl⟩ := List.mem_map.1 hv
    exact hg u

theorem inv_sym_cases {s : Serie (Dbl R)} (h : WF s) (h0 : 0 < s.count) (hk : s.itemSize = 6) (hd : s.dimension = 3) :
    ((∃ t ∈ items s, absv (symDetR t) < (1e-10 : Dbl R)) ∧ inv s = .throw .runtimeError) ∨
      ((∀ t ∈ items s, ¬ absv (symDetR t) < (1e-10 : Dbl R)) ∧ inv s = .ok (ofItems s.itemSize ((items s).map symInvR))) := by
  unfold inv
  rw [h.valid, if_neg (by simp), if_neg (by simp [hk, hd]), if_pos hk]
  exact mapArr_guard h h0 (fun _ => hk.symm) (fun v hv => invSym_run (hv.trans hk))

/-- A computed number that is not below the tolerance. -/
theorem big_val {x : Dbl R} (h : ¬ absv x < (1e-10 : Dbl R)) : (1 - unit p) * (1 / 10 ^ 10) ≤ |x.val| := by
  have h1 : (1e-10 : Dbl R).val ≤ (absv x).val := not_lt.1 h
  rw [absv_val] at h1
  have := (abs_le.1 (eps_val (R := R))).1
  linarith

/-- A computed number that is below the tolerance. -/
theorem small_val {x : Dbl R} (h : absv x < (1e-10 : Dbl R)) : |x.val| < (1 + unit p) * (1 / 10 ^ 10) := by
  have h1 : (absv x).val < (1e-10 : Dbl R).val := h
  rw [absv_val] at h1
  have := (abs_le.1 (eps_val (R := R))).2
  linarith

/-- C111: whenever `inv` returns for symmetric 3D matrices, each item is, up to the relative error of four roundings on each
entry, the adjugate divided by a number that is the determinant up to five roundings. -/
theorem C111_error (hp : 0 < p) {s r : Serie (Dbl R)} (h : WF s) (h0 : 0 < s.count) (hk : s.itemSize = 6) (hd : s.dimension = 3)
    (hr : inv s = .ok r) :
    WF r ∧ SameShape r s ∧ ItemWise (fun t u => ∃ D : ℝ, (1 - unit p) * (1 / 10 ^ 10) ≤ |D| ∧
      |D - (symMatrix3 (vals t)).det| ≤ growth p 5 * (symMatrix3 (absVals t)).permanent ∧
      ∀ i j, |symMatrix3 (vals u) i j * D - (symMatrix3 (vals t)).adjugate i j| ≤
        growth p 4 * absAdjugate (symMatrix3 (vals t)) i j) s r := by
  obtain ⟨_, hc⟩ | ⟨hb, hc⟩ := inv_sym_cases h h0 hk hd
  · rw [hc] at hr; cases hr
  rw [hc] at hr
  cases hr
  have hf := ofItems_map_facts h (k := s.itemSize) (g := symInvR) h.pos le_rfl (fun v _ => hk.symm)
  refine ⟨hf.1, ⟨hf.2.1, hf.2.2.1⟩, ?_⟩
  unfold ItemWise
  rw [hf.2.2.2]
  refine forall₂_map (fun v hv => ?_)
  have hl := (h.item_length hv).trans hk
  have hD := big_val (hb v hv)
  refine ⟨(symDetR v).val, hD, symDetR_error hl, symInvR_error hl (fun h0 => ?_)⟩
  rw [h0, abs_zero] at hD
  have : 0 < (1 - unit p) * (1 / 10 ^ 10) := mul_pos (sub_pos.2 (unit_lt_one hp)) (by positivity)
  linarith

/-- C111: it returns when every determinant is above the tolerance by more than the error made. -/
theorem C111_returns {s : Serie (Dbl R)} (h : WF s) (h0 : 0 < s.count) (hk : s.itemSize = 6) (hd : s.dimension = 3)
    (hdet : ∀ t ∈ items s, (1 + unit p) * (1 / 10 ^ 10) + growth p 5 * (symMatrix3 (absVals t)).permanent ≤
      |(symMatrix3 (vals t)).det|) : ∃ r, inv s = .ok r := by
  obtain ⟨⟨t, ht, hs⟩, _⟩ | ⟨_, hc⟩ := inv_sym_cases h h0 hk hd
  · have h1 := hdet t ht
    have h2 := symDetR_error (R := R) ((h.item_length ht).trans hk)
    have h3 := small_val hs
    rw [abs_sub_comm] at h2
    have h4 := abs_sub_abs_le_abs_sub (symMatrix3 (vals t)).det (symDetR t).val
    linarith
  · exact ⟨_, hc⟩

/-- C111: it throws when some determinant is below the tolerance by more than the error made. -/
theorem C111_throws {s : Serie (Dbl R)} (h : WF s) (hk : s.itemSize = 6) (hd : s.dimension = 3)
    (hdet : ∃ t ∈ items s, |(symMatrix3 (vals t)).det| + growth p 5 * (symMatrix3 (absVals t)).permanent <
      (1 - unit p) * (1 / 10 ^ 10)) : inv s = .throw .runtimeError := by
  obtain ⟨t, ht, hs⟩ := hdet
  have h0 : 0 < s.count := by
    rw [← items_length s]
    exact List.length_pos_of_mem ht
  obtain ⟨_, hc⟩ | ⟨hb, _⟩ := inv_sym_cases h h0 hk hd
  · exact hc
  · have h2 := symDetR_error (R := R) ((h.item_length ht).trans hk)
    have h3 := big_val (hb t ht)
    have h4 := abs_sub_abs_le_abs_sub (symDetR t).val (symMatrix3 (vals t)).det
    linarith

/-- C111: what multiplying back gives: the product of a matrix with its computed inverse misses the identity by no more than the
errors on the determinant and on the entries, divided by the determinant used. -/
theorem C111_residual (hp : 0 < p) {s r : Serie (Dbl R)} (h : WF s) (h0 : 0 < s.count) (hk : s.itemSize = 6)
    (hd : s.dimension = 3) (hr : inv s = .ok r) :
    ItemWise (fun t u => ∃ D : ℝ, (1 - unit p) * (1 / 10 ^ 10) ≤ |D| ∧
      |D - (symMatrix3 (vals t)).det| ≤ growth p 5 * (symMatrix3 (absVals t)).permanent ∧
      ∀ i j, |D| * |(symMatrix3 (vals t) * symMatrix3 (vals u) - 1) i j| ≤
        growth p 5 * (symMatrix3 (absVals t)).permanent +
          growth p 4 * ∑ k, |symMatrix3 (vals t) i k| * absAdjugate (symMatrix3 (vals t)) k j) s r := by
  refine (C111_error hp h h0 hk hd hr).2.2.imp ?_
  rintro t u ⟨D, h1, h2, h3⟩
  refine ⟨D, h1, h2, fun i j => ?_⟩
  generalize hM : symMatrix3 (vals t) = M at *
  generalize hU : symMatrix3 (vals u) = U at *
  have hadj : ∑ k, M i k * M.adjugate k j = M.det * (1 : Matrix (Fin 3) (Fin 3) ℝ) i j := by
    have := congrFun (congrFun (Matrix.mul_adjugate M) i) j
    rwa [Matrix.mul_apply, Matrix.smul_apply, smul_eq_mul] at this
  have e : D * (M * U - 1) i j = ∑ k, M i k * (U k j * D - M.adjugate k j) + (M.det - D) * (1 : Matrix (Fin 3) (Fin 3) ℝ) i j := by
    rw [Matrix.sub_apply, Matrix.mul_apply, sub_mul, ← hadj, ← sub_eq_zero]
    simp only [mul_sub, Finset.sum_sub_distrib, Finset.mul_sum]
    have : ∀ k, D * (M i k * U k j) = M i k * (U k j * D) := fun k => by ring
    simp only [this]
    ring
  rw [← abs_mul, e]
  have h5 : |(M.det - D) * (1 : Matrix (Fin 3) (Fin 3) ℝ) i j| ≤ growth p 5 * (symMatrix3 (absVals t)).permanent := by
    rw [abs_mul, abs_sub_comm]
    have : |(1 : Matrix (Fin 3) (Fin 3) ℝ) i j| ≤ 1 := by
      rw [Matrix.one_apply]; split <;> simp
    exact (mul_le_of_le_one_right (abs_nonneg _) this).trans h2
  have h6 : |∑ k, M i k * (U k j * D - M.adjugate k j)| ≤ growth p 4 * ∑ k, |M i k| * absAdjugate M k j := by
    refine (Finset.abs_sum_le_sum_abs _ _).trans ?_
    rw [Finset.mul_sum]
    refine Finset.sum_le_sum (fun k _ => ?_)
    rw [abs_mul, ← mul_assoc, mul_comm (growth p 4), mul_assoc]
    exact mul_le_mul_of_nonneg_left (h3 k j) (abs_nonneg _)
  exact (abs_add_le _ _).trans ((add_le_add h6 h5).trans (le_of_eq (add_comm _ _)))

/-- The inverse of a full matrix, as computed. -/
noncomputable def fullInvR (t : List (Dbl R)) : List (Dbl R) :=
  let D := detR (num t 0) (num t 1) (num t 2) (num t 3) (num t 4) (num t 5) (num t 6) (num t 7) (num t 8)
  [(num t 4 * num t 8 - num t 5 * num t 7) * (1 / D), (num t 2 * num t 7 - num t 1 * num t 8) * (1 / D),
   (num t 1 * num t 5 - num t 2 * num t 4) * (1 / D), (num t 5 * num t 6 - num t 3 * num t 8) * (1 / D),
   (num t 0 * num t 8 - num t 2 * num t 6) * (1 / D), (num t 6 * num t 1 - num t 0 * num t 7) * (1 / D),
   (num t 3 * num t 7 - num t 4 * num t 6) * (1 / D), (num t 1 * num t 6 - num t 0 * num t 7) * (1 / D),
   (num t 0 * num t 4 - num t 1 * num t 3) * (1 / D)]

/-- The determinant of a full matrix, as computed. -/
noncomputable def fullDetR (t : List (Dbl R)) : Dbl R :=
  detR (num t 0) (num t 1) (num t 2) (num t 3) (num t 4) (num t 5) (num t 6) (num t 7) (num t 8)

theorem invFull_run {t : List (Dbl R)} (h : t.length = 9) :
    invFull t = if absv (fullDetR t) < (1e-10 : Dbl R) then .throw .runtimeError else .ok (fullInvR t) := by
  obtain ⟨a, b, c, d, e, f, g, i, j, rfl⟩ := len9 h
  rfl

theorem fullDetR_error {t : List (Dbl R)} (h : t.length = 9) :
    |(fullDetR t).val - (fullMatrix 3 (vals t)).det| ≤ growth p 5 * (fullMatrix 3 (absVals t)).permanent := by
  obtain ⟨a, b, c, d, e, f, g, i, j, rfl⟩ := len9 h
  have e1 : (fullMatrix 3 (vals [a, b, c, d, e, f, g, i, j])).det = _ :=
    det_full a.val b.val c.val d.val e.val f.val g.val i.val j.val
  have e2 : (fullMatrix 3 (absVals [a, b, c, d, e, f, g, i, j])).permanent =
      |a.val| * (|e.val| * |j.val| + |f.val| * |i.val|) +
      |b.val| * (|d.val| * |j.val| + |f.val| * |g.val|) + |c.val| * (|d.val| * |i.val| + |e.val| * |g.val|) := by
    rw [permanent_fin_three]
    simp [absVals, fullMatrix, num, -abs_mul_abs_self]
    ring
  rw [e1, e2]
  exact detR_error a b c d e f g i j

theorem fullInvR_error {t : List (Dbl R)} (h : t.length = 9) (hD : (fullDetR t).val ≠ 0) {i j : Fin 3} (hij : ¬ (i = 1 ∧ j = 2)) :
    |fullMatrix 3 (vals (fullInvR t)) i j * (fullDetR t).val - (fullMatrix 3 (vals t)).adjugate i j| ≤
      growth p 4 * absAdjugate (fullMatrix 3 (vals t)) i j := by
  obtain ⟨a, b, c, d, e, f, g, k, l, rfl⟩ := len9 h
  rw [absAdjugate_eq, Matrix.adjugate_fin_three]
  fin_cases i <;> fin_cases j <;> first
    | exact absurd ⟨rfl, rfl⟩ hij
    | (refine entry_error _ _ _ _ _ hD ?_ ?_ <;> simp [fullMatrix, vals, num] <;> ring)

theorem inv_full_cases {s : Serie (Dbl R)} (h : WF s) (h0 : 0 < s.count) (hk : s.itemSize = 9) (hd : s.dimension = 3) :
    ((∃ t ∈ items s, absv (fullDetR t) < (1e-10 : Dbl R)) ∧ inv s = .throw .runtimeError) ∨
      ((∀ t ∈ items s, ¬ absv (fullDetR t) < (1e-10 : Dbl R)) ∧ inv s = .ok (ofItems s.itemSize ((items s).map fullInvR))) := by
  unfold inv
  rw [h.valid, if_neg (by simp), if_neg (by simp [hk, hd]), if_neg (by omega)]
  exact mapArr_guard h h0 (fun _ => hk.symm) (fun v hv => invFull_run (hv.trans hk))

/-- C111, for full matrices: the same for every entry but the one of the second row and third column, which the code computes
with the formula of the entry of the third row and second column. -/
theorem C111_full_partial (hp : 0 < p) {s r : Serie (Dbl R)} (h : WF s) (h0 : 0 < s.count) (hk : s.itemSize = 9)
    (hd : s.dimension = 3) (hr : inv s = .ok r) :
    WF r ∧ SameShape r s ∧ ItemWise (fun t u => ∃ D : ℝ, (1 - unit p) * (1 / 10 ^ 10) ≤ |D| ∧
      |D - (fullMatrix 3 (vals t)).det| ≤ growth p 5 * (fullMatrix 3 (absVals t)).permanent ∧
      (∀ i j, ¬ (i = 1 ∧ j = 2) → |fullMatrix 3 (vals u) i j * D - (fullMatrix 3 (vals t)).adjugate i j| ≤
        growth p 4 * absAdjugate (fullMatrix 3 (vals t)) i j) ∧
      |fullMatrix 3 (vals u) 1 2 * D - (fullMatrix 3 (vals t)).adjugate 2 1| ≤
        growth p 4 * absAdjugate (fullMatrix 3 (vals t)) 2 1) s r := by
  obtain ⟨_, hc⟩ | ⟨hb, hc⟩ := inv_full_cases h h0 hk hd
  · rw [hc] at hr; cases hr
  rw [hc] at hr
  cases hr
  have hf := ofItems_map_facts h (k := s.itemSize) (g := fullInvR) h.pos le_rfl (fun v _ => hk.symm)
  refine ⟨hf.1, ⟨hf.2.1, hf.2.2.1⟩, ?_⟩
  unfold ItemWise
  rw [hf.2.2.2]
  refine forall₂_map (fun v hv => ?_)
  have hl := (h.item_length hv).trans hk
  have hD := big_val (hb v hv)
  have hD0 : (fullDetR v).val ≠ 0 := fun h0 => by
    rw [h0, abs_zero] at hD
    have : 0 < (1 - unit p) * (1 / 10 ^ 10) := mul_pos (sub_pos.2 (unit_lt_one hp)) (by positivity)
    linarith
  refine ⟨(fullDetR v).val, hD, fullDetR_error hl, fun i j hij => fullInvR_error hl hD0 hij, ?_⟩
  obtain ⟨a, b, c, d, e, f, g, i, j, rfl⟩ := len9 hl
  rw [absAdjugate_eq, Matrix.adjugate_fin_three]
  refine entry_error _ _ _ _ _ hD0 ?_ ?_ <;> simp [fullMatrix, vals, num] <;> ring

/-- C111, for full matrices: it throws or returns as the determinant is below or above the tolerance by more than the error
made. -/
theorem C111_full_returns {s : Serie (Dbl R)} (h : WF s) (h0 : 0 < s.count) (hk : s.itemSize = 9) (hd : s.dimension = 3) :
    ((∀ t ∈ items s, (1 + unit p) * (1 / 10 ^ 10) + growth p 5 * (fullMatrix 3 (absVals t)).permanent ≤
      |(fullMatrix 3 (vals t)).det|) → ∃ r, inv s = .ok r) ∧
    ((∃ t ∈ items s, |(fullMatrix 3 (vals t)).det| + growth p 5 * (fullMatrix 3 (absVals t)).permanent <
      (1 - unit p) * (1 / 10 ^ 10)) → inv s = .throw .runtimeError) := by
  constructor
  · intro hdet
    obtain ⟨⟨t, ht, hs⟩, _⟩ | ⟨_, hc⟩ := inv_full_cases h h0 hk hd
    · have h1 := hdet t ht
      have h2 := fullDetR_error (R := R) ((h.item_length ht).trans hk)
      have h3 := small_val hs
      rw [abs_sub_comm] at h2
      have h4 := abs_sub_abs_le_abs_sub (fullMatrix 3 (vals t)).det (fullDetR t).val
      linarith
    · exact ⟨_, hc⟩
  · rintro ⟨t, ht, hs⟩
    obtain ⟨_, hc⟩ | ⟨hb, _⟩ := inv_full_cases h h0 hk hd
    · exact hc
    · have h2 := fullDetR_error (R := R) ((h.item_length ht).trans hk)
      have h3 := big_val (hb t ht)
      have h4 := abs_sub_abs_le_abs_sub (fullDetR t).val (fullMatrix 3 (vals t)).det
      linarith

section examples
variable (R : Rounding 53)

/-- Two symmetric matrices. -/
noncomputable def exSymR : Serie (Dbl R) :=
  ⟨[dbl R 2, dbl R 0, dbl R 0, dbl R 1, dbl R 0, dbl R 4, dbl R 2, dbl R 1, dbl R 0, dbl R 2, dbl R 1, dbl R 2], 2, 6, 3⟩

theorem exSymR_WF : WF (exSymR R) := of_decide_eq_true rfl

theorem growth_small : growth 53 5 ≤ 1 / 100 := by norm_num [growth, unit]

theorem exSymR_det : ∀ t ∈ items (exSymR R), (1 + unit 53) * (1 / 10 ^ 10) +
    growth 53 5 * (symMatrix3 (absVals t)).permanent ≤ |(symMatrix3 (vals t)).det| := by
  have h0 : (dbl R 0).val = 0 := by rw [dbl_val (by norm_num)]; norm_num
  have h1 : (dbl R 1).val = 1 := by rw [dbl_val (by norm_num)]; norm_num
  have h2 : (dbl R 2).val = 2 := by rw [dbl_val (by norm_num)]; norm_num
  have h4 : (dbl R 4).val = 4 := by rw [dbl_val (by norm_num)]; norm_num
  have hg := growth_small
  have hg0 := growth_nonneg (p := 53) 5
  have hu : unit 53 ≤ 1 := unit_le_one
  rw [show items (exSymR R) = [[dbl R 2, dbl R 0, dbl R 0, dbl R 1, dbl R 0, dbl R 4],
    [dbl R 2, dbl R 1, dbl R 0, dbl R 2, dbl R 1, dbl R 2]] from rfl]
  intro t ht
  simp only [List.mem_cons, List.not_mem_nil, or_false] at ht
  rcases ht with rfl | rfl
  · rw [show absVals _ = [2, 0, 0, 1, 0, 4] by simp [absVals, h0, h1, h2, h4],
      show vals _ = [2, 0, 0, 1, 0, 4] by simp [vals, h0, h1, h2, h4], det_sym, perm_sym]
    norm_num
    linarith
  · rw [show absVals _ = [2, 1, 0, 2, 1, 2] by simp [absVals, h0, h1, h2],
      show vals _ = [2, 1, 0, 2, 1, 2] by simp [vals, h0, h1, h2], det_sym, perm_sym]
    norm_num
    linarith

example := C111_returns (exSymR_WF R) (Nat.succ_pos 1) rfl rfl (exSymR_det R)

example : ∃ r, inv (exSymR R) = .ok r ∧ WF r := by
  obtain ⟨r, hr⟩ := C111_returns (exSymR_WF R) (Nat.succ_pos 1) rfl rfl (exSymR_det R)
  have h := C111_error (by omega) (exSymR_WF R) (Nat.succ_pos 1) rfl rfl hr
  have h' := C111_residual (by omega) (exSymR_WF R) (Nat.succ_pos 1) rfl rfl hr
  exact ⟨r, hr, h.1⟩

/-- A matrix of zeros: its inverse is refused. -/
example : inv (⟨[dbl R 0, dbl R 0, dbl R 0, dbl R 0, dbl R 0, dbl R 0], 1, 6, 3⟩ : Serie (Dbl R)) = .throw .runtimeError := by
  have h0 : (dbl R 0).val = 0 := by rw [dbl_val (by norm_num)]; norm_num
  refine C111_throws (of_decide_eq_true rfl) rfl rfl ⟨[dbl R 0, dbl R 0, dbl R 0, dbl R 0, dbl R 0, dbl R 0], List.mem_singleton.2 rfl, ?_⟩
  rw [show absVals _ = [0, 0, 0, 0, 0, 0] by simp [absVals, h0],
      show vals _ = [0, 0, 0, 0, 0, 0] by simp [vals, h0], det_sym, perm_sym]
  have : unit 53 < 1 := unit_lt_one (by omega)
  norm_num
  exact this

/-- A full matrix. -/
noncomputable def exFullR : Serie (Dbl R) :=
  ⟨[dbl R 2, dbl R 1, dbl R 0, dbl R 0, dbl R 1, dbl R 0, dbl R 0, dbl R 0, dbl R 4], 1, 9, 3⟩

theorem exFullR_WF : WF (exFullR R) := of_decide_eq_true rfl

theorem exFullR_det : ∀ t ∈ items (exFullR R), (1 + unit 53) * (1 / 10 ^ 10) +
    growth 53 5 * (fullMatrix 3 (absVals t)).permanent ≤ |(fullMatrix 3 (vals t)).det| := by
  have h0 : (dbl R 0).val = 0 := by rw [dbl_val (by norm_num)]; norm_num
  have h1 : (dbl R 1).val = 1 := by rw [dbl_val (by norm_num)]; norm_num
  have h2 : (dbl R 2).val = 2 := by rw [dbl_val (by norm_num)]; norm_num
  have h4 : (dbl R 4).val = 4 := by rw [dbl_val (by norm_num)]; norm_num
  have hg := growth_small
  have hg0 := growth_nonneg (p := 53) 5
  have hu : unit 53 ≤ 1 := unit_le_one
  rw [show items (exFullR R) = [[dbl R 2, dbl R 1, dbl R 0, dbl R 0, dbl R 1, dbl R 0, dbl R 0, dbl R 0, dbl R 4]] from rfl]
  intro t ht
  obtain rfl := List.mem_singleton.1 ht
  rw [show absVals _ = [2, 1, 0, 0, 1, 0, 0, 0, 4] by simp [absVals, h0, h1, h2, h4],
    show vals _ = [2, 1, 0, 0, 1, 0, 0, 0, 4] by simp [vals, h0, h1, h2, h4], det_full, permanent_fin_three]
  norm_num [fullMatrix, num]
  linarith

example : ∃ r, inv (exFullR R) = .ok r ∧ WF r := by
  obtain ⟨r, hr⟩ := (C111_full_returns (exFullR_WF R) (Nat.succ_pos 0) rfl rfl).1 (exFullR_det R)
  exact ⟨r, hr, (C111_full_partial (by omega) (exFullR_WF R) (Nat.succ_pos 0) rfl rfl hr).1⟩

end examples

/-- C111: the rounding can let a singular matrix through: this one has determinant zero, and `inv` returns for it (the determinant
it computes is 64). -/
theorem C111_singular_violated (R : Rounding 53) :
    ∃ s r : Serie (Dbl R), WF s ∧ s.count = 1 ∧ s.itemSize = 6 ∧ s.dimension = 3 ∧
      (∀ t ∈ items s, (symMatrix3 (vals t)).det = 0) ∧ inv s = .ok r := by
  have h0 : (dbl R 0).val = 0 := by rw [dbl_val (by norm_num)]; norm_num
  have h1 : (dbl R 1).val = 1 := by rw [dbl_val (by norm_num)]; norm_num
  have h7 : (dbl R 7).val = 7 := by rw [dbl_val (by norm_num)]; norm_num
  have h49 : (dbl R 49).val = 49 := by rw [dbl_val (by norm_num)]; norm_num
  have hf : (dbl R (2 ^ 53 - 3)).val = 2 ^ 53 - 3 := by rw [dbl_val (by norm_num [abs_le])]; norm_num
  have hit : items (⟨[dbl R 1, dbl R 7, dbl R 0, dbl R 49, dbl R 0, dbl R (2 ^ 53 - 3)], 1, 6, 3⟩ : Serie (Dbl R)) =
    [[dbl R 1, dbl R 7, dbl R 0, dbl R 49, dbl R 0, dbl R (2 ^ 53 - 3)]] := rfl
  have hwf : WF (⟨[dbl R 1, dbl R 7, dbl R 0, dbl R 49, dbl R 0, dbl R (2 ^ 53 - 3)], 1, 6, 3⟩ : Serie (Dbl R)) :=
    of_decide_eq_true rfl
  have hD : (symDetR [dbl R 1, dbl R 7, dbl R 0, dbl R 49, dbl R 0, dbl R (2 ^ 53 - 3)]).val = 64 := by
    have e1 : (dbl R 7 * dbl R (2 ^ 53 - 3)).val = 7 * 2 ^ 53 - 24 := by
      rw [Dbl.val_mul, h7, hf, R.eq_of_close (k := 7 * 2 ^ 50 - 3) (e := 3) (by norm_num) (by norm_num) (by norm_num [abs_lt])]
      norm_num
    have e2 : (dbl R 49 * dbl R (2 ^ 53 - 3)).val = 49 * 2 ^ 53 - 128 := by
      rw [Dbl.val_mul, h49, hf, R.eq_of_close (k := 49 * 2 ^ 47 - 2) (e := 6) (by norm_num) (by norm_num) (by norm_num [abs_lt])]
      norm_num
    have hz : R.fl 0 = 0 := R.exact Rounding.zero_rep
    have r2 : Representable 53 ((49 : ℝ) * 2 ^ 53 - 128) := ⟨49 * 2 ^ 47 - 2, 6, by norm_num [abs_le], by norm_num⟩
    have r1 : Representable 53 ((7 : ℝ) * 2 ^ 53 - 24) := ⟨7 * 2 ^ 50 - 3, 3, by norm_num [abs_le], by norm_num⟩
    have e3 : R.fl (7 * (7 * 2 ^ 53 - 24)) = 49 * 2 ^ 53 - 192 := by
      rw [R.eq_of_close (k := 49 * 2 ^ 47 - 3) (e := 6) (by norm_num) (by norm_num) (by norm_num [abs_lt])]
      norm_num
    have r64 : Representable 53 ((64 : ℝ)) := ⟨64, 0, by norm_num [abs_le], by norm_num⟩
    show (dbl R 1 * (dbl R 49 * dbl R (2 ^ 53 - 3) - dbl R 0 * dbl R 0) -
      dbl R 7 * (dbl R 7 * dbl R (2 ^ 53 - 3) - dbl R 0 * dbl R 0) +
      dbl R 0 * (dbl R 7 * dbl R 0 - dbl R 49 * dbl R 0)).val = 64
    rw [Dbl.val_add, Dbl.val_sub, Dbl.val_mul (dbl R 1), Dbl.val_mul (dbl R 7) (_ - _), Dbl.val_mul (dbl R 0) (_ - _), Dbl.val_sub (dbl R 49 * _),
      Dbl.val_sub (dbl R 7 * _), e1, e2, Dbl.val_mul (dbl R 0) (dbl R 0), h0, h1, h7, mul_zero, zero_mul, hz, sub_zero, sub_zero,
      R.exact r2, R.exact r1, one_mul, R.exact r2, e3, add_zero, R.exact (R.rep _),
      show (49 : ℝ) * 2 ^ 53 - 128 - (49 * 2 ^ 53 - 192) = 64 by norm_num, R.exact r64]
  obtain ⟨⟨t, ht, hs⟩, _⟩ | ⟨_, hc⟩ := inv_sym_cases hwf (Nat.succ_pos 0) rfl rfl
  · rw [hit] at ht
    obtain rfl := List.mem_singleton.1 ht
    have := small_val hs
    have hu : unit 53 ≤ 1 := unit_le_one
    rw [hD] at this
    norm_num at this
    linarith
  · refine ⟨_, _, hwf, rfl, rfl, rfl, ?_, hc⟩
    rw [hit]
    intro t ht
    obtain rfl := List.mem_singleton.1 ht
    rw [show vals _ = [1, 7, 0, 49, 0, 2 ^ 53 - 3] by simp only [vals, List.map, h0, h1, h7, h49, hf], det_sym]
    norm_num

end DF
