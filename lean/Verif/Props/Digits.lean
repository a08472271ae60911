import Verif.Lemmas.DigitsStats
import Verif.Props.FloatEigen
import Verif.Props.FloatStats

/-!
# C147: changing the unit by a power of two changes no digit
-/

namespace DF

open Spec

variable {p : Nat} {R : Rounding p} {k l : ℝ}

/-! ## Examples -/

/-- The Serie in the other unit. -/
noncomputable def inUnit (hk : ExactFactor R k) (s : Serie (Dbl R)) : Serie (Dbl R) :=
  ⟨s.data.map (timesDbl hk), s.count, s.itemSize, s.dimension⟩

theorem inUnit_each (hk : ExactFactor R k) (s : Serie (Dbl R)) : Each (Times k) s (inUnit hk s) :=
  ⟨rfl, rfl, rfl, (times_list hk).2 rfl⟩

/-- Rounding to nearest, ties to even. -/
noncomputable abbrev exEven : Rounding 53 := Rounding.even 53 (by norm_num)

/-- The factor 1024. -/
theorem exUnit : ExactFactor exEven ((2 : ℝ) ^ (10 : ℤ)) := (ties_exactFactor (tiesToEven_even _) (by norm_num) 10).1

/-- The factor 1 / 8. -/
theorem exUnit' : ExactFactor exEven ((2 : ℝ) ^ (-3 : ℤ)) := (ties_exactFactor (tiesToEven_even _) (by norm_num) (-3)).1

theorem exUnit_pos : (0 : ℝ) < (2 : ℝ) ^ (10 : ℤ) := by positivity

theorem res_eq_times {s t : Res (Serie (Dbl R))} (h : ResRel (SRel (Times 1)) s t) : s = t := by
  cases h with
  | ok h => rw [srel_times_one h]
  | throw e => rfl
  | ub => rfl

/-! ## The factors -/

/-- C147: powers of two, of any exponent and sign, are exact factors when ties are rounded to even. -/
theorem C147_powers (hp : 1 ≤ p) (h : TiesToEven R) (e : ℤ) : ExactFactor R ((2 : ℝ) ^ e) ∧ ExactFactor R (-(2 : ℝ) ^ e) :=
  ties_exactFactor h hp e

example := C147_powers (R := exEven) (by norm_num) (tiesToEven_even _) (-7)

/-- C147: an exact factor commutes with the four operations, the square root and the comparisons. -/
theorem C147_operations (hk : ExactFactor R k) (hl : ExactFactor R l) {a b c d : Dbl R} (h : Times k a b) (h' : Times l c d) :
    Times (k * l) (a * c) (b * d) ∧ Times (k / l) (a / c) (b / d) ∧
      (k = l → Times k (a + c) (b + d) ∧ Times k (a - c) (b - d) ∧ (0 < k → (a < c ↔ b < d))) ∧
      (k = l * l → 0 ≤ l → Times l (Sqrt.sqrt a) (Sqrt.sqrt b)) := by
  refine ⟨times_mul hk hl h h', times_div hk hl h h', ?_, ?_⟩
  · rintro rfl
    exact ⟨times_add hk _ _ h _ _ h', times_sub hk _ _ h _ _ h', fun h0 => times_lt h0 h h'⟩
  · rintro rfl h0
    exact times_sqrt hl h0 h

example := C147_operations exUnit exUnit' ((times_iff exUnit).2 rfl) ((times_iff exUnit').2 rfl) (a := dbl exEven 3) (c := dbl exEven 7)

/-! ## Linear functions -/

/-- C147: `add` and `sub` of any number of Series in the same unit. -/
theorem C147_addSub (hk : ExactFactor R k) {ss ts : List (Serie (Dbl R))} (h : List.Forall₂ (Each (Times k)) ss ts) :
    Outcomes (Each (Times k)) (addList ss) (addList ts) ∧ Outcomes (Each (Times k)) (subList ss) (subList ts) :=
  ⟨outcomes_each (opList_rel times_zero (times_add hk) (eachList h)), outcomes_each (opList_rel times_zero (times_sub hk) (eachList h))⟩

example := C147_addSub exUnit (.cons (inUnit_each exUnit (exA exEven)) (.cons (inUnit_each exUnit (exB exEven)) .nil))

/-- C147: the same functions on two Series, and on a Serie and a number. -/
theorem C147_addSub2 (hk : ExactFactor R k) {s s' t t' : Serie (Dbl R)} (h : Each (Times k) s t) (h' : Each (Times k) s' t')
    {x y : Dbl R} (hx : Times k x y) :
    Outcomes (Each (Times k)) (add2 s s') (add2 t t') ∧ Outcomes (Each (Times k)) (sub2 s s') (sub2 t t') ∧
      Outcomes (Each (Times k)) (addNum s x) (addNum t y) ∧ Outcomes (Each (Times k)) (subNum s x) (subNum t y) := by
  rw [each_iff] at h h'
  exact ⟨outcomes_each (binOp_rel times_zero (times_add hk) h h'), outcomes_each (binOp_rel times_zero (times_sub hk) h h'),
    outcomes_each (addNum_rel (times_add hk) h hx), outcomes_each (subNum_rel (times_sub hk) h hx)⟩

example := C147_addSub2 exUnit (inUnit_each exUnit (exC exEven)) (inUnit_each exUnit (exD exEven)) ((times_iff exUnit).2 rfl) (x := dbl exEven 3)

/-- C147: multiplication and division by a number without unit, and sums with weights without unit. -/
theorem C147_weights (hk : ExactFactor R k) {s t : Serie (Dbl R)} (h : Each (Times k) s t) {ss ts : List (Serie (Dbl R))}
    (h' : List.Forall₂ (Each (Times k)) ss ts) (x : Dbl R) (ws : List (Dbl R)) :
    Outcomes (Each (Times k)) (scale s x) (scale t x) ∧ Outcomes (Each (Times k)) (mult s x) (mult t x) ∧
      Outcomes (Each (Times k)) (divNum x s) (divNum x t) ∧ Outcomes (Each (Times k)) (negate s) (negate t) ∧
      Outcomes (Each (Times k)) (weightedSum ss ws) (weightedSum ts ws) := by
  rw [each_iff] at h
  have hm : ∀ (c a b : Dbl R), Times k a b → Times k (a * c) (b * c) := fun c a b h => times_mulSame hk h c
  refine ⟨?_, ?_, ?_, ?_, outcomes_each (weightedSum_times hk (eachList h') ws)⟩
  · unfold scale
    rw [h.itemSize]
    exact outcomes_each (scaleWith_rel times_zero (fun _ _ h => .ok (hm x _ _ h)) h _)
  · exact outcomes_each (scaleAll_rel times_zero (fun _ _ h => .ok (hm x _ _ h)) h)
  · exact outcomes_each (divNum_rel times_zero (fun _ _ h => times_divSame hk h x) h)
  · unfold negate
    rw [h.itemSize]
    exact outcomes_each (scaleWith_rel times_zero (fun _ _ h => .ok (hm _ _ _ h)) h _)

example := C147_weights exUnit (inUnit_each exUnit (exA exEven)) (.cons (inUnit_each exUnit (exA exEven)) (.cons (inUnit_each exUnit (exB exEven)) .nil))
  (dbl exEven 3) [dbl exEven 5, dbl exEven 7]

/-! ## Statistics -/

/-- C147: the mean is in the unit of the Serie. -/
theorem C147_mean (hk : ExactFactor R k) {s t : Serie (Dbl R)} (h : Each (Times k) s t) :
    Outcomes (Means (Times k)) (mean s) (mean t) :=
  outcomes_mean (mean_rel times_zero (times_add hk) (fun _ _ h _ => times_divSame hk h _) (each_iff.1 h))

example := C147_mean exUnit (inUnit_each exUnit (exC exEven))

/-- C147: the covariance is in the product of the units. -/
theorem C147_covariance (hk : ExactFactor R k) (hl : ExactFactor R l) {s t s' t' : Serie (Dbl R)} (h : Each (Times k) s t)
    (h' : Each (Times l) s' t') : Outcomes (Times (k * l)) (covariance s s') (covariance t t') :=
  outcomes_of_rel (covariance_times hk hl (each_iff.1 h) (each_iff.1 h'))

example := C147_covariance exUnit exUnit' (inUnit_each exUnit (exC exEven)) (inUnit_each exUnit' (exD exEven))

/-- C147: sorting, quantiles and the interquartile range, whatever the sorting algorithms. -/
theorem C147_quantiles (hk : ExactFactor R k) (h0 : 0 < k) {srt srt' : StdSort} (hs : srt.Correct) (hs' : srt'.Correct)
    {s t : Serie (Dbl R)} (hw : WF s) (h : Each (Times k) s t) :
    (s.itemSize = 1 → Outcomes (Each (Times k)) (sortDefault srt s) (sortDefault srt' t)) ∧
      (∀ q, Outcomes (Times k) (quantile srt s q) (quantile srt' t q)) ∧ Outcomes (Times k) (q25 srt s) (q25 srt' t) ∧
      Outcomes (Times k) (q50 srt s) (q50 srt' t) ∧ Outcomes (Times k) (q75 srt s) (q75 srt' t) ∧
      Outcomes (Times k) (iqr srt s) (iqr srt' t) := by
  rw [each_iff] at h
  have hq := quantile_times hk h0 hs hs' hw h
  exact ⟨fun h1 => outcomes_each (sortDefault_times hk h0 hs hs' hw h1 h), fun q => outcomes_of_rel (hq q), outcomes_of_rel (hq _),
    outcomes_of_rel (hq _), outcomes_of_rel (hq _), outcomes_of_rel (iqr_times hk h0 hs hs' hw h)⟩

example := C147_quantiles exUnit exUnit_pos stdSort_exists.choose_spec stdSort_exists.choose_spec (exC_WF exEven) (inUnit_each exUnit (exC exEven))

/-- C147: the same numbers are outliers. -/
theorem C147_outliers (hk : ExactFactor R k) (h0 : 0 < k) {srt srt' : StdSort} (hs : srt.Correct) (hs' : srt'.Correct)
    {s t : Serie (Dbl R)} (hw : WF s) (h : Each (Times k) s t) (m : Dbl R) :
    Outcomes (Each (Times k)) (outliers srt s m) (outliers srt' t m) ∧
      Outcomes (Each (Times k)) (notOutliers srt s m) (notOutliers srt' t m) ∧ isOutliers srt s m = isOutliers srt' t m := by
  obtain ⟨a, b, c⟩ := outliers_times hk h0 hs hs' hw (each_iff.1 h) m
  exact ⟨outcomes_each a, outcomes_each b, res_eq_times c⟩

example := C147_outliers exUnit exUnit_pos stdSort_exists.choose_spec stdSort_exists.choose_spec (exC_WF exEven) (inUnit_each exUnit (exC exEven)) (dbl exEven 1)

/-- C147: the extreme values are in the unit of the Serie; the normalised Serie and the counts of `bins` do not change. -/
theorem C147_normalize [Limits (Dbl R)] (hk : ExactFactor R k) (h0 : 0 < k) {s t : Serie (Dbl R)} (hw : WF s) (h : Each (Times k) s t)
    (hs : InLimits s) (ht : InLimits t) (nb : Nat) :
    Outcomes (fun p q => List.Forall₂ (Times k) p.1 q.1 ∧ List.Forall₂ (Times k) p.2 q.2) (minMax s) (minMax t) ∧
      normalize s = normalize t ∧ bins s nb = bins t nb := by
  rw [each_iff] at h
  have ht' : s.itemSize = 1 → _ := fun h1 => ht (h.itemSize ▸ h1)
  exact ⟨outcomes_of_rel (minMax_times hk h0 hw h hs ht'), res_eq_times (normalize_times hk h0 hw h hs ht'),
    res_eq_times (bins_times hk h0 hw h hs ht' nb)⟩

example := @C147_normalize 53 exEven _ ⟨dbl exEven 1, dbl exEven 0⟩ exUnit exUnit_pos (exA exEven) _ (exA_WF exEven) (inUnit_each exUnit _) (fun h => by cases h)
  (fun h => by cases h) 3

example := @C147_normalize 53 exEven _ ⟨timesDbl exUnit (dbl exEven 49), dbl exEven 0⟩ exUnit exUnit_pos (exC exEven) _ (exC_WF exEven) (inUnit_each exUnit _) (by
    intro _ x hx
    obtain ⟨a, b⟩ := exC_range exEven x (List.mem_of_mem_take hx)
    refine ⟨a, b.trans ?_⟩
    show (dbl exEven 49).val ≤ (2 : ℝ) ^ (10 : ℤ) * (dbl exEven 49).val
    rw [dbl_val (by norm_num)]
    norm_num) (by
    intro _ x hx
    obtain ⟨y, hy, rfl⟩ := List.mem_map.1 (List.mem_of_mem_take hx : x ∈ (exC exEven).data.map (timesDbl exUnit))
    obtain ⟨a, b⟩ := exC_range exEven y hy
    refine ⟨?_, (times_le exUnit_pos ((times_iff exUnit).2 rfl) ((times_iff exUnit).2 rfl)).1 b⟩
    show (dbl exEven 0).val ≤ (2 : ℝ) ^ (10 : ℤ) * y.val
    have a' : (dbl exEven 0).val ≤ y.val := a
    rw [dbl_val (by norm_num)] at a' ⊢
    have : (0 : ℝ) ≤ y.val := by exact_mod_cast a'
    push_cast
    positivity) 5

/-- C147: the counts of `bins` between bounds in the same unit do not change, for factors of either sign. -/
theorem C147_binsIn (hk : ExactFactor R k) (h0 : k ≠ 0) {s t : Serie (Dbl R)} (h : Each (Times k) s t) (nb : Nat) {a b a' b' : Dbl R}
    (ha : Times k a a') (hb : Times k b b') : binsIn s nb a b = binsIn t nb a' b' :=
  res_eq_times (binsIn_times hk h0 (each_iff.1 h) nb ha hb)

example := C147_binsIn exUnit exUnit_pos.ne' (inUnit_each exUnit (exC exEven)) 4 ((times_iff exUnit).2 rfl) ((times_iff exUnit).2 rfl) (a := dbl exEven 0)
  (b := dbl exEven 50)

/-! ## Vectors and matrices -/

/-- C147: products are in the product of the units. -/
theorem C147_products (hk : ExactFactor R k) (hl : ExactFactor R l) {s t s' t' : Serie (Dbl R)} (h : Each (Times k) s t)
    (h' : Each (Times l) s' t') {v w : List (Dbl R)} (hv : List.Forall₂ (Times l) v w) :
    Outcomes (Each (Times (k * l))) (dot s s') (dot t t') ∧ Outcomes (Each (Times (k * l))) (cross s s') (cross t t') ∧
      Outcomes (Each (Times (k * l))) (multSerie s s') (multSerie t t') ∧
      Outcomes (Each (Times (k * l))) (dotArray s v) (dotArray t w) ∧ Outcomes (Each (Times (k * l))) (insar s v) (insar t w) := by
  rw [each_iff] at h h'
  exact ⟨outcomes_each (dot_times hk hl h h'), outcomes_each (cross_times hk hl h h'),
    outcomes_each (multSerie_rel2 times_zero (fun _ _ p _ _ q => times_mul hk hl p q) h h'),
    outcomes_each (dotArray_times hk hl h hv), outcomes_each (insar_times hk hl h hv)⟩

example := C147_products exUnit exUnit' (inUnit_each exUnit (exA exEven)) (inUnit_each exUnit' (exB exEven)) ((times_list exUnit').2 rfl)
  (v := [dbl exEven 1, dbl exEven 2, dbl exEven 3])

/-- C147: the determinant is in the square of the unit in dimension 2, in its cube in dimension 3. -/
theorem C147_det (hk : ExactFactor R k) {s t : Serie (Dbl R)} (h : Each (Times k) s t) :
    (s.dimension = 2 → Outcomes (Each (Times (k ^ 2))) (det s) (det t)) ∧
      (s.dimension = 3 → Outcomes (Each (Times (k ^ 3))) (det s) (det t)) := by
  rw [each_iff] at h
  refine ⟨fun h2 => ?_, fun h3 => ?_⟩
  · rw [pow_two]; exact outcomes_each (det2d_times hk h h2)
  · rw [pow_succ, pow_two]; exact outcomes_each (det3d_times hk h (by omega))

example := (C147_det exUnit (inUnit_each exUnit (⟨[dbl exEven 3, dbl exEven 1, dbl exEven 4, dbl exEven 1], 1, 4, 2⟩ : Serie (Dbl exEven)))).1 rfl

variable [Trig (Dbl R)]

/-- C147: the eigen values are in the unit of the matrices; the eigen vectors do not change. The trigonometric functions can be any. -/
theorem C147_eigen (hk : ExactFactor R k) (h0 : 0 < k) {s t : Serie (Dbl R)} (h : Each (Times k) s t) :
    Outcomes (Each (Times k)) (eigenValues s) (eigenValues t) ∧ eigenVectors s = eigenVectors t ∧
      Outcomes (fun p q => Each (Times k) p.1 q.1 ∧ p.2 = q.2) (eigenSystem s) (eigenSystem t) := by
  rw [each_iff] at h
  exact ⟨outcomes_each (eigenValues_times hk h0 h), res_eq_times (eigenVectors_times hk h0 h),
    outcomes_of_rel ((eigenSystem_times hk h0 h).mono fun _ _ hp => ⟨each_iff.2 hp.1, srel_times_one hp.2⟩)⟩

example := @C147_eigen 53 exEven _ (roundTrig exEven) exUnit exUnit_pos _ _ (inUnit_each exUnit (exEigF3 exEven))

omit [Trig (Dbl R)]

/-! ## Geometry -/

/-- C147: normals are in the square of the unit of the positions. -/
theorem C147_normals (hk : ExactFactor R k) {s t : Serie (Dbl R)} (h : Each (Times k) s t) (tri : Serie (Dbl R)) :
    Outcomes (Each (Times (k ^ 2))) (normals s tri) (normals t tri) := by
  rw [pow_two]
  exact outcomes_each (normals_times hk (each_iff.1 h) tri)

example := C147_normals exUnit (inUnit_each exUnit (⟨[dbl exEven 0, dbl exEven 0, dbl exEven 0, dbl exEven 1, dbl exEven 0, dbl exEven 0, dbl exEven 0, dbl exEven 3, dbl exEven 1], 3, 3, 3⟩ : Serie (Dbl exEven)))
  (⟨[dbl exEven 0, dbl exEven 1, dbl exEven 2], 1, 3, 3⟩ : Serie (Dbl exEven))

/-- C147: fringes, with the spacing in the same unit. -/
theorem C147_fringes (hk : ExactFactor R k) (h0 : 0 < k) {s t : Serie (Dbl R)} (h : Each (Times k) s t) {x y : Dbl R} (hx : Times k x y) :
    Outcomes (Each (Times k)) (fringes s x) (fringes t y) := outcomes_each (fringes_times hk h0 (each_iff.1 h) hx)

example := C147_fringes exUnit exUnit_pos (inUnit_each exUnit (exC exEven)) ((times_iff exUnit).2 rfl) (x := dbl exEven 5)

/-- C147: grids, with the corners, the centre and the dimensions in the same unit. -/
theorem C147_grids (hk : ExactFactor R k) (npts : List Nat) {a b a' b' : List (Dbl R)} (h : List.Forall₂ (Times k) a a')
    (h' : List.Forall₂ (Times k) b b') : Outcomes (Each (Times k)) (fromPoints npts a b) (fromPoints npts a' b') ∧
      Outcomes (Each (Times k)) (fromDims npts a b) (fromDims npts a' b') :=
  ⟨outcomes_each (fromPoints_times hk npts h h'), outcomes_each (fromDims_times hk npts h h')⟩

example := C147_grids exUnit [3, 4] ((times_list exUnit).2 rfl) ((times_list exUnit).2 rfl) (a := [dbl exEven 0, dbl exEven 1, dbl exEven 2])
  (b := [dbl exEven 1, dbl exEven 7, dbl exEven 3])

/-! ## Functions with an absolute threshold -/

/-- The factor `2^-12`. -/
theorem exSmall (hp : 1 ≤ p) (h : TiesToEven R) (e : ℤ) : ExactFactor R ((2 : ℝ) ^ e) := (ties_exactFactor h hp e).1

/-- Powers of two are not rounded. -/
theorem flEven_pow (hp : 1 ≤ p) (h : TiesToEven R) (e : ℤ) : R.fl ((2 : ℝ) ^ e) = 2 ^ e := by
  have := exSmall hp h e 1
  rwa [mul_one, R.exact Rounding.one_rep, mul_one] at this

/-- The threshold is above `2^-35`. -/
theorem threshold_gt (hp : 1 ≤ p) (h : TiesToEven R) : (2 : ℝ) ^ (-35 : ℤ) ≤ (1e-10 : Dbl R).val := by
  rw [← flEven_pow hp h]
  exact R.mono (by norm_num)

/-- The threshold is below 1. -/
theorem threshold_le : (1e-10 : Dbl R).val ≤ 1 := by
  rw [← R.exact Rounding.one_rep]
  exact R.mono (by norm_num)

/-- The identity matrix. -/
def unitMatrix (R : Rounding p) : Serie (Dbl R) := ⟨[1, 0, 0, 0, 1, 0, 0, 0, 1], 1, 9, 3⟩

theorem unitMatrix_WF : WF (unitMatrix R) := ⟨Nat.succ_pos 8, show 9 < 2 ^ 31 by decide, le_refl 9, show 9 < 2 ^ 32 by decide⟩

theorem flEven_one : R.fl 1 = 1 := R.exact Rounding.one_rep

theorem flEven_zero : R.fl 0 = 0 := R.exact Rounding.zero_rep

theorem invFull_unit : ∃ y, invFull ([1, 0, 0, 0, 1, 0, 0, 0, 1] : List (Dbl R)) = .ok y ∧ y.length = 9 := by
  have e : ¬ absv ((1 : Dbl R) * (1 * 1 - 0 * 0) - 0 * (0 * 1 - 0 * 0) + 0 * (0 * 0 - 1 * 0)) < (1e-10 : Dbl R) := by
    refine not_lt.2 ?_
    show _ ≤ (absv _ : Dbl R).val
    rw [absv_dbl]
    simp only [Dbl.val_add, Dbl.val_sub, Dbl.val_mul, Dbl.val_zero, Dbl.val_one, mul_zero, mul_one, sub_zero, add_zero, flEven_one, flEven_zero,
      abs_one]
    exact threshold_le
  exact ⟨_, if_neg e, rfl⟩

theorem invFull_unitSmall (hp : 1 ≤ p) (h : TiesToEven R) :
    invFull ([1, 0, 0, 0, 1, 0, 0, 0, 1].map (timesDbl (exSmall hp h (-12)))) = .throw .runtimeError := by
  have e : absv (timesDbl (exSmall hp h (-12)) 1 * (timesDbl (exSmall hp h (-12)) 1 * timesDbl (exSmall hp h (-12)) 1 - 0 * 0) - 0 * (0 * timesDbl (exSmall hp h (-12)) 1 - 0 * 0) + 0 * (0 * 0 - timesDbl (exSmall hp h (-12)) 1 * 0)) < (1e-10 : Dbl R) := by
    show (absv _ : Dbl R).val < _
    refine lt_of_lt_of_le ?_ (threshold_gt hp h)
    rw [absv_dbl]
    have e1 : (timesDbl (exSmall hp h (-12)) 1).val = 2 ^ (-12 : ℤ) := by
      show _ * (1 : Dbl R).val = _
      rw [Dbl.val_one, mul_one]
    simp only [Dbl.val_add, Dbl.val_sub, Dbl.val_mul, Dbl.val_zero, e1, zero_mul, mul_zero, sub_zero, add_zero, flEven_zero, exSmall hp h (-12) _, flEven_pow hp h]
    norm_num
  have e0 : timesDbl (exSmall hp h (-12)) 0 = 0 := Dbl.ext (by show _ * (0 : Dbl R).val = _; rw [Dbl.val_zero, mul_zero])
  simp only [List.map_cons, List.map_nil, e0]
  exact if_pos e

theorem inv_unit : ∃ y : List (Dbl R), y.length = 9 ∧ inv (unitMatrix R) = .ok (ofItems 9 [y]) := by
  obtain ⟨y, e, hy⟩ := invFull_unit (R := R)
  refine ⟨y, hy, ?_⟩
  unfold inv
  rw [unitMatrix_WF.valid, if_neg (by simp), if_neg (by simp [unitMatrix]), if_neg (by simp [unitMatrix])]
  refine mapArr_ok unitMatrix_WF Nat.one_pos (ys := [y]) ⟨rfl, fun i h1 h2 => ?_⟩ (by decide) (by decide) (by simpa using hy)
    (show 1 * 9 < 2 ^ 32 by decide)
  obtain rfl : i = 0 := by simp at h2; omega
  exact e

/-- C147 (partial): if `inv` returns in both units, the inverses are in the inverse of the unit. Missing: that `inv` returns in one unit
if it does in the other; see `C147_inv_violated`. -/
theorem C147_inv_partial (hk : ExactFactor R k) (h0 : k ≠ 0) {s t r r' : Serie (Dbl R)} (h : Each (Times k) s t) (e : inv s = .ok r)
    (e' : inv t = .ok r') : Each (Times k⁻¹) r r' := each_iff.2 (inv_times hk h0 (each_iff.1 h) r r' e e')

theorem invFull_unitTwice (hp : 1 ≤ p) (h : TiesToEven R) :
    ∃ y, invFull ([1, 0, 0, 0, 1, 0, 0, 0, 1].map (timesDbl (exSmall hp h 1))) = .ok y ∧ y.length = 9 := by
  have e : ¬ absv (timesDbl (exSmall hp h 1) 1 * (timesDbl (exSmall hp h 1) 1 * timesDbl (exSmall hp h 1) 1 - 0 * 0) - 0 * (0 * timesDbl (exSmall hp h 1) 1 - 0 * 0) + 0 * (0 * 0 - timesDbl (exSmall hp h 1) 1 * 0)) < (1e-10 : Dbl R) := by
    refine not_lt.2 ?_
    show _ ≤ (absv _ : Dbl R).val
    rw [absv_dbl]
    have e1 : (timesDbl (exSmall hp h 1) 1).val = 2 ^ (1 : ℤ) := by
      show _ * (1 : Dbl R).val = _
      rw [Dbl.val_one, mul_one]
    simp only [Dbl.val_add, Dbl.val_sub, Dbl.val_mul, Dbl.val_zero, e1, zero_mul, mul_zero, sub_zero, add_zero, flEven_zero, exSmall hp h 1 _, flEven_pow hp h]
    exact threshold_le.trans (by norm_num)
  have e0 : timesDbl (exSmall hp h 1) 0 = 0 := Dbl.ext (by show _ * (0 : Dbl R).val = _; rw [Dbl.val_zero, mul_zero])
  simp only [List.map_cons, List.map_nil, e0]
  exact ⟨_, if_neg e, rfl⟩

example (hp : 1 ≤ p) (h : TiesToEven R) : ∃ r r' : Serie (Dbl R), Each (Times ((2 : ℝ) ^ (1 : ℤ))⁻¹) r r' ∧ r.count = 1 ∧
    inv (unitMatrix R) = .ok r ∧ inv (inUnit (exSmall hp h 1) (unitMatrix R)) = .ok r' := by
  obtain ⟨y, _, e⟩ := inv_unit (R := R)
  obtain ⟨z, e', hz⟩ := invFull_unitTwice hp h
  have hw : WF (inUnit (exSmall hp h 1) (unitMatrix R)) := ⟨Nat.succ_pos 8, show 9 < 2 ^ 31 by decide, le_refl 9, show 9 < 2 ^ 32 by decide⟩
  have e2 : inv (inUnit (exSmall hp h 1) (unitMatrix R)) = .ok (ofItems 9 [z]) := by
    unfold inv
    rw [hw.valid, if_neg (by simp), if_neg (by simp [inUnit, unitMatrix]), if_neg (by simp [inUnit, unitMatrix])]
    refine mapArr_ok hw Nat.one_pos (ys := [z]) ⟨rfl, fun i h1 h2 => ?_⟩ (by decide) (by decide) (by simpa using hz)
      (show 1 * 9 < 2 ^ 32 by decide)
    obtain rfl : i = 0 := by simp at h2; omega
    exact e'
  exact ⟨_, _, C147_inv_partial (exSmall hp h 1) (by norm_num) (inUnit_each _ _) e e2, rfl, e, e2⟩

/-- C147 (violated for `inv`): the identity matrix has an inverse; the same matrix in another unit, all numbers multiplied by `2^-12`,
throws. -/
theorem C147_inv_violated (hp : 1 ≤ p) (hR : TiesToEven R) : ∃ s t r : Serie (Dbl R), WF s ∧ WF t ∧ Each (Times (2 ^ (-12 : ℤ))) s t ∧
    inv s = .ok r ∧ inv t = .throw .runtimeError := by
  obtain ⟨y, _, e⟩ := inv_unit (R := R)
  have hw : WF (inUnit (exSmall hp hR (-12)) (unitMatrix R)) :=
    ⟨Nat.succ_pos 8, show 9 < 2 ^ 31 by decide, le_refl 9, show 9 < 2 ^ 32 by decide⟩
  refine ⟨unitMatrix R, inUnit (exSmall hp hR (-12)) (unitMatrix R), _, unitMatrix_WF, hw, inUnit_each _ _, e, ?_⟩
  unfold inv
  rw [hw.valid, if_neg (by simp), if_neg (by simp [inUnit, unitMatrix]), if_neg (by simp [inUnit, unitMatrix])]
  have hv : items (inUnit (exSmall hp hR (-12)) (unitMatrix R)) = [[1, 0, 0, 0, 1, 0, 0, 0, 1].map (timesDbl (exSmall hp hR (-12)))] := rfl
  refine mapArr_throw hw (k := 9) (fun v h i => .inl ?_) ⟨_, by rw [hv]; exact List.mem_singleton.2 rfl, fun i => invFull_unitSmall hp hR⟩
  rw [hv, List.mem_singleton] at h
  rw [h]
  exact invFull_unitSmall hp hR

theorem divSerie_times (hk : ExactFactor R k) (hl : ExactFactor R l) {s t a b : Serie (Dbl R)} (h : SRel (Times l) s t)
    (h' : SRel (Times k) a b) (hs : Divides s) (ht : Divides t) : ResRel (SRel (Times (k / l))) (divSerie s a) (divSerie t b) := by
  have far : ∀ x : Dbl R, (1e-10 : Dbl R).val ≤ |x.val| → ¬ absv x < (1e-10 : Dbl R) := by
    intro x hx
    refine not_lt.2 ?_
    show _ ≤ (absv x).val
    rwa [absv_dbl]
  have both : ∀ {x y : List (Dbl R)}, List.Forall₂ (Times l) x y → (∀ z ∈ x, (1e-10 : Dbl R).val ≤ |z.val|) →
      (∀ z ∈ y, (1e-10 : Dbl R).val ≤ |z.val|) →
      List.Forall₂ (fun u v : Dbl R => Times l u v ∧ (1e-10 : Dbl R).val ≤ |u.val| ∧ (1e-10 : Dbl R).val ≤ |v.val|) x y := by
    intro x y h
    induction h with
    | nil => exact fun _ _ => .nil
    | cons h _ ih =>
      intro p q
      exact .cons ⟨h, p _ (List.mem_cons_self ..), q _ (List.mem_cons_self ..)⟩
        (ih (fun z hz => p z (List.mem_cons_of_mem _ hz)) (fun z hz => q z (List.mem_cons_of_mem _ hz)))
  have h2 : SRel (fun u v : Dbl R => Times l u v ∧ (1e-10 : Dbl R).val ≤ |u.val| ∧ (1e-10 : Dbl R).val ≤ |v.val|) s t :=
    ⟨h.count, h.itemSize, h.dimension, both h.data hs ht⟩
  unfold divSerie
  rw [h.isValid, h'.isValid, h.count, h'.count, h.itemSize, h'.itemSize]
  split
  · exact .throw _
  · split
    · exact .throw _
    · split
      · exact .throw _
      · split
        · refine mapNum_rel2 h' fun v w hv i => (h2.getD i).bind fun x y hx => ?_
          rw [if_neg (far _ hx.2.1), if_neg (far _ hx.2.2)]
          exact .ok (times_div hk hl hv hx.1)
        · refine mapArr_rel2 times_zero h' fun v w hv i => (h2.getD i).bind fun x y hx => ?_
          rw [if_neg (far _ hx.2.1), if_neg (far _ hx.2.2), hv.length_eq]
          refine ResRel.forLoop _ 0 (Forall₂.replicate _ times_zero) fun j r r' hr => ?_
          exact (Forall₂.rd hv j).bind fun _ _ hy => Forall₂.wr hr j (times_div hk hl hy hx.1)

/-- C147 (partial): the quotient is in the quotient of the units when the numbers of the divider are not below the threshold in either unit.
Missing: other dividers; see `C147_div_violated`. -/
theorem C147_div_partial (hk : ExactFactor R k) (hl : ExactFactor R l) {s t a b : Serie (Dbl R)} (h : Each (Times l) s t)
    (h' : Each (Times k) a b) (hs : Divides s) (ht : Divides t) : Outcomes (Each (Times (k / l))) (divSerie s a) (divSerie t b) :=
  outcomes_each (divSerie_times hk hl (each_iff.1 h) (each_iff.1 h') hs ht)

/-- One number 1. -/
def exDiv1 (R : Rounding p) : Serie (Dbl R) := ⟨[1], 1, 1, 3⟩

theorem exDiv1_WF : WF (exDiv1 R) := ⟨Nat.one_pos, show 1 < 2 ^ 31 by decide, le_refl 1, show 1 < 2 ^ 32 by decide⟩

theorem exDiv1_divides : Divides (exDiv1 R) := by
  intro x hx
  rw [List.mem_singleton.1 hx, Dbl.val_one, abs_one]
  exact threshold_le

example := C147_div_partial exUnit exUnit (inUnit_each exUnit (exDiv1 exEven)) (inUnit_each exUnit (exDiv1 exEven)) exDiv1_divides (by
  intro x hx
  rw [List.mem_singleton.1 (hx : x ∈ [timesDbl exUnit 1])]
  show _ ≤ |(2 : ℝ) ^ (10 : ℤ) * (1 : Dbl exEven).val|
  rw [Dbl.val_one]
  exact threshold_le.trans (by norm_num))

/-- C147 (violated for `div`): 1 divided by 1 is 1; in another unit, both numbers multiplied by `2^-40`, the result is 0. -/
theorem C147_div_violated (hp : 1 ≤ p) (hR : TiesToEven R) : ∃ s t r r' : Serie (Dbl R), WF s ∧ WF t ∧
    Each (Times (2 ^ (-40 : ℤ))) s t ∧ divSerie s s = .ok r ∧ divSerie t t = .ok r' ∧ r.data = [1] ∧ r'.data = [0] := by
  have hk := exSmall hp hR (-40)
  have hw : WF (inUnit hk (exDiv1 R)) := ⟨Nat.one_pos, show 1 < 2 ^ 31 by decide, le_refl 1, show 1 < 2 ^ 32 by decide⟩
  have e1 : (1 : Dbl R) / 1 = 1 := Dbl.ext (by rw [Dbl.val_div, Dbl.val_one, div_one, flEven_one])
  refine ⟨exDiv1 R, inUnit hk (exDiv1 R), ofScalars [1], ofScalars [0], exDiv1_WF, hw, inUnit_each _ _, ?_, ?_, rfl, rfl⟩
  · unfold divSerie
    rw [exDiv1_WF.valid, if_neg (by simp), if_neg (by simp), if_neg (by simp [exDiv1]), if_pos (show (exDiv1 R).itemSize = 1 from rfl)]
    refine mapNum_ok exDiv1_WF ⟨rfl, fun i h1 h2 => ?_⟩
    obtain rfl : i = 0 := by simp at h2; omega
    have e : ¬ absv (1 : Dbl R) < (1e-10 : Dbl R) := by
      refine not_lt.2 ?_
      show _ ≤ (absv _ : Dbl R).val
      rw [absv_dbl, Dbl.val_one, abs_one]
      exact threshold_le
    exact (if_neg e).trans (congrArg Res.ok e1)
  · unfold divSerie
    rw [hw.valid, if_neg (by simp), if_neg (by simp), if_neg (by simp [inUnit, exDiv1]), if_pos (show (inUnit hk (exDiv1 R)).itemSize = 1 from rfl)]
    refine mapNum_ok hw ⟨rfl, fun i h1 h2 => ?_⟩
    obtain rfl : i = 0 := by simp at h2; omega
    have e : absv (timesDbl hk 1) < (1e-10 : Dbl R) := by
      show (absv _ : Dbl R).val < _
      refine lt_of_lt_of_le ?_ (threshold_gt hp hR)
      rw [absv_dbl]
      show |_ * (1 : Dbl R).val| < _
      rw [Dbl.val_one]
      norm_num
    exact if_pos e

example := C147_inv_violated (R := exEven) (by norm_num) (tiesToEven_even _)

example := C147_div_violated (R := exEven) (by norm_num) (tiesToEven_even _)

end DF
