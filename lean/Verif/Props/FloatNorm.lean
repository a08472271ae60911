import Verif.Props.Float

/-!
# Properties in rounded arithmetic, continued (C91, C92)
-/

namespace DF

open Spec

variable {p : Nat} {R : Rounding p}

/-! ## C91: normalize -/

/-- The inverse of a number known up to one rounding is known up to two. -/
theorem inv_error (hp : 1 ≤ p) {x e : ℝ} (he : e ≠ 0) (h : |x - e| ≤ growth p 1 * |e|) :
    |1 / x - 1 / e| ≤ growth p 2 * |1 / e| := by
  have hu := unit_pos (p := p)
  have hu2 : unit p ≤ 1 / 2 := by
    unfold unit
    calc (2 : ℝ)⁻¹ ^ p ≤ (2 : ℝ)⁻¹ ^ 1 := pow_le_pow_of_le_one (by norm_num) (by norm_num) hp
      _ = 1 / 2 := by norm_num
  rw [growth_one] at h
  have he' := abs_pos.2 he
  have hx : (1 - unit p) * |e| ≤ |x| := by
    have := abs_sub_abs_le_abs_sub e x
    rw [abs_sub_comm] at this
    linarith
  have hx0 : 0 < |x| := lt_of_lt_of_le (mul_pos (by linarith) he') hx
  have hxn : x ≠ 0 := abs_pos.1 hx0
  rw [show 1 / x - 1 / e = (e - x) / (x * e) by field_simp, abs_div, abs_mul, abs_div, abs_one, abs_sub_comm,
    div_le_iff₀ (by positivity)]
  rw [show growth p 2 * (1 / |e|) * (|x| * |e|) = growth p 2 * |x| by field_simp]
  have hg : growth p 2 = 2 * unit p + unit p ^ 2 := by unfold growth; ring
  rw [hg]
  have h1 : (2 * unit p + unit p ^ 2) * ((1 - unit p) * |e|) ≤ (2 * unit p + unit p ^ 2) * |x| :=
    mul_le_mul_of_nonneg_left hx (by positivity)
  have h2 : unit p ≤ (2 * unit p + unit p ^ 2) * (1 - unit p) := by nlinarith
  nlinarith [mul_le_mul_of_nonneg_right h2 he'.le]

/-- C91, scalar Series: the results lie in `[0, 1]`, in the order of the values, within 5 roundings of
`(x - min) / (max - min)`; the smallest value gives exactly 0 and the largest one at least `1 - 2^-p`. -/
theorem C91_normalize_scalar (hp : 1 ≤ p) [Limits (Dbl R)] {s : Serie (Dbl R)} (h : WF s) (h1 : s.itemSize = 1)
    (hlim : ∀ x ∈ s.data, Limits.lowest ≤ x ∧ x ≤ Limits.highest) (hne : ∃ x ∈ scalars s, ∃ y ∈ scalars s, x ≠ y) :
    ∃ (f : Dbl R → Dbl R) (a b : Dbl R), Least a (scalars s) ∧ Greatest b (scalars s) ∧
      normalize s = .ok (ofScalars ((scalars s).map f)) ∧
      (∀ x ∈ scalars s, 0 ≤ f x ∧ f x ≤ 1 ∧
        |(f x).val - (x.val - a.val) / (b.val - a.val)| ≤ growth p 5 * ((x.val - a.val) / (b.val - a.val))) ∧
      (∀ x ∈ scalars s, ∀ y ∈ scalars s, x ≤ y → f x ≤ f y) ∧ f a = 0 ∧ 1 - unit p ≤ (f b).val := by
  have hl := h.scalars_length
  obtain ⟨x0, hx0, y0, hy0, hxy⟩ := hne
  have h0 : 0 < s.count := by rw [← hl]; exact List.length_pos_of_mem hx0
  obtain ⟨a, b, hm, ha, hb⟩ := minMax_scalar h h0 h1
    (fun x hx => hlim x (by unfold scalars at hx; exact List.mem_of_mem_take hx))
  have hab : a < b := by
    rcases lt_or_gt_of_ne hxy with e | e
    · exact lt_of_le_of_lt (ha.2 _ hx0) (lt_of_lt_of_le e (hb.2 _ hy0))
    · exact lt_of_le_of_lt (ha.2 _ hy0) (lt_of_lt_of_le e (hb.2 _ hx0))
  have hab' : a.val < b.val := hab
  have hd : 0 < b.val - a.val := sub_pos.2 hab'
  have hD : 0 < (b - a).val := R.pos hd
  have hL : 0 < (1 / (b - a) : Dbl R).val := R.pos (by rw [Dbl.val_one]; exact div_pos one_pos hD)
  have hLD : (1 / (b - a) : Dbl R).val * (b - a).val < 1 + unit p ∧ 1 - unit p < (1 / (b - a) : Dbl R).val * (b - a).val := by
    have h3 := R.error_lt (x := 1 / (b - a).val) (by positivity)
    rw [abs_of_pos (show 0 < 1 / (b - a).val by positivity)] at h3
    have e : (1 / (b - a) : Dbl R).val = R.fl (1 / (b - a).val) := by rw [Dbl.val_div, Dbl.val_one]
    rw [← e, abs_lt] at h3
    have e2 : 1 / (b - a).val * (b - a).val = 1 := one_div_mul_cancel hD.ne'
    have m1 := mul_lt_mul_of_pos_right h3.1 hD
    have m2 := mul_lt_mul_of_pos_right h3.2 hD
    rw [sub_mul, e2] at m1 m2
    rw [show -(unit p * (1 / (b - a).val)) * (b - a).val = -(unit p) by field_simp] at m1
    rw [show unit p * (1 / (b - a).val) * (b - a).val = unit p by field_simp] at m2
    constructor <;> linarith
  have hmono : ∀ x y : Dbl R, x ≤ y → 1 / (b - a) * (x - a) ≤ 1 / (b - a) * (y - a) := by
    intro x y hxy
    have hxy' : x.val ≤ y.val := hxy
    have h3 : (x - a).val ≤ (y - a).val := R.mono (by linarith)
    exact R.mono (mul_le_mul_of_nonneg_left h3 hL.le)
  have hzero : 1 / (b - a) * (a - a) = (0 : Dbl R) := by
    apply Dbl.ext
    rw [Dbl.val_mul, Dbl.val_sub, sub_self, R.exact Rounding.zero_rep, mul_zero, R.exact Rounding.zero_rep, Dbl.val_zero]
  have hone : 1 / (b - a) * (b - a) ≤ (1 : Dbl R) := R.le_one hp hLD.1
  refine ⟨fun x => 1 / (b - a) * (x - a), a, b, ha, hb, ?_, fun x hx => ⟨?_, ?_, ?_⟩, fun x _ y _ => hmono x y, hzero,
    R.ge_one_sub hLD.2.le⟩
  · unfold normalize
    rw [h.valid, if_neg (by simp), if_pos h1, hm]
    simp only [Res.ok_bind]
    rw [rd_of_lt (show 0 < [b].length by simp), Res.ok_bind, rd_of_lt (show 0 < [a].length by simp), Res.ok_bind]
    exact mapNum_ok h (AllReturn_map (fun x _ i => rfl))
  · have := hmono a x (ha.2 x hx)
    rwa [hzero] at this
  · exact (hmono x b (hb.2 x hx)).trans hone
  · have hxa : 0 ≤ x.val - a.val := sub_nonneg.2 (ha.2 x hx)
    have e1 : |(b - a).val - (b.val - a.val)| ≤ growth p 1 * |b.val - a.val| := round_error (R := R) _
    have e2 := inv_error hp hd.ne' e1
    have e3 : |(1 / (b - a) : Dbl R).val - 1 / (b.val - a.val)| ≤ growth p 3 * |1 / (b.val - a.val)| := by
      rw [Dbl.val_div, Dbl.val_one]
      exact fl_rel (m := 2) e2
    have e4 : |(x - a).val - (x.val - a.val)| ≤ growth p 1 * |x.val - a.val| := round_error (R := R) _
    have e5 := fl_mul_error (R := R) e3 e4
    have e6 : 1 / (b.val - a.val) * (x.val - a.val) = (x.val - a.val) / (b.val - a.val) := by ring
    rw [e6, abs_of_nonneg (div_nonneg hxa hd.le)] at e5
    exact e5

example (R : Rounding 53) := @C91_normalize_scalar 53 R (by decide) ⟨dbl R 49, dbl R 0⟩ (exC R) (exC_WF R) rfl (exC_range R) (exC_ne R)

/-- C91: in `double` arithmetic the largest value need not give 1: from `{0, 49}`, `normalize` gives numbers below 1. -/
theorem C91_max_violated {R : Rounding 53} [Limits (Dbl R)] (hlim : Limits.lowest ≤ dbl R 0 ∧ dbl R 49 ≤ Limits.highest) :
    ∃ s r : Serie (Dbl R), WF s ∧ scalars s = [dbl R 0, dbl R 49] ∧ normalize s = .ok r ∧ ∀ x ∈ scalars r, x < 1 := by
  have v0 : (dbl R 0).val = 0 := by rw [dbl_val (by norm_num)]; norm_num
  have v49 : (dbl R 49).val = 49 := by rw [dbl_val (by norm_num)]; norm_num
  let s : Serie (Dbl R) := ⟨[dbl R 0, dbl R 49], 2, 1, 3⟩
  have h : WF s := ⟨by simp [s], by simp [s], by simp [s], by simp [s]⟩
  have hsc : scalars s = [dbl R 0, dbl R 49] := rfl
  have hle : dbl R 0 ≤ dbl R 49 := by show (dbl R 0).val ≤ (dbl R 49).val; rw [v0, v49]; norm_num
  have hlt : dbl R 0 < dbl R 49 := by show (dbl R 0).val < (dbl R 49).val; rw [v0, v49]; norm_num
  obtain ⟨a, b, hm, ha, hb⟩ := minMax_scalar h (show 0 < s.count by simp [s]) rfl (fun x hx => by
    rw [hsc] at hx
    rcases List.mem_pair.1 hx with rfl | rfl
    · exact ⟨hlim.1, hle.trans hlim.2⟩
    · exact ⟨hlim.1.trans hle, hlim.2⟩)
  rw [hsc] at ha hb
  have ea : a = dbl R 0 := le_antisymm (ha.2 _ (by simp)) (by
    rcases List.mem_pair.1 ha.1 with e | e
    · rw [e]
    · rw [e]; exact hle)
  have eb : b = dbl R 49 := le_antisymm (by
    rcases List.mem_pair.1 hb.1 with e | e
    · rw [e]; exact hle
    · rw [e]) (hb.2 _ (by simp))
  refine ⟨s, ofScalars ((scalars s).map fun x => 1 / (b - a) * (x - a)), h, hsc, ?_, ?_⟩
  · unfold normalize
    rw [h.valid, if_neg (by simp), if_pos (show s.itemSize = 1 from rfl), hm]
    simp only [Res.ok_bind]
    rw [rd_of_lt (show 0 < [b].length by simp), Res.ok_bind, rd_of_lt (show 0 < [a].length by simp), Res.ok_bind]
    exact mapNum_ok h (AllReturn_map (fun x _ i => rfl))
  · rw [scalars_ofScalars, hsc, ea, eb]
    have d49 : (dbl R 49 - dbl R 0).val = 49 := by
      rw [Dbl.val_sub, v0, v49, sub_zero]
      exact R.exact ⟨49, 0, by norm_num, by norm_num⟩
    have inv : (1 / (dbl R 49 - dbl R 0) : Dbl R).val = (5882252574524729 : ℤ) * (2 : ℝ) ^ (-58 : ℤ) := by
      rw [Dbl.val_div, Dbl.val_one, d49]
      apply R.eq_of_close <;> norm_num [abs_lt]
    have top : (1 / (dbl R 49 - dbl R 0) * (dbl R 49 - dbl R 0) : Dbl R).val = ((2 ^ 53 - 1 : ℤ) : ℝ) * (2 : ℝ) ^ (-53 : ℤ) := by
      rw [Dbl.val_mul, inv, d49]
      apply R.eq_of_close <;> norm_num [abs_lt]
    intro x hx
    simp only [List.map_cons, List.map_nil] at hx
    rcases List.mem_pair.1 hx with rfl | rfl
    · show (1 / (dbl R 49 - dbl R 0) * (dbl R 0 - dbl R 0) : Dbl R).val < 1
      rw [Dbl.val_mul, Dbl.val_sub, sub_self, R.exact Rounding.zero_rep, mul_zero, R.exact Rounding.zero_rep]
      norm_num
    · show (1 / (dbl R 49 - dbl R 0) * (dbl R 49 - dbl R 0) : Dbl R).val < 1
      rw [top]
      norm_num

example (R : Rounding 53) := @C91_max_violated R ⟨dbl R 49, dbl R 0⟩ ⟨le_rfl, le_rfl⟩

theorem squares_scaled {v : List (Dbl R)} {c : Dbl R} (hu : unit p < 1) :
    (1 - unit p) ^ 2 * c.val ^ 2 * dotL (vals v) (vals v) ≤ dotL (vals (v.map (· * c))) (vals (v.map (· * c))) ∧
    dotL (vals (v.map (· * c))) (vals (v.map (· * c))) ≤ (1 + unit p) ^ 2 * c.val ^ 2 * dotL (vals v) (vals v) := by
  induction v with
  | nil => simp [vals, dotL]
  | cons x v ih =>
    obtain ⟨i1, i2⟩ := ih
    obtain ⟨d, hd, hx⟩ := R.rel (x.val * c.val)
    rw [abs_le] at hd
    simp only [vals, dotL, List.map_cons, List.zipWith_cons_cons, List.sum_cons, Dbl.val_mul] at i1 i2 ⊢
    have hu0 := unit_pos (p := p)
    have hsq : 0 ≤ (x.val * c.val) ^ 2 := sq_nonneg _
    rw [hx]
    have l1 : (1 - unit p) ^ 2 ≤ (1 + d) ^ 2 := by nlinarith
    have l2 : (1 + d) ^ 2 ≤ (1 + unit p) ^ 2 := by nlinarith
    constructor
    · nlinarith [mul_le_mul_of_nonneg_right l1 hsq]
    · nlinarith [mul_le_mul_of_nonneg_right l2 hsq]

theorem norm_item (hp : 1 ≤ p) {v : List (Dbl R)} {k : Nat} (hlen : v.length = k) (hnz : ∃ x ∈ v, x ≠ 0) {S : List (Dbl R) → Dbl R}
    (hS : S = fun v => v.foldl (fun acc x => acc + x * x) 0) : 0 < (S v).val ∧ 0 < 1 / Sqrt.sqrt (S v) ∧
      (1 - unit p) ^ 4 ≤ dotL (vals (v.map (· * (1 / Sqrt.sqrt (S v))))) (vals (v.map (· * (1 / Sqrt.sqrt (S v))))) *
        (1 + unit p) ^ (k + 3) ∧
      dotL (vals (v.map (· * (1 / Sqrt.sqrt (S v))))) (vals (v.map (· * (1 / Sqrt.sqrt (S v))))) *
        ((1 - unit p) ^ 2 * (1 - growth p (k + 1))) ≤ (1 + unit p) ^ 4 := by
  have hu := unit_pos (p := p)
  have hu1 := unit_lt_one hp
  have hSfold : S v = (List.zipWith (· * ·) v v).foldl (· + ·) 0 := by
    rw [hS]
    show v.foldl (fun acc x => acc + x * x) 0 = _
    rw [List.zipWith_self, List.foldl_map]
  have hS0 : 0 < (S v).val := by
    obtain ⟨x, hx, hxn⟩ := hnz
    rw [hSfold, List.zipWith_self]
    refine lt_of_lt_of_le ?_ ((fold_ge (R := R) (v.map fun a => a * a) 0 le_rfl (fun z hz => by
      obtain ⟨y, _, rfl⟩ := List.mem_map.1 hz
      exact R.nonneg (mul_self_nonneg _))).2 (x * x) (List.mem_map.2 ⟨x, hx, rfl⟩))
    refine R.pos (mul_self_pos.2 (fun e => hxn (Dbl.ext e)))
  have herr : |(S v).val - dotL (vals v) (vals v)| ≤ growth p (k + 1) * dotL (vals v) (vals v) := by
    have := prod_error (R := R) (u := v) (v := v) rfl
    rw [← hSfold, hlen] at this
    refine this.trans (le_of_eq ?_)
    congr 1
    unfold dotL vals absVals
    rw [List.zipWith_self, List.zipWith_self, List.map_map, List.map_map]
    congr 1
    exact List.map_congr_left (fun x _ => by simp)
  obtain ⟨d1, hd1, e1⟩ := R.rel (Real.sqrt (S v).val)
  have hT : (Sqrt.sqrt (S v)).val = Real.sqrt (S v).val * (1 + d1) := by rw [Dbl.val_sqrt, e1]
  have hsq := Real.sqrt_pos.2 hS0
  have hT0 : 0 < (Sqrt.sqrt (S v)).val := by rw [Dbl.val_sqrt]; exact R.pos hsq
  obtain ⟨d2, hd2, e2⟩ := R.rel (1 / (Sqrt.sqrt (S v)).val)
  have hL : (1 / Sqrt.sqrt (S v) : Dbl R).val = 1 / (Sqrt.sqrt (S v)).val * (1 + d2) := by rw [Dbl.val_div, Dbl.val_one, e2]
  have hL0 : 0 < (1 / Sqrt.sqrt (S v) : Dbl R).val := by
    rw [Dbl.val_div, Dbl.val_one]; exact R.pos (div_pos one_pos hT0)
  refine ⟨hS0, hL0, ?_⟩
  obtain ⟨q1, q2⟩ := squares_scaled (v := v) (c := 1 / Sqrt.sqrt (S v)) hu1
  set L := (1 / Sqrt.sqrt (S v) : Dbl R).val with hLdef
  set N := dotL (vals (v.map (· * (1 / Sqrt.sqrt (S v))))) (vals (v.map (· * (1 / Sqrt.sqrt (S v)))))
  set S0 := dotL (vals v) (vals v)
  rw [abs_le] at hd1 hd2 herr
  have hkey : L ^ 2 * (S v).val * (1 + d1) ^ 2 = (1 + d2) ^ 2 := by
    have e3 : L * (Real.sqrt (S v).val * (1 + d1)) = 1 + d2 := by
      rw [hL, ← hT]; field_simp
    have e4 : (S v).val = Real.sqrt (S v).val ^ 2 := (Real.sq_sqrt hS0.le).symm
    calc L ^ 2 * (S v).val * (1 + d1) ^ 2 = (L * (Real.sqrt (S v).val * (1 + d1))) ^ 2 := by
          rw [mul_pow, mul_pow, ← e4]; ring
      _ = _ := by rw [e3]
  have hL2 : 0 < L ^ 2 := by positivity
  set g := growth p (k + 1) with hg
  have hg0 := growth_nonneg (p := p) (k + 1)
  rw [← hg] at hg0
  have a1 : (1 - unit p) ^ 2 ≤ (1 + d2) ^ 2 := by nlinarith
  have a2 : (1 + d2) ^ 2 ≤ (1 + unit p) ^ 2 := by nlinarith
  have a3 : (1 - unit p) ^ 2 ≤ (1 + d1) ^ 2 := by nlinarith
  have a4 : (1 + d1) ^ 2 ≤ (1 + unit p) ^ 2 := by nlinarith
  have hm0 : 0 ≤ (1 - unit p) ^ 2 := sq_nonneg _
  have hLS : 0 ≤ L ^ 2 * (S v).val := by positivity
  constructor
  · have hpow : (1 + unit p) ^ (k + 3) = (1 + g) * (1 + unit p) ^ 2 := by
      rw [hg]; unfold growth
      rw [show k + 3 = (k + 1) + 2 by ring, pow_add]; ring
    rw [hpow]
    have b1 : (S v).val ≤ (1 + g) * S0 := by linarith
    calc (1 - unit p) ^ 4 = (1 - unit p) ^ 2 * (1 - unit p) ^ 2 := by ring
      _ ≤ (1 - unit p) ^ 2 * (1 + d2) ^ 2 := mul_le_mul_of_nonneg_left a1 hm0
      _ = (1 - unit p) ^ 2 * (L ^ 2 * (S v).val * (1 + d1) ^ 2) := by rw [hkey]
      _ ≤ (1 - unit p) ^ 2 * (L ^ 2 * (S v).val * (1 + unit p) ^ 2) :=
          mul_le_mul_of_nonneg_left (mul_le_mul_of_nonneg_left a4 hLS) hm0
      _ ≤ (1 - unit p) ^ 2 * (L ^ 2 * ((1 + g) * S0) * (1 + unit p) ^ 2) :=
          mul_le_mul_of_nonneg_left (mul_le_mul_of_nonneg_right (mul_le_mul_of_nonneg_left b1 hL2.le) (sq_nonneg _)) hm0
      _ = (1 - unit p) ^ 2 * L ^ 2 * S0 * ((1 + g) * (1 + unit p) ^ 2) := by ring
      _ ≤ _ := mul_le_mul_of_nonneg_right q1 (by positivity)
  · have b1 : (1 - g) * S0 ≤ (S v).val := by linarith
    by_cases hg1 : g ≤ 1
    · calc N * ((1 - unit p) ^ 2 * (1 - g)) ≤ (1 + unit p) ^ 2 * L ^ 2 * S0 * ((1 - unit p) ^ 2 * (1 - g)) :=
            mul_le_mul_of_nonneg_right q2 (mul_nonneg hm0 (by linarith))
        _ = (1 + unit p) ^ 2 * (L ^ 2 * ((1 - g) * S0) * (1 - unit p) ^ 2) := by ring
        _ ≤ (1 + unit p) ^ 2 * (L ^ 2 * (S v).val * (1 - unit p) ^ 2) :=
            mul_le_mul_of_nonneg_left (mul_le_mul_of_nonneg_right (mul_le_mul_of_nonneg_left b1 hL2.le) hm0) (sq_nonneg _)
        _ ≤ (1 + unit p) ^ 2 * (L ^ 2 * (S v).val * (1 + d1) ^ 2) :=
            mul_le_mul_of_nonneg_left (mul_le_mul_of_nonneg_left a3 hLS) (sq_nonneg _)
        _ = (1 + unit p) ^ 2 * (1 + d2) ^ 2 := by rw [hkey]
        _ ≤ (1 + unit p) ^ 2 * (1 + unit p) ^ 2 := mul_le_mul_of_nonneg_left a2 (sq_nonneg _)
        _ = _ := by ring
    · have hS00 : 0 ≤ S0 := by nlinarith
      have hN : 0 ≤ N := le_trans (by positivity) q1
      have : N * ((1 - unit p) ^ 2 * (1 - g)) ≤ 0 :=
        mul_nonpos_of_nonneg_of_nonpos hN (mul_nonpos_of_nonneg_of_nonpos hm0 (by linarith))
      exact this.trans (by positivity)

/-- C91, vector Series: each non-zero item is multiplied by one positive number, and the square `N` of its new length
satisfies `(1-u)^4 / (1+u)^(k+3) ≤ N ≤ (1+u)^4 / ((1-u)^2 (1 - g))` where `k` is the item size, `u = 2^-p` and `g` is the
relative error of `k + 1` roundings. -/
theorem C91_normalize_items (hp : 1 ≤ p) [Limits (Dbl R)] {s : Serie (Dbl R)} (h : WF s) (h0 : 0 < s.count)
    (h1 : s.itemSize ≠ 1) (hnz : ∀ v ∈ items s, ∃ x ∈ v, x ≠ 0) :
    ∃ r, normalize s = .ok r ∧ WF r ∧ SameShape r s ∧ ItemWise (fun v w => (∃ c : Dbl R, 0 < c ∧ w = v.map (· * c)) ∧
      (1 - unit p) ^ 4 ≤ dotL (vals w) (vals w) * (1 + unit p) ^ (s.itemSize + 3) ∧
      dotL (vals w) (vals w) * ((1 - unit p) ^ 2 * (1 - growth p (s.itemSize + 1))) ≤ (1 + unit p) ^ 4) s r := by
  let S : List (Dbl R) → Dbl R := fun v => v.foldl (fun acc x => acc + x * x) 0
  have hf := ofItems_map_facts h (k := s.itemSize) (g := fun v => v.map (· * (1 / Sqrt.sqrt (S v)))) h.pos le_rfl
    (fun v hv => by simpa using hv)
  refine ⟨_, ?_, hf.1, ⟨hf.2.1, hf.2.2.1⟩, ItemWise_map hf.2.2.2 (fun v hv => ?_)⟩
  · unfold normalize
    rw [h.valid, if_neg (by simp), if_neg h1]
    exact mapArr_items h h0 h.pos le_rfl (fun v hv => by simpa using hv) (fun v hv i => rfl)
  obtain ⟨_, h3, h4, h5⟩ := norm_item (S := S) hp (h.item_length hv) (hnz v hv) rfl
  exact ⟨⟨_, h3, rfl⟩, h4, h5⟩

example (R : Rounding 53) := @C91_normalize_items 53 R (by decide) ⟨dbl R 49, dbl R 0⟩ (exA R) (exA_WF R) (of_decide_eq_true rfl)
  (of_decide_eq_true rfl) (exA_ne R)

/-- C91 for `double` and vectors of 2 or 3 components: the squared lengths differ from 1 by at most `2^-49`. -/
theorem C91_normalize_double {R : Rounding 53} [Limits (Dbl R)] {s : Serie (Dbl R)} (h : WF s) (h0 : 0 < s.count)
    (h1 : s.itemSize = 2 ∨ s.itemSize = 3) (hnz : ∀ v ∈ items s, ∃ x ∈ v, x ≠ 0) :
    ∃ r, normalize s = .ok r ∧ WF r ∧ SameShape r s ∧
      ItemWise (fun _ w => |dotL (vals w) (vals w) - 1| ≤ 1 / 2 ^ 49) s r := by
  obtain ⟨r, h2, h3, h4, h5⟩ := C91_normalize_items (by norm_num) h h0 (by omega) hnz
  refine ⟨r, h2, h3, h4, ?_⟩
  unfold ItemWise at h5 ⊢
  refine h5.imp (fun v w => ?_)
  rintro ⟨-, l1, l2⟩
  have hu : unit 53 = 1 / 2 ^ 53 := by unfold unit; norm_num
  rw [abs_le]
  rcases h1 with h1 | h1
  · rw [h1] at l1 l2
    unfold growth at l2
    rw [hu] at l1 l2
    norm_num at l1 l2 ⊢
    constructor <;> linarith
  · rw [h1] at l1 l2
    unfold growth at l2
    rw [hu] at l1 l2
    norm_num at l1 l2 ⊢
    constructor <;> linarith

example (R : Rounding 53) := @C91_normalize_double R ⟨dbl R 49, dbl R 0⟩ (exA R) (exA_WF R) (of_decide_eq_true rfl) (.inr rfl) (exA_ne R)

/-! ## C92: approximate equality -/

theorem absv_val (x : Dbl R) : (absv x).val = |x.val| := by
  unfold absv
  split
  · rename_i h
    have h' : x.val < 0 := h
    rw [abs_of_neg h', Dbl.val_neg]
  · rename_i h
    have h' : 0 ≤ x.val := not_lt.1 h
    rw [abs_of_nonneg h']

theorem near_of_le {eps x y : Dbl R} (h : |x.val - y.val| ≤ eps.val) : near eps x y = true := by
  unfold near
  rw [decide_eq_true_eq]
  show (absv (x - y)).val ≤ eps.val
  rw [absv_val, Dbl.val_sub, abs_le]
  rw [abs_le] at h
  have h1 := R.mono h.1
  have h2 := R.mono h.2
  rw [R.exact (Rounding.neg_rep eps.rep)] at h1
  rw [R.exact eps.rep] at h2
  exact ⟨h1, h2⟩

theorem le_of_near {eps x y : Dbl R} (h : near eps x y = true) : (1 - unit p) * |x.val - y.val| ≤ eps.val := by
  unfold near at h
  rw [decide_eq_true_eq] at h
  have h' : (absv (x - y)).val ≤ eps.val := h
  rw [absv_val, Dbl.val_sub] at h'
  have h1 := R.error (x.val - y.val)
  have h2 := abs_sub_abs_le_abs_sub (x.val - y.val) (R.fl (x.val - y.val))
  rw [abs_sub_comm (x.val - y.val) (R.fl _)] at h2
  linarith

/-- C92: `approximatelyEquals` accepts Series of the same shape whose numbers all differ by at most `eps`, and only accepts
Series whose numbers all differ by at most `eps / (1 - 2^-p)`. -/
theorem C92_approximatelyEquals {a b : Serie (Dbl R)} {eps : Dbl R} (ha : WF a) (hb : WF b) (hs : SameShape a b)
    (hd : a.dimension = b.dimension) (hlen : a.data.length = b.data.length) :
    ∃ r, approximatelyEquals a b eps = .ok r ∧
      ((∀ i (h : i < a.data.length) (h' : i < b.data.length), |a.data[i].val - b.data[i].val| ≤ eps.val) → r = true) ∧
      (r = true → ∀ i (h : i < a.data.length) (h' : i < b.data.length),
        (1 - unit p) * |a.data[i].val - b.data[i].val| ≤ eps.val) := by
  obtain ⟨r, hr, hiff⟩ := stdEqual_eq (pred := near eps) hlen
  refine ⟨r, ?_, fun h => hiff.2 (fun i h1 h2 => near_of_le (h i h1 h2)), fun h i h1 h2 => le_of_near (hiff.1 h i h1 h2)⟩
  unfold approximatelyEquals
  rw [if_neg (by simp [ha.valid, hb.valid]), if_neg (by simp [hs.1]), if_neg (by simp [hs.2]), if_neg (by simp [hd])]
  exact hr

example (R : Rounding 53) := C92_approximatelyEquals (eps := dbl R 1) (exA_WF R) (exB_WF R) ⟨rfl, rfl⟩ rfl rfl

/-- C92: `approximateEqualityMask` has 1 for the items whose numbers differ by at most `eps`, and 0 for the items with a
difference above `eps / (1 - 2^-p)`. -/
theorem C92_approximateEqualityMask {a b : Serie (Dbl R)} (ha : WF a) (hb : WF b) (eps : Dbl R) (hs : SameShape a b) :
    ∃ r, approximateEqualityMask a b eps = .ok r ∧ WF r ∧ r.itemSize = 1 ∧ r.count = a.count ∧ ∀ i, i < a.count →
      ((∀ j x y, cell a i j = some x → cell b i j = some y → |x.val - y.val| ≤ eps.val) → cell r i 0 = some 1) ∧
      ((∃ j x y, cell a i j = some x ∧ cell b i j = some y ∧ eps.val < (1 - unit p) * |x.val - y.val|) →
        cell r i 0 = some 0) := by
  obtain ⟨r, h1, h2, h3, h4, h5⟩ := (maskWith_spec (pred := near eps) (P := fun x y => near eps x y = true)
    (fun _ _ => Iff.rfl) ha hb).2 hs
  refine ⟨r, h1, h2, h3, h4, fun i hi => ⟨fun h => (h5 i hi).1 (fun j x y hx hy => near_of_le (h j x y hx hy)), ?_⟩⟩
  rintro ⟨j, x, y, hx, hy, hlt⟩
  exact (h5 i hi).2 ⟨j, x, y, hx, hy, fun hn => absurd (le_of_near hn) (not_le.2 hlt)⟩

example (R : Rounding 53) := C92_approximateEqualityMask (exA_WF R) (exB_WF R) (dbl R 1) ⟨rfl, rfl⟩

end DF
