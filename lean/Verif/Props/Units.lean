import Verif.Spec.Units
import Verif.Props.Stats

/-!
# Properties about changes of unit (C129, C130)

`Rescaled a b s t`: the numbers of `t` are `a x + b` for the numbers `x` of `s`, such as lengths in feet for lengths in metres, or
temperatures in Fahrenheit for temperatures in Celsius; a negative `a` turns depths into heights.
-/

namespace DF

open Spec

variable {α : Type}

/-- The Serie 3, 1, 4, 1, 5 in the unit with `a = -2`, `b = 7`. -/
def exR : Serie ℚ := ⟨[1, 5, -1, 5, -3], 5, 1, 3⟩
theorem exR_WF : WF exR := ⟨by decide, by decide, by decide, by decide⟩
theorem exR_resc : Rescaled (-2) 7 exQ exR := ⟨exR_WF, rfl, by decide +kernel⟩
/-- The same in the unit with `a = 2`, `b = 7`. -/
def exS : Serie ℚ := ⟨[13, 9, 15, 9, 17], 5, 1, 3⟩
theorem exS_WF : WF exS := ⟨by decide, by decide, by decide, by decide⟩
theorem exS_resc : Rescaled 2 7 exQ exS := ⟨exS_WF, rfl, by decide +kernel⟩

theorem Spec.Rescaled.count [Field α] {a b : α} {s t : Serie α} (h : WF s) (r : Rescaled a b s t) : t.count = s.count := by
  rw [← r.1.scalars_length, r.2.2, List.length_map, h.scalars_length]

/-- C129: scaling and shifting a scalar Serie with the functions of the library changes the unit. -/
theorem C129_change [Field α] {s : Serie α} (h : WF s) (h1 : s.itemSize = 1) (h0 : 0 < s.count) (a b : α) :
    ∃ t, (scale s a >>= fun r => addNum r b) = .ok t ∧ Rescaled a b s t := by
  have hl := h.scalars_length
  have hw : ∀ f : α → α, WF (ofScalars ((scalars s).map f)) := fun f => WF_ofScalars (by simpa [hl] using h.count_lt)
  refine ⟨ofScalars ((scalars s).map (fun x => a * x + b)), ?_, hw _, rfl, scalars_ofScalars _ _⟩
  rw [C36_scale h h0, Res.ok_bind, scalars_onNumbers h h1]
  unfold addNum
  rw [if_neg (by simp [ofScalars])]
  refine (mapNum_numbers (hw _) rfl (f := (· + b)) (fun _ _ => rfl)).trans ?_
  rw [scalars_onNumbers (hw _) rfl, scalars_ofScalars, List.map_map]
  congr 3
  funext x
  exact congrArg (· + b) (mul_comm x a)

example := C129_change exQ_WF rfl (by decide) (-2) 7

theorem average_affine [Field α] [CharZero α] {l : List α} (hl : l ≠ []) (a b : α) :
    average (l.map (fun x => a * x + b)) = a * average l + b := by
  have : l.map (fun x => a * x + b) = (l.map (· * a)).map (· + b) := by
    rw [List.map_map]; congr 1; funext x; simp [mul_comm]
  rw [this, average_map_add (by simpa using hl), average_map_mul, mul_comm]

/-- C129: the mean changes as the numbers do. -/
theorem C129_mean [Field α] [CharZero α] {s t : Serie α} (h : WF s) (h1 : s.itemSize = 1) (h0 : 0 < s.count) {a b : α}
    (r : Rescaled a b s t) : ∃ m, mean s = .ok (.number m) ∧ mean t = .ok (.number (a * m + b)) := by
  have hl := h.scalars_length
  refine ⟨average (scalars s), by rw [mean_scalar h h1, average, hl], ?_⟩
  rw [mean_scalar r.1 r.2.1, ← r.1.scalars_length, ← average_affine (by intro he; rw [he] at hl; simp at hl; omega), r.2.2]
  rfl

example := C129_mean exQ_WF rfl (by decide) exR_resc

/-- C129: the covariance changes with the two factors, not with the origins; the variance with the square of the factor. -/
theorem C129_covariance [Field α] [CharZero α] {s s' t t' : Serie α} (h : WF s) (h' : WF s') (h1 : s.itemSize = 1)
    (h1' : s'.itemSize = 1) (hc : s.count = s'.count) (h0 : 0 < s.count) {a b a' b' : α}
    (r : Rescaled a b s t) (r' : Rescaled a' b' s' t') :
    ∃ c, covariance s s' = .ok c ∧ covariance t t' = .ok (a * a' * c) := by
  have hl := h.scalars_length
  have hl' := h'.scalars_length
  refine ⟨_, covariance_eq h h' hc h1 h1', ?_⟩
  rw [covariance_eq r.1 r'.1 (by rw [r.count h, r'.count h', hc]) r.2.1 r'.2.1, r.2.2, r'.2.2,
    average_affine (by intro he; rw [he] at hl; simp at hl; omega), average_affine (by intro he; rw [he] at hl'; simp at hl'; omega),
    List.length_map, ← mul_div_assoc]
  generalize average (scalars s) = p
  generalize average (scalars s') = q
  congr 2
  generalize scalars s = l
  generalize scalars s' = m
  induction l generalizing m with
  | nil => simp
  | cons x l ih =>
    cases m with
    | nil => simp
    | cons y m =>
      simp only [List.map_cons, List.zipWith_cons_cons, List.sum_cons, ih m]
      ring

example := C129_covariance exQ_WF exQ_WF rfl rfl rfl (by decide) exR_resc exS_resc

section order

variable [Field α] [LinearOrder α] [IsStrictOrderedRing α]

theorem SortedFrom.affine {xs l : List α} (h : SortedFrom xs l) {a : α} (ha : 0 < a) (b : α) :
    SortedFrom (xs.map (fun x => a * x + b)) (l.map (fun x => a * x + b)) := by
  refine ⟨h.1.map _, ?_⟩
  rw [List.pairwise_map]
  exact h.2.imp fun hxy => by have := mul_le_mul_of_nonneg_left hxy ha.le; linarith

theorem SortedFrom.affine_neg {xs l : List α} (h : SortedFrom xs l) {a : α} (ha : a < 0) (b : α) :
    SortedFrom (xs.map (fun x => a * x + b)).reverse (l.map (fun x => a * x + b)) := by
  refine ⟨(List.reverse_perm _).trans (h.1.map _), ?_⟩
  rw [List.pairwise_reverse, List.pairwise_map]
  exact h.2.imp fun hxy => by have := mul_le_mul_of_nonpos_left hxy ha.le; linarith

omit [IsStrictOrderedRing α] in
theorem Spec.Interpolates.affine {xs : List α} {q v : α} (h : Interpolates xs q v) (a b : α) :
    Interpolates (xs.map (fun x => a * x + b)) q (a * v + b) := by
  obtain ⟨k, r, x, y, h0, h1, h2, h3, h4, rfl⟩ := h
  refine ⟨k, r, a * x + b, a * y + b, h0, h1, by rw [List.length_map]; exact h2, by rw [List.getElem?_map, h3]; rfl, ?_, by ring⟩
  rcases h4 with h4 | h4
  · exact .inl (by rw [List.getElem?_map, h4]; rfl)
  · exact .inr h4

theorem Spec.Interpolates.reverse {xs : List α} {q v : α} (h : Interpolates xs q v) : Interpolates xs.reverse (1 - q) v := by
  obtain ⟨k, r, x, y, h0, h1, h2, h3, h4, rfl⟩ := h
  have hk := (List.getElem?_eq_some_iff.1 h3).1
  have e : ((xs.length : α) - 1) * (1 - q) = (xs.length : α) - 1 - k - r := by rw [mul_sub, h2]; ring
  rcases eq_or_ne r 0 with hr | hr
  · subst hr
    refine ⟨xs.length - 1 - k, 0, x, y, le_refl _, zero_lt_one, ?_, ?_, .inr rfl, rfl⟩
    · rw [List.length_reverse, e, Nat.cast_sub (by omega), Nat.cast_sub (by omega), Nat.cast_one]; ring
    · rw [List.getElem?_reverse (by omega), ← h3]
      congr 1; omega
  · have h5 := h4.resolve_right hr
    have hk1 := (List.getElem?_eq_some_iff.1 h5).1
    have hr0 : 0 < r := lt_of_le_of_ne h0 (Ne.symm hr)
    refine ⟨xs.length - 2 - k, 1 - r, y, x, by linarith, by linarith, ?_, ?_, .inl ?_, by ring⟩
    · rw [List.length_reverse, e, Nat.cast_sub (by omega), Nat.cast_sub (by omega)]; push_cast; ring
    · rw [List.getElem?_reverse (by omega), ← h5]
      congr 1; omega
    · rw [List.getElem?_reverse (by omega), ← h3]
      congr 1; omega

variable [FloorRing α]

/-- C129: the quantiles change as the numbers do. -/
theorem C129_quantile {srt : StdSort} (hs : srt.Correct) {s t : Serie α} (h : WF s) (h1 : s.itemSize = 1) (h0 : 0 < s.count)
    {a b : α} (ha : 0 < a) (r : Rescaled a b s t) {q : α} (hq0 : 0 ≤ q) (hq1 : q ≤ 1) :
    ∃ v, quantile srt s q = .ok v ∧ quantile srt t q = .ok (a * v + b) := by
  obtain ⟨xs, v, i1, i2, i3⟩ := quantile_eq hs h h1 h0 hq0 hq1
  obtain ⟨ys, w, j1, j2, j3⟩ := quantile_eq hs r.1 r.2.1 (by rw [r.count h]; exact h0) hq0 hq1
  have e := SortedFrom.unique j1 (SortedFrom.affine i1 ha b) (by rw [r.2.2])
  subst e
  have k := i3.affine a b
  refine ⟨v, i2, ?_⟩
  rw [j2, le_antisymm (j3.mono j1.2 k (le_refl q)) (k.mono j1.2 j3 (le_refl q))]

example := C129_quantile stdSort_exists.choose_spec exQ_WF rfl (by decide) (by norm_num) exS_resc (q := 5 / 8) (by norm_num) (by norm_num)

/-- C129: when the new unit points the other way, the quantile at `q` is that at `1 - q`. -/
theorem C129_quantile_reversed {srt : StdSort} (hs : srt.Correct) {s t : Serie α} (h : WF s) (h1 : s.itemSize = 1) (h0 : 0 < s.count)
    {a b : α} (ha : a < 0) (r : Rescaled a b s t) {q : α} (hq0 : 0 ≤ q) (hq1 : q ≤ 1) :
    ∃ v, quantile srt s (1 - q) = .ok v ∧ quantile srt t q = .ok (a * v + b) := by
  obtain ⟨xs, v, i1, i2, i3⟩ := quantile_eq hs h h1 h0 (q := 1 - q) (by linarith) (by linarith)
  obtain ⟨ys, w, j1, j2, j3⟩ := quantile_eq hs r.1 r.2.1 (by rw [r.count h]; exact h0) hq0 hq1
  have e := SortedFrom.unique j1 (SortedFrom.affine_neg i1 ha b) (by rw [r.2.2])
  subst e
  have k := (i3.affine a b).reverse
  rw [sub_sub_cancel] at k
  refine ⟨v, i2, ?_⟩
  rw [j2, le_antisymm (j3.mono j1.2 k (le_refl q)) (k.mono j1.2 j3 (le_refl q))]

example := C129_quantile_reversed stdSort_exists.choose_spec exQ_WF rfl (by decide) (by norm_num) exR_resc (q := 5 / 8) (by norm_num) (by norm_num)

/-- C129: the median changes as the numbers do, the IQR with the size of the factor. -/
theorem C129_quartiles {srt : StdSort} (hs : srt.Correct) {s t : Serie α} (h : WF s) (h1 : s.itemSize = 1) (h0 : 0 < s.count)
    {a b : α} (ha : a ≠ 0) (r : Rescaled a b s t) :
    ∃ m d, q50 srt s = .ok m ∧ iqr srt s = .ok d ∧ q50 srt t = .ok (a * m + b) ∧ iqr srt t = .ok (|a| * d) := by
  have h0t : 0 < t.count := by rw [r.count h]; exact h0
  obtain ⟨x, m, y, e1, e2, e3, _, e5, _, e7, _⟩ := C47_quartiles hs h h1 h0
  obtain ⟨x', m', y', f1, f2, f3, _, f5, _, f7, _⟩ := C47_quartiles hs r.1 r.2.1 h0t
  refine ⟨m, y - x, e5, e7, ?_, ?_⟩
  · rcases lt_or_gt_of_ne ha with hn | hp
    · obtain ⟨v, g1, g2⟩ := C129_quantile_reversed hs h h1 h0 hn r (q := 1 / 2) (by positivity) (by norm_num)
      rw [show (1 : α) - 1 / 2 = 1 / 2 by norm_num, e2] at g1
      cases g1
      rw [f2] at g2; cases g2
      exact f5
    · obtain ⟨v, g1, g2⟩ := C129_quantile hs h h1 h0 hp r (q := 1 / 2) (by positivity) (by norm_num)
      rw [e2] at g1; cases g1
      rw [f2] at g2; cases g2
      exact f5
  · rw [f7]
    rcases lt_or_gt_of_ne ha with hn | hp
    · obtain ⟨v, g1, g2⟩ := C129_quantile_reversed hs h h1 h0 hn r (q := 1 / 4) (by positivity) (by norm_num)
      obtain ⟨w, g3, g4⟩ := C129_quantile_reversed hs h h1 h0 hn r (q := 3 / 4) (by positivity) (by norm_num)
      rw [show (1 : α) - 1 / 4 = 3 / 4 by norm_num, e3] at g1
      rw [show (1 : α) - 3 / 4 = 1 / 4 by norm_num, e1] at g3
      cases g1; cases g3
      rw [f1] at g2; cases g2
      rw [f3] at g4; cases g4
      rw [abs_of_neg hn]
      congr 1; ring
    · obtain ⟨v, g1, g2⟩ := C129_quantile hs h h1 h0 hp r (q := 1 / 4) (by positivity) (by norm_num)
      obtain ⟨w, g3, g4⟩ := C129_quantile hs h h1 h0 hp r (q := 3 / 4) (by positivity) (by norm_num)
      rw [e1] at g1; rw [e3] at g3
      cases g1; cases g3
      rw [f1] at g2; cases g2
      rw [f3] at g4; cases g4
      rw [abs_of_pos hp]
      congr 1; ring

example := C129_quartiles stdSort_exists.choose_spec exQ_WF rfl (by decide) (by norm_num) exR_resc

omit [FloorRing α] in
theorem mul_pos_of_neg' {a z : α} (ha : a < 0) : 0 < a * z ↔ z < 0 := by
  rw [← neg_mul_neg, mul_pos_iff_of_pos_left (neg_pos.2 ha), neg_pos]

/-- C130: the same values are outliers in every unit: `outliers` and `notOutliers` of the rescaled Serie are the rescaled results,
and the mask is the same. -/
theorem C130_outliers {srt : StdSort} (hs : srt.Correct) {s t : Serie α} (h : WF s) (h1 : s.itemSize = 1) (h0 : 0 < s.count)
    {a b : α} (ha : a ≠ 0) (r : Rescaled a b s t) (m : α) :
    ∃ o n k o' n', outliers srt s m = .ok o ∧ notOutliers srt s m = .ok n ∧ isOutliers srt s m = .ok k ∧
      outliers srt t m = .ok o' ∧ notOutliers srt t m = .ok n' ∧ isOutliers srt t m = .ok k ∧
      Rescaled a b o o' ∧ Rescaled a b n n' := by
  have hl := h.scalars_length
  have hlt := h.count_lt
  have h0t : 0 < t.count := by rw [r.count h]; exact h0
  obtain ⟨x, y, lo, hi, e1, e2, rfl, rfl, e3, e4, e5⟩ := C48_outliers hs h h1 h0 m
  obtain ⟨x', y', lo', hi', f1, f2, rfl, rfl, f3, f4, f5⟩ := C48_outliers hs r.1 r.2.1 h0t m
  have key : ∀ v, (a * v + b < x' - m * (y' - x') ∨ y' + m * (y' - x') < a * v + b) ↔
      (v < x - m * (y - x) ∨ y + m * (y - x) < v) := by
    intro v
    rcases lt_or_gt_of_ne ha with hn | hp
    · obtain ⟨u, g1, g2⟩ := C129_quantile_reversed hs h h1 h0 hn r (q := 1 / 4) (by positivity) (by norm_num)
      obtain ⟨w, g3, g4⟩ := C129_quantile_reversed hs h h1 h0 hn r (q := 3 / 4) (by positivity) (by norm_num)
      rw [show (1 : α) - 1 / 4 = 3 / 4 by norm_num, e2] at g1
      rw [show (1 : α) - 3 / 4 = 1 / 4 by norm_num, e1] at g3
      cases g1; cases g3
      rw [f1] at g2; cases g2
      rw [f2] at g4; cases g4
      have k1 : a * v + b < a * y + b - m * (a * x + b - (a * y + b)) ↔ y + m * (y - x) < v := by
        rw [← sub_pos, ← sub_neg (a := y + m * (y - x)), ← mul_pos_of_neg' hn]
        exact iff_of_eq (congrArg (0 < ·) (by ring))
      have k2 : a * x + b + m * (a * x + b - (a * y + b)) < a * v + b ↔ v < x - m * (y - x) := by
        rw [← sub_pos, ← sub_neg (a := v), ← mul_pos_of_neg' hn]
        exact iff_of_eq (congrArg (0 < ·) (by ring))
      rw [k1, k2, or_comm]
    · obtain ⟨u, g1, g2⟩ := C129_quantile hs h h1 h0 hp r (q := 1 / 4) (by positivity) (by norm_num)
      obtain ⟨w, g3, g4⟩ := C129_quantile hs h h1 h0 hp r (q := 3 / 4) (by positivity) (by norm_num)
      rw [e1] at g1; rw [e2] at g3
      cases g1; cases g3
      rw [f1] at g2; cases g2
      rw [f2] at g4; cases g4
      have k1 : a * v + b < a * x + b - m * (a * y + b - (a * x + b)) ↔ v < x - m * (y - x) := by
        rw [← sub_pos, ← sub_pos (b := v), ← mul_pos_iff_of_pos_left hp (b := x - m * (y - x) - v)]
        exact iff_of_eq (congrArg (0 < ·) (by ring))
      have k2 : a * y + b + m * (a * y + b - (a * x + b)) < a * v + b ↔ y + m * (y - x) < v := by
        rw [← sub_pos, ← sub_pos (a := v), ← mul_pos_iff_of_pos_left hp (b := v - (y + m * (y - x)))]
        exact iff_of_eq (congrArg (0 < ·) (by ring))
      rw [k1, k2]
  have key2 : ∀ v, (x' - m * (y' - x') ≤ a * v + b ∧ a * v + b ≤ y' + m * (y' - x')) ↔
      (x - m * (y - x) ≤ v ∧ v ≤ y + m * (y - x)) := by
    intro v
    have := not_congr (key v)
    rw [not_or, not_or, not_lt, not_lt, not_lt, not_lt] at this
    exact this
  have small : ∀ p : α → Bool, ((scalars s).filter p).length < 2 ^ 32 := fun p =>
    lt_of_le_of_lt (List.length_filter_le _ _) (by rw [hl]; exact hlt)
  refine ⟨_, _, _, _, _, e3, e4, e5, f3, f4, ?_, ⟨?_, rfl, ?_⟩, ⟨?_, rfl, ?_⟩⟩
  · rw [f5, r.2.2, List.map_map]
    congr 3
    funext v
    exact if_congr (key v) rfl rfl
  · rw [r.2.2, List.filter_map]
    exact WF_ofScalars (by rw [List.length_map]; exact small _)
  · rw [scalars_ofScalars, scalars_ofScalars, r.2.2, List.filter_map]
    congr 2
    funext v
    exact decide_eq_decide.2 (key v)
  · rw [r.2.2, List.filter_map]
    exact WF_ofScalars (by rw [List.length_map]; exact small _)
  · rw [scalars_ofScalars, scalars_ofScalars, r.2.2, List.filter_map]
    congr 2
    funext v
    exact decide_eq_decide.2 (key2 v)

example := C130_outliers stdSort_exists.choose_spec exQ_WF rfl (by decide) (by norm_num) exR_resc (3 / 2)

omit [FloorRing α] in
/-- C129: the minimum and the maximum change as the numbers do, and are exchanged when the unit points the other way. -/
theorem C129_minMax [Limits α] {s t : Serie α} (h : WF s) (h1 : s.itemSize = 1) (h0 : 0 < s.count) {a b : α}
    (r : Rescaled a b s t) (hlim : ∀ x ∈ scalars s, Limits.lowest ≤ x ∧ x ≤ Limits.highest)
    (hlim' : ∀ x ∈ scalars t, Limits.lowest ≤ x ∧ x ≤ Limits.highest) :
    ∃ x y, minMax s = .ok ([x], [y]) ∧ (0 < a → minMax t = .ok ([a * x + b], [a * y + b])) ∧
      (a < 0 → minMax t = .ok ([a * y + b], [a * x + b])) := by
  obtain ⟨x, y, e, lx, gy⟩ := minMax_scalar h h0 h1 hlim
  obtain ⟨x', y', e', lx', gy'⟩ := minMax_scalar r.1 (by rw [r.count h]; exact h0) r.2.1 hlim'
  have mem : ∀ v ∈ scalars s, a * v + b ∈ scalars t := fun v hv => by rw [r.2.2]; exact List.mem_map_of_mem hv
  have mem' : ∀ w ∈ scalars t, ∃ v ∈ scalars s, w = a * v + b := fun w hw => by
    rw [r.2.2] at hw
    obtain ⟨v, hv, rfl⟩ := List.mem_map.1 hw
    exact ⟨v, hv, rfl⟩
  obtain ⟨u, hu, eu⟩ := mem' _ lx'.1
  obtain ⟨w, hw, ew⟩ := mem' _ gy'.1
  refine ⟨x, y, e, fun ha => ?_, fun ha => ?_⟩
  · rw [e']
    have k1 : x' = a * x + b := le_antisymm (lx'.2 _ (mem x lx.1)) (by
      have := mul_le_mul_of_nonneg_left (lx.2 u hu) ha.le; linarith)
    have k2 : y' = a * y + b := le_antisymm (by
      have := mul_le_mul_of_nonneg_left (gy.2 w hw) ha.le; linarith) (gy'.2 _ (mem y gy.1))
    rw [k1, k2]
  · rw [e']
    have k1 : x' = a * y + b := le_antisymm (lx'.2 _ (mem y gy.1)) (by
      have := mul_le_mul_of_nonpos_left (gy.2 u hu) ha.le; linarith)
    have k2 : y' = a * x + b := le_antisymm (by
      have := mul_le_mul_of_nonpos_left (lx.2 w hw) ha.le; linarith) (gy'.2 _ (mem x lx.1))
    rw [k1, k2]

example := @C129_minMax ℚ _ _ _ ⟨1000, -1000⟩ _ _ exQ_WF rfl (by decide) _ _ exR_resc (by decide +kernel) (by decide +kernel)

end order

theorem callAll_mapL {γ δ σ : Type} (φ : γ → δ) (f : δ → Nat → Eff σ Unit) (l : List γ) (lo : Nat) :
    callAll f (l.map φ) lo = callAll (fun x => f (φ x)) l lo := by
  induction l generalizing lo with
  | nil => rfl
  | cons x l ih => rw [List.map_cons, callAll_cons, callAll_cons, ih]

/-- C130: the histogram between `start` and `stop` does not depend on the unit these and the numbers are given in. -/
theorem C130_binsIn [Field α] [LinearOrder α] [FloorRing α] {s t : Serie α} (h : WF s) (h1 : s.itemSize = 1)
    {a b : α} (ha : a ≠ 0) (r : Rescaled a b s t) (nb : Nat) (start stop : α) :
    binsIn t nb (a * start + b) (a * stop + b) = binsIn s nb start stop := by
  unfold binsIn
  rw [if_neg (by simpa using r.2.1), if_neg (c := s.itemSize ≠ 1) (by simpa using h1)]
  split
  · rfl
  · have hw : (a * stop + b - (a * start + b)) / (nb : α) = a * ((stop - start) / (nb : α)) := by
      rw [← mul_div_assoc]; congr 1; ring
    have hone : ∀ v, binOne nb (a * start + b) (a * ((stop - start) / (nb : α))) (a * v + b) = binOne nb start ((stop - start) / (nb : α)) v := by
      intro v
      unfold binOne
      have e1 : (a * ((stop - start) / (nb : α)) == 0) = ((stop - start) / (nb : α) == 0) := by
        rw [Bool.eq_iff_iff]; simp only [beq_iff_eq, mul_eq_zero, ha, false_or]
      have e2 : (a * v + b - (a * start + b)) / (a * ((stop - start) / (nb : α))) = (v - start) / ((stop - start) / (nb : α)) := by
        rw [show a * v + b - (a * start + b) = a * (v - start) by ring, mul_div_mul_left _ _ ha]
      rw [e1, e2]
    simp only [hw]
    congr 1
    unfold Eff.exec forEachS
    rw [if_neg (by simpa using r.2.1), if_neg (c := s.itemSize ≠ 1) (by simpa using h1), forLoop_unit _ (scalars s) s.count h.scalars_length.symm (getD_hyp h),
      forLoop_unit _ (scalars t) t.count r.1.scalars_length.symm (getD_hyp r.1), r.2.2, callAll_mapL]
    simp only [hone]

example := C130_binsIn exQ_WF rfl (by norm_num) exR_resc 3 0 6

/-- C130: so does the histogram over the range of the numbers. -/
theorem C130_bins [Field α] [LinearOrder α] [IsStrictOrderedRing α] [FloorRing α] [Limits α] {s t : Serie α} (h : WF s)
    (h1 : s.itemSize = 1) (h0 : 0 < s.count) {a b : α} (ha : 0 < a) (r : Rescaled a b s t)
    (hlim : ∀ x ∈ scalars s, Limits.lowest ≤ x ∧ x ≤ Limits.highest)
    (hlim' : ∀ x ∈ scalars t, Limits.lowest ≤ x ∧ x ≤ Limits.highest) (nb : Nat) : bins t nb = bins s nb := by
  obtain ⟨x, y, e, e', _⟩ := C129_minMax h h1 h0 r hlim hlim'
  unfold bins
  rw [e, e' ha]
  exact C130_binsIn h h1 ha.ne' r nb x y

example := @C130_bins ℚ _ _ _ _ ⟨1000, -1000⟩ _ _ exQ_WF rfl (by decide) _ _ (by norm_num) exS_resc (by decide +kernel) (by decide +kernel) 3

/-- C130: `normalize` gives the same numbers in every unit; when the unit points the other way, `1 - x` for `x`. -/
theorem C130_normalize [Field α] [LinearOrder α] [IsStrictOrderedRing α] [Limits α] [Sqrt α] {s t : Serie α} (h : WF s)
    (h1 : s.itemSize = 1) {a b : α} (r : Rescaled a b s t)
    (hlim : ∀ x ∈ scalars s, Limits.lowest ≤ x ∧ x ≤ Limits.highest)
    (hlim' : ∀ x ∈ scalars t, Limits.lowest ≤ x ∧ x ≤ Limits.highest)
    (hne : ∃ x ∈ scalars s, ∃ y ∈ scalars s, x ≠ y) :
    ∃ n n', normalize s = .ok n ∧ normalize t = .ok n' ∧ (0 < a → n' = n) ∧
      (a < 0 → scalars n' = (scalars n).map (1 - ·)) := by
  have hl := h.scalars_length
  obtain ⟨p, hp, q, hq, hpq⟩ := hne
  have h0 : 0 < s.count := by rw [← hl]; exact List.length_pos_of_mem hp
  obtain ⟨x, y, e, e1, e2⟩ := C129_minMax h h1 h0 r hlim hlim'
  have hxy : y - x ≠ 0 := by
    intro hz
    obtain ⟨x', y', f, lx, gy⟩ := minMax_scalar h h0 h1 hlim
    rw [e] at f; cases f
    have : ∀ z ∈ scalars s, z = x := fun z hz' => le_antisymm ((gy.2 z hz').trans (by linarith)) (lx.2 z hz')
    exact hpq ((this p hp).trans (this q hq).symm)
  have run : ∀ {u : Serie α}, WF u → u.itemSize = 1 → ∀ {mn mx : α}, minMax u = .ok ([mn], [mx]) →
      normalize u = .ok (ofScalars ((scalars u).map (fun v => 1 / (mx - mn) * (v - mn)))) := by
    intro u hu hu1 mn mx hm
    unfold normalize
    rw [if_neg (by simp [hu.valid]), if_pos hu1, hm]
    refine (mapNum_numbers hu hu1 (f := fun v => 1 / (mx - mn) * (v - mn)) (fun _ _ => rfl)).trans ?_
    rw [scalars_onNumbers hu hu1]
  rcases lt_trichotomy a 0 with ha | ha | ha
  · refine ⟨_, _, run h h1 e, run r.1 r.2.1 (e2 ha), fun h => absurd h ha.not_gt, fun _ => ?_⟩
    rw [scalars_ofScalars, scalars_ofScalars, r.2.2, List.map_map, List.map_map]
    congr 1
    funext v
    have : a * x + b - (a * y + b) = -(a * (y - x)) := by ring
    have h2 := ha.ne
    simp only [Function.comp, this]
    field_simp
    ring
  · subst ha
    have hm' : ∀ v ∈ scalars t, v = b := by
      intro v hv
      rw [r.2.2] at hv
      obtain ⟨z, _, rfl⟩ := List.mem_map.1 hv
      ring
    obtain ⟨x', y', f, _⟩ := minMax_scalar r.1 (by rw [r.count h]; exact h0) r.2.1 hlim'
    exact ⟨_, _, run h h1 e, run r.1 r.2.1 f, fun h => absurd h (lt_irrefl _), fun h => absurd h (lt_irrefl _)⟩
  · refine ⟨_, _, run h h1 e, run r.1 r.2.1 (e1 ha), fun _ => ?_, fun h => absurd h ha.not_gt⟩
    rw [r.2.2, List.map_map]
    congr 2
    funext v
    have : a * y + b - (a * x + b) = a * (y - x) := by ring
    have h2 := ha.ne'
    simp only [Function.comp, this]
    field_simp
    ring

example := @C130_normalize ℚ _ _ _ ⟨1000, -1000⟩ ⟨id⟩ _ _ exQ_WF rfl _ _ exR_resc (by decide +kernel) (by decide +kernel)
  ⟨3, by decide +kernel, 1, by decide +kernel, by norm_num⟩

end DF
