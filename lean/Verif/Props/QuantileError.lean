import Verif.Props.FloatStats
import Verif.Props.Sorted

/-!
# The error of quantiles in rounded arithmetic (C172)

The numbers are `Dbl R`, as in Props/Float; the exact quantiles are those of the same function over the real numbers (C47).
-/

namespace DF

open Spec

variable {p : Nat} {R : Rounding p}

/-! ## Helpers -/

/-- `v` is the number at position `P` of `zs`, linear between neighbours. -/
def AtPlace (zs : List ℝ) (P v : ℝ) : Prop :=
  ∃ (k : Nat) (r a : ℝ), 0 ≤ r ∧ r < 1 ∧ P = k + r ∧ zs[k]? = some a ∧ ((∃ b, zs[k + 1]? = some b ∧ v = a + r * (b - a)) ∨ r = 0 ∧ v = a)

theorem steps_le {zs : List ℝ} {G : ℝ} (hG : ∀ i a b, zs[i]? = some a → zs[i + 1]? = some b → |b - a| ≤ G) (i : Nat) {a : ℝ}
    (ha : zs[i]? = some a) : ∀ (n : Nat) {b : ℝ}, zs[i + n]? = some b → |b - a| ≤ n * G
  | 0, b, hb => by
    rw [Nat.add_zero, ha] at hb; cases hb
    simp
  | n + 1, b, hb => by
    have hl := (List.getElem?_eq_some_iff.1 hb).1
    have hc : zs[i + n]? = some zs[i + n] := List.getElem?_eq_getElem (by omega)
    have h1 := steps_le hG i ha n hc
    have h2 := hG _ _ _ hc hb
    have h3 := abs_add_le (b - zs[i + n]) (zs[i + n] - a)
    rw [sub_add_sub_cancel] at h3
    push_cast
    linarith

theorem AtPlace.lipschitz {zs : List ℝ} {G : ℝ} (hG0 : 0 ≤ G) (hG : ∀ i a b, zs[i]? = some a → zs[i + 1]? = some b → |b - a| ≤ G) {P P' v w : ℝ}
    (h : AtPlace zs P v) (h' : AtPlace zs P' w) (hP : P ≤ P') : |w - v| ≤ G * (P' - P) := by
  obtain ⟨k, r, a, r0, r1, eP, ha, hv⟩ := h
  obtain ⟨k', r', a', r0', r1', eP', ha', hw⟩ := h'
  have hkk : k ≤ k' := by
    by_contra hc
    have : ((k' + 1 : Nat) : ℝ) ≤ k := Nat.cast_le.2 (by omega)
    push_cast at this
    linarith
  have hw' : |w - a'| ≤ r' * G := by
    rcases hw with ⟨b, hb, rfl⟩ | ⟨rfl, rfl⟩
    · rw [add_sub_cancel_left, abs_mul, abs_of_nonneg r0']
      exact mul_le_mul_of_nonneg_left (hG _ _ _ ha' hb) r0'
    · simp
  rcases Nat.lt_or_ge k k' with hlt | hge
  · obtain ⟨n, rfl⟩ := Nat.exists_eq_add_of_lt hlt
    have hl := (List.getElem?_eq_some_iff.1 ha').1
    have hb : zs[k + 1]? = some zs[k + 1] := List.getElem?_eq_getElem (by omega)
    have h1 := steps_le hG (k + 1) hb n (b := a') (by rw [← ha']; congr 1; omega)
    have h2 : |zs[k + 1] - v| ≤ (1 - r) * G := by
      have hg := hG _ _ _ ha hb
      have : zs[k + 1] - v = (1 - r) * (zs[k + 1] - a) := by
        rcases hv with ⟨b, hb', rfl⟩ | ⟨rfl, rfl⟩
        · rw [hb] at hb'; cases hb'; ring
        · ring
      rw [this, abs_mul, abs_of_nonneg (by linarith)]
      exact mul_le_mul_of_nonneg_left hg (by linarith)
    have h3 := abs_add_le (w - a') (a' - v)
    have h4 := abs_add_le (a' - zs[k + 1]) (zs[k + 1] - v)
    rw [sub_add_sub_cancel] at h3 h4
    rw [eP, eP']
    push_cast
    linarith
  · obtain rfl : k = k' := by omega
    rw [ha] at ha'; cases ha'
    have hr : r ≤ r' := by linarith
    rcases hv with ⟨b, hb, rfl⟩ | ⟨rfl, rfl⟩
    · have : w = a + r' * (b - a) := by
        rcases hw with ⟨b', hb', rfl⟩ | ⟨hr', rfl⟩
        · rw [hb] at hb'; cases hb'; rfl
        · subst hr'; ring
      rw [this, show a + r' * (b - a) - (a + r * (b - a)) = (r' - r) * (b - a) by ring, abs_mul, abs_of_nonneg (by linarith), eP, eP']
      have := mul_le_mul_of_nonneg_left (hG _ _ _ ha hb) (show 0 ≤ r' - r by linarith)
      linarith
    · rw [eP, eP']
      linarith

theorem Spec.Interpolates.atPlace {zs : List ℝ} {q v : ℝ} (h : Interpolates zs q v) : AtPlace zs (((zs.length : ℝ) - 1) * q) v := by
  obtain ⟨k, r, a, b, r0, r1, e, ha, hb, hv⟩ := h
  refine ⟨k, r, a, r0, r1, e, ha, ?_⟩
  rcases hb with hb | rfl
  · exact .inl ⟨b, hb, hv⟩
  · exact .inr ⟨rfl, by rw [hv]; ring⟩

theorem unit_small (hp : 32 ≤ p) : unit p ≤ 1 / 8 := by
  unfold unit
  calc (2 : ℝ)⁻¹ ^ p ≤ 2⁻¹ ^ 3 := pow_le_pow_of_le_one (by norm_num) (by norm_num) (by omega)
    _ = _ := by norm_num

/-- Rounding of an interpolation. -/
theorem interpolate_error (hp : 32 ≤ p) {a b r M : ℝ} (r0 : 0 ≤ r) (r1 : r ≤ 1) (ha : |a| ≤ M) (hb : |b| ≤ M) :
    |R.fl (a + R.fl (r * R.fl (b - a))) - (a + r * (b - a))| ≤ 6 * unit p * M := by
  have hu := unit_pos (p := p)
  have hu8 := unit_small hp
  have hM := (abs_nonneg a).trans ha
  have g : |b - a| ≤ 2 * M := (abs_sub b a).trans (by linarith)
  have e1 := R.error (b - a)
  have e2 := R.error (r * R.fl (b - a))
  have e3 := R.error (a + R.fl (r * R.fl (b - a)))
  generalize R.fl (b - a) = d at *
  generalize R.fl (r * d) = m at *
  generalize R.fl (a + m) = z at *
  have h1 : |d - (b - a)| ≤ 2 * unit p * M := e1.trans (by nlinarith)
  have h2 : |d| ≤ 2 * M * (1 + unit p) := by
    have := abs_add_le (d - (b - a)) (b - a)
    rw [sub_add_cancel] at this
    linarith
  have h3 : |r * d| ≤ 2 * M * (1 + unit p) := by
    rw [abs_mul, abs_of_nonneg r0]
    exact (mul_le_of_le_one_left (abs_nonneg _) r1).trans h2
  have h4 : |m - r * d| ≤ unit p * (2 * M * (1 + unit p)) := e2.trans (mul_le_mul_of_nonneg_left h3 hu.le)
  have h5 : |r * d - r * (b - a)| ≤ 2 * unit p * M := by
    rw [← mul_sub, abs_mul, abs_of_nonneg r0]
    exact (mul_le_of_le_one_left (abs_nonneg _) r1).trans h1
  have h6 : |a + m - (a + r * (b - a))| ≤ unit p * (2 * M * (1 + unit p)) + 2 * unit p * M := by
    rw [show a + m - (a + r * (b - a)) = (m - r * d) + (r * d - r * (b - a)) by ring]
    exact (abs_add_le _ _).trans (add_le_add h4 h5)
  have h7 : |a + r * (b - a)| ≤ M := by
    rw [show a + r * (b - a) = (1 - r) * a + r * b by ring]
    refine (abs_add_le _ _).trans ?_
    rw [abs_mul, abs_mul, abs_of_nonneg r0, abs_of_nonneg (show 0 ≤ 1 - r by linarith)]
    nlinarith
  have h8 : |a + m| ≤ M + (unit p * (2 * M * (1 + unit p)) + 2 * unit p * M) := by
    have := abs_add_le (a + m - (a + r * (b - a))) (a + r * (b - a))
    rw [sub_add_cancel] at this
    linarith
  have h9 := e3.trans (mul_le_mul_of_nonneg_left h8 hu.le)
  have h10 := abs_add_le (z - (a + m)) (a + m - (a + r * (b - a)))
  rw [sub_add_sub_cancel] at h10
  refine h10.trans ((add_le_add h9 h6).trans ?_)
  have q1 : unit p * unit p ≤ unit p * (1 / 8) := mul_le_mul_of_nonneg_left hu8 hu.le
  have q2 : unit p * unit p * unit p ≤ unit p * (1 / 64) := by nlinarith
  have q1' := mul_le_mul_of_nonneg_right q1 hM
  have q2' := mul_le_mul_of_nonneg_right q2 hM
  nlinarith

/-- One quantile against the exact one of the same numbers. -/
theorem quantile_near (hp : 32 ≤ p) {srt : StdSort} (hs : srt.Correct) {s : Serie (Dbl R)} {t : Serie ℝ} (h : WF s) (h' : WF t)
    (h1 : s.itemSize = 1) (h1' : t.itemSize = 1) (h0 : 0 < s.count) (hst : scalars t = (scalars s).map Dbl.val) {M : ℝ}
    (hM : ∀ x ∈ scalars s, |x.val| ≤ M) {q : Dbl R} (hq0 : 0 ≤ q) (hq1 : q ≤ 1) :
    ∃ v w, quantile srt s q = .ok v ∧ quantile srt t q.val = .ok w ∧ |v.val| ≤ M ∧ |v.val - w| ≤ 2 * (s.count + 2) * unit p * M := by
  have hu := unit_pos (p := p)
  have hc : s.count = t.count := by rw [← h.scalars_length, ← h'.scalars_length, hst, List.length_map]
  obtain ⟨xs, ⟨hx, ho⟩, hr⟩ := quantile_run hp hs h h1 h0
  obtain ⟨v, hv, k, a, k1, k2, ha, hcase⟩ := hr q hq0 hq1
  obtain ⟨ys, w, hy, hw, hi⟩ := C47_interpolates hs h' h1' (by omega) (q := q.val) hq0 hq1
  have hys : ys = xs.map Dbl.val := by
    refine SortedFrom.unique (l := scalars t) (m := scalars t) hy ⟨?_, ?_⟩ (.refl _)
    · rw [hst]; exact hx.map _
    · exact List.pairwise_map.2 (ho.imp fun hxy => hxy)
  have hlen : xs.length = s.count := by rw [hx.length_eq, h.scalars_length]
  have hMx : ∀ {i : Nat} {z : Dbl R}, xs[i]? = some z → |z.val| ≤ M := fun hz => hM _ (hx.mem_iff.1 (List.mem_of_getElem? hz))
  have hM0 : 0 ≤ M := (abs_nonneg _).trans (hMx ha)
  have hbr := quantile_bracket hp ho (posOf_fract k1 k2) k1 k2 ha hcase
  have hvM : |v.val| ≤ M := by
    rcases hcase with ⟨b, hb, _⟩ | ⟨hl, _, rfl⟩
    · have l1 : a.val ≤ v.val := hbr.1
      have l2 : v.val ≤ b.val := hbr.2.1 b hb
      exact abs_le.2 ⟨(abs_le.1 (hMx ha)).1.trans l1, l2.trans (abs_le.1 (hMx hb)).2⟩
    · exact hMx ha
  refine ⟨v, w, hv, hw, hvM, ?_⟩
  have hG : ∀ i a b, ys[i]? = some a → ys[i + 1]? = some b → |b - a| ≤ 2 * M := by
    intro i a b ha hb
    rw [hys, List.getElem?_map, Option.map_eq_some_iff] at ha hb
    obtain ⟨a, ha, rfl⟩ := ha
    obtain ⟨b, hb, rfl⟩ := hb
    have := hMx ha
    have := hMx hb
    exact (abs_sub _ _).trans (by linarith)
  have hga : ys[k]? = some a.val := by rw [hys, List.getElem?_map, ha]; rfl
  -- the exact number at the rounded position
  obtain ⟨v0, hv0, hve⟩ : ∃ v0, AtPlace ys (posOf R s.count q.val) v0 ∧ |v.val - v0| ≤ 6 * unit p * M := by
    rcases hcase with ⟨b, hb, e⟩ | ⟨hl, e, rfl⟩
    · refine ⟨a.val + (posOf R s.count q.val - k) * (b.val - a.val), ⟨k, posOf R s.count q.val - k, a.val, by linarith, by linarith, by ring, hga,
        .inl ⟨b.val, by rw [hys, List.getElem?_map, hb]; rfl, rfl⟩⟩, ?_⟩
      rw [e]
      exact interpolate_error hp (by linarith) (by linarith) (hMx ha) (hMx hb)
    · refine ⟨v.val, ⟨k, 0, v.val, le_rfl, one_pos, by rw [e, add_zero], hga, .inr ⟨rfl, rfl⟩⟩, ?_⟩
      rw [sub_self, abs_zero]
      positivity
  have hw0 := hi.atPlace
  have hn : ((s.count - 1 : Nat) : ℝ) = (s.count : ℝ) - 1 := by rw [Nat.cast_sub (by omega), Nat.cast_one]
  have hyl : (ys.length : ℝ) - 1 = ((s.count - 1 : Nat) : ℝ) := by rw [hys, List.length_map, hlen, hn]
  rw [hyl] at hw0
  have hpos : |posOf R s.count q.val - ((s.count - 1 : Nat) : ℝ) * q.val| ≤ unit p * ((s.count - 1 : Nat) : ℝ) := by
    refine (R.error _).trans (mul_le_mul_of_nonneg_left ?_ hu.le)
    rw [abs_of_nonneg (mul_nonneg (Nat.cast_nonneg _) hq0)]
    exact mul_le_of_le_one_right (Nat.cast_nonneg _) hq1
  have hlip : |v0 - w| ≤ 2 * M * (unit p * ((s.count - 1 : Nat) : ℝ)) := by
    rcases le_total (((s.count - 1 : Nat) : ℝ) * q.val) (posOf R s.count q.val) with hle | hle
    · refine (hw0.lipschitz (by positivity) hG hv0 hle).trans (mul_le_mul_of_nonneg_left ?_ (by positivity))
      exact (le_abs_self _).trans hpos
    · rw [abs_sub_comm]
      refine (hv0.lipschitz (by positivity) hG hw0 hle).trans (mul_le_mul_of_nonneg_left ?_ (by positivity))
      rw [abs_sub_comm] at hpos
      exact (le_abs_self _).trans hpos
  have h3 := abs_add_le (v.val - v0) (v0 - w)
  rw [sub_add_sub_cancel] at h3
  rw [hn] at hlip
  linarith

/-! Numbers for the examples: 0, 49 and 7, of absolute value at most 49 and within 1/10 of 0.1, 49 and 6.95. -/

theorem exC_vals (R : Rounding 53) : (dbl R 0).val = 0 ∧ (dbl R 49).val = 49 ∧ (dbl R 7).val = 7 :=
  ⟨(dbl_val (m := 0) (by norm_num)).trans (by norm_num), (dbl_val (m := 49) (by norm_num)).trans (by norm_num),
    (dbl_val (m := 7) (by norm_num)).trans (by norm_num)⟩

theorem exC_real_WF : WF (ofScalars [(1 / 10 : ℝ), 49, 139 / 20]) := WF_ofScalars (by simp)

theorem exC_bound (R : Rounding 53) : ∀ x ∈ scalars (exC R), |x.val| ≤ 49 := by
  obtain ⟨h1, h2, h3⟩ := exC_vals R
  intro x hx
  simp only [scalars, exC, List.take, List.mem_cons, List.not_mem_nil, or_false] at hx
  rcases hx with rfl | rfl | rfl
  · rw [h1]; norm_num
  · rw [h2]; norm_num
  · rw [h3]; norm_num

theorem exC_real (R : Rounding 53) : List.Forall₂ (fun x y => |x.val - y| ≤ 1 / 10) (scalars (exC R)) (scalars (ofScalars [(1 / 10 : ℝ), 49, 139 / 20])) := by
  obtain ⟨h1, h2, h3⟩ := exC_vals R
  refine .cons ?_ (.cons ?_ (.cons ?_ .nil))
  · rw [h1]; norm_num [abs_of_nonneg]
  · rw [h2]; norm_num
  · rw [h3]; norm_num [abs_of_nonneg]

/-! ## C172 -/

/-- C172: for numbers of absolute value at most `M`, each within `d` of an exact number, any quantile computed with rounding is within
`d + 2 (n + 2) u M` of the exact quantile of the exact numbers, `u` being the rounding unit. -/
theorem C172_quantile (hp : 32 ≤ p) {srt : StdSort} (hs : srt.Correct) {s : Serie (Dbl R)} {t : Serie ℝ} (h : WF s) (h' : WF t)
    (h1 : s.itemSize = 1) (h1' : t.itemSize = 1) (h0 : 0 < s.count) {M d : ℝ} (hM : ∀ x ∈ scalars s, |x.val| ≤ M)
    (hd : List.Forall₂ (fun x y => |x.val - y| ≤ d) (scalars s) (scalars t)) {q : Dbl R} (hq0 : 0 ≤ q) (hq1 : q ≤ 1) :
    ∃ v w, quantile srt s q = .ok v ∧ quantile srt t q.val = .ok w ∧ |v.val - w| ≤ d + 2 * (s.count + 2) * unit p * M := by
  have hl := h.scalars_length
  have hn := h.count_lt
  have hwf : WF (ofScalars ((scalars s).map Dbl.val)) := WF_ofScalars (by rw [List.length_map]; omega)
  have hsc : scalars (ofScalars ((scalars s).map Dbl.val)) = (scalars s).map Dbl.val := by simp [scalars, ofScalars]
  obtain ⟨v, w0, hv, hw0, _, e1⟩ := quantile_near hp hs h hwf h1 rfl h0 hsc hM hq0 hq1
  obtain ⟨_, _, hq, _⟩ := C160_close hs hwf h' rfl h1' (by show 0 < ((scalars s).map Dbl.val).length; rw [List.length_map]; omega) (d := d) (by
    rw [hsc]; exact List.forall₂_map_left_iff.2 hd)
  obtain ⟨w0', w, ew0, ew, e2⟩ := hq q.val hq0 hq1
  rw [hw0] at ew0; cases ew0
  refine ⟨v, w, hv, ew, ?_⟩
  have h3 := abs_add_le (v.val - w0) (w0 - w)
  rw [sub_add_sub_cancel] at h3
  linarith

example (R : Rounding 53) := C172_quantile (by decide) stdSort_exists.choose_spec (exC_WF R) exC_real_WF rfl rfl (of_decide_eq_true rfl)
  (exC_bound R) (exC_real R) (q := 0.5) (half_nonneg R) (half_le_one R)

/-- C172: the quartiles and the IQR. -/
theorem C172_quartiles (hp : 32 ≤ p) {srt : StdSort} (hs : srt.Correct) {s : Serie (Dbl R)} {t : Serie ℝ} (h : WF s) (h' : WF t)
    (h1 : s.itemSize = 1) (h1' : t.itemSize = 1) (h0 : 0 < s.count) {M d : ℝ} (hM : ∀ x ∈ scalars s, |x.val| ≤ M)
    (hd : List.Forall₂ (fun x y => |x.val - y| ≤ d) (scalars s) (scalars t)) :
    ∃ a m b i a' m' b' i', q25 srt s = .ok a ∧ q50 srt s = .ok m ∧ q75 srt s = .ok b ∧ iqr srt s = .ok i ∧
      q25 srt t = .ok a' ∧ q50 srt t = .ok m' ∧ q75 srt t = .ok b' ∧ iqr srt t = .ok i' ∧
      |a.val - a'| ≤ d + 2 * (s.count + 2) * unit p * M ∧ |m.val - m'| ≤ d + 2 * (s.count + 2) * unit p * M ∧
      |b.val - b'| ≤ d + 2 * (s.count + 2) * unit p * M ∧ |i.val - i'| ≤ 2 * d + (4 * s.count + 10) * unit p * M := by
  have v1 := val_025 (R := R) hp
  have v2 := val_05 (R := R) hp
  have v3 := val_075 (R := R) hp
  have hl := h.scalars_length
  have hc : s.count = t.count := by rw [← h.scalars_length, ← h'.scalars_length, hd.length_eq]
  obtain ⟨a, m, b, i, ea, em, eb, ei, _, _, _, hi⟩ := C99_quartiles hp hs h h1 h0
  obtain ⟨a', m', b', fa, fm, fb, ga, gm, gb, gi, _⟩ := C47_quartiles hs h' h1' (by omega)
  obtain ⟨x, y, ex, ey, l1⟩ := C172_quantile hp hs h h' h1 h1' h0 hM hd (q := 0.25) (dbl_le (by rw [v1, Dbl.val_zero]; norm_num))
    (dbl_le (by rw [v1, Dbl.val_one]; norm_num))
  rw [v1, fa] at ey; cases ey
  rw [show quantile srt s 0.25 = _ from ea] at ex; cases ex
  obtain ⟨x, y, ex, ey, l2⟩ := C172_quantile hp hs h h' h1 h1' h0 hM hd (q := 0.5) (dbl_le (by rw [v2, Dbl.val_zero]; norm_num))
    (dbl_le (by rw [v2, Dbl.val_one]; norm_num))
  rw [v2, fm] at ey; cases ey
  rw [show quantile srt s 0.5 = _ from em] at ex; cases ex
  obtain ⟨x, y, ex, ey, l3⟩ := C172_quantile hp hs h h' h1 h1' h0 hM hd (q := 0.75) (dbl_le (by rw [v3, Dbl.val_zero]; norm_num))
    (dbl_le (by rw [v3, Dbl.val_one]; norm_num))
  rw [v3, fb] at ey; cases ey
  rw [show quantile srt s 0.75 = _ from eb] at ex; cases ex
  refine ⟨a, m, b, i, a', m', b', _, ea, em, eb, ei, ga, gm, gb, gi, l1, l2, l3, ?_⟩
  have hn := h.count_lt
  have hwf : WF (ofScalars ((scalars s).map Dbl.val)) := WF_ofScalars (by rw [List.length_map]; omega)
  have hsc : scalars (ofScalars ((scalars s).map Dbl.val)) = (scalars s).map Dbl.val := by simp [scalars, ofScalars]
  obtain ⟨x, _, ex, _, ma, _⟩ := quantile_near hp hs h hwf h1 rfl h0 hsc hM (q := 0.25) (dbl_le (by rw [v1, Dbl.val_zero]; norm_num))
    (dbl_le (by rw [v1, Dbl.val_one]; norm_num))
  rw [show quantile srt s 0.25 = _ from ea] at ex; cases ex
  obtain ⟨x, _, ex, _, mb, _⟩ := quantile_near hp hs h hwf h1 rfl h0 hsc hM (q := 0.75) (dbl_le (by rw [v3, Dbl.val_zero]; norm_num))
    (dbl_le (by rw [v3, Dbl.val_one]; norm_num))
  rw [show quantile srt s 0.75 = _ from eb] at ex; cases ex
  have e1 := R.error (b.val - a.val)
  rw [← hi] at e1
  have e2 : |b.val - a.val| ≤ 2 * M := (abs_sub _ _).trans (by linarith)
  have e3 := mul_le_mul_of_nonneg_left e2 (unit_pos (p := p)).le
  have e4 : i.val - (b' - a') = (i.val - (b.val - a.val)) + ((b.val - b') - (a.val - a')) := by ring
  rw [e4]
  have e5 := abs_add_le (i.val - (b.val - a.val)) ((b.val - b') - (a.val - a'))
  have e6 := abs_sub (b.val - b') (a.val - a')
  linarith

example (R : Rounding 53) := C172_quartiles (by decide) stdSort_exists.choose_spec (exC_WF R) exC_real_WF rfl rfl (of_decide_eq_true rfl)
  (exC_bound R) (exC_real R)

end DF
