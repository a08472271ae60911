import Verif.Props.QuantileRange

/-!
# bins in double, with overflow and underflow (C174)

The numbers are `Ext (Num D)` (Model/Ieee, Model/IeeeTrunc); for `IsDouble D` they are the values of `double`.
-/

namespace DF

open Spec

variable {D : Machine}

/-! ## Helpers -/

/-- The bin the code puts `v` into. -/
noncomputable def binIdxE (nb : Nat) (start size v : Ext (Num D)) : Nat := min ⌊real ((v - start) / size)⌋.toNat (nb - 1)

theorem binOne_range {nb : Nat} (hnb : 0 < nb) {start v : Ext (Num D)} {size : Num D} (hs : size ≠ 0) (hf : IsFinite ((v - start) / .fin size))
    (h0 : 0 ≤ real ((v - start) / .fin size)) (h1 : real ((v - start) / .fin size) < 2 ^ 32) {b : List (Ext (Num D))} (hb : b.length = nb) :
    binOne nb start (.fin size) v b = (.ok (), b.modify (binIdxE nb start (.fin size) v) (· + 1)) := by
  have hne : ¬ ((Ext.fin size : Ext (Num D)) == 0) = true := by
    rw [Ext.beq_iff]; rintro ⟨hc, _⟩; exact hs (Ext.fin.inj hc)
  unfold binOne
  rw [if_neg hne]
  have ht : Trunc.toU32 ((v - start) / .fin size) = .ok ⌊real ((v - start) / .fin size)⌋.toNat := by
    obtain ⟨y, hy⟩ := hf
    rw [hy] at h0 h1 ⊢
    exact toU32_of h0 h1
  rw [ht, Eff.lift_ok, pure_bind]
  have hidx : (if ⌊real ((v - start) / .fin size)⌋.toNat ≥ nb then nb - 1 else ⌊real ((v - start) / .fin size)⌋.toNat) =
      binIdxE nb start (.fin size) v := by
    unfold binIdxE; split <;> omega
  have hlt : binIdxE nb start (.fin size) v < nb := by unfold binIdxE; omega
  simp only [hidx]
  rw [if_neg (by omega)]
  apply Eff.update_ok
  rw [rd_of_lt (by omega), Res.ok_bind, wr_of_lt (by omega), List.modify_eq_set_getElem?,
    List.getElem?_eq_getElem (by omega)]
  rfl

/-- Counting is exact. -/
theorem foldl_modify_range (hD : IsDouble D) {γ : Type} {idx : γ → Nat} : ∀ (l : List γ) (b : List (Ext (Num D))) (i c : Nat) (x : Num D),
    b[i]? = some (.fin x) → x.val = c → c + l.length ≤ 2 ^ 32 → ∃ y : Num D, (l.foldl (fun b v => b.modify (idx v) (· + 1)) b)[i]? = some (.fin y) ∧
      y.val = ((c + l.countP (fun v => idx v = i) : Nat) : ℝ)
  | [], b, i, c, x, hb, hx, _ => ⟨x, hb, by simpa using hx⟩
  | v :: l, b, i, c, x, hb, hx, hc => by
    rw [List.length_cons] at hc
    rw [List.foldl_cons]
    by_cases hi : idx v = i
    · obtain ⟨z, ez, vz⟩ := ofReal_nat hD (n := c + 1) (by omega)
      have e : (Ext.fin x + 1 : Ext (Num D)) = .fin z := by
        show Ext.ofReal D (x.val + 1) = _
        rw [hx, ← ez]; push_cast; rfl
      obtain ⟨y, h1, h2⟩ := foldl_modify_range hD (idx := idx) l (b.modify (idx v) (· + 1)) i (c + 1) z
        (by rw [List.getElem?_modify, hb]; simp [hi, e]) vz (by omega)
      refine ⟨y, h1, ?_⟩
      rw [h2, List.countP_cons_of_pos (by simpa using hi)]
      push_cast; ring
    · obtain ⟨y, h1, h2⟩ := foldl_modify_range hD (idx := idx) l (b.modify (idx v) (· + 1)) i c x
        (by rw [List.getElem?_modify, hb]; simp [hi]) hx (by omega)
      exact ⟨y, h1, by rw [h2, List.countP_cons_of_neg (by simpa using hi)]⟩

/-- What `bins` computes. -/
theorem binsIn_range (hD : IsDouble D) {s : Serie (Ext (Num D))} (h : WF s) (h1 : s.itemSize = 1) {nb : Nat} (hnb : 0 < nb)
    (hnb' : nb < 2 ^ 32) {start stop : Ext (Num D)} {size : Num D} (hsize : (stop - start) / (nb : Ext (Num D)) = .fin size) (hs : size ≠ 0)
    (hv : ∀ v ∈ scalars s, IsFinite ((v - start) / .fin size) ∧ 0 ≤ real ((v - start) / .fin size) ∧ real ((v - start) / .fin size) < 2 ^ 32) :
    ∃ b : List (Ext (Num D)), binsIn s nb start stop = .ok (ofScalars b) ∧ b.length = nb ∧
      ∀ i, i < nb → ∃ y : Num D, b[i]? = some (.fin y) ∧
        y.val = (((scalars s).countP (fun v => binIdxE nb start (.fin size) v = i) : Nat) : ℝ) := by
  unfold binsIn
  rw [if_neg (by simpa using h1), if_neg (by omega), hsize]
  obtain ⟨e1, e2⟩ := exec_forEachS (σ := List (Ext (Num D))) h h1 (f := fun v _ => binOne nb start (.fin size) v)
    (step := fun b v => b.modify (binIdxE nb start (.fin size) v) (· + 1)) (Inv := fun b => b.length = nb)
    (st := List.replicate nb 0) (by simp) (by
      intro v hv' i b hb
      exact ⟨binOne_range hnb hs (hv v hv').1 (hv v hv').2.1 (hv v hv').2.2 hb, by simp [hb]⟩)
  simp only [e1, Res.ok_bind]
  refine ⟨_, ofArray_one (by omega), e2, ?_⟩
  intro i hi
  have hlt := h.count_lt
  obtain ⟨y, hy1, hy2⟩ := foldl_modify_range hD (idx := binIdxE nb start (.fin size)) (scalars s) (List.replicate nb (0 : Ext (Num D))) i 0 0
    (by simp [hi]; rfl) (by rw [Nat.cast_zero]; rfl) (by rw [h.scalars_length]; omega)
  exact ⟨y, hy1, by rw [hy2, Nat.zero_add]⟩

/-- The four roundings of an index. -/
theorem bins_rounding {u t L F x n S Q N : ℝ} (hu0 : 0 < u) (hu : u ≤ 1 / 100) (ht : t ≤ u) (hL : 0 < L) (hN : 1 ≤ N) (hx0 : 0 ≤ x) (hxL : x ≤ L)
    (hF : |F - L| ≤ u * L) (hn : |n - x| ≤ u * x) (hS : |S - F / N| ≤ 2 * u * (F / N)) (hQ : |Q - n / S| ≤ u * |n / S| + t) :
    0 < S ∧ |Q * (L / N) - x| ≤ 8 * u * L := by
  have hN0 : 0 < N := by linarith
  rw [abs_le] at hF hn hS
  have hF0 : 0 < F := by nlinarith
  have hW : 0 < L / N := div_pos hL hN0
  have f1 : L / N * (1 - u) ≤ F / N := by
    rw [div_mul_eq_mul_div]
    exact div_le_div_of_nonneg_right (by linarith) hN0.le
  have f2 : F / N ≤ L / N * (1 + u) := by
    rw [div_mul_eq_mul_div]
    exact div_le_div_of_nonneg_right (by linarith) hN0.le
  have hWL : L / N ≤ L := div_le_self hL.le hN
  generalize F / N = G at *
  generalize L / N = W at *
  have s1 : W * (1 - u) * (1 - 2 * u) ≤ S := by
    have : W * (1 - u) * (1 - 2 * u) ≤ G * (1 - 2 * u) := mul_le_mul_of_nonneg_right f1 (by linarith)
    linarith
  have s2 : S ≤ W * (1 + u) * (1 + 2 * u) := by
    have : G * (1 + 2 * u) ≤ W * (1 + u) * (1 + 2 * u) := mul_le_mul_of_nonneg_right f2 (by linarith)
    linarith
  have hS0 : 0 < S := lt_of_lt_of_le (mul_pos (mul_pos hW (by linarith)) (by linarith)) s1
  refine ⟨hS0, ?_⟩
  have hn0 : 0 ≤ n := by nlinarith
  have hq0 : 0 ≤ n / S := div_nonneg hn0 hS0.le
  rw [abs_of_nonneg hq0] at hQ
  have eT : n / S * S = n := div_mul_cancel₀ _ hS0.ne'
  generalize n / S = T at *
  -- the exact quotient
  have t1 : T * W ≤ x * (1 + 5 * u) := by
    have a1 : T * (W * (1 - u) * (1 - 2 * u)) ≤ x * (1 + u) := by
      have := mul_le_mul_of_nonneg_left s1 hq0
      linarith
    have a2 : (1 : ℝ) + u ≤ (1 + 5 * u) * ((1 - u) * (1 - 2 * u)) := by nlinarith [mul_pos hu0 hu0]
    have a3 : x * (1 + u) ≤ x * ((1 + 5 * u) * ((1 - u) * (1 - 2 * u))) := mul_le_mul_of_nonneg_left a2 hx0
    have a4 : T * W * ((1 - u) * (1 - 2 * u)) ≤ x * (1 + 5 * u) * ((1 - u) * (1 - 2 * u)) := by linarith
    exact le_of_mul_le_mul_right a4 (mul_pos (by linarith) (by linarith))
  have t2 : x * (1 - 5 * u) ≤ T * W := by
    have a1 : x * (1 - u) ≤ T * (W * (1 + u) * (1 + 2 * u)) := by
      have := mul_le_mul_of_nonneg_left s2 hq0
      linarith
    have a2 : (1 - 5 * u) * ((1 + u) * (1 + 2 * u)) ≤ (1 : ℝ) - u := by nlinarith [mul_pos hu0 hu0, mul_pos (mul_pos hu0 hu0) hu0]
    have a3 : x * ((1 - 5 * u) * ((1 + u) * (1 + 2 * u))) ≤ x * (1 - u) := mul_le_mul_of_nonneg_left a2 hx0
    have a4 : x * (1 - 5 * u) * ((1 + u) * (1 + 2 * u)) ≤ T * W * ((1 + u) * (1 + 2 * u)) := by linarith
    exact le_of_mul_le_mul_right a4 (mul_pos (by linarith) (by linarith))
  have hQW : |Q * W - T * W| ≤ (u * T + t) * W := by
    rw [← sub_mul, abs_mul, abs_of_pos hW]
    exact mul_le_mul_of_nonneg_right hQ hW.le
  have tW : t * W ≤ u * L := (mul_le_mul_of_nonneg_right ht hW.le).trans (mul_le_mul_of_nonneg_left hWL hu0.le)
  have uT : u * (T * W) ≤ u * (x * (1 + 5 * u)) := mul_le_mul_of_nonneg_left t1 hu0.le
  have ux : u * x ≤ u * L := mul_le_mul_of_nonneg_left hxL hu0.le
  have uux : u * (u * x) ≤ 1 / 100 * (u * L) := mul_le_mul hu ux (by positivity) (by norm_num)
  rw [abs_le] at hQW ⊢
  constructor <;> nlinarith

theorem tiny_width (hD : IsDouble D) {F N : ℝ} (hF : (2 : ℝ) ^ (-981 : ℤ) ≤ F) (hN : 0 < N) (hN' : N ≤ 2 ^ 32) : tiny D ≤ ulp D * (F / N) := by
  have e1 : tiny D = (2 : ℝ) ^ (-1075 : ℤ) := by
    unfold tiny
    rw [hD.2.1, div_eq_mul_inv, ← zpow_neg_one, ← zpow_add₀ (by norm_num)]
    norm_num
  have e2 : ulp D = (2 : ℝ) ^ (-53 : ℤ) := by
    unfold ulp unit
    rw [hD.1, inv_pow, zpow_neg]
    norm_cast
  have h3 : (2 : ℝ) ^ (-1013 : ℤ) ≤ F / N := by
    rw [le_div_iff₀ hN]
    refine le_trans ?_ hF
    calc (2 : ℝ) ^ (-1013 : ℤ) * N ≤ (2 : ℝ) ^ (-1013 : ℤ) * (2 : ℝ) ^ (32 : ℤ) :=
          mul_le_mul_of_nonneg_left (by exact_mod_cast hN') (by positivity)
      _ = _ := by rw [← zpow_add₀ (by norm_num)]; rfl
  rw [e1, e2]
  calc (2 : ℝ) ^ (-1075 : ℤ) ≤ (2 : ℝ) ^ (-1066 : ℤ) := zpow_le_zpow_right₀ (by norm_num) (by norm_num)
    _ = (2 : ℝ) ^ (-53 : ℤ) * (2 : ℝ) ^ (-1013 : ℤ) := by rw [← zpow_add₀ (by norm_num)]; rfl
    _ ≤ _ := mul_le_mul_of_nonneg_left h3 (by positivity)

/-- The width of the bins and the quotients. -/
theorem bins_range_arith (hD : IsDouble D) {nb : Nat} (hnb : 0 < nb) (hnb' : nb < 2 ^ 32) {a b : Num D}
    (hlo : (2 : ℝ) ^ (-980 : ℤ) ≤ b.val - a.val) (hhi : b.val - a.val ≤ D.top) :
    ∃ size : Num D, ((.fin b - .fin a) / (nb : Ext (Num D)) : Ext (Num D)) = .fin size ∧ 0 < size.val ∧
      ∀ v : Num D, a.val ≤ v.val → v.val ≤ b.val → IsFinite ((.fin v - .fin a) / .fin size : Ext (Num D)) ∧
        real ((.fin v - .fin a) / .fin size : Ext (Num D)) = D.fl (D.fl (v.val - a.val) / size.val) ∧
        0 ≤ D.fl (D.fl (v.val - a.val) / size.val) ∧ D.fl (D.fl (v.val - a.val) / size.val) ≤ nb * (1 + 8 * ulp D) ∧
        |D.fl (D.fl (v.val - a.val) / size.val) * ((b.val - a.val) / nb) - (v.val - a.val)| ≤ 8 * ulp D * (b.val - a.val) := by
  have hu : ulp D = 1 / 2 ^ 53 := by unfold ulp unit; rw [hD.1]; norm_num
  have hu0 : 0 < ulp D := unit_pos (p := D.p)
  have hu1 : ulp D ≤ 1 / 100 := by rw [hu]; norm_num
  have ht0 := D.tiny_pos
  have ht : tiny D ≤ ulp D := by have := (ulp_tiny hD).2; linarith
  have hL : 0 < b.val - a.val := lt_of_lt_of_le (by positivity) hlo
  have hN0 : (0 : ℝ) < nb := Nat.cast_pos.2 hnb
  have hN1 : (1 : ℝ) ≤ nb := by exact_mod_cast hnb
  have hN32 : (nb : ℝ) ≤ 2 ^ 32 := by exact_mod_cast hnb'.le
  have hbig : (2 : ℝ) ^ 34 ≤ D.top := (pow_le_pow_right₀ (by norm_num) (by norm_num)).trans (Ext.top_large hD)
  -- the width
  have gF : |D.fl (b.val - a.val) - (b.val - a.val)| ≤ ulp D * (b.val - a.val) := by
    have := D.grid_error (b.rep.onGrid.sub a.rep.onGrid)
    rwa [abs_of_pos hL] at this
  have hlF : |b.val - a.val| ≤ D.top := by rw [abs_of_pos hL]; exact hhi
  have hFt : |D.fl (b.val - a.val)| ≤ D.top := D.abs_fl_le D.top_rep hlF
  have hF1 : (2 : ℝ) ^ (-981 : ℤ) ≤ D.fl (b.val - a.val) := by
    have e : (2 : ℝ) ^ (-980 : ℤ) = 2 * (2 : ℝ) ^ (-981 : ℤ) := by rw [← zpow_one_add₀ (by norm_num)]; rfl
    rw [e] at hlo
    have := (abs_le.1 gF).1
    have := mul_le_mul_of_nonneg_right hu1 hL.le
    linarith
  have eF : (.fin b - .fin a : Ext (Num D)) = .fin ⟨D.fl (b.val - a.val), D.rep _, hFt⟩ := by
    rw [Ext.fin_sub', Ext.ofReal_of_le hlF]
  obtain ⟨c, ec, vc⟩ := ofReal_nat hD (n := nb) hnb'.le
  have hc0 : c ≠ 0 := fun h => by
    have : c.val = 0 := by rw [h]; rfl
    rw [vc] at this
    exact hN0.ne' this
  have hF0 : 0 < D.fl (b.val - a.val) := lt_of_lt_of_le (by positivity) hF1
  have gS : |D.fl (D.fl (b.val - a.val) / nb) - D.fl (b.val - a.val) / nb| ≤ 2 * ulp D * (D.fl (b.val - a.val) / nb) := by
    have h1 := D.error (D.fl (b.val - a.val) / nb)
    have h2 := tiny_width hD hF1 hN0 hN32
    rw [abs_of_pos (div_pos hF0 hN0)] at h1
    linarith
  have hlS : |D.fl (b.val - a.val) / nb| ≤ D.top := by
    rw [abs_div, abs_of_pos hN0]
    exact (div_le_self (abs_nonneg _) hN1).trans hFt
  obtain ⟨size, es, vs⟩ : ∃ size : Num D, ((.fin b - .fin a) / (nb : Ext (Num D)) : Ext (Num D)) = .fin size ∧
      size.val = D.fl (D.fl (b.val - a.val) / nb) := by
    refine ⟨⟨D.fl (D.fl (b.val - a.val) / nb), D.rep _, D.abs_fl_le D.top_rep hlS⟩, ?_, rfl⟩
    rw [eF]
    show (Ext.fin _ / Ext.ofReal D (nb : ℝ) : Ext (Num D)) = _
    rw [ec, Ext.fin_div' hc0, vc, Ext.ofReal_of_le hlS]
  rw [← vs] at gS
  have hS0 : 0 < size.val := (bins_rounding (x := 0) (n := 0) (Q := 0) (t := 0) hu0 hu1 hu0.le hL hN1 le_rfl hL.le gF (by simp) gS (by simp)).1
  have hs0 : size ≠ 0 := fun h => by
    rw [h] at hS0
    exact lt_irrefl (0 : ℝ) hS0
  refine ⟨size, es, hS0, fun v hv1 hv2 => ?_⟩
  have hx0 : 0 ≤ v.val - a.val := by linarith
  have hxL : v.val - a.val ≤ b.val - a.val := by linarith
  have gn : |D.fl (v.val - a.val) - (v.val - a.val)| ≤ ulp D * (v.val - a.val) := by
    have := D.grid_error (v.rep.onGrid.sub a.rep.onGrid)
    rwa [abs_of_nonneg hx0] at this
  have hln : |v.val - a.val| ≤ D.top := by rw [abs_of_nonneg hx0]; linarith
  have hn0 : 0 ≤ D.fl (v.val - a.val) := by have := D.fl_mono hx0; rwa [D.fl_zero] at this
  have upper : ∀ {Q : ℝ}, |Q * ((b.val - a.val) / nb) - (v.val - a.val)| ≤ 8 * ulp D * (b.val - a.val) → Q ≤ nb * (1 + 8 * ulp D) := by
    intro Q h
    have h1 := (abs_le.1 h).2
    have h2 : Q * ((b.val - a.val) / nb) ≤ nb * (1 + 8 * ulp D) * ((b.val - a.val) / nb) := by
      have : nb * (1 + 8 * ulp D) * ((b.val - a.val) / nb) = (1 + 8 * ulp D) * (b.val - a.val) := by field_simp
      rw [this]; linarith
    exact le_of_mul_le_mul_right h2 (div_pos hL hN0)
  have hT := (bins_rounding (x := v.val - a.val) (n := D.fl (v.val - a.val)) (Q := D.fl (v.val - a.val) / size.val) (t := 0) hu0 hu1 hu0.le hL hN1 hx0 hxL gF gn gS (by
    rw [sub_self, abs_zero, add_zero]; positivity)).2
  have hQ := (bins_rounding (x := v.val - a.val) (n := D.fl (v.val - a.val)) (Q := D.fl (D.fl (v.val - a.val) / size.val)) hu0 hu1 ht hL hN1 hx0 hxL gF gn gS (D.error _)).2
  have hT0 : 0 ≤ D.fl (v.val - a.val) / size.val := div_nonneg hn0 hS0.le
  have hTt : |D.fl (v.val - a.val) / size.val| ≤ D.top := by
    rw [abs_of_nonneg hT0]
    refine (upper hT).trans (le_trans ?_ hbig)
    rw [hu]
    calc (nb : ℝ) * (1 + 8 * (1 / 2 ^ 53)) ≤ 2 ^ 32 * 2 := mul_le_mul hN32 (by norm_num) (by norm_num) (by norm_num)
      _ ≤ _ := by norm_num
  have eq : ((.fin v - .fin a) / .fin size : Ext (Num D)) = .fin ⟨D.fl (D.fl (v.val - a.val) / size.val), D.rep _, D.abs_fl_le D.top_rep hTt⟩ := by
    rw [Ext.fin_sub', Ext.ofReal_of_le hln, Ext.fin_div' hs0, Ext.ofReal_of_le hTt]
  refine ⟨⟨_, eq⟩, by rw [eq]; rfl, ?_, upper hQ, hQ⟩
  have := D.fl_mono hT0; rwa [D.fl_zero] at this

/-! ## C174 -/

/-- C174: for doubles between `start` and `stop`, whose difference is at least 2^-980 and does not overflow: `bins` gives `nb` exact
counts, whose total is the number of values; each value is counted in one bin, larger values never in an earlier bin, `start` in the
first, `stop` in the last; and a value counted in bin `i` lies in `[start + i w, start + (i + 1) w]`, `w = (stop - start) / nb`, up to
`8 u (stop - start)` (the last bin has no upper bound here). -/
theorem C174_bins_partial (hD : IsDouble D) {s : Serie (Ext (Num D))} (h : WF s) (h1 : s.itemSize = 1) {nb : Nat} (hnb : 0 < nb)
    (hnb' : nb < 2 ^ 32) {start stop : Num D} (hlo : (2 : ℝ) ^ (-980 : ℤ) ≤ stop.val - start.val) (hhi : stop.val - start.val ≤ D.top)
    (hv : ∀ v ∈ scalars s, IsFinite v ∧ start.val ≤ real v ∧ real v ≤ stop.val) :
    ∃ (r : Serie (Ext (Num D))) (bin : Ext (Num D) → Nat), binsIn s nb (.fin start) (.fin stop) = .ok r ∧ WF r ∧ r.itemSize = 1 ∧ r.count = nb ∧
      (∀ v, bin v < nb) ∧ (∀ x ∈ scalars r, IsFinite x) ∧
      (∀ i, i < nb → ((scalars r).map real)[i]? = some (((scalars s).countP (fun v => bin v = i) : Nat) : ℝ)) ∧
      ((scalars r).map real).sum = s.count ∧
      (∀ v ∈ scalars s, ∀ w ∈ scalars s, v ≤ w → bin v ≤ bin w) ∧
      bin (.fin start) = 0 ∧ bin (.fin stop) = nb - 1 ∧
      ∀ v ∈ scalars s, (bin v : ℝ) * ((stop.val - start.val) / nb) ≤ real v - start.val + 8 * ulp D * (stop.val - start.val) ∧
        (bin v + 1 < nb →
          real v - start.val ≤ ((bin v : ℝ) + 1) * ((stop.val - start.val) / nb) + 8 * ulp D * (stop.val - start.val)) := by
  obtain ⟨size, es, hs0, hq⟩ := bins_range_arith hD hnb hnb' hlo hhi
  have hu : ulp D = 1 / 2 ^ 53 := by unfold ulp unit; rw [hD.1]; norm_num
  have hL : 0 < stop.val - start.val := lt_of_lt_of_le (by positivity) hlo
  have hss : start.val ≤ stop.val := by linarith
  have hN0 : (0 : ℝ) < nb := Nat.cast_pos.2 hnb
  have hW : 0 < (stop.val - start.val) / nb := div_pos hL hN0
  have hnb1 : (nb : ℝ) ≤ 2 ^ 32 - 1 := by
    have : nb ≤ 2 ^ 32 - 1 := by omega
    have : (nb : ℝ) ≤ ((2 ^ 32 - 1 : Nat) : ℝ) := Nat.cast_le.2 this
    norm_num at this ⊢
    exact this
  have hs : size ≠ 0 := fun h => by
    rw [h] at hs0
    exact lt_irrefl (0 : ℝ) hs0
  obtain ⟨b, e1, e2, e3⟩ := binsIn_range hD h h1 hnb hnb' es hs (fun v hv' => by
    obtain ⟨⟨v, rfl⟩, l, r⟩ := hv v hv'
    obtain ⟨f, e, q0, q1, _⟩ := hq v l r
    rw [e]
    refine ⟨f, q0, lt_of_le_of_lt q1 ?_⟩
    rw [hu]
    calc (nb : ℝ) * (1 + 8 * (1 / 2 ^ 53)) ≤ (2 ^ 32 - 1) * (1 + 8 * (1 / 2 ^ 53)) := mul_le_mul_of_nonneg_right hnb1 (by norm_num)
      _ < _ := by norm_num)
  have hlt : ∀ v, binIdxE nb (.fin start) (.fin size) v < nb := fun v => by unfold binIdxE; omega
  have hent : ∀ i, i < nb → (b.map real)[i]? = some (((scalars s).countP (fun v => binIdxE nb (.fin start) (.fin size) v = i) : Nat) : ℝ) := by
    intro i hi
    obtain ⟨y, hy1, hy2⟩ := e3 i hi
    rw [List.getElem?_map, hy1, Option.map_some]
    exact congrArg some hy2
  refine ⟨_, binIdxE nb (.fin start) (.fin size), e1, WF_ofScalars (by omega), rfl, by simpa [ofScalars] using e2, hlt, ?_, ?_, ?_, ?_, ?_, ?_, ?_⟩
  · rw [scalars_ofScalars]
    intro x hx
    obtain ⟨i, hi, rfl⟩ := List.getElem_of_mem hx
    obtain ⟨y, hy, _⟩ := e3 i (by omega)
    rw [List.getElem?_eq_getElem hi] at hy
    exact ⟨y, Option.some.inj hy⟩
  · rw [scalars_ofScalars]; exact hent
  · rw [scalars_ofScalars]
    obtain ⟨f1, f2, f3⟩ := foldl_modify_facts (α := ℝ) (nb := nb) (idx := binIdxE nb (.fin start) (.fin size)) hlt (scalars s)
      (List.replicate nb 0) (by simp)
    have : b.map real = (scalars s).foldl (fun b v => b.modify (binIdxE nb (.fin start) (.fin size) v) (· + 1)) (List.replicate nb (0 : ℝ)) := by
      apply List.ext_getElem?
      intro i
      by_cases hi : i < nb
      · rw [hent i hi, f3 i 0 (by simp [hi]), zero_add]
      · rw [List.getElem?_eq_none (by simp [e2]; omega), List.getElem?_eq_none (by omega)]
    rw [this, f2, h.scalars_length]; simp
  · intro v hv' w hw' hvw
    obtain ⟨⟨v, rfl⟩, l, r⟩ := hv v hv'
    obtain ⟨⟨w, rfl⟩, l', r'⟩ := hv w hw'
    have hvw' : v.val ≤ w.val := hvw
    have hm : real ((.fin v - .fin start) / .fin size : Ext (Num D)) ≤ real ((.fin w - .fin start) / .fin size : Ext (Num D)) := by
      rw [(hq v l r).2.1, (hq w l' r').2.1]
      exact D.fl_mono (div_le_div_of_nonneg_right (D.fl_mono (by linarith)) hs0.le)
    have := Int.floor_le_floor hm
    unfold binIdxE
    omega
  · have := (hq start le_rfl hss).2.1
    rw [sub_self, D.fl_zero, zero_div, D.fl_zero] at this
    unfold binIdxE
    rw [this]; simp
  · obtain ⟨_, e, _, _, hloc⟩ := hq stop hss le_rfl
    have h4 : ((nb - 1 : Nat) : ℝ) ≤ real ((.fin stop - .fin start) / .fin size : Ext (Num D)) := by
      rw [e]
      have h6 := (abs_le.1 hloc).1
      have h7 : ((nb : ℝ) * (1 - 8 * ulp D)) * ((stop.val - start.val) / nb) = (1 - 8 * ulp D) * (stop.val - start.val) := by field_simp
      have h8 : ((nb : ℝ) * (1 - 8 * ulp D)) * ((stop.val - start.val) / nb) ≤
          D.fl (D.fl (stop.val - start.val) / size.val) * ((stop.val - start.val) / nb) := by rw [h7]; linarith
      have h9 := le_of_mul_le_mul_right h8 hW
      rw [Nat.cast_sub (by omega), Nat.cast_one]
      refine le_trans ?_ h9
      rw [hu]
      linarith
    have h5 : ((nb - 1 : Nat) : ℤ) ≤ ⌊real ((.fin stop - .fin start) / .fin size : Ext (Num D))⌋ := by
      rw [Int.le_floor]; exact_mod_cast h4
    unfold binIdxE
    omega
  · intro v hv'
    obtain ⟨⟨v, rfl⟩, l, r⟩ := hv v hv'
    obtain ⟨_, e, q0, _, hloc⟩ := hq v l r
    rw [← e] at q0 hloc
    have hf0 : 0 ≤ ⌊real ((.fin v - .fin start) / .fin size : Ext (Num D))⌋ := Int.floor_nonneg.2 q0
    have hloc := abs_le.1 hloc
    constructor
    · have h5 : (binIdxE nb (.fin start) (.fin size) (.fin v) : ℝ) ≤ real ((.fin v - .fin start) / .fin size : Ext (Num D)) := by
        refine le_trans ?_ (Int.floor_le _)
        have : (binIdxE nb (.fin start) (.fin size) (.fin v) : ℤ) ≤ ⌊real ((.fin v - .fin start) / .fin size : Ext (Num D))⌋ := by
          unfold binIdxE; omega
        exact_mod_cast this
      have := mul_le_mul_of_nonneg_right h5 hW.le
      show _ ≤ v.val - start.val + _
      linarith [hloc.2]
    · intro hl
      have h5 : real ((.fin v - .fin start) / .fin size : Ext (Num D)) ≤ (binIdxE nb (.fin start) (.fin size) (.fin v) : ℝ) + 1 := by
        refine (Int.lt_floor_add_one _).le.trans ?_
        have : ⌊real ((.fin v - .fin start) / .fin size : Ext (Num D))⌋ + 1 ≤ (binIdxE nb (.fin start) (.fin size) (.fin v) : ℤ) + 1 := by
          unfold binIdxE at hl ⊢; omega
        exact_mod_cast this
      have := mul_le_mul_of_nonneg_right h5 hW.le
      show v.val - start.val ≤ _
      linarith [hloc.1]

/-- For the examples: 1 and 2^1020 in the range from 0 to 2^1022. -/
theorem exVast_range : ∀ v ∈ scalars exVast, IsFinite v ∧ (0 : Num binary64).val ≤ real v ∧
    real v ≤ (power binary64_isDouble 1022 (by norm_num) (by norm_num)).val := by
  unfold exVast
  rw [scalars_ofScalars]
  intro x hx
  simp only [List.mem_cons, List.not_mem_nil, or_false] at hx
  rcases hx with rfl | rfl
  · exact ⟨⟨_, rfl⟩, show (0 : ℝ) ≤ (2 : ℝ) ^ (0 : ℤ) by positivity,
      show (2 : ℝ) ^ (0 : ℤ) ≤ (2 : ℝ) ^ (1022 : ℤ) from zpow_le_zpow_right₀ (by norm_num) (by norm_num)⟩
  · exact ⟨⟨_, rfl⟩, show (0 : ℝ) ≤ (2 : ℝ) ^ (1020 : ℤ) by positivity,
      show (2 : ℝ) ^ (1020 : ℤ) ≤ (2 : ℝ) ^ (1022 : ℤ) from zpow_le_zpow_right₀ (by norm_num) (by norm_num)⟩

example := C174_bins_partial binary64_isDouble exVast_WF rfl (nb := 7) (by norm_num) (by norm_num) (start := 0)
  (stop := power binary64_isDouble 1022 (by norm_num) (by norm_num))
  (show (2 : ℝ) ^ (-980 : ℤ) ≤ (2 : ℝ) ^ (1022 : ℤ) - 0 by rw [sub_zero]; exact zpow_le_zpow_right₀ (by norm_num) (by norm_num))
  (show (2 : ℝ) ^ (1022 : ℤ) - 0 ≤ binary64.top by
    rw [sub_zero]
    refine le_trans ?_ (Ext.top_large binary64_isDouble)
    rw [← zpow_natCast]
    exact zpow_le_zpow_right₀ (by norm_num) (by norm_num)) exVast_range

/-- C174 for `bins(s, nb)`: when two values differ by 2^-980 at least and no difference overflows, the smallest is in the first bin and
the largest in the last, and the total is the number of values. -/
theorem C174_bins_range_partial (hD : IsDouble D) {s : Serie (Ext (Num D))} (h : WF s) (h1 : s.itemSize = 1) {nb : Nat} (hnb : 0 < nb)
    (hnb' : nb < 2 ^ 32) (hf : ∀ x ∈ scalars s, IsFinite x) (hlo : ∃ x ∈ scalars s, ∃ y ∈ scalars s, (2 : ℝ) ^ (-980 : ℤ) ≤ real y - real x)
    (hhi : ∀ x ∈ scalars s, ∀ y ∈ scalars s, real y - real x ≤ D.top) :
    ∃ (a b : Num D) (r : Serie (Ext (Num D))) (bin : Ext (Num D) → Nat), .fin a ∈ scalars s ∧ .fin b ∈ scalars s ∧
      (∀ x ∈ scalars s, a.val ≤ real x ∧ real x ≤ b.val) ∧ bins s nb = .ok r ∧ r.count = nb ∧ (∀ v, bin v < nb) ∧
      (∀ i, i < nb → ((scalars r).map real)[i]? = some (((scalars s).countP (fun v => bin v = i) : Nat) : ℝ)) ∧
      ((scalars r).map real).sum = s.count ∧ bin (.fin a) = 0 ∧ bin (.fin b) = nb - 1 ∧
      (∀ v ∈ scalars s, ∀ w ∈ scalars s, v ≤ w → bin v ≤ bin w) := by
  obtain ⟨x, hx, y, hy, hxy⟩ := hlo
  have hmem : ∀ z : Num D, z ∈ finites (scalars s) ↔ .fin z ∈ scalars s := fun z => by
    unfold finites
    rw [List.mem_filterMap]
    constructor
    · rintro ⟨w, hw, e⟩
      cases w with
      | fin w => cases e; exact hw
      | _ => cases e
    · exact fun hz => ⟨_, hz, rfl⟩
  obtain ⟨x, rfl⟩ := hf x hx
  obtain ⟨a, b, hm, ha, hb⟩ := C94_minMax_scalar h h1 (fun x hx => by obtain ⟨z, rfl⟩ := hf x hx; exact ⟨nofun, nofun⟩)
    (List.ne_nil_of_mem ((hmem x).2 hx)) (fun z _ => ⟨(abs_le.1 z.le).1, (abs_le.1 z.le).2⟩)
  have hall : ∀ x ∈ scalars s, IsFinite x ∧ a.val ≤ real x ∧ real x ≤ b.val := by
    intro x hx
    obtain ⟨z, rfl⟩ := hf x hx
    exact ⟨⟨z, rfl⟩, ha.2 z ((hmem z).2 hx), hb.2 z ((hmem z).2 hx)⟩
  have hA := (hmem a).1 ha.1
  have hB := (hmem b).1 hb.1
  obtain ⟨r, bin, e1, _, _, e4, e5, _, e6, e7, e8, e9, e10, _⟩ := C174_bins_partial hD h h1 hnb hnb' (start := a) (stop := b)
    (hxy.trans (sub_le_sub (hall y hy).2.2 (hall _ hx).2.1)) (hhi _ hA _ hB) hall
  refine ⟨a, b, r, bin, hA, hB, fun x hx => (hall x hx).2, ?_, e4, e5, e6, e7, e9, e10, e8⟩
  unfold bins
  rw [hm]
  exact e1

example := C174_bins_range_partial binary64_isDouble exVast_WF rfl (nb := 7) (by norm_num) (by norm_num) (fun x hx => (exVast_le x hx).1)
  ⟨_, List.mem_cons_self, _, List.mem_cons_of_mem _ List.mem_cons_self, by
    show (2 : ℝ) ^ (-980 : ℤ) ≤ (2 : ℝ) ^ (1020 : ℤ) - (2 : ℝ) ^ (0 : ℤ)
    have h1 : (2 : ℝ) ^ (-980 : ℤ) ≤ (2 : ℝ) ^ (0 : ℤ) := zpow_le_zpow_right₀ (by norm_num) (by norm_num)
    have h2 : (2 : ℝ) ^ (1 : ℤ) ≤ (2 : ℝ) ^ (1020 : ℤ) := zpow_le_zpow_right₀ (by norm_num) (by norm_num)
    rw [zpow_one] at h2
    rw [zpow_zero] at h1 ⊢
    generalize (2 : ℝ) ^ (1020 : ℤ) = m at *
    generalize (2 : ℝ) ^ (-980 : ℤ) = n at *
    linarith⟩
  (fun x hx y hy => by
    have h1 := (exVast_le x hx).2
    have h2 := (exVast_le y hy).2
    have h3 := exVast_top
    have h4 : (0 : ℝ) < (2 : ℝ) ^ (1020 : ℤ) := by positivity
    generalize (2 : ℝ) ^ (1020 : ℤ) = m at *
    linarith [(abs_le.1 h1).1, (abs_le.1 h2).2])

/-- One call with a result that is undefined. -/
theorem binsIn_range_ub {x start stop : Ext (Num D)} {nb : Nat} (hnb : 0 < nb)
    (h : (if ((stop - start) / (nb : Ext (Num D)) : Ext (Num D)) == 0 then .ub
      else Trunc.toU32 ((x - start) / ((stop - start) / (nb : Ext (Num D)))) : Res Nat) = .ub) :
    binsIn (ofScalars [x]) nb start stop = .ub := by
  have hb : ∀ b, binOne nb start ((stop - start) / (nb : Ext (Num D))) x b = (.ub, b) := by
    intro b
    unfold binOne
    rw [h]
    rfl
  unfold binsIn
  rw [if_neg (by simp [ofScalars]), if_neg (by omega)]
  have he : Eff.exec (forEachS (fun v _ => binOne nb start ((stop - start) / (nb : Ext (Num D))) v) (ofScalars [x])) (List.replicate nb 0) = .ub := by
    unfold Eff.exec forEachS
    rw [if_neg (by simp [ofScalars]), forLoop_unit _ (scalars (ofScalars [x])) (ofScalars [x]).count rfl (getD_hyp (WF_ofScalars (by simp)))]
    have h3 : callAll (fun v (_ : Nat) => binOne nb start ((stop - start) / (nb : Ext (Num D))) v) (scalars (ofScalars [x])) 0 (List.replicate nb 0) =
        (.ub, List.replicate nb 0) := by
      rw [scalars_ofScalars, callAll_cons]
      exact Eff.bind_ub (hb _)
    have := Eff.bind_ub (f := fun _ => (pure () : Eff (List (Ext (Num D))) Unit)) h3
    rw [this]
  simp only [he]
  rfl

/-- C174 is violated for a smaller difference: three bins from 0 to the smallest positive double have the width 0, and the index is
undefined. -/
theorem C174_small_violated (hD : IsDouble D) : ∃ stop : Num D, 0 < stop.val ∧
    binsIn (ofScalars [0] : Serie (Ext (Num D))) 3 0 (.fin stop) = .ub := by
  have ht : 0 < (2 : ℝ) ^ (-1074 : ℤ) := by positivity
  refine ⟨power hD (-1074) le_rfl (by norm_num), ht, binsIn_range_ub (by norm_num) (if_pos ?_)⟩
  obtain ⟨c, ec, vc⟩ := ofReal_nat hD (n := 3) (by norm_num)
  have hc0 : c ≠ 0 := fun h => by
    have : c.val = 0 := by rw [h]; rfl
    rw [vc] at this
    norm_num at this
  have e1 : (.fin (power hD (-1074) le_rfl (by norm_num)) - 0 : Ext (Num D)) = .fin (power hD (-1074) le_rfl (by norm_num)) := by
    show Ext.ofReal D ((power hD (-1074) le_rfl (by norm_num) : Num D).val - 0) = _
    generalize power hD (-1074) le_rfl (by norm_num) = b
    rw [sub_zero, Ext.ofReal_of_le b.le]
    congr 1
    exact Num.val_injective (D.exact b.rep)
  have e2 : D.fl ((2 : ℝ) ^ (-1074 : ℤ) / 3) = 0 := by
    have h1 := D.near ((2 : ℝ) ^ (-1074 : ℤ) / 3) 0 (Num.rep (D := D) 0)
    obtain ⟨m, hm⟩ := (D.rep ((2 : ℝ) ^ (-1074 : ℤ) / 3)).onGrid
    rw [hD.2.1] at hm
    rw [hm] at h1 ⊢
    generalize (2 : ℝ) ^ (-1074 : ℤ) = t at *
    rw [zero_sub, abs_neg, abs_of_pos (by linarith : 0 < t / 3), abs_le] at h1
    have m1 : (m : ℝ) < 1 := by
      by_contra hc
      have := mul_le_mul_of_nonneg_right (not_lt.1 hc) ht.le
      linarith [h1.2]
    have m2 : (-1 : ℝ) < m := by
      by_contra hc
      have := mul_le_mul_of_nonneg_right (not_lt.1 hc) ht.le
      linarith [h1.1]
    have m3 : m < 1 := by exact_mod_cast m1
    have m4 : -1 < m := by exact_mod_cast m2
    have : m = 0 := by omega
    rw [this]; simp
  rw [e1]
  show ((Ext.fin (power hD (-1074) le_rfl (by norm_num)) / Ext.ofReal D ((3 : Nat) : ℝ) : Ext (Num D)) == 0) = true
  rw [ec, Ext.fin_div' hc0, vc, Ext.beq_iff]
  show Ext.ofReal D ((2 : ℝ) ^ (-1074 : ℤ) / (3 : Nat)) = _ ∧ Ext.ofReal D ((2 : ℝ) ^ (-1074 : ℤ) / (3 : Nat)) ≠ _
  rw [Nat.cast_ofNat]
  have e3 : Ext.ofReal D ((2 : ℝ) ^ (-1074 : ℤ) / 3) = 0 := by
    have hl : |D.fl ((2 : ℝ) ^ (-1074 : ℤ) / 3)| ≤ D.top := by rw [e2, abs_zero]; exact D.top_pos.le
    rw [Ext.ofReal_fin hl]
    show _ = Ext.fin (0 : Num D)
    congr 1
    exact Num.val_injective e2
  rw [e3]
  exact ⟨rfl, fun hc => by cases hc⟩

/-- C174 is violated for a difference that overflows: the width is an infinity, and the index of `stop` is undefined. -/
theorem C174_large_violated (hD : IsDouble D) : ∃ stop : Num D, 0 < stop.val ∧
    ∀ nb, 0 < nb → nb < 2 ^ 32 → binsIn (ofScalars [.fin stop] : Serie (Ext (Num D))) nb (.fin (-stop)) (.fin stop) = .ub := by
  obtain ⟨b, hb⟩ : ∃ b : Num D, b.val = (2 : ℝ) ^ (1023 : ℤ) := ⟨power hD 1023 (by norm_num) le_rfl, rfl⟩
  refine ⟨b, by rw [hb]; positivity, fun nb hnb hnb' => binsIn_range_ub hnb ?_⟩
  have e1 : (.fin b - .fin (-b) : Ext (Num D)) = .pinf := by
    rw [Ext.fin_sub', show (-b).val = -b.val from rfl, sub_neg_eq_add, hb, ← two_mul, ← zpow_one_add₀ (by norm_num)]
    exact Ext.ofReal_power hD (by norm_num)
  obtain ⟨c, ec, vc⟩ := ofReal_nat hD (n := nb) hnb'.le
  have e2 : (.pinf / (nb : Ext (Num D)) : Ext (Num D)) = .pinf := by
    show (Ext.pinf / Ext.ofReal D (nb : ℝ) : Ext (Num D)) = _
    rw [ec]
    refine if_neg ?_
    show ¬ c.val < 0
    rw [vc]
    exact not_lt.2 (Nat.cast_nonneg _)
  rw [e1, e2]
  rfl

example := C174_large_violated binary64_isDouble
example := C174_small_violated binary64_isDouble

end DF
