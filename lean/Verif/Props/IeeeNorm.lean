import Verif.Props.Ieee

/-!
# Theorems on `normalize` with numbers of limited range

C120. See DESIGN.md. While no intermediate result leaves the range of the normal numbers, the computation is that of
Model/Float, whose theorems are carried over.
-/

namespace DF

open DF.Spec Rounding

variable {D : Machine}

namespace Machine

/-- The smallest normal number. -/
noncomputable def small (D : Machine) : ℝ := (2 : ℝ) ^ ((D.p : ℤ) - 1 + D.emin)

/-- The rounding of `D`, continued to small numbers without limit on the exponent. -/
noncomputable def rounding (D : Machine) (hp : 1 ≤ D.p) : Rounding D.p where
  fl x := open Classical in if D.small ≤ |x| then D.fl x else nearest D.p x
  rep x := by
    split
    · exact (D.rep x).toRep
    · exact nearest_rep x
  near x y hy := by
    split
    next hx =>
      obtain ⟨m, e, hm, rfl⟩ := hy
      by_cases he : D.emin ≤ e
      · exact D.near x _ ⟨m, e, hm, he, rfl⟩
      · have hs : RepMin D.p D.emin D.small := by
          refine ⟨2 ^ (D.p - 1), D.emin, ?_, le_rfl, ?_⟩
          · rw [abs_of_pos (by positivity)]
            exact pow_le_pow_right₀ (by norm_num) (by omega)
          · unfold small
            rw [zpow_add₀ (by norm_num)]
            congr 1
            push_cast
            rw [← zpow_natCast]
            congr 1
            omega
        have hy1 : |(m : ℝ) * (2 : ℝ) ^ e| ≤ D.small := by
          have h3 : (0 : ℝ) < (2 : ℝ) ^ e := zpow_pos (by norm_num) _
          rw [abs_mul, abs_of_pos h3]
          have hm' : |(m : ℝ)| ≤ (2 : ℝ) ^ D.p := by exact_mod_cast hm
          calc |(m : ℝ)| * (2 : ℝ) ^ e ≤ (2 : ℝ) ^ D.p * (2 : ℝ) ^ e := mul_le_mul_of_nonneg_right hm' h3.le
            _ = (2 : ℝ) ^ ((D.p : ℤ) + e) := by rw [zpow_add₀ (by norm_num), zpow_natCast]
            _ ≤ _ := zpow_le_zpow_right₀ (by norm_num) (by omega)
        rw [_root_.abs_le] at hy1
        rcases le_or_gt 0 x with h0 | h0
        · rw [abs_of_nonneg h0] at hx
          refine (D.near x _ hs).trans ?_
          rw [abs_of_nonpos (a := D.small - x) (by linarith), abs_of_nonpos (by linarith)]
          linarith
        · rw [abs_of_neg h0] at hx
          refine (D.near x _ hs.neg).trans ?_
          rw [abs_of_nonneg (a := -D.small - x) (by linarith), abs_of_nonneg (by linarith)]
          linarith
    · exact nearest_near hp x y hy

theorem rounding_fl (hp : 1 ≤ D.p) {z : ℝ} (hz : z = 0 ∨ D.small ≤ |z|) : (D.rounding hp).fl z = D.fl z := by
  rcases hz with rfl | hz
  · rw [D.fl_zero]
    exact (D.rounding hp).exact Rounding.zero_rep
  · exact if_pos hz

end Machine

namespace Rounding

variable {p : Nat} {R : Rounding p}

theorem between {a b z : ℝ} (ha : Representable p a) (hb : Representable p b) (h1 : a ≤ z) (h2 : z ≤ b) :
    a ≤ R.fl z ∧ R.fl z ≤ b := by
  have l1 := R.mono h1
  have l2 := R.mono h2
  rw [R.exact ha] at l1
  rw [R.exact hb] at l2
  exact ⟨l1, l2⟩

theorem pow2_rep (e : ℤ) : Representable p ((2 : ℝ) ^ e) := ⟨1, e, by simp [one_le_pow₀], by simp⟩

end Rounding

/-- The same number with and without limits. -/
def Same {R : Rounding D.p} (x : Ext (Num D)) (y : Dbl R) : Prop := IsFinite x ∧ real x = y.val

/-- The same number without limits. -/
noncomputable def toDbl (R : Rounding D.p) : Ext (Num D) → Dbl R
  | .fin x => ⟨x.val, x.rep.toRep⟩
  | _ => 0

theorem same_toDbl (R : Rounding D.p) {x : Ext (Num D)} (h : IsFinite x) : Same x (toDbl R x) := by
  obtain ⟨x, rfl⟩ := h
  exact ⟨⟨x, rfl⟩, rfl⟩

section

variable {hp : 1 ≤ D.p}

theorem same_ofReal {z : ℝ} (hz : z = 0 ∨ D.small ≤ |z|) (ht : |z| ≤ D.top) :
    Same (Ext.ofReal D z) (Dbl.round (D.rounding hp) z) := by
  have hf := Ext.finite_of_le ht
  refine ⟨hf, ?_⟩
  rw [Ext.real_ofReal hf]
  exact (D.rounding_fl hp hz).symm

theorem same_add {x y : Ext (Num D)} {x' y' : Dbl (D.rounding hp)} (hx : Same x x') (hy : Same y y')
    (hz : x'.val + y'.val = 0 ∨ D.small ≤ |x'.val + y'.val|) (ht : |x'.val + y'.val| ≤ D.top) : Same (x + y) (x' + y') := by
  obtain ⟨⟨x, rfl⟩, hx⟩ := hx
  obtain ⟨⟨y, rfl⟩, hy⟩ := hy
  have := same_ofReal (hp := hp) hz ht
  rw [← hx, ← hy] at this
  show Same (Ext.ofReal D (x.val + y.val)) (Dbl.round _ (x'.val + y'.val))
  rw [← hx, ← hy]
  exact this

theorem same_mul {x y : Ext (Num D)} {x' y' : Dbl (D.rounding hp)} (hx : Same x x') (hy : Same y y')
    (hz : x'.val * y'.val = 0 ∨ D.small ≤ |x'.val * y'.val|) (ht : |x'.val * y'.val| ≤ D.top) : Same (x * y) (x' * y') := by
  obtain ⟨⟨x, rfl⟩, hx⟩ := hx
  obtain ⟨⟨y, rfl⟩, hy⟩ := hy
  have := same_ofReal (hp := hp) hz ht
  rw [← hx, ← hy] at this
  show Same (Ext.ofReal D (x.val * y.val)) (Dbl.round _ (x'.val * y'.val))
  rw [← hx, ← hy]
  exact this

theorem same_div {x y : Ext (Num D)} {x' y' : Dbl (D.rounding hp)} (hx : Same x x') (hy : Same y y') (h0 : y'.val ≠ 0)
    (hz : x'.val / y'.val = 0 ∨ D.small ≤ |x'.val / y'.val|) (ht : |x'.val / y'.val| ≤ D.top) : Same (x / y) (x' / y') := by
  obtain ⟨⟨x, rfl⟩, hx⟩ := hx
  obtain ⟨⟨y, rfl⟩, hy⟩ := hy
  have := same_ofReal (hp := hp) hz ht
  rw [← hx, ← hy] at this
  rw [Ext.fin_div' (fun e => h0 (by rw [← hy, e]; rfl))]
  show Same (Ext.ofReal D (x.val / y.val)) (Dbl.round _ (x'.val / y'.val))
  rw [← hx, ← hy]
  exact this

theorem same_sqrt {x : Ext (Num D)} {x' : Dbl (D.rounding hp)} (hx : Same x x') (h0 : 0 ≤ x'.val)
    (hz : Real.sqrt x'.val = 0 ∨ D.small ≤ |Real.sqrt x'.val|) (ht : |Real.sqrt x'.val| ≤ D.top) :
    Same (Sqrt.sqrt x) (Sqrt.sqrt x') := by
  obtain ⟨⟨x, rfl⟩, hx⟩ := hx
  have := same_ofReal (hp := hp) hz ht
  have e : (Sqrt.sqrt (Ext.fin x) : Ext (Num D)) = Ext.ofReal D (Real.sqrt x.val) := if_neg (by
    show ¬ x.val < 0
    rw [show x.val = x'.val from hx]
    exact not_lt.2 h0)
  rw [e]
  show Same (Ext.ofReal D (Real.sqrt x.val)) (Dbl.round _ (Real.sqrt x'.val))
  rw [show x.val = x'.val from hx]
  exact this

end

section

variable (hD : IsDouble D) {hp : 1 ≤ D.p}

include hD

theorem small_le {e : ℤ} (h : -1022 ≤ e) : D.small ≤ (2 : ℝ) ^ e := by
  unfold Machine.small
  rw [hD.1, hD.2.1]
  exact zpow_le_zpow_right₀ (by norm_num) (by push_cast; omega)

theorem le_top {e : ℤ} (h : e ≤ 1023) : (2 : ℝ) ^ e ≤ D.top := by
  refine (zpow_le_zpow_right₀ (by norm_num) h).trans ?_
  exact_mod_cast Ext.top_large hD

omit hD in
theorem square_bounds {y : Dbl (D.rounding hp)}
    (h : y.val = 0 ∨ (2 : ℝ) ^ (-400 : ℤ) ≤ |y.val| ∧ |y.val| ≤ (2 : ℝ) ^ (400 : ℤ)) :
    (y.val * y.val = 0 ∨ (2 : ℝ) ^ (-800 : ℤ) ≤ y.val * y.val ∧ y.val * y.val ≤ (2 : ℝ) ^ (800 : ℤ)) ∧
    ((y * y).val = 0 ∨ (2 : ℝ) ^ (-800 : ℤ) ≤ (y * y).val ∧ (y * y).val ≤ (2 : ℝ) ^ (800 : ℤ)) := by
  rcases h with h | ⟨h1, h2⟩
  · refine ⟨.inl (by rw [h, mul_zero]), .inl ?_⟩
    rw [Dbl.val_mul, h, mul_zero]
    exact (D.rounding hp).exact Rounding.zero_rep
  · have e1 : (2 : ℝ) ^ (-800 : ℤ) = (2 : ℝ) ^ (-400 : ℤ) * (2 : ℝ) ^ (-400 : ℤ) := by rw [← zpow_add₀ (by norm_num)]; rfl
    have e2 : (2 : ℝ) ^ (800 : ℤ) = (2 : ℝ) ^ (400 : ℤ) * (2 : ℝ) ^ (400 : ℤ) := by rw [← zpow_add₀ (by norm_num)]; rfl
    have p1 : (0 : ℝ) < (2 : ℝ) ^ (-400 : ℤ) := zpow_pos (by norm_num) _
    have b : (2 : ℝ) ^ (-800 : ℤ) ≤ y.val * y.val ∧ y.val * y.val ≤ (2 : ℝ) ^ (800 : ℤ) := by
      rw [e1, e2, ← abs_mul_abs_self y.val]
      exact ⟨mul_le_mul h1 h1 p1.le (abs_nonneg _), mul_le_mul h2 h2 (abs_nonneg _) (le_trans (abs_nonneg _) h2)⟩
    exact ⟨.inr b, .inr (between (R := D.rounding hp) (pow2_rep _) (pow2_rep _) b.1 b.2)⟩

theorem same_fold : ∀ (l : List (Ext (Num D))) (acc : Ext (Num D)) (acc' : Dbl (D.rounding hp)) (i : Nat), Same acc acc' →
    (acc'.val = 0 ∨ (2 : ℝ) ^ (-800 : ℤ) ≤ acc'.val ∧ acc'.val ≤ i * (2 : ℝ) ^ (800 : ℤ)) → (∀ x ∈ l, Moderate x) →
    i + l.length ≤ 2 ^ 32 →
    Same (l.foldl (fun acc x => acc + x * x) acc) ((l.map (toDbl (D.rounding hp))).foldl (fun acc x => acc + x * x) acc') ∧
    (((l.map (toDbl (D.rounding hp))).foldl (fun acc x => acc + x * x) acc').val = 0 ∨
      (2 : ℝ) ^ (-800 : ℤ) ≤ ((l.map (toDbl (D.rounding hp))).foldl (fun acc x => acc + x * x) acc').val ∧
      ((l.map (toDbl (D.rounding hp))).foldl (fun acc x => acc + x * x) acc').val ≤ (2 : ℝ) ^ (832 : ℤ))
  | [], acc, acc', i, h, hb, _, hi => by
    refine ⟨h, hb.imp_right (fun hb => ⟨hb.1, hb.2.trans ?_⟩)⟩
    have : (i : ℝ) ≤ (2 : ℝ) ^ (32 : ℤ) := by exact_mod_cast (by simpa using hi : i ≤ 2 ^ 32)
    rw [show (832 : ℤ) = 32 + 800 from rfl, zpow_add₀ (by norm_num)]
    exact mul_le_mul_of_nonneg_right this (zpow_pos (by norm_num) _).le
  | x :: l, acc, acc', i, h, hb, hl, hi => by
    have hx := hl x (by simp)
    have hx' := same_toDbl (D.rounding hp) hx.1
    simp only [List.length_cons] at hi
    simp only [List.map_cons, List.foldl_cons]
    generalize toDbl (D.rounding hp) x = y at hx'
    have hy : y.val = 0 ∨ (2 : ℝ) ^ (-400 : ℤ) ≤ |y.val| ∧ |y.val| ≤ (2 : ℝ) ^ (400 : ℤ) := by
      have e : (2 : ℝ) ^ (-400 : ℤ) = 1 / 2 ^ 400 := by rw [zpow_neg, one_div, zpow_ofNat]
      rw [e, ← hx'.2, zpow_ofNat]
      exact hx.2
    obtain ⟨b1, b2⟩ := square_bounds hy
    have p800 : (0 : ℝ) < (2 : ℝ) ^ (-800 : ℤ) := zpow_pos (by norm_num) _
    have q800 : (0 : ℝ) < (2 : ℝ) ^ (800 : ℤ) := zpow_pos (by norm_num) _
    have hm : Same (x * x) (y * y) := by
      refine same_mul hx' hx' (b1.imp_right (fun b => ?_)) ?_
      · rw [abs_of_nonneg (by linarith)]
        exact (small_le hD (by norm_num)).trans b.1
      · rcases b1 with b | b
        · rw [b, abs_zero]; exact D.top_pos.le
        · rw [abs_of_nonneg (by linarith)]
          exact b.2.trans (le_top hD (by norm_num))
    have hs : acc'.val + (y * y).val = 0 ∨ (2 : ℝ) ^ (-800 : ℤ) ≤ acc'.val + (y * y).val ∧
        acc'.val + (y * y).val ≤ ((i + 1 : Nat) : ℝ) * (2 : ℝ) ^ (800 : ℤ) := by
      rw [Nat.cast_add_one, add_mul, one_mul]
      have hi0 : (0 : ℝ) ≤ i := by positivity
      have hi1 := mul_nonneg hi0 q800.le
      generalize (2 : ℝ) ^ (800 : ℤ) = P at hi1 q800 hb b2 ⊢
      rcases hb with hb | hb <;> rcases b2 with b2 | b2
      · left; rw [hb, b2, add_zero]
      · right; rw [hb, zero_add]; exact ⟨b2.1, by linarith⟩
      · right; rw [b2, add_zero]; exact ⟨hb.1, by linarith⟩
      · right; exact ⟨by linarith, by linarith⟩
    have hi1 : ((i + 1 : Nat) : ℝ) ≤ (2 : ℝ) ^ (32 : ℤ) := by exact_mod_cast (by omega : i + 1 ≤ 2 ^ 32)
    have hle : ((i + 1 : Nat) : ℝ) * (2 : ℝ) ^ (800 : ℤ) ≤ (2 : ℝ) ^ (832 : ℤ) := by
      rw [show (832 : ℤ) = 32 + 800 from rfl, zpow_add₀ (by norm_num)]
      exact mul_le_mul_of_nonneg_right hi1 q800.le
    refine same_fold l _ _ (i + 1) (same_add h hm (hs.imp_right (fun b => ?_)) ?_) ?_ (fun z hz => hl z (by simp [hz])) (by omega)
    · rw [abs_of_nonneg (by linarith)]
      exact (small_le hD (by norm_num)).trans b.1
    · rcases hs with b | b
      · rw [b, abs_zero]; exact D.top_pos.le
      · rw [abs_of_nonneg (by linarith)]
        exact (b.2.trans hle).trans (le_top hD (by norm_num))
    · rw [Dbl.val_add]
      rcases hs with b | b
      · left; rw [b]; exact (D.rounding hp).exact Rounding.zero_rep
      · right
        refine between (pow2_rep _) ⟨((i + 1 : Nat) : ℤ), 800, ?_, by push_cast; rfl⟩ b.1 b.2
        rw [hD.1, abs_of_nonneg (by positivity)]
        have : i + 1 ≤ 2 ^ 53 := le_trans (by omega : i + 1 ≤ 2 ^ 32) (by norm_num)
        exact_mod_cast this

theorem same_norm {v : List (Ext (Num D))} (hv : ∀ x ∈ v, Moderate x) (hn : v.length ≤ 2 ^ 32) (hnz : ∃ x ∈ v, real x ≠ 0)
    {S : Ext (Num D)} (hS : S = v.foldl (fun acc x => acc + x * x) 0) :
    (∀ y ∈ v.map (· * (1 / Sqrt.sqrt S)), IsFinite y) ∧ IsFinite (1 / Sqrt.sqrt S) ∧ 0 < real (1 / Sqrt.sqrt S) ∧
    (1 - unit 53) ^ 4 ≤ dotL (reals (v.map (· * (1 / Sqrt.sqrt S)))) (reals (v.map (· * (1 / Sqrt.sqrt S)))) *
        (1 + unit 53) ^ (v.length + 3) ∧
    dotL (reals (v.map (· * (1 / Sqrt.sqrt S)))) (reals (v.map (· * (1 / Sqrt.sqrt S)))) *
        ((1 - unit 53) ^ 2 * (1 - growth 53 (v.length + 1))) ≤ (1 + unit 53) ^ 4 := by
  have hp : 1 ≤ D.p := by rw [hD.1]; norm_num
  set v' := v.map (toDbl (D.rounding hp)) with hv'
  obtain ⟨f1, f2⟩ := same_fold hD (hp := hp) v 0 0 0 ⟨⟨_, rfl⟩, rfl⟩ (.inl rfl) hv (by omega)
  rw [← hS, ← hv'] at f1
  rw [← hv'] at f2
  obtain ⟨g1, g2, g3, g4⟩ := norm_item (S := fun v => v.foldl (fun acc x => acc + x * x) 0) hp (v := v') (k := v.length) (by simp [hv'])
    (by
      obtain ⟨x, hx, hn⟩ := hnz
      refine ⟨_, List.mem_map.2 ⟨x, hx, rfl⟩, fun e => hn ?_⟩
      rw [(same_toDbl (D.rounding hp) (hv x hx).1).2, e]; rfl) rfl
  simp only at g1 g2 g3 g4
  generalize v'.foldl (fun acc x => acc + x * x) 0 = S' at f1 f2 g1 g2 g3 g4
  replace f2 := f2.resolve_left g1.ne'
  have hpos : ∀ e : ℤ, (0 : ℝ) < (2 : ℝ) ^ e := fun e => zpow_pos (by norm_num) _
  have q1 : (2 : ℝ) ^ (-400 : ℤ) ≤ Real.sqrt S'.val := Real.le_sqrt_of_sq_le (by
    rw [← zpow_natCast, ← zpow_mul]; exact f2.1)
  have q2 : Real.sqrt S'.val ≤ (2 : ℝ) ^ (416 : ℤ) := (Real.sqrt_le_left (hpos _).le).2 (by
    rw [← zpow_natCast, ← zpow_mul]; exact f2.2)
  have hq := Real.sqrt_nonneg S'.val
  have s1 : Same (Sqrt.sqrt S) (Sqrt.sqrt S') := same_sqrt f1 g1.le (.inr (by
    rw [abs_of_nonneg hq]; exact (small_le hD (by norm_num)).trans q1)) (by
    rw [abs_of_nonneg hq]; exact q2.trans (le_top hD (by norm_num)))
  obtain ⟨q3, q4⟩ := between (R := D.rounding hp) (pow2_rep _) (pow2_rep _) q1 q2
  rw [← Dbl.val_sqrt] at q3 q4
  have hT : 0 < (Sqrt.sqrt S').val := lt_of_lt_of_le (hpos _) q3
  have r1 : (2 : ℝ) ^ (-416 : ℤ) ≤ 1 / (Sqrt.sqrt S').val := by
    rw [le_div_iff₀ hT]
    calc (2 : ℝ) ^ (-416 : ℤ) * (Sqrt.sqrt S').val ≤ (2 : ℝ) ^ (-416 : ℤ) * (2 : ℝ) ^ (416 : ℤ) :=
          mul_le_mul_of_nonneg_left q4 (hpos _).le
      _ = 1 := by rw [← zpow_add₀ (by norm_num)]; norm_num
  have r2 : 1 / (Sqrt.sqrt S').val ≤ (2 : ℝ) ^ (400 : ℤ) := by
    rw [div_le_iff₀ hT]
    calc (1 : ℝ) = (2 : ℝ) ^ (400 : ℤ) * (2 : ℝ) ^ (-400 : ℤ) := by rw [← zpow_add₀ (by norm_num)]; norm_num
      _ ≤ _ := mul_le_mul_of_nonneg_left q3 (hpos _).le
  have hL0 : 0 ≤ 1 / (Sqrt.sqrt S').val := le_trans (hpos _).le r1
  have s2 : Same (1 / Sqrt.sqrt S) (1 / Sqrt.sqrt S') := same_div ⟨⟨1, rfl⟩, rfl⟩ s1 hT.ne' (.inr (by
    rw [Dbl.val_one, abs_of_nonneg hL0]; exact (small_le hD (by norm_num)).trans r1)) (by
    rw [Dbl.val_one, abs_of_nonneg hL0]; exact r2.trans (le_top hD (by norm_num)))
  obtain ⟨r3, r4⟩ := between (R := D.rounding hp) (pow2_rep _) (pow2_rep _) r1 r2
  rw [← Dbl.val_one (R := D.rounding hp), ← Dbl.val_div] at r3 r4
  have s3 : ∀ x ∈ v, Same (x * (1 / Sqrt.sqrt S)) (toDbl (D.rounding hp) x * (1 / Sqrt.sqrt S')) := by
    intro x hx
    have hm := hv x hx
    have hx' := same_toDbl (D.rounding hp) hm.1
    have hy : (toDbl (D.rounding hp) x).val = 0 ∨ (2 : ℝ) ^ (-400 : ℤ) ≤ |(toDbl (D.rounding hp) x).val| ∧
        |(toDbl (D.rounding hp) x).val| ≤ (2 : ℝ) ^ (400 : ℤ) := by
      have e : (2 : ℝ) ^ (-400 : ℤ) = 1 / 2 ^ 400 := by rw [zpow_neg, one_div, zpow_ofNat]
      rw [e, ← hx'.2, zpow_ofNat]
      exact hm.2
    generalize toDbl (D.rounding hp) x = y at hx' hy ⊢
    generalize (1 / Sqrt.sqrt S' : Dbl (D.rounding hp)) = L at s2 r3 r4 ⊢
    have hL : 0 < L.val := lt_of_lt_of_le (hpos _) r3
    refine same_mul hx' s2 (hy.imp (fun h => by rw [h, zero_mul]) (fun h => ?_)) ?_
    · rw [abs_mul, abs_of_pos hL]
      refine (small_le hD (e := -816) (by norm_num)).trans ?_
      rw [show (-816 : ℤ) = -400 + -416 from rfl, zpow_add₀ (by norm_num)]
      exact mul_le_mul h.1 r3 (hpos _).le (abs_nonneg _)
    · rcases hy with h | h
      · rw [h, zero_mul, abs_zero]; exact D.top_pos.le
      · rw [abs_mul, abs_of_pos hL]
        refine le_trans ?_ (le_top hD (e := 800) (by norm_num))
        rw [show (800 : ℤ) = 400 + 400 from rfl, zpow_add₀ (by norm_num)]
        exact mul_le_mul h.2 r4 hL.le (hpos _).le
  have hreals : reals (v.map (· * (1 / Sqrt.sqrt S))) = vals (v'.map (· * (1 / Sqrt.sqrt S'))) := by
    simp only [reals, vals, hv', List.map_map]
    exact List.map_congr_left (fun x hx => (s3 x hx).2)
  rw [← hreals, hD.1] at g3 g4
  refine ⟨fun y hy => ?_, s2.1, by rw [s2.2]; exact g2, g3, g4⟩
  obtain ⟨x, hx, rfl⟩ := List.mem_map.1 hy
  exact (s3 x hx).1

end

/-- C120: if every number is zero or between `2^-400` and `2^400` in absolute value and no vector is zero, then
each vector is multiplied by one positive number, the results are finite, and the square of the new length is 1 up to
rounding, as in C91. -/
theorem C120_normalize_partial (hD : IsDouble D) {s : Serie (Ext (Num D))} (h : WF s) (h0 : 0 < s.count)
    (h1 : s.itemSize ≠ 1) (hm : ∀ v ∈ items s, ∀ x ∈ v, Moderate x) (hnz : ∀ v ∈ items s, ∃ x ∈ v, real x ≠ 0) :
    ∃ r, normalize s = .ok r ∧ WF r ∧ SameShape r s ∧ ItemWise (fun v w => (∀ y ∈ w, IsFinite y) ∧
      (∃ c, IsFinite c ∧ 0 < real c ∧ w = v.map (· * c)) ∧
      (1 - unit 53) ^ 4 ≤ dotL (reals w) (reals w) * (1 + unit 53) ^ (s.itemSize + 3) ∧
      dotL (reals w) (reals w) * ((1 - unit 53) ^ 2 * (1 - growth 53 (s.itemSize + 1))) ≤ (1 + unit 53) ^ 4) s r := by
  let S : List (Ext (Num D)) → Ext (Num D) := fun v => v.foldl (fun acc x => acc + x * x) 0
  have hf := ofItems_map_facts h (k := s.itemSize) (g := fun v => v.map (· * (1 / Sqrt.sqrt (S v)))) h.pos le_rfl
    (fun v hv => by simpa using hv)
  refine ⟨_, ?_, hf.1, ⟨hf.2.1, hf.2.2.1⟩, ItemWise_map hf.2.2.2 (fun v hv => ?_)⟩
  · unfold normalize
    rw [h.valid, if_neg (by simp), if_neg h1]
    exact mapArr_items h h0 h.pos le_rfl (fun v hv => by simpa using hv) (fun v hv i => rfl)
  have hlen := h.item_length hv
  have hi := h.int
  obtain ⟨a1, a2, a3, a4, a5⟩ := same_norm hD (hm v hv) (by omega) (hnz v hv) (S := S v) rfl
  rw [hlen] at a4 a5
  exact ⟨a1, ⟨_, a2, a3, rfl⟩, a4, a5⟩

/-- C120 for vectors of 2 or 3 components: the squared lengths differ from 1 by at most `2^-49`. -/
theorem C120_normalize_double_partial (hD : IsDouble D) {s : Serie (Ext (Num D))} (h : WF s) (h0 : 0 < s.count)
    (h1 : s.itemSize = 2 ∨ s.itemSize = 3) (hm : ∀ v ∈ items s, ∀ x ∈ v, Moderate x)
    (hnz : ∀ v ∈ items s, ∃ x ∈ v, real x ≠ 0) :
    ∃ r, normalize s = .ok r ∧ WF r ∧ SameShape r s ∧
      ItemWise (fun _ w => (∀ y ∈ w, IsFinite y) ∧ |dotL (reals w) (reals w) - 1| ≤ 1 / 2 ^ 49) s r := by
  obtain ⟨r, h2, h3, h4, h5⟩ := C120_normalize_partial hD h h0 (by omega) hm hnz
  refine ⟨r, h2, h3, h4, ?_⟩
  unfold ItemWise at h5 ⊢
  refine h5.imp (fun v w => ?_)
  rintro ⟨hf, -, l1, l2⟩
  refine ⟨hf, ?_⟩
  have hu : unit 53 = 1 / 2 ^ 53 := by unfold unit; norm_num
  rw [_root_.abs_le]
  rcases h1 with h1 | h1
  · rw [h1] at l1 l2
    unfold growth at l2
    rw [hu] at l1 l2
    norm_num at l1 l2 ⊢
    constructor <;> linarith
  · rw [h1] at l1 l2
    unfold growth at l2
    rw [hu] at l1 l2
    norm_num at l1 l2 ⊢
    constructor <;> linarith

/-- A vector Series for the examples: (1, 0) and (0, 1). -/
def unitVectors (D : Machine) : Serie (Ext (Num D)) := ⟨[.fin 1, .fin 0, .fin 0, .fin 1], 2, 2, 3⟩

theorem unitVectors_WF : WF (unitVectors D) :=
  ⟨of_decide_eq_true rfl, of_decide_eq_true rfl, of_decide_eq_true rfl, of_decide_eq_true rfl⟩

theorem unitVectors_items : items (unitVectors D) = [[.fin 1, .fin 0], [.fin 0, .fin 1]] := rfl

theorem moderate_zero : Moderate (.fin 0 : Ext (Num D)) := ⟨⟨_, rfl⟩, .inl rfl⟩
theorem moderate_one : Moderate (.fin 1 : Ext (Num D)) := ⟨⟨_, rfl⟩, .inr (by
  show 1 / 2 ^ 400 ≤ |(1 : ℝ)| ∧ |(1 : ℝ)| ≤ 2 ^ 400
  rw [abs_one]
  have : (1 : ℝ) ≤ 2 ^ 400 := one_le_pow₀ (by norm_num)
  exact ⟨div_le_one_of_le₀ this (by positivity), this⟩)⟩

theorem unitVectors_moderate : ∀ v ∈ items (unitVectors D), ∀ x ∈ v, Moderate x := by
  rw [unitVectors_items]
  simp [moderate_zero, moderate_one]

theorem unitVectors_ne : ∀ v ∈ items (unitVectors D), ∃ x ∈ v, real x ≠ 0 := by
  rw [unitVectors_items]
  have : real (.fin 1 : Ext (Num D)) ≠ 0 := one_ne_zero (α := ℝ)
  simp [this]

example := C120_normalize_partial binary64_isDouble (unitVectors_WF (D := binary64)) (of_decide_eq_true rfl)
  (of_decide_eq_true rfl) unitVectors_moderate unitVectors_ne

example := C120_normalize_double_partial binary64_isDouble (unitVectors_WF (D := binary64)) (of_decide_eq_true rfl)
  (of_decide_eq_true rfl) unitVectors_moderate unitVectors_ne

theorem normalize_pair (a b : Ext (Num D)) : normalize (⟨[a, b], 1, 2, 3⟩ : Serie (Ext (Num D))) =
    .ok ⟨[a * (1 / Sqrt.sqrt (0 + a * a + b * b)), b * (1 / Sqrt.sqrt (0 + a * a + b * b))], 1, 2, 3⟩ := by
  have h : WF (⟨[a, b], 1, 2, 3⟩ : Serie (Ext (Num D))) :=
    ⟨of_decide_eq_true rfl, of_decide_eq_true rfl, of_decide_eq_true rfl, of_decide_eq_true rfl⟩
  unfold normalize
  rw [h.valid, if_neg (by simp), if_neg (by simp)]
  exact mapArr_items h (by norm_num) (by norm_num : 0 < 2) le_rfl
    (g := fun v => v.map (· * (1 / Sqrt.sqrt (v.foldl (fun acc x => acc + x * x) 0)))) (fun v hv => by simpa using hv) (fun v hv i => rfl)

/-- C120: without that restriction the claim is violated: the vector `(2^600, 0)`, of length `2^600`, normalizes to the zero
vector. -/
theorem C120_large_violated (hD : IsDouble D) : ∃ s : Serie (Ext (Num D)), ∃ x : Num D, WF s ∧ x.val = 2 ^ 600 ∧
    items s = [[.fin x, .fin 0]] ∧ ∃ r, normalize s = .ok r ∧ items r = [[.fin 0, .fin 0]] := by
  generalize hx : power hD 600 (by norm_num) (by norm_num) = x
  have hxv : x.val = (2 : ℝ) ^ (600 : ℤ) := by rw [← hx]; rfl
  have e1 : (.fin x * .fin x : Ext (Num D)) = .pinf := by
    rw [Ext.fin_mul', hxv, ← zpow_add₀ (by norm_num)]
    exact Ext.ofReal_power hD (by norm_num)
  have e2 : (.fin 0 * .fin 0 : Ext (Num D)) = .fin 0 := by
    rw [Ext.fin_mul', show (0 : Num D).val * (0 : Num D).val = (0 : Num D).val from mul_zero _, Ext.ofReal_val]
  have e3 : ∀ y : Num D, (.fin y * .fin 0 : Ext (Num D)) = .fin 0 := fun y => by
    rw [Ext.fin_mul', show y.val * (0 : Num D).val = (0 : Num D).val from mul_zero _, Ext.ofReal_val]
  refine ⟨⟨[.fin x, .fin 0], 1, 2, 3⟩, x, ⟨of_decide_eq_true rfl, of_decide_eq_true rfl, of_decide_eq_true rfl,
    of_decide_eq_true rfl⟩, by rw [hxv, zpow_ofNat], rfl, _, normalize_pair _ _, ?_⟩
  rw [e1, e2]
  show [[Ext.fin x * Ext.fin 0, Ext.fin 0 * Ext.fin 0]] = _
  rw [e3, e3]

example := C120_large_violated binary64_isDouble

/-- The number `2^-1200` is rounded to zero. -/
theorem ofReal_tiny (hD : IsDouble D) : Ext.ofReal D ((2 : ℝ) ^ (-1200 : ℤ)) = .fin 0 := by
  have hfl : D.fl ((2 : ℝ) ^ (-1200 : ℤ)) = 0 := by
    by_contra hne
    have h1 := D.near ((2 : ℝ) ^ (-1200 : ℤ)) 0 (Num.rep (D := D) 0)
    obtain ⟨k, hk⟩ := (D.rep ((2 : ℝ) ^ (-1200 : ℤ))).onGrid
    rw [hk, hD.2.1] at hne h1
    have p0 : (0 : ℝ) < (2 : ℝ) ^ (-1200 : ℤ) := zpow_pos (by norm_num) _
    have p1 : (0 : ℝ) < (2 : ℝ) ^ (-1074 : ℤ) := zpow_pos (by norm_num) _
    have p2 : 4 * (2 : ℝ) ^ (-1200 : ℤ) ≤ (2 : ℝ) ^ (-1074 : ℤ) := by
      rw [show (4 : ℝ) = (2 : ℝ) ^ (2 : ℤ) by norm_num, ← zpow_add₀ (by norm_num)]
      exact zpow_le_zpow_right₀ (by norm_num) (by norm_num)
    have hk0 : (1 : ℝ) ≤ |(k : ℝ)| := by
      have : k ≠ 0 := by rintro rfl; simp at hne
      exact_mod_cast Int.one_le_abs this
    rw [zero_sub, abs_neg, abs_of_pos p0] at h1
    have h2 := abs_sub_abs_le_abs_sub ((k : ℝ) * (2 : ℝ) ^ (-1074 : ℤ)) ((2 : ℝ) ^ (-1200 : ℤ))
    rw [abs_mul, abs_of_pos p1, abs_of_pos p0] at h2
    nlinarith
  rw [Ext.ofReal_fin (by rw [hfl, abs_zero]; exact D.top_pos.le)]
  congr 1
  exact Num.val_injective hfl

/-- C120: the vector `(2^-600, 0)` normalizes to an infinity and a NaN. -/
theorem C120_small_violated (hD : IsDouble D) : ∃ s : Serie (Ext (Num D)), ∃ x : Num D, WF s ∧ x.val = 1 / 2 ^ 600 ∧
    items s = [[.fin x, .fin 0]] ∧ ∃ r, normalize s = .ok r ∧ items r = [[.pinf, .nan]] := by
  generalize hx : power hD (-600) (by norm_num) (by norm_num) = x
  have hxv : x.val = (2 : ℝ) ^ (-600 : ℤ) := by rw [← hx]; rfl
  have e0 := ofReal_tiny hD
  have e1 : (.fin x * .fin x : Ext (Num D)) = .fin 0 := by
    rw [Ext.fin_mul', hxv, ← zpow_add₀ (by norm_num)]
    exact e0
  have e2 : (.fin 0 * .fin 0 : Ext (Num D)) = .fin 0 := by
    rw [Ext.fin_mul', show (0 : Num D).val * (0 : Num D).val = (0 : Num D).val from mul_zero _, Ext.ofReal_val]
  have e4 : (Sqrt.sqrt (.fin 0) : Ext (Num D)) = .fin 0 := by
    show (if (0 : Num D) < 0 then Ext.nan else Ext.ofReal D (Real.sqrt (0 : Num D).val)) = _
    rw [if_neg (lt_irrefl _), show Real.sqrt (0 : Num D).val = (0 : Num D).val from Real.sqrt_zero, Ext.ofReal_val]
  have e5 : ((1 : Ext (Num D)) / .fin 0) = .pinf := by
    show (if (0 : Num D) = 0 then Ext.infTimes (1 : Num D) else _) = _
    rw [if_pos rfl]
    unfold Ext.infTimes
    rw [if_pos (show (0 : Num D) < 1 from one_pos (α := ℝ))]
  refine ⟨⟨[.fin x, .fin 0], 1, 2, 3⟩, x, ⟨of_decide_eq_true rfl, of_decide_eq_true rfl, of_decide_eq_true rfl,
    of_decide_eq_true rfl⟩, by rw [hxv, zpow_neg, one_div, zpow_ofNat], rfl, _, normalize_pair _ _, ?_⟩
  rw [e1, e2, Ext.zero_plus, show (Ext.fin 0 + Ext.fin 0 : Ext (Num D)) = .fin 0 from Ext.zero_plus 0, e4, e5]
  show [[Ext.infTimes x, Ext.infTimes (0 : Num D)]] = _
  unfold Ext.infTimes
  rw [if_pos (show 0 < x from show (0 : ℝ) < x.val by rw [hxv]; exact zpow_pos (by norm_num) _)]
  simp

example := C120_small_violated binary64_isDouble

end DF
