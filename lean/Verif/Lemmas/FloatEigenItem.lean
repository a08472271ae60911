import Verif.Lemmas.FloatJacobi
import Verif.Lemmas.EigenSerie

/-! # The eigen system of one item in rounded arithmetic -/

namespace DF

open Spec Matrix

variable {p : Nat} {R : Rounding p} {ε : ℝ} {n : Nat}

/-! ## dimension 2 -/

/-- The whole iteration in dimension 2: at most one rotation. -/
theorem jacobiF2 [Trig (Dbl R)] (ht : AccurateTrig R ε) (hu : unit p ≤ ε) (hε : ε ≤ 1 / 2 ^ 40) {a : List (Dbl R)}
    (hl : a.length = 3) :
    ∃ st, jacobi 2 a = .ok st ∧ st.iter ≤ 1 ∧ st.a.length = 3 ∧ st.v.length = 4 ∧
      (∃ Q : Matrix (Fin 2) (Fin 2) ℝ, Q * Qᵀ = 1 ∧ frob (fm 2 st.v - Q) ≤ 65536 * ε * 2 ∧
        frob (cm2 st.a - Q * cm2 a * Qᵀ) ≤ 65536 * ε * frob (cm2 a)) ∧ num (st.a.map Dbl.val) 1 = 0 := by
  have hε0 : 0 ≤ ε := (unit_pos (p := p)).le.trans hu
  have hp := digits_of_unit (hu.trans hε)
  obtain ⟨a0, a1, a2, rfl⟩ := len3 hl
  have h1 : fm 2 ([1, 0, 0, 1] : List (Dbl R)) = 1 := by
    ext i j
    fin_cases i <;> fin_cases j <;> simp [fm, fullMatrix, num, Dbl.val_zero, Dbl.val_one]
  have nA := frob_nonneg (cm2 [a0, a1, a2])
  have hm : (List.range (2 * (2 + 1) / 2)).mapM (rd [a0, a1, a2]) = .ok [a0, a1, a2] := rfl
  unfold jacobi
  rw [hm, Res.ok_bind, norm2d, Res.ok_bind, id2]
  have hn : 0 + a1 * a1 = a1 * a1 := Dbl.ext (by
    rw [Dbl.val_add, Dbl.val_zero, zero_add]
    exact R.exact (a1 * a1).rep)
  rw [hn]
  have hsq : 0 ≤ (a1 * a1).val := R.nonneg (mul_self_nonneg a1.val)
  by_cases hc : a1 * a1 = 0
  · simp only [hc, ne_eq, not_true_eq_false, if_false]
    refine ⟨_, rfl, Nat.zero_le _, rfl, rfl, ⟨1, by simp, ?_, ?_⟩, ?_⟩
    · rw [h1, sub_self]
      simp only [frob, Matrix.zero_apply, ne_eq, OfNat.ofNat_ne_zero, not_false_eq_true, zero_pow, Finset.sum_const_zero,
        Real.sqrt_zero]
      positivity
    · rw [Matrix.one_mul, Matrix.transpose_one, Matrix.mul_one, sub_self]
      have : frob (0 : Matrix (Fin 2) (Fin 2) ℝ) = 0 := by simp [frob]
      rw [this]
      positivity
    · show a1.val = 0
      have h0 : R.fl (a1.val * a1.val) = 0 := congrArg Dbl.val hc
      have h2 := R.error (a1.val * a1.val)
      rw [h0, zero_sub, abs_neg, abs_mul_self] at h2
      have h3 : unit p ≤ 1 / 2 := (hu.trans hε).trans (by norm_num)
      have h4 : a1.val * a1.val = 0 := by nlinarith [mul_self_nonneg a1.val]
      exact mul_self_eq_zero.1 h4
  · have hpos : 0 < (a1 * a1).val := lt_of_le_of_ne hsq fun e => hc (Dbl.ext e.symm)
    simp only [ne_eq, hc, not_false_eq_true, if_true]
    obtain ⟨T1, T2⟩ := epsF hu hε hsq
    have hT : (a1 * a1) * (0.00001 : Dbl R) < a1 * a1 := by
      show ((a1 * a1) * (0.00001 : Dbl R)).val < (a1 * a1).val
      norm_num at T2
      linarith
    rw [jacobiLoop, if_pos hT, sweep2_raw]
    have key : jacobiStep 2 ((a1 * a1) / ((3 : Nat) : Dbl R)) 1 2 ⟨[a0, a1, a2], [1, 0, 0, 1], a1 * a1, 0 + 1⟩ = _ :=
      jacobiStep_raw (x := a1) (y := a0) (z := a2) rfl rfl rfl
    have hq : ¬ a1 * a1 < (a1 * a1) / ((3 : Nat) : Dbl R) := by
      refine not_lt.2 ?_
      show (a1 * a1 / ((3 : Nat) : Dbl R)).val ≤ (a1 * a1).val
      rw [Dbl.val_div, Dbl.val_cast (by
        calc 3 ≤ 2 ^ 40 := by norm_num
          _ ≤ 2 ^ p := Nat.pow_le_pow_right (by norm_num) hp)]
      refine le_of_le_of_eq (R.mono (y := (a1 * a1).val) ?_) (R.exact (a1 * a1).rep)
      push_cast
      linarith
    rw [key, if_neg hq, rot2, Res.ok_bind, Res.ok_bind]
    have hthr : absv (a1 * a1 - a1 * a1) = 0 := Dbl.ext (by
      rw [absv_dbl, Dbl.val_sub, sub_self, R.exact Rounding.zero_rep, abs_zero, Dbl.val_zero])
    rw [jacobiLoop, if_neg (by
      simp only [hthr]
      refine not_lt.2 ?_
      show (0 : ℝ) ≤ ((a1 * a1) * (0.00001 : Dbl R)).val
      norm_num at T1
      linarith)]
    obtain ⟨s0, c0, hsc, hs, hcc, hz⟩ := trig_facts ht hu hε a0 a2 a1
    obtain ⟨J, j1, j2, j3⟩ := rotF2 (v0 := 1) (v1 := 0) (v2 := 0) (v3 := 1) hu hε hsc hs hcc hz
    refine ⟨_, rfl, Nat.le_refl _, rfl, rfl, ⟨J, j1, ?_, ?_⟩, rfl⟩
    · rw [h1, Matrix.mul_one] at j3
      have h2 : frob (1 : Matrix (Fin 2) (Fin 2) ℝ) ≤ 2 := by
        have := frob_orth (n := 2) (Q := 1) (by simp)
        push_cast at this
        nlinarith [frob_nonneg (1 : Matrix (Fin 2) (Fin 2) ℝ)]
      refine j3.trans ?_
      have := mul_le_mul_of_nonneg_left h2 (by linarith : 0 ≤ 120 * ε)
      linarith
    · refine j2.trans (mul_le_mul_of_nonneg_right (by linarith) nA)

/-! ## from the matrices to the values and vectors -/

theorem frob_diag_le (a : Matrix (Fin n) (Fin n) ℝ) : frob (diagonal fun k => a k k) ≤ frob a := by
  refine Real.sqrt_le_sqrt (Finset.sum_le_sum fun i _ => Finset.sum_le_sum fun j _ => ?_)
  rw [Matrix.diagonal_apply]
  split
  · rename_i h; subst h; exact le_refl _
  · simp; positivity

theorem frob_offdiag (a : Matrix (Fin n) (Fin n) ℝ) :
    frob (a - diagonal fun k => a k k) = Real.sqrt (∑ k, ∑ j, if k = j then 0 else a k j ^ 2) := by
  unfold frob
  congr 1
  refine Finset.sum_congr rfl fun k _ => Finset.sum_congr rfl fun j _ => ?_
  rw [Matrix.sub_apply, Matrix.diagonal_apply]
  split
  · rename_i h; subst h; simp
  · simp

theorem frob_sub_le (A B : Matrix (Fin n) (Fin n) ℝ) : frob (A - B) ≤ frob A + frob B := by
  rw [sub_eq_add_neg, ← frob_neg B]
  exact frob_add_le _ _

/-- Nearly orthogonal, nearly the same trace, small residual. -/
theorem finishF {A a V Q : Matrix (Fin n) (Fin n) ℝ} {δ : ℝ} (hn : n ≤ 3) (hA : Aᵀ = A) (hδ0 : 0 ≤ δ) (hδ : δ ≤ 1 / 2)
    (hQ : Q * Qᵀ = 1) (hV : frob (V - Q) ≤ δ * 2) (ha : frob (a - Q * A * Qᵀ) ≤ δ * frob A) :
    (∀ k l, |∑ i, V k i * V l i - if k = l then 1 else 0| ≤ 8 * δ) ∧
    |∑ k, a k k - A.trace| ≤ 3 * δ * frob A ∧
    Real.sqrt (∑ k, ∑ i, (A.mulVec (V k) i - a k k * V k i) ^ 2) ≤
      Real.sqrt (∑ k, ∑ j, if k = j then 0 else a k j ^ 2) + 6 * δ * frob A := by
  have hQ' : Qᵀ * Q = 1 := mul_eq_one_comm.1 hQ
  have nA := frob_nonneg A
  have hnr : (n : ℝ) ≤ 3 := by exact_mod_cast hn
  have fQ : frob Q ≤ 2 := by
    have := frob_orth hQ
    nlinarith [frob_nonneg Q]
  have fV : frob V ≤ 3 := by
    have := frob_add_le (V - Q) Q
    rw [sub_add_cancel] at this
    linarith
  refine ⟨fun k l => ?_, ?_, ?_⟩
  · have e : ∑ i, V k i * V l i - (if k = l then 1 else 0) = (V * Vᵀ - Q * Qᵀ) k l := by
      rw [hQ, Matrix.sub_apply, Matrix.mul_apply, Matrix.one_apply]
      rfl
    have e2 : V * Vᵀ - Q * Qᵀ = (V - Q) * Vᵀ + Q * (V - Q)ᵀ := by
      rw [Matrix.transpose_sub, Matrix.sub_mul, Matrix.mul_sub]
      abel
    rw [e, e2]
    refine (entry_le _ k l).trans ((frob_add_le _ _).trans ?_)
    have h1 := frob_mul_le (V - Q) Vᵀ
    rw [frob_transpose] at h1
    have h2 := frob_rot_left (A := (V - Q)ᵀ) hQ
    rw [frob_transpose] at h2
    have h3 : frob (V - Q) * frob V ≤ (δ * 2) * 3 := mul_le_mul hV fV (frob_nonneg _) (by linarith)
    linarith
  · have e : ∑ k, a k k - A.trace = ∑ k, (a - Q * A * Qᵀ) k k := by
      rw [← trace_conj hQ (A := A) rfl, ← Finset.sum_sub_distrib]
      rfl
    rw [e]
    refine (Finset.abs_sum_le_sum_abs _ _).trans ?_
    refine (Finset.sum_le_sum fun k _ => (entry_le _ k k).trans ha).trans ?_
    rw [Finset.sum_const, Finset.card_univ, Fintype.card_fin, nsmul_eq_mul]
    have := mul_le_mul_of_nonneg_right hnr (mul_nonneg hδ0 nA)
    linarith
  · have e : ∀ k i, A.mulVec (V k) i - a k k * V k i = (V * A - (diagonal fun k => a k k) * V) k i := by
      intro k i
      rw [Matrix.sub_apply, Matrix.diagonal_mul, Matrix.mul_apply]
      congr 1
      show ∑ j, A i j * V k j = _
      refine Finset.sum_congr rfl fun j _ => ?_
      rw [mul_comm, show A i j = A j i from congrFun (congrFun hA j) i]
    simp only [e]
    show frob (V * A - (diagonal fun k => a k k) * V) ≤ _
    rw [← frob_offdiag]
    have hQA : Q * A = (Q * A * Qᵀ) * Q := by rw [Matrix.mul_assoc _ Qᵀ, hQ', Matrix.mul_one]
    have e2 : V * A - (diagonal fun k => a k k) * V = (a - diagonal fun k => a k k) * Q +
        ((V - Q) * A - ((a - Q * A * Qᵀ) * Q + (diagonal fun k => a k k) * (V - Q))) := by
      rw [Matrix.sub_mul, Matrix.sub_mul, Matrix.sub_mul, ← hQA, Matrix.mul_sub]
      abel
    have hr : ∀ B : Matrix (Fin n) (Fin n) ℝ, frob (B * Q) = frob B := fun B => by
      have := frob_rot_right (Q := Qᵀ) (A := B) (by rw [Matrix.transpose_transpose]; exact hQ')
      rwa [Matrix.transpose_transpose] at this
    have h1 := frob_add_le ((a - diagonal fun k => a k k) * Q)
      ((V - Q) * A - ((a - Q * A * Qᵀ) * Q + (diagonal fun k => a k k) * (V - Q)))
    have h2 := frob_sub_le ((V - Q) * A) ((a - Q * A * Qᵀ) * Q + (diagonal fun k => a k k) * (V - Q))
    have h3 := frob_add_le ((a - Q * A * Qᵀ) * Q) ((diagonal fun k => a k k) * (V - Q))
    have h4 := frob_mul_le (V - Q) A
    have h5 := frob_mul_le (diagonal fun k => a k k) (V - Q)
    rw [hr] at h1 h3
    have h6 := frob_diag_le a
    have h7 : frob a ≤ 3 / 2 * frob A := by
      have := frob_add_le (a - Q * A * Qᵀ) (Q * A * Qᵀ)
      rw [sub_add_cancel, frob_rot_right hQ, frob_rot_left hQ] at this
      nlinarith
    have h8 : frob (V - Q) * frob A ≤ δ * 2 * frob A := mul_le_mul_of_nonneg_right hV nA
    have h9 : frob (diagonal fun k => a k k) * frob (V - Q) ≤ (3 / 2 * frob A) * (δ * 2) :=
      mul_le_mul (h6.trans h7) hV (frob_nonneg _) (by linarith)
    rw [← e2] at h1
    linarith

/-! ## items -/

variable [Trig (Dbl R)]

/-- All that is proved of one item. -/
structure ItemFactsF (ε : ℝ) (n : Nat) (t e w : List (Dbl R)) : Prop where
  orth : NearlyOrthonormal n (w.map Dbl.val) (2 ^ 19 * ε)
  tr : |∑ k, vec n (e.map Dbl.val) k - (symMatrix n (t.map Dbl.val)).trace| ≤ 2 ^ 18 * ε * frob (symMatrix n (t.map Dbl.val))
  sorted : ∀ i j : Fin n, i ≤ j → vec n (e.map Dbl.val) j ≤ vec n (e.map Dbl.val) i
  res : Real.sqrt (residualSq (symMatrix n (t.map Dbl.val)) (e.map Dbl.val) (w.map Dbl.val)) ≤
    Real.sqrt (2 * (0.0000102 * offDiag (symMatrix n (t.map Dbl.val)))) + 2 ^ 19 * ε * frob (symMatrix n (t.map Dbl.val))
  res2 : n = 2 → Real.sqrt (residualSq (symMatrix n (t.map Dbl.val)) (e.map Dbl.val) (w.map Dbl.val)) ≤
    2 ^ 19 * ε * frob (symMatrix n (t.map Dbl.val))

/-- From the end of the iteration to the returned values and vectors. -/
theorem symmetricEigenF_finish (hε0 : 0 ≤ ε) (hε : ε ≤ 1 / 2 ^ 40) {mat : List (Dbl R)} {st : Jacobi (Dbl R)}
    (hj : jacobi n mat = .ok st) (hn : n ≤ 3)
    (hv : st.v.length = n * n) {A a Q : Matrix (Fin n) (Fin n) ℝ} (hA : Aᵀ = A) {d : Fin n → Dbl R}
    (hd : ∀ k : Fin n, rd st.a (k + k * (k + 1) / 2) = .ok (d k)) (hda : ∀ k, a k k = (d k).val)
    (hQ : Q * Qᵀ = 1) (hV : frob (fm n st.v - Q) ≤ 65536 * ε * 2) (ha : frob (a - Q * A * Qᵀ) ≤ 65536 * ε * frob A) :
    ∃ e w, symmetricEigen mat n = .ok (e, w) ∧ e.length = n ∧ w.length = n * n ∧
      NearlyOrthonormal n (w.map Dbl.val) (2 ^ 19 * ε) ∧
      |∑ k, vec n (e.map Dbl.val) k - A.trace| ≤ 2 ^ 18 * ε * frob A ∧
      (∀ i j : Fin n, i ≤ j → vec n (e.map Dbl.val) j ≤ vec n (e.map Dbl.val) i) ∧
      Real.sqrt (residualSq A (e.map Dbl.val) (w.map Dbl.val)) ≤
        Real.sqrt (∑ k, ∑ j, if k = j then 0 else a k j ^ 2) + 2 ^ 19 * ε * frob A := by
  obtain ⟨V, hVrd⟩ : ∃ V : Fin n → Fin n → Dbl R, ∀ k i : Fin n, rd st.v (k * n + i) = .ok (V k i) :=
    ⟨fun k i => st.v[(k : Nat) * n + i]'(by have := fits_index k.2 i.2; omega), fun k i => by
      have := fits_index k.2 i.2
      rw [rd_of_lt (by omega)]⟩
  have hVm : fm n st.v = fun k i => (V k i).val := by
    funext k i
    have h1 := fits_index k.2 i.2
    have h2 := hVrd k i
    rw [rd_of_lt (by omega)] at h2
    injection h2 with h2
    show num (st.v.map Dbl.val) ((k : Nat) * n + i) = _
    rw [num_eq (by simp; omega), List.getElem_map, h2]
  obtain ⟨σ, h1, h2⟩ := symmetricEigen_run hj (d := d) (V := V) hd hVrd
  rw [hVm] at hV
  have hδ : 65536 * ε ≤ 1 / 2 := by
    have := mul_le_mul_of_nonneg_left hε (by norm_num : (0 : ℝ) ≤ 65536)
    exact this.trans (by norm_num)
  obtain ⟨f1, f2, f3⟩ := finishF hn hA (by positivity) hδ hQ hV ha
  have hlen : ∀ v ∈ List.ofFn fun k => List.ofFn fun i => V (σ k) i, v.length = n := by
    intro v hv
    obtain ⟨j, rfl⟩ := List.mem_ofFn.1 hv
    simp
  have hwl : (List.ofFn fun k => List.ofFn fun i => V (σ k) i).flatten.length = n * n := by
    rw [flatten_length (k := n) hlen]
    simp
  have hw : fullMatrix n ((List.ofFn fun k => List.ofFn fun i => V (σ k) i).flatten.map Dbl.val) =
      fun k i => (V (σ k) i).val := by
    rw [List.map_flatten, List.map_ofFn]
    have := fullMatrix_rows (fun k i => (V (σ k) i).val)
    rw [← this]
    congr 3
    funext k
    simp only [Function.comp, List.map_ofFn]
    rfl
  have he : ∀ k : Fin n, num ((List.ofFn fun k => d (σ k)).map Dbl.val) k = a (σ k) (σ k) := fun k => by
    rw [num_eq (by simp), List.getElem_map, List.getElem_ofFn, hda]
  have nA := frob_nonneg A
  refine ⟨_, _, h1, by simp, hwl, ⟨by rw [List.length_map, hwl], fun k l => ?_⟩, ?_, fun i j hij => ?_, ?_⟩
  · rw [hw]
    have := f1 (σ k) (σ l)
    rw [show (if k = l then (1 : ℝ) else 0) = if σ k = σ l then 1 else 0 by simp]
    refine this.trans (le_of_eq ?_)
    ring
  · have e : ∑ k : Fin n, vec n ((List.ofFn fun k => d (σ k)).map Dbl.val) k = ∑ k, a k k := by
      rw [← Equiv.sum_comp σ fun k => a k k]
      exact Finset.sum_congr rfl fun k _ => he k
    rw [e]
    refine f2.trans ?_
    have := mul_nonneg hε0 nA
    nlinarith
  · show num _ (j : Nat) ≤ num _ (i : Nat)
    rw [he, he, hda, hda]
    exact h2 i j hij
  · have e : residualSq A ((List.ofFn fun k => d (σ k)).map Dbl.val)
        ((List.ofFn fun k => List.ofFn fun i => V (σ k) i).flatten.map Dbl.val) =
        ∑ k, ∑ i, (A.mulVec (fun i => (V k i).val) i - a k k * (V k i).val) ^ 2 := by
      unfold residualSq
      rw [hw, ← Equiv.sum_comp σ fun k => ∑ i, (A.mulVec (fun i => (V k i).val) i - a k k * (V k i).val) ^ 2]
      refine Finset.sum_congr rfl fun k _ => ?_
      rw [he]
    rw [e]
    refine f3.trans ?_
    have := mul_nonneg hε0 nA
    nlinarith

/-- Dimension 3. -/
theorem eigenItemF3 (ht : AccurateTrig R ε) (hu : unit p ≤ ε) (hε : ε ≤ 1 / 2 ^ 40) {t : List (Dbl R)} (hl : t.length = 6) :
    ∃ e w, eigenItem 3 t = .ok (e, w) ∧ e.length = 3 ∧ w.length = 3 * 3 ∧ ItemFactsF ε 3 t e w := by
  have hε0 : 0 ≤ ε := (unit_pos (p := p)).le.trans hu
  obtain ⟨x0, x1, x2, x3, x4, x5, rfl⟩ := len6 hl
  obtain ⟨st, h1, h2, la, lv, ⟨Q, q1, q2, q3⟩, h4⟩ := jacobiF3 ht hu hε (a := [x0, x1, x3, x2, x4, x5]) rfl
  have hA : cm3 [x0, x1, x3, x2, x4, x5] = symMatrix 3 ([x0, x1, x2, x3, x4, x5].map Dbl.val) := rfl
  have hoff : offDiag (symMatrix 3 ([x0, x1, x2, x3, x4, x5].map Dbl.val)) = off3 [x0, x1, x3, x2, x4, x5] := by
    simp [offDiag, Fin.sum_univ_three, symMatrix, symMatrix3, num, off3]
  obtain ⟨a, v, th, it⟩ := st
  obtain ⟨a0, a1, a2, a3, a4, a5, rfl⟩ := len6 la
  rw [hA] at q3
  obtain ⟨e, w, k1, k2, k3, k4, k5, k6, k7⟩ := symmetricEigenF_finish hε0 hε h1 (by norm_num) lv
    (A := symMatrix 3 ([x0, x1, x2, x3, x4, x5].map Dbl.val)) (d := ![a0, a2, a5])
    (by ext i j; fin_cases i <;> fin_cases j <;> rfl) (by intro k; fin_cases k <;> rfl)
    (by intro k; fin_cases k <;> rfl) q1 q2 q3
  refine ⟨e, w, k1, k2, k3, k4, k5, k6, ?_, fun h => by omega⟩
  refine k7.trans (add_le_add_left (Real.sqrt_le_sqrt ?_) _)
  have : (∑ k, ∑ j, if k = j then 0 else cm3 [a0, a1, a2, a3, a4, a5] k j ^ 2) = 2 * off3 [a0, a1, a2, a3, a4, a5] := by
    simp [Fin.sum_univ_three, cm3, colMatrix3, num, off3]
    ring
  rw [hoff]
  refine le_of_eq_of_le this ?_
  linarith

/-- Dimension 2. -/
theorem eigenItemF2 (ht : AccurateTrig R ε) (hu : unit p ≤ ε) (hε : ε ≤ 1 / 2 ^ 40) {t : List (Dbl R)} (hl : t.length = 3) :
    ∃ e w, eigenItem 2 t = .ok (e, w) ∧ e.length = 2 ∧ w.length = 2 * 2 ∧ ItemFactsF ε 2 t e w := by
  have hε0 : 0 ≤ ε := (unit_pos (p := p)).le.trans hu
  obtain ⟨x0, x1, x2, rfl⟩ := len3 hl
  obtain ⟨st, h1, h2, la, lv, ⟨Q, q1, q2, q3⟩, hz⟩ := jacobiF2 ht hu hε (a := [x0, x1, x2]) rfl
  have hA : cm2 [x0, x1, x2] = symMatrix 2 ([x0, x1, x2].map Dbl.val) := rfl
  obtain ⟨a, v, th, it⟩ := st
  obtain ⟨a0, a1, a2, rfl⟩ := len3 la
  replace hz : a1.val = 0 := hz
  rw [hA] at q3
  obtain ⟨e, w, k1, k2, k3, k4, k5, k6, k7⟩ := symmetricEigenF_finish hε0 hε h1 (by norm_num) lv
    (A := symMatrix 2 ([x0, x1, x2].map Dbl.val)) (d := ![a0, a2])
    (by ext i j; fin_cases i <;> fin_cases j <;> rfl) (by intro k; fin_cases k <;> rfl)
    (by intro k; fin_cases k <;> rfl) q1 q2 q3
  have h0 : (∑ k, ∑ j, if k = j then 0 else cm2 [a0, a1, a2] k j ^ 2) = 0 := by
    simp [Fin.sum_univ_two, cm2, colMatrix2, num, hz]
  have k7' : Real.sqrt (residualSq (symMatrix 2 ([x0, x1, x2].map Dbl.val)) (e.map Dbl.val) (w.map Dbl.val)) ≤
      2 ^ 19 * ε * frob (symMatrix 2 ([x0, x1, x2].map Dbl.val)) := by
    refine k7.trans (le_of_eq ?_)
    rw [show Real.sqrt _ = Real.sqrt 0 from congrArg Real.sqrt h0, Real.sqrt_zero, zero_add]
  refine ⟨e, w, k1, k2, k3, k4, k5, k6, k7'.trans ?_, fun _ => k7'⟩
  have := Real.sqrt_nonneg (2 * (0.0000102 * offDiag (symMatrix 2 ([x0, x1, x2].map Dbl.val))))
  linarith

/-- The Series of the values and of the vectors: shape, and facts item by item. -/
theorem eigenF_facts (ht : AccurateTrig R ε) (hu : unit p ≤ ε) (hε : ε ≤ 1 / 2 ^ 40) {s : Serie (Dbl R)} (h : WF s)
    (hs : EigenShape n s) (hfit : s.count * (n * n) < 2 ^ 32) :
    ∃ val vecs, eigenSystem s = .ok (val, vecs) ∧ WF val ∧ WF vecs ∧ val.itemSize = n ∧ vecs.itemSize = n * n ∧
      val.count = s.count ∧ vecs.count = s.count ∧ ItemWise3 (ItemFactsF ε n) s val vecs ∧
      (0 < s.count → eigenValues s = .ok val ∧ eigenVectors s = .ok vecs) :=
  eigen_run (fun t hl => by
    rcases hs.2 with ⟨rfl, hk⟩ | ⟨rfl, hk⟩
    · exact eigenItemF2 ht hu hε (hl.trans hk)
    · exact eigenItemF3 ht hu hε (hl.trans hk)) h hs hfit

end DF
