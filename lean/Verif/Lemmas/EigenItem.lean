import Verif.Lemmas.Jacobi

/-! # The eigen system of one item -/

namespace DF

open Spec Matrix

variable {n : Nat}

theorem mapM_ofFn {β γ : Type} {F : β → Res γ} : ∀ {n : Nat} {g : Fin n → β} {h : Fin n → γ},
    (∀ k, F (g k) = .ok (h k)) → (List.ofFn g).mapM F = .ok (List.ofFn h)
  | 0, g, h, _ => by simp
  | n + 1, g, h, hF => by
    rw [List.ofFn_succ, List.ofFn_succ, List.mapM_cons, hF 0, Res.ok_bind, mapM_ofFn (fun k => hF k.succ)]
    rfl

theorem range_ofFn (n : Nat) : List.range n = List.ofFn fun k : Fin n => (k : Nat) :=
  List.ext_getElem (by simp) fun j h1 h2 => by simp

theorem fullMatrix_rows (f : Fin n → Fin n → ℝ) :
    fullMatrix n (List.ofFn fun k => List.ofFn fun i => f k i).flatten = f := by
  funext k i
  unfold fullMatrix
  have hlen : ∀ v ∈ List.ofFn fun k => List.ofFn fun i => f k i, v.length = n := by
    intro v hv
    obtain ⟨j, rfl⟩ := List.mem_ofFn.1 hv
    simp
  have hk : (k : Nat) < (List.ofFn fun k => List.ofFn fun i => f k i).length := by simp
  have hc := chunk_flatten hlen hk []
  rw [List.append_nil, List.getElem_ofFn] at hc
  have : num (List.ofFn fun k => List.ofFn fun i => f k i).flatten ((k : Nat) * n + i) =
      num (chunk n (List.ofFn fun k => List.ofFn fun i => f k i).flatten k) i := by
    unfold num chunk
    rw [List.getElem?_take, if_pos i.2, List.getElem?_drop]
  rw [this, hc, num_eq (by simp), List.getElem_ofFn]

/-- From the end of the iteration to the returned values and vectors, for any type of numbers. -/
theorem symmetricEigen_run {α : Type} [Zero α] [One α] [Add α] [Sub α] [Mul α] [Div α] [Neg α] [OfNat α 2] [OfNat α 4]
    [DecidableEq α] [LinearOrder α] [DecidableLT α] [NatCast α] [OfScientific α] [Trig α] {mat : List α}
    {st : Jacobi α} (hj : jacobi n mat = .ok st) {d : Fin n → α} {V : Fin n → Fin n → α}
    (hd : ∀ k : Fin n, rd st.a (k + k * (k + 1) / 2) = .ok (d k))
    (hv : ∀ k i : Fin n, rd st.v (k * n + i) = .ok (V k i)) :
    ∃ σ : Equiv.Perm (Fin n), symmetricEigen mat n = .ok (List.ofFn fun k => d (σ k),
      (List.ofFn fun k => List.ofFn fun i => V (σ k) i).flatten) ∧ ∀ i j : Fin n, i ≤ j → d (σ j) ≤ d (σ i) := by
  obtain ⟨σ, h1, h2⟩ := selectSort_eq d
  have hval : (List.range n).mapM (fun i => rd st.a (i + i * (i + 1) / 2)) = .ok (List.ofFn d) := by
    rw [range_ofFn]
    exact mapM_ofFn hd
  have hrows : (List.ofFn fun k => (σ k : Nat)).mapM
      (fun ik => (List.range n).mapM fun i => rd st.v (ik * n + i)) =
        .ok (List.ofFn fun k => List.ofFn fun i => V (σ k) i) := by
    refine mapM_ofFn fun k => ?_
    rw [range_ofFn]
    exact mapM_ofFn fun i => hv (σ k) i
  refine ⟨σ, ?_, h2⟩
  unfold symmetricEigen
  rw [hj, Res.ok_bind, hval, Res.ok_bind, h1, Res.ok_bind]
  show ((List.ofFn fun k => (σ k : Nat)).mapM
    (fun ik => (List.range n).mapM fun i => rd st.v (ik * n + i)) >>= _) = _
  rw [hrows]
  rfl

/-- From the end of the iteration to the returned values and vectors. -/
theorem symmetricEigen_finish [Trig ℝ] {mat : List ℝ} {st : Jacobi ℝ} (hj : jacobi n mat = .ok st)
    (hv : st.v.length = n * n) {A D : Matrix (Fin n) (Fin n) ℝ} (hA : Aᵀ = A)
    (hd : ∀ k : Fin n, rd st.a (k + k * (k + 1) / 2) = .ok (D k k))
    (ho : fullMatrix n st.v * (fullMatrix n st.v)ᵀ = 1) (hc : fullMatrix n st.v * A * (fullMatrix n st.v)ᵀ = D) :
    ∃ e w, symmetricEigen mat n = .ok (e, w) ∧ e.length = n ∧ Orthonormal n w ∧ ∑ k, vec n e k = A.trace ∧
      (∀ i j : Fin n, i ≤ j → vec n e j ≤ vec n e i) ∧
      residualSq A e w = ∑ k, ∑ j, if k = j then 0 else D k j ^ 2 := by
  obtain ⟨σ, h1, h2⟩ := symmetricEigen_run hj (d := fun k => D k k) (V := fullMatrix n st.v) hd (fun k i => by
    have := fits_index k.2 i.2
    rw [rd_of_lt (by omega)]
    unfold fullMatrix
    rw [num_eq (by omega)])
  have hw := fullMatrix_rows (fun k => fullMatrix n st.v (σ k))
  have he : ∀ k : Fin n, num (List.ofFn fun k => D (σ k) (σ k)) k = D (σ k) (σ k) := fun k => by
    rw [num_eq (by simp), List.getElem_ofFn]
  refine ⟨List.ofFn fun k => D (σ k) (σ k), (List.ofFn fun k => List.ofFn fun i => fullMatrix n st.v (σ k) i).flatten,
    h1, ?_, ?_, ?_, ?_, ?_⟩
  · simp
  · refine ⟨?_, fun k l => ?_⟩
    · rw [flatten_length (k := n) (by
        intro v hv
        obtain ⟨j, rfl⟩ := List.mem_ofFn.1 hv
        simp)]
      simp
    · rw [hw]
      have := congrFun (congrFun ho (σ k)) (σ l)
      rw [Matrix.mul_apply, Matrix.one_apply] at this
      rw [show (if k = l then (1 : ℝ) else 0) = if σ k = σ l then 1 else 0 by simp, ← this]
      rfl
  · show ∑ k : Fin n, num _ (k : Nat) = _
    rw [← trace_conj ho hc, ← Equiv.sum_comp σ fun k => D k k]
    exact Finset.sum_congr rfl fun k _ => he k
  · intro i j hij
    show num _ (j : Nat) ≤ num _ (i : Nat)
    rw [he, he]
    exact h2 i j hij
  · unfold residualSq
    rw [hw, ← residual_matrix hA ho hc, ← Equiv.sum_comp σ fun k => ∑ i,
      (A.mulVec (fullMatrix n st.v k) i - D k k * fullMatrix n st.v k i) ^ 2]
    refine Finset.sum_congr rfl fun k _ => ?_
    rw [he]

/-- Dimension 3. -/
theorem eigenItem3 [Trig ℝ] (ht : ExactTrig) {t : List ℝ} (hl : t.length = 6) :
    ∃ e w, eigenItem 3 t = .ok (e, w) ∧ e.length = 3 ∧ Orthonormal 3 w ∧ ∑ k, vec 3 e k = (symMatrix3 t).trace ∧
      (∀ i j : Fin 3, i ≤ j → vec 3 e j ≤ vec 3 e i) ∧
      residualSq (symMatrix3 t) e w ≤ 2 * (0.00001 * offDiag (symMatrix3 t)) := by
  obtain ⟨x0, x1, x2, x3, x4, x5, rfl⟩ := len6 hl
  obtain ⟨st, h1, h2, h3, h4⟩ := jacobi3 ht (a := [x0, x1, x3, x2, x4, x5]) rfl
  have hA : colMatrix3 [x0, x1, x3, x2, x4, x5] = symMatrix3 [x0, x1, x2, x3, x4, x5] := rfl
  have hoff : offDiag (symMatrix3 [x0, x1, x2, x3, x4, x5]) = x1 ^ 2 + x2 ^ 2 + x4 ^ 2 := by
    simp [offDiag, Fin.sum_univ_three, symMatrix3, num]
  obtain ⟨a, v, t, it⟩ := st
  obtain ⟨la, lv, orth, conj, thr⟩ := h2
  obtain ⟨a0, a1, a2, a3, a4, a5, rfl⟩ := len6 la
  replace thr : t = a1 ^ 2 + a3 ^ 2 + a4 ^ 2 := thr
  replace h4 : t ≤ (x1 ^ 2 + x2 ^ 2 + x4 ^ 2) * 0.00001 := h4
  rw [hA] at conj
  obtain ⟨e, w, k1, k2, k3, k4, k5, k6⟩ := symmetricEigen_finish h1 lv
    (by ext i j; fin_cases i <;> fin_cases j <;> rfl) (by intro k; fin_cases k <;> rfl) orth conj
  refine ⟨e, w, k1, k2, k3, k4, k5, ?_⟩
  rw [k6, hoff]
  have : (∑ k, ∑ j, if k = j then 0 else colMatrix3 [a0, a1, a2, a3, a4, a5] k j ^ 2) = 2 * t := by
    rw [thr]
    simp [Fin.sum_univ_three, colMatrix3, num]
    ring
  refine le_of_eq_of_le this ?_
  linarith

/-- Dimension 2. -/
theorem eigenItem2 [Trig ℝ] (ht : ExactTrig) {t : List ℝ} (hl : t.length = 3) :
    ∃ e w, eigenItem 2 t = .ok (e, w) ∧ e.length = 2 ∧ Orthonormal 2 w ∧ ∑ k, vec 2 e k = (symMatrix2 t).trace ∧
      (∀ i j : Fin 2, i ≤ j → vec 2 e j ≤ vec 2 e i) ∧ residualSq (symMatrix2 t) e w = 0 := by
  obtain ⟨x0, x1, x2, rfl⟩ := len3 hl
  obtain ⟨st, h1, h2, h3, la, lv, orth, conj, hz⟩ := jacobi2 ht (a := [x0, x1, x2]) rfl
  have hA : colMatrix2 [x0, x1, x2] = symMatrix2 [x0, x1, x2] := rfl
  obtain ⟨a, v, t, it⟩ := st
  obtain ⟨a0, a1, a2, rfl⟩ := len3 la
  replace hz : a1 = 0 := hz
  rw [hA] at conj
  obtain ⟨e, w, k1, k2, k3, k4, k5, k6⟩ := symmetricEigen_finish h1 lv
    (by ext i j; fin_cases i <;> fin_cases j <;> rfl) (by intro k; fin_cases k <;> rfl) orth conj
  refine ⟨e, w, k1, k2, k3, k4, k5, ?_⟩
  rw [k6]
  subst hz
  simp [Fin.sum_univ_two, colMatrix2, num]

end DF
