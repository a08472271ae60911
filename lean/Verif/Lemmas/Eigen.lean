import Verif.Spec.Eigen
import Verif.Lemmas.Algebra
import Verif.Lemmas.View
import Mathlib.LinearAlgebra.Matrix.NonsingularInverse
import Mathlib.Logic.Equiv.Fin.Basic
import Mathlib.Algebra.BigOperators.Fin
import Mathlib.Tactic.FinCases
import Mathlib.Tactic.FieldSimp
import Mathlib.Tactic.NormNum

/-! # Lemmas on the Jacobi iteration -/

namespace DF

open Spec Matrix

/-! ## the angle -/

theorem jacobiAngle_zero [Trig ℝ] (ht : ExactTrig) (p q r : ℝ) :
    let x := jacobiAngle p q r
    (p - q) * (Real.sin x * Real.cos x) + r * (Real.cos x ^ 2 - Real.sin x ^ 2) = 0 := by
  intro x
  have h2 : (p - q) / 2 * Real.sin (2 * x) + r * Real.cos (2 * x) = 0 := by
    by_cases hd : p - q = 0
    · have hx : x = -Real.pi / 4 := by
        show jacobiAngle p q r = _
        unfold jacobiAngle
        rw [if_pos hd, ht.pi]
      rw [hd, hx, show 2 * (-Real.pi / 4) = -(Real.pi / 2) by ring, Real.cos_neg, Real.cos_pi_div_two]
      ring
    · have hx : 2 * x = -Real.arctan ((r + r) / (p - q)) := by
        show 2 * jacobiAngle p q r = _
        unfold jacobiAngle
        rw [if_neg hd, ht.atan]
        ring
      rw [hx, Real.sin_neg, Real.cos_neg, Real.sin_arctan, Real.cos_arctan]
      have hs : Real.sqrt (1 + ((r + r) / (p - q)) ^ 2) ≠ 0 := by
        have : 0 < 1 + ((r + r) / (p - q)) ^ 2 := by positivity
        exact ne_of_gt (Real.sqrt_pos.2 this)
      generalize Real.sqrt (1 + ((r + r) / (p - q)) ^ 2) = y at hs
      field_simp
      ring
  rw [Real.sin_two_mul, Real.cos_two_mul'] at h2
  linear_combination h2

/-! ## matrices -/

variable {n : Nat}

theorem residual_matrix {A V D : Matrix (Fin n) (Fin n) ℝ} (hA : Aᵀ = A) (hV : V * Vᵀ = 1) (hD : V * A * Vᵀ = D) :
    ∑ k, ∑ i, (A.mulVec (V k) i - D k k * V k i) ^ 2 = ∑ k, ∑ j, if k = j then 0 else D k j ^ 2 := by
  have hV' : Vᵀ * V = 1 := mul_eq_one_comm.1 hV
  have h1 : V * A = D * V := by rw [← hD, Matrix.mul_assoc, hV', Matrix.mul_one]
  let E : Matrix (Fin n) (Fin n) ℝ := D - diagonal fun k => D k k
  have h2 : ∀ k i, A.mulVec (V k) i - D k k * V k i = (E * V) k i := by
    intro k i
    have : A.mulVec (V k) i = (V * A) k i := by
      rw [Matrix.mul_apply]
      show ∑ j, A i j * V k j = _
      refine Finset.sum_congr rfl fun j _ => ?_
      rw [mul_comm, show A i j = A j i from congrFun (congrFun hA j) i]
    rw [this, h1]
    show _ = ((D - diagonal fun k => D k k) * V) k i
    rw [Matrix.sub_mul, Matrix.sub_apply, Matrix.diagonal_mul]
  have h3 : ∀ M : Matrix (Fin n) (Fin n) ℝ, ∑ k, ∑ i, M k i ^ 2 = (M * Mᵀ).trace := by
    intro M
    simp only [Matrix.trace, Matrix.diag, Matrix.mul_apply, Matrix.transpose_apply, pow_two]
  calc ∑ k, ∑ i, (A.mulVec (V k) i - D k k * V k i) ^ 2 = ∑ k, ∑ i, (E * V) k i ^ 2 := by simp only [h2]
    _ = (E * Eᵀ).trace := by
        rw [h3, Matrix.transpose_mul, Matrix.mul_assoc, ← Matrix.mul_assoc V, hV, Matrix.one_mul]
    _ = ∑ k, ∑ j, E k j ^ 2 := (h3 E).symm
    _ = _ := by
        refine Finset.sum_congr rfl fun k _ => Finset.sum_congr rfl fun j _ => ?_
        show ((D - diagonal fun k => D k k) k j) ^ 2 = _
        rw [Matrix.sub_apply, Matrix.diagonal_apply]
        split
        · rename_i h; subst h; simp
        · simp

theorem trace_conj {A V D : Matrix (Fin n) (Fin n) ℝ} (hV : V * Vᵀ = 1) (hD : V * A * Vᵀ = D) :
    ∑ k, D k k = A.trace := by
  have hV' : Vᵀ * V = 1 := mul_eq_one_comm.1 hV
  show D.trace = _
  rw [← hD, Matrix.trace_mul_comm, ← Matrix.mul_assoc, hV', Matrix.one_mul]

/-! ## selection sort -/

/-- Values and index of a permutation. -/
def sortState {α : Type} (x : Fin n → α) (σ : Equiv.Perm (Fin n)) : List α × List Nat :=
  (List.ofFn fun k => x (σ k), List.ofFn fun k => (σ k : Nat))

theorem rd_ofFn {β : Type} {f : Fin n → β} {i : Nat} (hi : i < n) : rd (List.ofFn f) i = .ok (f ⟨i, hi⟩) := by
  rw [rd_of_lt (by simpa using hi), List.getElem_ofFn]

theorem wr_ofFn {β : Type} {f : Fin n → β} {i : Nat} (hi : i < n) (y : β) :
    wr (List.ofFn f) i y = .ok (List.ofFn (Function.update f ⟨i, hi⟩ y)) := by
  rw [wr_of_lt (by simpa using hi)]
  congr 1
  refine List.ext_getElem (by simp) fun j h1 h2 => ?_
  rw [List.getElem_set, List.getElem_ofFn, List.getElem_ofFn, Function.update_apply]
  simp only [Fin.mk.injEq]
  by_cases h : i = j
  · rw [if_pos h, if_pos h.symm]
  · rw [if_neg h, if_neg (fun h' => h h'.symm)]

theorem update_swap {β : Type} (f : Fin n → β) (i k : Fin n) :
    Function.update (Function.update f k (f i)) i (f k) = f ∘ Equiv.swap k i := by
  funext j
  simp only [Function.update_apply, Function.comp, Equiv.swap_apply_def]
  by_cases h1 : j = i
  · subst h1
    by_cases h2 : j = k
    · subst h2; simp
    · simp [h2]
  · by_cases h2 : j = k
    · subst h2; simp [h1]
    · simp [h1, h2]

theorem selectMax_eq {α : Type} [LinearOrder α] [DecidableLT α] {f : Fin n → α} {i : Nat} (hi : i < n) : ∃ k : Fin n, i ≤ k ∧
    selectMax n i (List.ofFn f) = .ok ((k : Nat), f k) ∧ ∀ j : Fin n, i ≤ j → f j ≤ f k := by
  unfold selectMax
  rw [rd_ofFn hi, Res.ok_bind]
  obtain ⟨p, h1, k, hk, hk2, hk3⟩ := forLoop_inv (f := fun j (p : Nat × α) => (do
      let y ← rd (List.ofFn f) j
      if p.2 < y then pure (j, y) else pure p : Res (Nat × α)))
    (fun m p => ∃ k : Fin n, i ≤ k ∧ p = ((k : Nat), f k) ∧ ∀ j : Fin n, i ≤ j → (j : Nat) < m → f j ≤ f k)
    (n - (i + 1)) (i + 1) (i, f ⟨i, hi⟩)
    (by
      rintro j p hj1 hj2 ⟨k, hk, rfl, hk3⟩
      have hj : j < n := by omega
      rw [rd_ofFn hj, Res.ok_bind]
      by_cases hlt : f k < f ⟨j, hj⟩
      · refine ⟨(j, f ⟨j, hj⟩), if_pos hlt, ⟨j, hj⟩, by show i ≤ j; omega, rfl, fun j' h1 h2 => ?_⟩
        rcases Nat.lt_succ_iff_lt_or_eq.1 h2 with h | h
        · exact le_trans (hk3 j' h1 h) (le_of_lt hlt)
        · rw [show j' = ⟨j, hj⟩ from Fin.ext h]
      · refine ⟨((k : Nat), f k), if_neg hlt, k, hk, rfl, fun j' h1 h2 => ?_⟩
        rcases Nat.lt_succ_iff_lt_or_eq.1 h2 with h | h
        · exact hk3 j' h1 h
        · rw [show j' = ⟨j, hj⟩ from Fin.ext h]
          exact not_lt.1 hlt)
    ⟨⟨i, hi⟩, Nat.le_refl _, rfl, fun j h1 h2 => by
      rw [show j = ⟨i, hi⟩ from Fin.ext (by show (j : Nat) = i; omega)]⟩
  subst hk2
  exact ⟨k, hk, h1, fun j hj => hk3 j hj (by have := j.2; omega)⟩

/-- The values come in decreasing order, with the permutation. -/
theorem selectSort_eq {α : Type} [LinearOrder α] [DecidableLT α] (x : Fin n → α) : ∃ σ : Equiv.Perm (Fin n),
    selectSort n (List.ofFn x) = .ok (sortState x σ) ∧ ∀ i j : Fin n, i ≤ j → x (σ j) ≤ x (σ i) := by
  unfold selectSort
  obtain ⟨p, h1, σ, rfl, h3⟩ := forLoop_inv (f := fun i (p : List α × List Nat) => (do
      let (k, x) ← selectMax n i p.1
      let y ← rd p.1 i
      let val ← wr p.1 k y
      let val ← wr val i x
      let jj ← rd p.2 k
      let ii ← rd p.2 i
      let index ← wr p.2 k ii
      let index ← wr index i jj
      pure (val, index) : Res (List α × List Nat)))
    (fun m p => ∃ σ : Equiv.Perm (Fin n), p = sortState x σ ∧
      ∀ i j : Fin n, (i : Nat) < m → i ≤ j → x (σ j) ≤ x (σ i)) (n - 1) 0 (List.ofFn x, List.range n)
    (by
      rintro i p - hi ⟨σ, rfl, hσ⟩
      have hi : i < n := by omega
      obtain ⟨k, hk1, hk2, hk3⟩ := selectMax_eq (f := fun j => x (σ j)) hi
      refine ⟨sortState x (Equiv.trans (Equiv.swap k ⟨i, hi⟩) σ), ?_, _, rfl, ?_⟩
      · show (selectMax n i (List.ofFn fun k => x (σ k)) >>= _) = _
        rw [hk2, Res.ok_bind]
        show (rd (List.ofFn fun k => x (σ k)) i >>= _) = _
        rw [rd_ofFn hi, Res.ok_bind]
        show (wr (List.ofFn fun k => x (σ k)) k _ >>= _) = _
        rw [wr_ofFn k.2, Res.ok_bind, wr_ofFn hi, Res.ok_bind]
        show (rd (List.ofFn fun k => (σ k : Nat)) k >>= _) = _
        rw [rd_ofFn k.2, Res.ok_bind]
        show (rd (List.ofFn fun k => (σ k : Nat)) i >>= _) = _
        rw [rd_ofFn hi, Res.ok_bind]
        show (wr (List.ofFn fun k => (σ k : Nat)) k _ >>= _) = _
        rw [wr_ofFn k.2, Res.ok_bind, wr_ofFn hi, Res.ok_bind]
        have e1 := update_swap (fun j => x (σ j)) ⟨i, hi⟩ k
        have e2 := update_swap (fun j => (σ j : Nat)) ⟨i, hi⟩ k
        simp only [Fin.eta] at e1 e2 ⊢
        rw [e1, e2]
        rfl
      · intro a b ha hab
        show x (σ (Equiv.swap k ⟨i, hi⟩ b)) ≤ x (σ (Equiv.swap k ⟨i, hi⟩ a))
        have hb : ∀ b : Fin n, i ≤ (b : Nat) → i ≤ (Equiv.swap k ⟨i, hi⟩ b : Nat) := by
          intro b hb
          rw [Equiv.swap_apply_def]
          split
          · exact Nat.le_refl _
          · split
            · exact hk1
            · exact hb
        rcases Nat.lt_succ_iff_lt_or_eq.1 ha with h | h
        · have hne1 : a ≠ k := fun e => by rw [e] at h; omega
          have hne2 : a ≠ ⟨i, hi⟩ := fun e => by rw [e] at h; exact Nat.lt_irrefl _ h
          rw [Equiv.swap_apply_of_ne_of_ne hne1 hne2]
          by_cases hbi : (b : Nat) < i
          · have hne1 : b ≠ k := fun e => by rw [e] at hbi; omega
            have hne2 : b ≠ ⟨i, hi⟩ := fun e => by rw [e] at hbi; exact Nat.lt_irrefl _ hbi
            rw [Equiv.swap_apply_of_ne_of_ne hne1 hne2]
            exact hσ a b h hab
          · refine hσ a _ h ?_
            have := hb b (by omega)
            exact Nat.le_trans (Nat.le_of_lt h) this
        · rw [show a = ⟨i, hi⟩ from Fin.ext h, Equiv.swap_apply_right]
          exact hk3 _ (hb b (by have : (a : Nat) ≤ b := hab; omega)))
    ⟨Equiv.refl _, by
      unfold sortState
      congr 1
      refine List.ext_getElem (by simp) fun j h1 h2 => by simp, fun i j h => by omega⟩
  refine ⟨σ, h1, fun i j hij => ?_⟩
  by_cases h : (i : Nat) < 0 + (n - 1)
  · exact h3 i j h hij
  · have : i = j := Fin.ext (by have := j.2; have : (i : Nat) ≤ j := hij; omega)
    rw [this]

end DF
