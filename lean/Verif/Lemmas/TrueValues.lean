import Verif.Spec.TrueValues
import Mathlib.Analysis.Matrix.Spectrum
import Mathlib.Data.Fin.Tuple.Sort
import Mathlib.LinearAlgebra.Matrix.ToLinearEquiv
import Mathlib.Algebra.Order.Chebyshev

/-!
# Perturbation of eigen values
-/

namespace DF

open Spec Matrix

variable {n : Nat}

/-- A symmetric matrix with the given eigen values has orthonormal eigenvectors in the same order. -/
theorem Spec.TrueValues.vectors {A : Matrix (Fin n) (Fin n) ℝ} (hs : A.IsSymm) {l : Fin n → ℝ} (h : TrueValues A l) :
    ∃ U : Matrix (Fin n) (Fin n) ℝ, U * Uᵀ = 1 ∧ ∀ k, A.mulVec (U k) = l k • U k := by
  have hA : A.IsHermitian := by
    rw [Matrix.IsHermitian, Matrix.conjTranspose_eq_transpose_of_trivial]; exact hs
  let ev := hA.eigenvalues
  let σ := Tuple.sort (fun k => -ev k)
  have hσ : Antitone (ev ∘ σ) := fun i j hij => by
    have := Tuple.monotone_sort (fun k => -ev k) hij
    simpa [σ] using this
  have hp : (List.ofFn l).Perm (List.ofFn ev) := by
    rw [← Multiset.coe_eq_coe, ← Fin.univ_val_map, ← Fin.univ_val_map]
    have e1 := hA.roots_charpoly_eq_eigenvalues
    have e2 : A.charpoly.roots = Multiset.map l Finset.univ.val := by
      rw [h.2, Polynomial.roots_prod]
      · simp
      · simp [Finset.prod_ne_zero_iff, Polynomial.X_sub_C_ne_zero]
    rw [e2] at e1
    rw [e1]
    rfl
  have hl : l = ev ∘ σ := by
    refine List.ofFn_injective ((hp.trans (σ.ofFn_comp_perm ev).symm).eq_of_pairwise' (r := (· ≥ ·)) ?_ ?_)
    · exact (h.1.sortedGE_ofFn).pairwise
    · exact (hσ.sortedGE_ofFn).pairwise
  refine ⟨Matrix.of fun k i => hA.eigenvectorBasis (σ k) i, ?_, fun k => ?_⟩
  · ext i j
    have := hA.eigenvectorBasis.orthonormal
    rw [orthonormal_iff_ite] at this
    have := this (σ i) (σ j)
    rw [Matrix.mul_apply, Matrix.one_apply]
    simp only [PiLp.inner_apply, EmbeddingLike.apply_eq_iff_eq] at this
    rw [← this]
    refine Finset.sum_congr rfl fun x _ => ?_
    simp [Matrix.transpose_apply, Matrix.of_apply, mul_comm]
  · rw [hl]
    exact hA.mulVec_eigenvectorBasis (σ k)

/-- Every symmetric matrix has eigen values. -/
theorem trueValues_exists {A : Matrix (Fin n) (Fin n) ℝ} (hs : A.IsSymm) : ∃ l, TrueValues A l := by
  have hA : A.IsHermitian := by
    rw [Matrix.IsHermitian, Matrix.conjTranspose_eq_transpose_of_trivial]; exact hs
  let ev := hA.eigenvalues
  let σ := Tuple.sort (fun k => -ev k)
  refine ⟨ev ∘ σ, fun i j hij => ?_, ?_⟩
  · have := Tuple.monotone_sort (fun k => -ev k) hij
    simpa [σ] using this
  · rw [hA.charpoly_eq]
    exact (Equiv.prod_comp σ (fun i => Polynomial.X - Polynomial.C (ev i))).symm

theorem Spec.TrueValues.unique {A : Matrix (Fin n) (Fin n) ℝ} {l l' : Fin n → ℝ} (h : TrueValues A l) (h' : TrueValues A l') :
    l = l' := by
  have e : ∀ {l : Fin n → ℝ}, TrueValues A l → A.charpoly.roots = Multiset.map l Finset.univ.val := by
    intro l h
    rw [h.2, Polynomial.roots_prod]
    · simp
    · simp [Finset.prod_ne_zero_iff, Polynomial.X_sub_C_ne_zero]
  refine List.ofFn_injective (List.Perm.eq_of_pairwise' (r := (· ≥ ·)) (h.1.sortedGE_ofFn).pairwise (h'.1.sortedGE_ofFn).pairwise ?_)
  rw [← Multiset.coe_eq_coe, ← Fin.univ_val_map, ← Fin.univ_val_map, ← e h, ← e h']

/-- `n - 1` linear conditions on `n` numbers: zero after `k`, and `k` equations. -/
theorem exists_upto (M : Matrix (Fin n) (Fin n) ℝ) (k : Fin n) :
    ∃ c : Fin n → ℝ, c ≠ 0 ∧ (∀ i, k < i → c i = 0) ∧ ∀ j, j < k → M.mulVec c j = 0 := by
  let N : Matrix (Fin n) (Fin n) ℝ := fun i => if i < k then M i else if k < i then Pi.single i 1 else 0
  have h0 : N.det = 0 := Matrix.det_eq_zero_of_row_eq_zero k (fun j => by simp [N])
  obtain ⟨c, hc, hz⟩ := Matrix.exists_mulVec_eq_zero_iff.2 h0
  refine ⟨c, hc, fun i hi => ?_, fun j hj => ?_⟩
  · have := congrFun hz i
    simpa [Matrix.mulVec, N, hi, hi.not_gt, not_lt.2 hi.le] using this
  · have := congrFun hz j
    simpa [Matrix.mulVec, N, hj] using this

theorem exists_from (M : Matrix (Fin n) (Fin n) ℝ) (k : Fin n) :
    ∃ c : Fin n → ℝ, c ≠ 0 ∧ (∀ i, i < k → c i = 0) ∧ ∀ j, k < j → M.mulVec c j = 0 := by
  let N : Matrix (Fin n) (Fin n) ℝ := fun i => if k < i then M i else if i < k then Pi.single i 1 else 0
  have h0 : N.det = 0 := Matrix.det_eq_zero_of_row_eq_zero k (fun j => by simp [N])
  obtain ⟨c, hc, hz⟩ := Matrix.exists_mulVec_eq_zero_iff.2 h0
  refine ⟨c, hc, fun i hi => ?_, fun j hj => ?_⟩
  · have := congrFun hz i
    simpa [Matrix.mulVec, N, hi, hi.not_gt, not_lt.2 hi.le] using this
  · have := congrFun hz j
    simpa [Matrix.mulVec, N, hj] using this

/-- The quadratic form in the frame of the eigenvectors. -/
theorem quad_eigen {A U : Matrix (Fin n) (Fin n) ℝ} {l : Fin n → ℝ} (hU : U * Uᵀ = 1) (hl : ∀ k, A.mulVec (U k) = l k • U k)
    (x : Fin n → ℝ) : x ⬝ᵥ A.mulVec x = ∑ k, l k * U.mulVec x k ^ 2 ∧ x ⬝ᵥ x = ∑ k, U.mulVec x k ^ 2 := by
  have hU' : Uᵀ * U = 1 := mul_eq_one_comm.1 hU
  have hA : A * Uᵀ = Uᵀ * diagonal l := by
    ext i k
    have := congrFun (hl k) i
    rw [Matrix.mul_diagonal]
    simpa [Matrix.mulVec, dotProduct, Matrix.mul_apply, mul_comm] using this
  have hA' : A = Uᵀ * diagonal l * U := by rw [← hA, Matrix.mul_assoc, hU', Matrix.mul_one]
  constructor
  · have : A.mulVec x = Uᵀ.mulVec ((diagonal l).mulVec (U.mulVec x)) := by
      conv_lhs => rw [hA', ← Matrix.mulVec_mulVec, ← Matrix.mulVec_mulVec]
    rw [this, Matrix.dotProduct_mulVec, Matrix.vecMul_transpose]
    simp only [dotProduct, Matrix.mulVec_diagonal]
    exact Finset.sum_congr rfl fun k _ => by ring
  · have : x = Uᵀ.mulVec (U.mulVec x) := by rw [Matrix.mulVec_mulVec, hU', Matrix.one_mulVec]
    conv_lhs => rw [this, Matrix.dotProduct_mulVec, Matrix.vecMul_transpose, ← this]
    simp only [dotProduct]
    exact Finset.sum_congr rfl fun k _ => by ring

theorem quad_le {A U : Matrix (Fin n) (Fin n) ℝ} {l : Fin n → ℝ} (hU : U * Uᵀ = 1) (hl : ∀ k, A.mulVec (U k) = l k • U k)
    (ha : Antitone l) {x : Fin n → ℝ} {k : Fin n} (hx : ∀ j, j < k → U.mulVec x j = 0) :
    x ⬝ᵥ A.mulVec x ≤ l k * (x ⬝ᵥ x) := by
  obtain ⟨e1, e2⟩ := quad_eigen hU hl x
  rw [e1, e2, Finset.mul_sum]
  refine Finset.sum_le_sum fun j _ => ?_
  rcases lt_or_ge j k with hj | hj
  · rw [hx j hj]; simp
  · exact mul_le_mul_of_nonneg_right (ha hj) (sq_nonneg _)

theorem le_quad {A U : Matrix (Fin n) (Fin n) ℝ} {l : Fin n → ℝ} (hU : U * Uᵀ = 1) (hl : ∀ k, A.mulVec (U k) = l k • U k)
    (ha : Antitone l) {x : Fin n → ℝ} {k : Fin n} (hx : ∀ j, k < j → U.mulVec x j = 0) :
    l k * (x ⬝ᵥ x) ≤ x ⬝ᵥ A.mulVec x := by
  obtain ⟨e1, e2⟩ := quad_eigen hU hl x
  rw [e1, e2, Finset.mul_sum]
  refine Finset.sum_le_sum fun j _ => ?_
  rcases lt_or_ge k j with hj | hj
  · rw [hx j hj]; simp
  · exact mul_le_mul_of_nonneg_right (ha hj) (sq_nonneg _)

theorem dot_sq_le (x y : Fin n → ℝ) : (x ⬝ᵥ y) ^ 2 ≤ (x ⬝ᵥ x) * (y ⬝ᵥ y) := by
  have := Finset.sum_mul_sq_le_sq_mul_sq Finset.univ x y
  simpa [dotProduct, pow_two] using this

theorem dot_self_nonneg' (x : Fin n → ℝ) : 0 ≤ x ⬝ᵥ x := Finset.sum_nonneg fun _ _ => mul_self_nonneg _

theorem abs_dot_le (x y : Fin n → ℝ) : |x ⬝ᵥ y| ≤ √(x ⬝ᵥ x) * √(y ⬝ᵥ y) := by
  rw [← Real.sqrt_mul (dot_self_nonneg' x)]
  exact Real.abs_le_sqrt (dot_sq_le x y)

/-- A combination of nearly orthonormal vectors, up to its error. -/
theorem near_form {W : Matrix (Fin n) (Fin n) ℝ} {δ m : ℝ} (hδ : ∀ k l, |W k ⬝ᵥ W l - if k = l then 1 else 0| ≤ δ)
    (c d : Fin n → ℝ) (hd : ∀ k, |d k| ≤ m * |c k|) (hm : 0 ≤ m) :
    |(∑ k, c k • W k) ⬝ᵥ (∑ k, d k • W k) - ∑ k, c k * d k| ≤ n * δ * m * ∑ k, c k ^ 2 := by
  have e : (∑ k, c k • W k) ⬝ᵥ (∑ k, d k • W k) - ∑ k, c k * d k =
      ∑ k, ∑ l, c k * d l * (W k ⬝ᵥ W l - if k = l then 1 else 0) := by
    rw [sum_dotProduct]
    simp only [dotProduct_sum, smul_dotProduct, dotProduct_smul, smul_eq_mul, mul_sub, Finset.sum_sub_distrib,
      mul_ite, mul_one, mul_zero, Finset.sum_ite_eq, Finset.mem_univ, if_true, mul_assoc]
    congr 1
    exact Finset.sum_congr rfl fun k _ => Finset.sum_congr rfl fun l _ => mul_left_comm _ _ _
  rw [e]
  have hδ0 : ∀ k : Fin n, 0 ≤ δ := fun k => (abs_nonneg _).trans (hδ k k)
  calc _ ≤ ∑ k, ∑ l, |c k * d l * (W k ⬝ᵥ W l - if k = l then 1 else 0)| :=
        (Finset.abs_sum_le_sum_abs _ _).trans (Finset.sum_le_sum fun k _ => Finset.abs_sum_le_sum_abs _ _)
    _ ≤ ∑ k, ∑ l, |c k| * (m * |c l|) * δ := by
        refine Finset.sum_le_sum fun k _ => Finset.sum_le_sum fun l _ => ?_
        rw [abs_mul, abs_mul]
        exact mul_le_mul (mul_le_mul_of_nonneg_left (hd l) (abs_nonneg _)) (hδ k l) (abs_nonneg _)
          (mul_nonneg (abs_nonneg _) (mul_nonneg hm (abs_nonneg _)))
    _ = m * δ * (∑ k, |c k|) ^ 2 := by
        rw [pow_two, Finset.sum_mul_sum, Finset.mul_sum]
        refine Finset.sum_congr rfl fun k _ => ?_
        rw [Finset.mul_sum]
        exact Finset.sum_congr rfl fun l _ => by ring
    _ ≤ m * δ * (n * ∑ k, c k ^ 2) := by
        rcases Nat.eq_zero_or_pos n with rfl | hn
        · simp
        · refine mul_le_mul_of_nonneg_left ?_ (mul_nonneg hm (hδ0 ⟨0, hn⟩))
          have := sq_sum_le_card_mul_sum_sq (s := (Finset.univ : Finset (Fin n))) (f := fun k => |c k|)
          simpa using this
    _ = _ := by ring

/-- The main estimate: `c` gives the vector `x = ∑ cₖ wₖ`. -/
theorem gap_core {A W : Matrix (Fin n) (Fin n) ℝ} {e c : Fin n → ℝ} {δ m ρ E L : ℝ}
    (hδ : ∀ k l, |W k ⬝ᵥ W l - if k = l then 1 else 0| ≤ δ) (hm : ∀ k, |e k| ≤ m) (hρ0 : 0 ≤ ρ)
    (hρ : ∑ k, (A.mulVec (W k) - e k • W k) ⬝ᵥ (A.mulVec (W k) - e k • W k) ≤ ρ ^ 2) (hc : c ≠ 0)
    (he : E * ∑ k, c k ^ 2 ≤ ∑ k, e k * c k ^ 2)
    (hL : (∑ k, c k • W k) ⬝ᵥ A.mulVec (∑ k, c k • W k) ≤ L * ((∑ k, c k • W k) ⬝ᵥ (∑ k, c k • W k))) :
    E - L ≤ n * δ * (m + |L|) + (1 + n * δ) * ρ := by
  obtain ⟨i0, hi0⟩ : ∃ i, c i ≠ 0 := Function.ne_iff.1 hc
  have hδ0 : 0 ≤ δ := (abs_nonneg _).trans (hδ i0 i0)
  have hm0 : 0 ≤ m := (abs_nonneg _).trans (hm i0)
  set q := ∑ k, c k ^ 2 with hq
  have hq0 : 0 < q := lt_of_lt_of_le (by positivity : 0 < c i0 ^ 2)
    (Finset.single_le_sum (f := fun k => c k ^ 2) (fun k _ => sq_nonneg _) (Finset.mem_univ i0))
  set x := ∑ k, c k • W k with hx
  have hnd : 0 ≤ n * δ := by positivity
  -- the length of `x`
  have h1 : |x ⬝ᵥ x - q| ≤ n * δ * q := by
    have := near_form hδ c c (m := 1) (fun k => by rw [one_mul]) zero_le_one
    rw [mul_one] at this
    have e : ∑ k, c k * c k = q := Finset.sum_congr rfl fun k _ => (pow_two _).symm
    rwa [e] at this
  -- the form without residuals
  have h2 : |x ⬝ᵥ (∑ k, (e k * c k) • W k) - ∑ k, e k * c k ^ 2| ≤ n * δ * m * q := by
    have := near_form hδ c (fun k => e k * c k) (m := m) (fun k => by
      rw [abs_mul]; exact mul_le_mul_of_nonneg_right (hm k) (abs_nonneg _)) hm0
    have e : ∑ k, c k * (e k * c k) = ∑ k, e k * c k ^ 2 := Finset.sum_congr rfl fun k _ => by ring
    rwa [e] at this
  -- the residuals
  have h3 : x ⬝ᵥ A.mulVec x = x ⬝ᵥ (∑ k, (e k * c k) • W k) + ∑ k, c k * (x ⬝ᵥ (A.mulVec (W k) - e k • W k)) := by
    have : A.mulVec x = ∑ k, (e k * c k) • W k + ∑ k, c k • (A.mulVec (W k) - e k • W k) := by
      rw [hx, Matrix.mulVec_sum, ← Finset.sum_add_distrib]
      refine Finset.sum_congr rfl fun k _ => ?_
      rw [Matrix.mulVec_smul, smul_sub, smul_smul, mul_comm (c k) (e k)]
      abel
    rw [this, dotProduct_add]
    congr 1
    rw [dotProduct_sum]
    exact Finset.sum_congr rfl fun k _ => by rw [dotProduct_smul, smul_eq_mul]
  have hxx0 := dot_self_nonneg' x
  have h4 : |∑ k, c k * (x ⬝ᵥ (A.mulVec (W k) - e k • W k))| ≤ (1 + n * δ) * ρ * q := by
    have k1 : (∑ k, c k * (x ⬝ᵥ (A.mulVec (W k) - e k • W k))) ^ 2 ≤ q * (x ⬝ᵥ x * ρ ^ 2) := by
      refine (Finset.sum_mul_sq_le_sq_mul_sq _ _ _).trans (mul_le_mul_of_nonneg_left ?_ hq0.le)
      calc _ ≤ ∑ k, x ⬝ᵥ x * ((A.mulVec (W k) - e k • W k) ⬝ᵥ (A.mulVec (W k) - e k • W k)) :=
            Finset.sum_le_sum fun k _ => dot_sq_le _ _
        _ ≤ _ := by rw [← Finset.mul_sum]; exact mul_le_mul_of_nonneg_left hρ hxx0
    have k2 : x ⬝ᵥ x ≤ (1 + n * δ) * q := by have := (abs_le.1 h1).2; linarith
    refine abs_le_of_sq_le_sq (k1.trans ?_) (by positivity)
    calc q * (x ⬝ᵥ x * ρ ^ 2) ≤ q * ((1 + n * δ) * q * ρ ^ 2) :=
          mul_le_mul_of_nonneg_left (mul_le_mul_of_nonneg_right k2 (sq_nonneg _)) hq0.le
      _ = (1 + n * δ) * (ρ * q) ^ 2 := by ring
      _ ≤ (1 + n * δ) ^ 2 * (ρ * q) ^ 2 := by
          refine mul_le_mul_of_nonneg_right ?_ (sq_nonneg _)
          nlinarith
      _ = _ := by ring
  have h5 : L * (x ⬝ᵥ x) ≤ L * q + |L| * (n * δ * q) := by
    have : L * (x ⬝ᵥ x - q) ≤ |L| * (n * δ * q) :=
      (le_abs_self _).trans (by rw [abs_mul]; exact mul_le_mul_of_nonneg_left h1 (abs_nonneg _))
    linarith
  have h2' := (abs_le.1 h2).1
  have h4' := (abs_le.1 h4).1
  refine le_of_mul_le_mul_right ?_ hq0
  have : (E - L) * q ≤ n * δ * m * q + (1 + n * δ) * ρ * q + |L| * (n * δ * q) := by
    rw [h3] at hL
    linarith
  linarith

/-- Values and vectors with small residuals, in decreasing order, are close to the true values in the same order. -/
theorem values_close {A W : Matrix (Fin n) (Fin n) ℝ} (hs : A.IsSymm) {e l : Fin n → ℝ} {δ m ρ : ℝ}
    (hδ : ∀ k l, |W k ⬝ᵥ W l - if k = l then 1 else 0| ≤ δ) (hm : ∀ k, |e k| ≤ m) (hρ0 : 0 ≤ ρ)
    (hρ : ∑ k, (A.mulVec (W k) - e k • W k) ⬝ᵥ (A.mulVec (W k) - e k • W k) ≤ ρ ^ 2)
    (he : Antitone e) (hl : TrueValues A l) (k : Fin n) :
    |e k - l k| ≤ n * δ * (m + |l k|) + (1 + n * δ) * ρ := by
  obtain ⟨U, hU, hv⟩ := hl.vectors hs
  have hx : ∀ c : Fin n → ℝ, U.mulVec (∑ k, c k • W k) = (U * Wᵀ).mulVec c := by
    intro c
    rw [← Matrix.mulVec_mulVec, Matrix.mulVec_transpose, Matrix.vecMul_eq_sum]
  rw [abs_le]
  constructor
  · obtain ⟨c, hc, h1, h2⟩ := exists_from (U * Wᵀ) k
    have := gap_core (A := -A) (W := W) (e := fun k => -e k) (c := c) (E := -e k) (L := -l k) hδ (fun k => by rw [abs_neg]; exact hm k)
      hρ0 (by
        refine le_trans (le_of_eq (Finset.sum_congr rfl fun k _ => ?_)) hρ
        have : (-A).mulVec (W k) - -e k • W k = -(A.mulVec (W k) - e k • W k) := by rw [Matrix.neg_mulVec, neg_smul]; abel
        rw [this, neg_dotProduct_neg]) hc (by
        rw [Finset.mul_sum]
        refine Finset.sum_le_sum fun j _ => ?_
        rcases lt_or_ge j k with hj | hj
        · rw [h1 j hj]; simp
        · exact mul_le_mul_of_nonneg_right (neg_le_neg (he hj)) (sq_nonneg _)) (by
        rw [Matrix.neg_mulVec, dotProduct_neg, neg_mul]
        exact neg_le_neg (le_quad hU hv hl.1 (fun j hj => by rw [hx]; exact h2 j hj)))
    rw [abs_neg] at this
    linarith
  · obtain ⟨c, hc, h1, h2⟩ := exists_upto (U * Wᵀ) k
    exact gap_core (A := A) (W := W) (e := e) (c := c) hδ hm hρ0 hρ hc (by
        rw [Finset.mul_sum]
        refine Finset.sum_le_sum fun j _ => ?_
        rcases lt_or_ge k j with hj | hj
        · rw [h1 j hj]; simp
        · exact mul_le_mul_of_nonneg_right (he hj) (sq_nonneg _))
      (quad_le hU hv hl.1 (fun j hj => by rw [hx]; exact h2 j hj))

theorem abs_quad_le (A : Matrix (Fin n) (Fin n) ℝ) (x : Fin n → ℝ) : |x ⬝ᵥ A.mulVec x| ≤ frob A * (x ⬝ᵥ x) := by
  have hx := dot_self_nonneg' x
  refine abs_le_of_sq_le_sq ?_ (mul_nonneg (Real.sqrt_nonneg _) hx)
  have h1 : A.mulVec x ⬝ᵥ A.mulVec x ≤ (∑ i, ∑ j, A i j ^ 2) * (x ⬝ᵥ x) := by
    rw [Finset.sum_mul]
    refine Finset.sum_le_sum fun i _ => ?_
    have := Finset.sum_mul_sq_le_sq_mul_sq Finset.univ (A i) x
    have e : A.mulVec x i * A.mulVec x i = (∑ j, A i j * x j) ^ 2 := (pow_two _).symm
    rw [e]
    refine this.trans (le_of_eq ?_)
    congr 1
    exact Finset.sum_congr rfl fun j _ => pow_two _
  calc _ ≤ (x ⬝ᵥ x) * (A.mulVec x ⬝ᵥ A.mulVec x) := dot_sq_le _ _
    _ ≤ (x ⬝ᵥ x) * ((∑ i, ∑ j, A i j ^ 2) * (x ⬝ᵥ x)) := mul_le_mul_of_nonneg_left h1 hx
    _ = (frob A * (x ⬝ᵥ x)) ^ 2 := by
      have h0 : 0 ≤ ∑ i, ∑ j, A i j ^ 2 := Finset.sum_nonneg fun i _ => Finset.sum_nonneg fun j _ => sq_nonneg _
      rw [mul_pow, frob, Real.sq_sqrt h0]
      ring

theorem Spec.TrueValues.abs_le_frob {A : Matrix (Fin n) (Fin n) ℝ} (hs : A.IsSymm) {l : Fin n → ℝ} (h : TrueValues A l)
    (k : Fin n) : |l k| ≤ frob A := by
  obtain ⟨U, hU, hv⟩ := h.vectors hs
  have e : U k ⬝ᵥ U k = 1 := by
    have := congrFun (congrFun hU k) k
    rwa [Matrix.mul_apply, Matrix.one_apply_eq] at this
  have := abs_quad_le A (U k)
  rwa [hv k, dotProduct_smul, e, smul_eq_mul, mul_one, mul_one] at this

theorem value_le {A : Matrix (Fin n) (Fin n) ℝ} {w : Fin n → ℝ} {e ρ : ℝ} (hρ0 : 0 ≤ ρ) (hw : 1 / 4 ≤ w ⬝ᵥ w)
    (hρ : (A.mulVec w - e • w) ⬝ᵥ (A.mulVec w - e • w) ≤ ρ ^ 2) : |e| ≤ frob A + 2 * ρ := by
  have hq : 0 < w ⬝ᵥ w := by linarith
  have h1 : e * (w ⬝ᵥ w) = w ⬝ᵥ A.mulVec w - w ⬝ᵥ (A.mulVec w - e • w) := by
    rw [dotProduct_sub, dotProduct_smul, smul_eq_mul]; ring
  have h2 : |w ⬝ᵥ (A.mulVec w - e • w)| ≤ 2 * ρ * (w ⬝ᵥ w) := by
    refine abs_le_of_sq_le_sq ((dot_sq_le _ _).trans ((mul_le_mul_of_nonneg_left hρ hq.le).trans ?_)) (by positivity)
    have : 1 * (w ⬝ᵥ w) ≤ 4 * (w ⬝ᵥ w) * (w ⬝ᵥ w) := mul_le_mul_of_nonneg_right (by linarith) hq.le
    have := mul_le_mul_of_nonneg_right this (sq_nonneg ρ)
    nlinarith
  have h3 := abs_quad_le A w
  refine le_of_mul_le_mul_right ?_ hq
  calc |e| * (w ⬝ᵥ w) = |e * (w ⬝ᵥ w)| := by rw [abs_mul, abs_of_pos hq]
    _ ≤ |w ⬝ᵥ A.mulVec w| + |w ⬝ᵥ (A.mulVec w - e • w)| := by rw [h1]; exact abs_sub _ _
    _ ≤ _ := by linarith

/-- A vector with a small residual is close to a true eigenvector, when the other eigen values are away. -/
theorem vector_close {A : Matrix (Fin n) (Fin n) ℝ} (hs : A.IsSymm) {l : Fin n → ℝ} (hl : TrueValues A l) {w : Fin n → ℝ} {e b g : ℝ}
    (hb : (A.mulVec w - e • w) ⬝ᵥ (A.mulVec w - e • w) ≤ b) {k : Fin n} (hg0 : 0 ≤ g) (hg : ∀ j, j ≠ k → g ≤ |e - l j|) :
    ∃ v, A.mulVec v = l k • v ∧ g ^ 2 * ((w - v) ⬝ᵥ (w - v)) ≤ b := by
  obtain ⟨U, hU, hv⟩ := hl.vectors hs
  have hUU : ∀ i j, U i ⬝ᵥ U j = if i = j then 1 else 0 := fun i j => by
    have := congrFun (congrFun hU i) j
    rwa [Matrix.mul_apply, Matrix.one_apply] at this
  refine ⟨(U k ⬝ᵥ w) • U k, by rw [Matrix.mulVec_smul, hv k, smul_comm], le_trans ?_ hb⟩
  rw [(quad_eigen hU hv _).2, (quad_eigen hU hv (A.mulVec w - e • w)).2, Finset.mul_sum]
  refine Finset.sum_le_sum fun j _ => ?_
  have e1 : U.mulVec (w - (U k ⬝ᵥ w) • U k) j = if j = k then 0 else U j ⬝ᵥ w := by
    show U j ⬝ᵥ _ = _
    rw [dotProduct_sub, dotProduct_smul, hUU, smul_eq_mul]
    split
    · next h => rw [h, mul_one, sub_self]
    · rw [mul_zero, sub_zero]
  have e2 : U.mulVec (A.mulVec w - e • w) j = (l j - e) * (U j ⬝ᵥ w) := by
    show U j ⬝ᵥ _ = _
    rw [dotProduct_sub, dotProduct_smul, smul_eq_mul, Matrix.dotProduct_mulVec, ← Matrix.mulVec_transpose, hs.eq, hv j, smul_dotProduct,
      smul_eq_mul]
    ring
  rw [e1, e2]
  split
  · rw [zero_pow two_ne_zero, mul_zero]; positivity
  · next h =>
    rw [mul_pow]
    refine mul_le_mul_of_nonneg_right ?_ (sq_nonneg _)
    rw [← sq_abs (l j - e), abs_sub_comm]
    exact pow_le_pow_left₀ hg0 (hg j h) 2

end DF
