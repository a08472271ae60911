import Verif.Lemmas.EigenSerie
import Verif.Lemmas.Decide

/-!
# Properties of the eigen functions: C56, C57, C58, C79

Exact real arithmetic: `ExactTrig` says that the trigonometric functions of the code are the real ones. Such an instance
exists, see `exactTrig`.
-/

namespace DF

open Spec Matrix

/-- The exact functions satisfy the hypothesis of the theorems below. -/
noncomputable abbrev realTrig : Trig ℝ := ⟨Real.pi, Real.arctan, Real.sin, Real.cos⟩

theorem exactTrig : @ExactTrig realTrig :=
  @ExactTrig.mk realTrig rfl (fun _ => rfl) (fun _ => rfl) (fun _ => rfl)

/-- Two symmetric matrices of dimension 3. -/
def exEig3 : Serie ℝ := ⟨[2, 1, 0, 3, 1, 5, 1, 0, 0, 2, 0, 3], 2, 6, 3⟩

/-- Two symmetric matrices of dimension 2. -/
def exEig2 : Serie ℝ := ⟨[2, 1, 3, 0, -1, 4], 2, 3, 2⟩

theorem exEig3_WF : WF exEig3 := by decide

theorem exEig2_WF : WF exEig2 := by decide

theorem exEig3_shape : EigenShape 3 exEig3 := ⟨rfl, .inr ⟨rfl, rfl⟩⟩

theorem exEig2_shape : EigenShape 2 exEig2 := ⟨rfl, .inl ⟨rfl, rfl⟩⟩

variable [Trig ℝ] {n : Nat} {s : Serie ℝ}

/-! ## C56: orthonormal vectors, trace, residual -/

/-- C56 for `eigenSystem`: for each item `t`, with values `e` and vectors `w`. -/
theorem C56_system (ht : ExactTrig) (h : WF s) (hs : EigenShape n s) (hfit : s.count * (n * n) < 2 ^ 32) :
    ∃ val vecs, eigenSystem s = .ok (val, vecs) ∧ WF val ∧ WF vecs ∧ val.itemSize = n ∧ vecs.itemSize = n * n ∧
      ItemWise3 (fun t e w => Orthonormal n w ∧ ∑ k, vec n e k = (symMatrix n t).trace ∧
        residualSq (symMatrix n t) e w ≤ 2 * (0.00001 * offDiag (symMatrix n t))) s val vecs := by
  obtain ⟨val, vecs, h1, h2, h3, h4, h5, _, _, h6, _⟩ := eigen_facts ht h hs hfit
  exact ⟨val, vecs, h1, h2, h3, h4, h5, h6.weaken fun t e w hf => ⟨hf.orth, hf.tr, hf.res⟩⟩

example := @C56_system realTrig _ _ exactTrig exEig3_WF exEig3_shape (by decide)
example := @C56_system realTrig _ _ exactTrig exEig2_WF exEig2_shape (by decide)

/-- `eigenValues` and `eigenVectors` return the two Series of `eigenSystem`. -/
theorem C56_functions_agree (ht : ExactTrig) (h : WF s) (h0 : 0 < s.count) (hs : EigenShape n s)
    (hfit : s.count * (n * n) < 2 ^ 32) :
    ∃ val vecs, eigenSystem s = .ok (val, vecs) ∧ eigenValues s = .ok val ∧ eigenVectors s = .ok vecs := by
  obtain ⟨val, vecs, h1, _, _, _, _, _, _, _, h7⟩ := eigen_facts ht h hs hfit
  exact ⟨val, vecs, h1, h7 h0⟩

example := @C56_functions_agree realTrig _ _ exactTrig exEig3_WF (by decide) exEig3_shape (by decide)

/-- The iteration stops by itself: at most 64 sweeps in dimension 3 and one in dimension 2, the cap being 100, and it has
then met its threshold. -/
theorem C56_stops (ht : ExactTrig) :
    (∀ a : List ℝ, a.length = 6 → ∃ st, jacobi 3 a = .ok st ∧ st.iter ≤ 64 ∧
      st.thr ≤ (num a 1 ^ 2 + num a 3 ^ 2 + num a 4 ^ 2) * 0.00001) ∧
    (∀ a : List ℝ, a.length = 3 → ∃ st, jacobi 2 a = .ok st ∧ st.iter ≤ 1 ∧ st.thr = 0) := by
  constructor
  · intro a hl
    obtain ⟨st, h1, _, h2, h3⟩ := jacobi3 ht hl
    exact ⟨st, h1, h2, h3⟩
  · intro a hl
    obtain ⟨st, h1, h2, h3, _⟩ := jacobi2 ht hl
    exact ⟨st, h1, h2, h3⟩

example := @C56_stops realTrig exactTrig

/-- The matrix `∑ₖ eₖ vₖ vₖᵀ` rebuilt from the values and the vectors is as close to the item. -/
theorem C56_rebuild (ht : ExactTrig) (h : WF s) (hs : EigenShape n s) (hfit : s.count * (n * n) < 2 ^ 32) :
    ∃ val vecs, eigenSystem s = .ok (val, vecs) ∧
      ItemWise3 (fun t e w => ∑ i, ∑ j, (symMatrix n t i j -
        ∑ k : Fin n, num e k * fullMatrix n w k i * fullMatrix n w k j) ^ 2 ≤
          2 * (0.00001 * offDiag (symMatrix n t))) s val vecs := by
  obtain ⟨val, vecs, h1, _, _, _, _, _, _, h6, _⟩ := eigen_facts ht h hs hfit
  refine ⟨val, vecs, h1, h6.weaken fun t e w hf => ?_⟩
  rw [rebuild_eq hf.orth]
  exact hf.res

example := @C56_rebuild realTrig _ _ exactTrig exEig3_WF exEig3_shape (by decide)

/-! ## C57: decreasing order -/

/-- The values are in decreasing order, and vector `k` goes with value `k`. -/
theorem C57_sorted (ht : ExactTrig) (h : WF s) (hs : EigenShape n s) (hfit : s.count * (n * n) < 2 ^ 32) :
    ∃ val vecs, eigenSystem s = .ok (val, vecs) ∧
      ItemWise3 (fun t e w => e.length = n ∧ (∀ i j : Fin n, i ≤ j → vec n e j ≤ vec n e i) ∧
        ∀ k : Fin n, ∑ i, ((symMatrix n t).mulVec (fullMatrix n w k) i - vec n e k * fullMatrix n w k i) ^ 2 ≤
          2 * (0.00001 * offDiag (symMatrix n t))) s val vecs ∧
      (0 < s.count → eigenValues s = .ok val ∧ eigenVectors s = .ok vecs) := by
  obtain ⟨val, vecs, h1, _, _, _, _, _, _, h6, h7⟩ := eigen_facts ht h hs hfit
  refine ⟨val, vecs, h1, h6.weaken fun t e w hf => ⟨hf.len, hf.sorted, fun k => le_trans ?_ hf.res⟩, h7⟩
  exact Finset.single_le_sum (f := fun k : Fin n => ∑ i, ((symMatrix n t).mulVec (fullMatrix n w k) i -
    num e k * fullMatrix n w k i) ^ 2) (fun k _ => Finset.sum_nonneg fun i _ => sq_nonneg _) (Finset.mem_univ k)

example := @C57_sorted realTrig _ _ exactTrig exEig3_WF exEig3_shape (by decide)

/-! ## C58: dimension 2 is exact -/

/-- In dimension 2 the vectors are exact eigenvectors. -/
theorem C58_exact (ht : ExactTrig) (h : WF s) (hs : EigenShape 2 s) (hfit : s.count * 4 < 2 ^ 32) :
    ∃ val vecs, eigenSystem s = .ok (val, vecs) ∧
      ItemWise3 (fun t e w => e.length = 2 ∧ Orthonormal 2 w ∧
        ∀ k, (symMatrix2 t).mulVec (fullMatrix 2 w k) = vec 2 e k • fullMatrix 2 w k) s val vecs ∧
      (0 < s.count → eigenValues s = .ok val ∧ eigenVectors s = .ok vecs) := by
  obtain ⟨val, vecs, h1, _, _, _, _, _, _, h6, h7⟩ := eigen_facts ht h hs hfit
  refine ⟨val, vecs, h1, h6.weaken fun t e w hf => ⟨hf.len, hf.orth, fun k => ?_⟩, h7⟩
  have h0 := hf.exact2 rfl
  unfold residualSq at h0
  rw [Finset.sum_eq_zero_iff_of_nonneg (fun k _ => Finset.sum_nonneg fun i _ => sq_nonneg _)] at h0
  have h0 := h0 k (Finset.mem_univ k)
  rw [Finset.sum_eq_zero_iff_of_nonneg (fun i _ => sq_nonneg _)] at h0
  funext i
  have h0 := h0 i (Finset.mem_univ i)
  exact sub_eq_zero.1 (pow_eq_zero_iff (two_ne_zero)|>.1 h0)

example := @C58_exact realTrig _ exactTrig exEig2_WF exEig2_shape (by decide)

/-! ## C79: other shapes -/

/-- A Serie of dimension 2 or 3 with another item size is rejected. -/
theorem C79_throws (hd : (s.dimension = 2 ∧ s.itemSize ≠ 3) ∨ (s.dimension = 3 ∧ s.itemSize ≠ 6)) :
    eigenValues s = .throw .runtimeError ∧ eigenVectors s = .throw .runtimeError ∧
      eigenSystem s = .throw .runtimeError := by
  unfold eigenValues eigenVectors eigenSystem
  rcases hd with hd | hd
  · simp only [hd, ne_eq, not_false_eq_true, and_self, if_true]
  · rw [if_neg (by simp [hd.1]), if_pos hd, if_neg (by simp [hd.1]), if_pos hd, if_neg (by simp [hd.1]), if_pos hd]
    exact ⟨rfl, rfl, rfl⟩

example := C79_throws (s := ⟨[1, 2], 1, 2, 3⟩) (.inr (by decide))

/-- A Serie of any other dimension: `eigenSystem` gives two empty Series. -/
theorem C79_system_partial (h2 : s.dimension ≠ 2) (h3 : s.dimension ≠ 3) :
    eigenSystem s = .ok (Serie.empty, Serie.empty) := by
  unfold eigenSystem
  simp only [h2, h3, false_and, if_false]
  rfl

example := C79_system_partial (s := ⟨[1, 2, 3, 4], 1, 4, 4⟩) (by decide) (by decide)

/-- C79 is violated: for any other dimension and items of fewer than 6 numbers, `eigenValues` and `eigenVectors` read out
of bounds. -/
theorem C79_dimension_violated (h : WF s) (h0 : 0 < s.count) (h2 : s.dimension ≠ 2) (h3 : s.dimension ≠ 3)
    (hk : s.itemSize < 6) : eigenValues s = .ub ∧ eigenVectors s = .ub := by
  have key : ∀ t : List ℝ, t.length = s.itemSize → eigenItem 3 t = .ub := by
    intro t hl
    unfold eigenItem eigenInput
    have : t.length < 6 := by omega
    match t, this with
    | [], _ => rfl
    | [_], _ => rfl
    | [_, _], _ => rfl
    | [_, _, _], _ => rfl
    | [_, _, _, _], _ => rfl
    | [_, _, _, _, _], _ => rfl
  unfold eigenValues eigenVectors
  simp only [h2, h3, false_and, if_false]
  exact ⟨mapArr_ub0 h h0 fun v hv => by rw [key v hv]; rfl, mapArr_ub0 h h0 fun v hv => by rw [key v hv]; rfl⟩

example := C79_dimension_violated (s := ⟨[1, 2], 1, 2, 1⟩) (by decide) (by decide) (by decide) (by decide) (by decide)

/-- C79 is violated for an empty Serie: `eigenValues` and `eigenVectors` give an invalid Serie, while `eigenSystem` gives
valid empty Series. -/
theorem C79_empty_violated (ht : ExactTrig) (h : WF s) (hs : EigenShape n s) (h0 : s.count = 0) :
    eigenValues s = .ok Serie.empty ∧ eigenVectors s = .ok Serie.empty ∧
      ∃ val vecs, eigenSystem s = .ok (val, vecs) ∧ val.itemSize = n ∧ vecs.itemSize = n * n := by
  obtain ⟨val, vecs, h1, _, _, h4, h5, _⟩ := eigen_facts ht h hs (by rw [h0]; simp)
  refine ⟨?_, ?_, val, vecs, h1, h4, h5⟩
  · unfold eigenValues
    rcases hs.2 with ⟨rfl, hk⟩ | ⟨rfl, hk⟩
    · rw [if_neg (by simp [hk]), if_neg (by simp [hs.1]), if_pos ⟨hs.1, hk⟩]
      exact mapArr_empty h0 _
    · rw [if_neg (by simp [hs.1]), if_neg (by simp [hk]), if_neg (by simp [hs.1])]
      exact mapArr_empty h0 _
  · unfold eigenVectors
    rcases hs.2 with ⟨rfl, hk⟩ | ⟨rfl, hk⟩
    · rw [if_neg (by simp [hk]), if_neg (by simp [hs.1]), if_pos ⟨hs.1, hk⟩]
      exact mapArr_empty h0 _
    · rw [if_neg (by simp [hs.1]), if_neg (by simp [hk]), if_neg (by simp [hs.1])]
      exact mapArr_empty h0 _

example := @C79_empty_violated realTrig 3 ⟨[], 0, 6, 3⟩ exactTrig (by decide) ⟨rfl, .inr ⟨rfl, rfl⟩⟩ rfl

end DF
