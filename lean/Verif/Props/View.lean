import Verif.Lemmas.View
import Mathlib.Data.Matrix.Mul
import Mathlib.Analysis.Real.Sqrt
import Mathlib.Algebra.Order.Archimedean.Real.Basic
import Mathlib.Algebra.Order.BigOperators.Group.List
import Mathlib.Algebra.BigOperators.Group.List.Basic
import Mathlib.Tactic.Positivity
import Mathlib.Tactic.NormNum
import Mathlib.Tactic.Linarith
import Mathlib.Tactic.Ring

/-!
# Properties of the matrix and vector views: C63, C64, C77, C78

`MatView.of v m` is a `Matrix` on an array `v` that outlives it; `fullMatrix m v` is the matrix it stands for.
-/

namespace DF

open Spec

variable {α : Type}

/-! ## C63: matrix views address each entry once -/

/-- The packed index does not depend on the order of its two indices, for every dimension whatever. -/
theorem C63_packed_symmetric (i j m : Nat) : indexS i j m = indexS j i m := by
  unfold indexS
  by_cases h : j < i
  · simp only [h, if_true, if_neg (Nat.lt_asymm h)]
  · by_cases h' : i < j
    · simp only [h', if_true, if_neg h]
    · rw [Nat.le_antisymm (Nat.not_lt.1 h) (Nat.not_lt.1 h')]

/-- The packed index is a bijection from the entries on or above the diagonal to `0 .. m (m + 1) / 2 - 1`, for every
dimension for which these positions fit in a `uint`. -/
theorem C63_packed_bijection {m : Nat} (hm : m * (m + 1) / 2 ≤ 2 ^ 32) :
    (∀ i j, i ≤ j → j < m → ∃ p, indexS i j m = .ok p ∧ p < m * (m + 1) / 2) ∧
    (∀ i j i' j', i ≤ j → j < m → i' ≤ j' → j' < m → indexS i j m = indexS i' j' m → i = i' ∧ j = j') ∧
    (∀ p, p < m * (m + 1) / 2 → ∃ i j, i ≤ j ∧ j < m ∧ indexS i j m = .ok p) := by
  refine ⟨fun i j hij hj => ⟨_, (indexS_eq hij hj hm).1, packed_lt hij hj⟩, ?_, ?_⟩
  · intro i j i' j' hij hj hij' hj' h
    rw [(indexS_eq hij hj hm).1, (indexS_eq hij' hj' hm).1] at h
    have h := Res.ok.inj h
    rcases Nat.lt_trichotomy i i' with h1 | h1 | h1
    · have := packedRow_mono (m := m) h1
      omega
    · subst h1
      omega
    · have := packedRow_mono (m := m) h1
      omega
  · intro p hp
    rw [← packedRow_last] at hp
    obtain ⟨i, j, hij, hj, rfl⟩ := packed_surj m (Nat.le_refl _) p hp
    exact ⟨i, j, hij, hj, (indexS_eq hij hj hm).1⟩

example := C63_packed_bijection (m := 3) (by decide)

/-- Dimension 3: the packed order is `xx, xy, xz, yy, yz, zz`. -/
example : [(0, 0), (0, 1), (0, 2), (1, 1), (1, 2), (2, 2)].map (fun p => indexS p.1 p.2 3) =
    [.ok 0, .ok 1, .ok 2, .ok 3, .ok 4, .ok 5] := by decide +kernel

/-- The full index is a bijection from the entries of an `n × m` matrix to `0 .. n m - 1`. -/
theorem C63_full_bijection {n m : Nat} (hnm : n * m ≤ 2 ^ 32) :
    (∀ i j, i < n → j < m → matIndex i j m < n * m) ∧
    (∀ i j i' j', i < n → j < m → i' < n → j' < m → matIndex i j m = matIndex i' j' m → i = i' ∧ j = j') ∧
    (∀ p, p < n * m → ∃ i j, i < n ∧ j < m ∧ matIndex i j m = p) := by
  have key : ∀ i j, i < n → j < m → i * m + j < n * m := fun i j hi hj => by
    have : (i + 1) * m ≤ n * m := Nat.mul_le_mul_right _ hi
    rw [Nat.succ_mul] at this
    omega
  have hu : ∀ i j, i < n → j < m → matIndex i j m = i * m + j := fun i j hi hj => by
    have := key i j hi hj
    exact u32_of_lt (by omega)
  refine ⟨fun i j hi hj => by rw [hu i j hi hj]; exact key i j hi hj, ?_, ?_⟩
  · intro i j i' j' hi hj hi' hj' h
    rw [hu i j hi hj, hu i' j' hi' hj'] at h
    have h0 : 0 < m := by omega
    have h1 := congrArg (· / m) h
    have h2 := congrArg (· % m) h
    simp only [Nat.add_comm _ j, Nat.add_comm _ j', Nat.add_mul_div_right _ _ h0, Nat.add_mul_mod_self_right,
      Nat.div_eq_of_lt hj, Nat.div_eq_of_lt hj', Nat.mod_eq_of_lt hj, Nat.mod_eq_of_lt hj', Nat.zero_add] at h1 h2
    exact ⟨h1, h2⟩
  · intro p hp
    have h0 : 0 < m := Nat.pos_of_ne_zero (by rintro rfl; omega)
    have hd : p / m < n := Nat.div_lt_of_lt_mul (by rw [Nat.mul_comm]; exact hp)
    refine ⟨p / m, p % m, hd, Nat.mod_lt _ h0, ?_⟩
    rw [hu _ _ hd (Nat.mod_lt _ h0), Nat.mul_comm, Nat.div_add_mod]

example := C63_full_bijection (n := 2) (m := 3) (by decide)

/-- Reading entry `(i, j)` gives that entry. -/
theorem C63_entry [Zero α] {v : List α} {m : Nat} (hv : v.length = m * m) (hm : m * m ≤ 2 ^ 32) (i j : Fin m) :
    (MatView.of v m).at' i j = .ok (fullMatrix m v i j) := at_eq hv hm i.2 j.2

example := C63_entry (v := ([1, 2, 3, 4] : List Int)) (m := 2) rfl (by decide) 0 1

/-- `multVec` is the product of the matrix and the vector. -/
theorem C63_multVec [CommRing α] {v a : List α} {m : Nat} (hv : v.length = m * m) (hm : m * m ≤ 2 ^ 32)
    (ha : a.length = m) : ∃ r, (MatView.of v m).multVec a = .ok r ∧ r.length = m ∧
      vec m r = (fullMatrix m v).mulVec (vec m a) := by
  have hm' : m < 2 ^ 32 := by
    by_contra hc
    have : 2 ^ 32 * 2 ^ 32 ≤ m * m := Nat.mul_le_mul (by omega) (by omega)
    omega
  refine ⟨_, multVec_eq hv hm hm' ha, by simp, ?_⟩
  funext i
  have hl : (i : Nat) < ((List.range m).map fun i => ∑ k ∈ Finset.range m, num v (i * m + k) * num a k).length := by
    simp
  show num _ (i : Nat) = _
  rw [num_eq hl, List.getElem_map, List.getElem_range, Finset.sum_range]
  rfl

example := C63_multVec (v := ([1, 2, 3, 4] : List Int)) (a := [5, 7]) (m := 2) rfl (by decide) rfl

/-- `multVec` rejects a vector of another length. -/
theorem C63_multVec_throws [CommRing α] (v a : List α) {m : Nat} (ha : a.length < 2 ^ 32) (h : a.length ≠ m) :
    (MatView.of v m).multVec a = .throw .invalidArgument := by
  unfold MatView.multVec
  rw [u32_of_lt ha, if_pos (show a.length ≠ (MatView.of v m).m from h)]

example := C63_multVec_throws ([1, 2, 3, 4] : List Int) [5, 6, 7] (m := 2) (by decide) (by decide)

/-- `trace` is the sum of the diagonal. -/
theorem C63_trace [CommRing α] {v : List α} {m : Nat} (hv : v.length = m * m) (hm : m * m ≤ 2 ^ 32) :
    (MatView.of v m).trace = .ok (fullMatrix m v).trace := by
  rw [trace_eq hv hm, Finset.sum_range]
  rfl

example := C63_trace (v := ([1, 2, 3, 4] : List Int)) (m := 2) rfl (by decide)

/-- `isSymmetric` answers, and says whether the matrix is symmetric. -/
theorem C63_isSymmetric [Zero α] [DecidableEq α] {v : List α} {m : Nat} (hv : v.length = m * m) (hm : m * m ≤ 2 ^ 32) :
    ∃ b, (MatView.of v m).isSymmetric = .ok b ∧ (b = true ↔ (fullMatrix m v).IsSymm) := by
  obtain ⟨b, h1, h2⟩ := isSymmetric_eq hv hm
  refine ⟨b, h1, h2.trans ?_⟩
  constructor
  · intro h
    ext i j
    rcases Nat.le_total i j with hij | hij
    · exact (h i j hij j.2).symm
    · exact h j i hij i.2
  · intro h i j hij hj
    exact (Matrix.IsSymm.apply h ⟨i, by omega⟩ ⟨j, hj⟩).symm

example := C63_isSymmetric (v := ([1, 2, 3, 4] : List Int)) (m := 2) rfl (by decide)

/-- `array` of a symmetric matrix stores each entry at its packed position, and nothing else. -/
theorem C63_array_symmetric [Zero α] [DecidableEq α] {v : List α} {m : Nat} (hv : v.length = m * m)
    (hm : m * (m + 1) < 2 ^ 32) (hs : (fullMatrix m v).IsSymm) :
    ∃ a, (MatView.of v m).array = .ok a ∧ a.length = m * (m + 1) / 2 ∧
      ∀ i j : Fin m, ∃ p, indexS i j m = .ok p ∧ a[p]? = some (fullMatrix m v i j) := by
  have hm' : m * m ≤ 2 ^ 32 := by
    have : m * (m + 1) = m * m + m := by ring
    omega
  obtain ⟨b, h1, h2⟩ := C63_isSymmetric hv hm'
  rw [h2.2 hs] at h1
  obtain ⟨a, ha, hl, he⟩ := array_sym hv hm h1
  refine ⟨a, ha, hl, fun i j => ?_⟩
  rcases Nat.le_total i j with hij | hij
  · exact ⟨_, (indexS_eq hij j.2 (by omega)).1, he i j hij j.2⟩
  · refine ⟨_, (indexS_eq hij i.2 (by omega)).2, (he j i hij i.2).trans ?_⟩
    exact congrArg some (Matrix.IsSymm.apply hs i j)

example := C63_array_symmetric (v := ([1, 2, 2, 4] : List Int)) (m := 2) rfl (by decide) (by unfold Matrix.IsSymm; decide +kernel)

/-- `array` of any other matrix is its array. -/
theorem C63_array_full [Zero α] [DecidableEq α] {v : List α} {m : Nat} (hv : v.length = m * m)
    (hm : m * m ≤ 2 ^ 32) (hs : ¬ (fullMatrix m v).IsSymm) : (MatView.of v m).array = .ok v := by
  obtain ⟨b, h1, h2⟩ := C63_isSymmetric hv hm
  refine array_not_sym ?_
  cases b with
  | false => exact h1
  | true => exact absurd (h2.1 rfl) hs

example := C63_array_full (v := ([1, 2, 3, 4] : List Int)) (m := 2) rfl (by decide) (by unfold Matrix.IsSymm; decide +kernel)

/-- A symmetric and a non symmetric matrix. -/
example : (MatView.of [1, 2, 2, 3] 2 : MatView Int).array = .ok [1, 2, 3] ∧
    (MatView.of [1, 2, 4, 3] 2 : MatView Int).array = .ok [1, 2, 4, 3] ∧
    (MatView.of [1, 2, 4, 3] 2 : MatView Int).multVec [1, 10] = .ok [21, 34] ∧
    (MatView.of [1, 2, 4, 3] 2 : MatView Int).trace = .ok 4 := by decide +kernel

/-! ## C77: matrices returned by value -/

/-- Reading any entry of the matrix returned by `transpose` is undefined behaviour. -/
theorem C77_transpose_violated [Zero α] (M R : MatView α) (h : M.transpose = .ok R) (i j : Nat) : R.at' i j = .ub := by
  unfold MatView.transpose at h
  revert h
  cases M.deref with
  | throw e => intro h; cases h
  | ub => intro h; cases h
  | ok src =>
    rw [Res.ok_bind]
    generalize (forLoop _ _ _ _ : Res (List α × Nat)) = l
    intro h
    cases l with
    | throw e => cases h
    | ub => cases h
    | ok p => cases h; rfl

example : ∃ R, (MatView.of ([1, 2, 3, 4] : List Int) 2).transpose = .ok R ∧ ∀ i j, R.at' i j = .ub :=
  ⟨_, rfl, C77_transpose_violated (MatView.of ([1, 2, 3, 4] : List Int) 2) _ rfl⟩

/-- Reading any entry of the matrix returned by `multMat` is undefined behaviour. -/
theorem C77_multMat_violated [CommRing α] (M N R : MatView α) (h : M.multMat N = .ok R) (i j : Nat) :
    R.at' i j = .ub := by
  unfold MatView.multMat at h
  split at h
  · cases h
  · revert h
    cases N.length with
    | throw e => intro h; cases h
    | ub => intro h; cases h
    | ok n =>
      rw [Res.ok_bind]
      generalize (forLoop _ _ _ _ : Res (List α)) = l
      intro h
      cases l with
      | throw e => cases h
      | ub => cases h
      | ok p => cases h; rfl

example : ∃ R, (MatView.of ([1, 2, 3, 4] : List Int) 2).multMat (MatView.of [0, 1, 1, 0] 2) = .ok R ∧ ∀ i j, R.at' i j = .ub :=
  ⟨_, rfl, C77_multMat_violated (MatView.of ([1, 2, 3, 4] : List Int) 2) (MatView.of [0, 1, 1, 0] 2) _ rfl⟩

/-- `multMat` of matrices of different sizes throws. -/
theorem C77_multMat_throws [CommRing α] (M N : MatView α) (h : M.m ≠ N.m) : M.multMat N = .throw .invalidArgument := by
  unfold MatView.multMat
  rw [if_pos (Ne.symm h)]

example := C77_multMat_throws (MatView.of ([1, 2, 3, 4] : List Int) 2) (MatView.of [1] 1) (by decide)

/-- Reading any entry of the matrix returned by `symSquaredMatrix` is undefined behaviour. -/
theorem C77_symSquaredMatrix_violated [Zero α] (v : List α) (R : MatView α) (h : symSquaredMatrix v = .ok R) (i j : Nat) :
    R.at' i j = .ub := by
  unfold symSquaredMatrix at h
  simp only [] at h
  split at h
  · cases h
  · revert h
    generalize (forLoop _ _ _ _ : Res (List α)) = l
    intro h
    cases l with
    | throw e => cases h
    | ub => cases h
    | ok p => cases h; rfl

example : ∃ R, symSquaredMatrix ([1, 2, 3, 4, 5, 6] : List Int) = .ok R ∧ ∀ i j, R.at' i j = .ub :=
  ⟨MatView.dangling 3, by decide +kernel, C77_symSquaredMatrix_violated ([1, 2, 3, 4, 5, 6] : List Int) _ (by decide +kernel)⟩

/-- An array that is not the upper triangle of a matrix is not rejected. When it is longer than the triangle of size `k` and at most
`(k + 1)² / 2` numbers long, the function writes past the end of an array. -/
theorem C77_symSquaredMatrix_length_violated [Zero α] (v : List α) (k : Nat) (hk : k * (k + 1) < 2 * v.length)
    (h : 2 * v.length ≤ (k + 1) * (k + 1)) (hs : k * k + k < 2 ^ 32) : symSquaredMatrix v = .ub := by
  have hd : symDim v.length = k := symDim_eq (by omega) (by nlinarith)
  have hb : symBound v.length = k + 1 := by
    unfold symBound
    rw [hd, if_neg (by have := half_pronic k; omega)]
  unfold symSquaredMatrix
  simp only [hd, hb]
  have h2 : k * (k + 1) = k * k + k := by ring
  have h3 : (k + 1) * (k + 1) = k * k + 2 * k + 1 := by ring
  rw [if_neg (by omega), forLoop_add]
  rcases forLoop_or_ub (f := fun i (w : List α) => forLoop (fun j w => indexS i j k >>= fun p => rd v p >>= fun x =>
      wr w (matIndex j i k) x) 0 (k + 1) w) (fun w => w.length = 2 * v.length - (k + 1)) k 0
      (List.replicate (2 * v.length - (k + 1)) 0) (fun i w _ _ hw =>
        forLoop_or_ub (fun w : List α => w.length = 2 * v.length - (k + 1)) _ _ _ (fun j w _ _ hw => by
          rcases symStep_or_ub (v := v) (w := w) i j k with e | ⟨w', e, h⟩
          · exact .inl e
          · exact .inr ⟨w', e, by omega⟩) hw) (by simp) with e | ⟨w, e, hw⟩
  · erw [e]; rfl
  · erw [e]
    rw [Res.ok_bind, forLoop_succ, forLoop_add]
    rcases forLoop_or_ub (f := fun j (w : List α) => indexS (0 + k) j k >>= fun p => rd v p >>= fun x =>
      wr w (matIndex j (0 + k) k) x) (fun w => w.length = 2 * v.length - (k + 1)) k 0 w (fun j w _ _ hw => by
          rcases symStep_or_ub (v := v) (w := w) (0 + k) j k with e | ⟨w', e, h⟩
          · exact .inl e
          · exact .inr ⟨w', e, by omega⟩) hw with e | ⟨w', e, hw'⟩
    · erw [e]; rfl
    · erw [e]
      rw [Res.ok_bind, forLoop_succ]
      have : (indexS (0 + k) (0 + k) k >>= fun p => rd v p >>= fun x => wr w' (matIndex (0 + k) (0 + k) k) x) = .ub := by
        rcases symStep_or_ub (v := v) (w := w') (0 + k) (0 + k) k with e | ⟨w'', e, _⟩
        · exact e
        · exfalso
          have hm : matIndex (0 + k) (0 + k) k = k * k + k := by
            unfold matIndex
            rw [Nat.zero_add, u32_of_lt hs]
          have : ∀ x, wr w' (matIndex (0 + k) (0 + k) k) x = .ub := fun x => wr_of_ge (by rw [hm]; omega)
          simp only [this] at e
          revert e
          cases indexS (0 + k) (0 + k) k with
          | throw e => intro h; cases h
          | ub => intro h; cases h
          | ok p => rw [Res.ok_bind]; cases rd v p <;> intro h <;> cases h
      rw [this]; rfl

/-- Arrays of two and of four numbers. -/
example : symSquaredMatrix ([1, 2] : List Int) = .ub ∧ symSquaredMatrix ([1, 2, 3, 4] : List Int) = .ub :=
  ⟨C77_symSquaredMatrix_length_violated _ 1 (by decide) (by decide) (by decide),
   C77_symSquaredMatrix_length_violated _ 2 (by decide) (by decide) (by decide)⟩

/-- The function returns for every other length, also when the array is not a triangle: it then ignores the last numbers. -/
theorem C77_symSquaredMatrix_returns [Zero α] (v : List α) (k : Nat)
    (h : 2 * v.length = k * (k + 1) ∨ (k + 1) * (k + 1) < 2 * v.length ∧ 2 * v.length < (k + 1) * (k + 2))
    (hs : v.length < 2 ^ 31) : ∃ R, symSquaredMatrix v = .ok R ∧ R.m = k := by
  have h2 : k * (k + 1) = k * k + k := by ring
  have h3 : (k + 1) * (k + 1) = k * k + 2 * k + 1 := by ring
  have h4 : (k + 1) * (k + 2) = k * k + 3 * k + 2 := by ring
  have hd : symDim v.length = k := symDim_eq (by omega) (by omega)
  have hk : k < 2 ^ 31 := by
    by_contra hc
    have := Nat.mul_le_mul (Nat.not_lt.1 hc) (Nat.not_lt.1 hc)
    omega
  have hp := half_pronic k
  refine ⟨MatView.dangling k, ?_, rfl⟩
  unfold symSquaredMatrix
  simp only [hd]
  rw [if_neg (by omega)]
  suffices ∃ w, forLoop (fun i (w : List α) => forLoop (fun j w => indexS i j k >>= fun p => rd v p >>= fun x =>
      wr w (matIndex j i k) x) 0 (symBound v.length) w) 0 (symBound v.length)
      (List.replicate (2 * v.length - symBound v.length) 0) = .ok w by
    obtain ⟨w, hw⟩ := this
    erw [hw]; rfl
  have step : ∀ i j, i < symBound v.length → j < symBound v.length → ∀ w : List α,
      w.length = 2 * v.length - symBound v.length → ∃ w', (indexS i j k >>= fun p => rd v p >>= fun x =>
      wr w (matIndex j i k) x) = .ok w' ∧ w'.length = 2 * v.length - symBound v.length := by
    intro i j hi hj w hw
    have hb : (symBound v.length = k ∧ 2 * v.length = k * (k + 1)) ∨
        (symBound v.length = k + 1 ∧ (k + 1) * (k + 1) < 2 * v.length) := by
      unfold symBound
      rw [hd]
      rcases h with h | h
      · rw [if_pos (by omega)]; exact .inl ⟨rfl, h⟩
      · rw [if_neg (by omega)]; exact .inr ⟨rfl, h.1⟩
    obtain ⟨p, e, hp⟩ : ∃ p, indexS i j k = .ok p ∧ p < v.length := by
      have hk1 : k * (k - 1) + k = k * k := by
        rcases k with _ | k
        · rfl
        · rw [Nat.add_sub_cancel]; ring
      rcases hb with ⟨hb, _⟩ | ⟨hb, _⟩
      · exact indexS_small (b := k - 1) hk (by omega) (by omega) (by omega) (by omega) (by omega) hs
      · rcases Nat.eq_zero_or_pos k with rfl | h0
        · omega
        · exact indexS_small (b := k) hk (by omega) (by omega) (by omega) (by omega) (by omega) hs
    have hm : matIndex j i k < 2 * v.length - symBound v.length := by
      unfold matIndex
      have hjk : j * k ≤ (symBound v.length - 1) * k := Nat.mul_le_mul_right _ (by omega)
      rcases hb with ⟨hb, _⟩ | ⟨hb, _⟩
      · rw [hb] at hjk hi hj ⊢
        have : (k - 1) * k + k = k * k := by
          rcases k with _ | k
          · rfl
          · rw [Nat.add_sub_cancel]; ring
        rw [u32_of_lt (by omega)]
        omega
      · rw [hb, Nat.add_sub_cancel] at hjk
        rw [hb] at hi hj ⊢
        rw [u32_of_lt (by omega)]
        omega
    rw [e, Res.ok_bind, rd_of_lt hp, Res.ok_bind, wr_of_lt (by omega)]
    exact ⟨_, rfl, by rw [List.length_set, hw]⟩
  obtain ⟨w, hw, _⟩ := forLoop_inv (f := fun i (w : List α) => forLoop (fun j w => indexS i j k >>= fun p => rd v p >>= fun x =>
      wr w (matIndex j i k) x) 0 (symBound v.length) w) (fun _ w => w.length = 2 * v.length - symBound v.length)
      (symBound v.length) 0 (List.replicate (2 * v.length - symBound v.length) 0) (fun i w _ hi hw =>
        forLoop_inv (fun _ w => w.length = 2 * v.length - symBound v.length) _ _ _
          (fun j w _ hj hw => step i j (by omega) (by omega) w hw) hw) (by simp)
  exact ⟨w, hw⟩

/-- Six numbers, and nine numbers, which are not the triangle of any matrix. -/
example : (∃ R, symSquaredMatrix ([1, 2, 3, 4, 5, 6] : List Int) = .ok R ∧ R.m = 3) ∧
    ∃ R, symSquaredMatrix ([1, 2, 3, 4, 5, 6, 7, 8, 9] : List Int) = .ok R ∧ R.m = 3 :=
  ⟨C77_symSquaredMatrix_returns _ 3 (.inl rfl) (by decide), C77_symSquaredMatrix_returns _ 3 (.inr (by decide)) (by decide)⟩

/-- Even the length of a matrix returned by one of the three functions, its transposed matrix, or a product with it, is
undefined behaviour. -/
theorem C77_unusable_violated [CommRing α] (M N R : MatView α) (v : List α)
    (h : M.transpose = .ok R ∨ M.multMat N = .ok R ∨ symSquaredMatrix v = .ok R) :
    R.length = .ub ∧ R.transpose = .ub ∧ ∀ P : MatView α, P.m = R.m → P.multMat R = .ub := by
  have hR : R.v = none := by
    rcases h with h | h | h
    · unfold MatView.transpose at h
      revert h
      cases M.deref with
      | throw e => intro h; cases h
      | ub => intro h; cases h
      | ok src =>
        rw [Res.ok_bind]
        generalize (forLoop _ _ _ _ : Res (List α × Nat)) = l
        intro h
        cases l with
        | throw e => cases h
        | ub => cases h
        | ok p => cases h; rfl
    · unfold MatView.multMat at h
      split at h
      · cases h
      · revert h
        cases N.length with
        | throw e => intro h; cases h
        | ub => intro h; cases h
        | ok n =>
          rw [Res.ok_bind]
          generalize (forLoop _ _ _ _ : Res (List α)) = l
          intro h
          cases l with
          | throw e => cases h
          | ub => cases h
          | ok p => cases h; rfl
    · unfold symSquaredMatrix at h
      simp only [] at h
      split at h
      · cases h
      · revert h
        generalize (forLoop _ _ _ _ : Res (List α)) = l
        intro h
        cases l with
        | throw e => cases h
        | ub => cases h
        | ok p => cases h; rfl
  have hd : R.deref = .ub := by unfold MatView.deref; rw [hR]
  have hlen : R.length = .ub := by unfold MatView.length; rw [hd]; rfl
  refine ⟨hlen, ?_, fun P hP => ?_⟩
  · unfold MatView.transpose
    rw [hd]; rfl
  · unfold MatView.multMat
    rw [if_neg (by simp [hP]), hlen]; rfl

example := C77_unusable_violated (MatView.of ([1, 2, 3, 4] : List Int) 2) (MatView.of [] 0) _ [] (.inl rfl)

/-- The three functions do return. -/
example : ((MatView.of [1, 2, 3, 4] 2 : MatView Int).transpose.bind fun R => R.at' 0 0) = .ub ∧
    (match (MatView.of [1, 2, 3, 4] 2 : MatView Int).transpose with | .ok _ => true | _ => false) = true ∧
    (match (MatView.of [1, 2, 3, 4] 2 : MatView Int).multMat (MatView.of [1, 2, 3, 4] 2) with
      | .ok _ => true | _ => false) = true := by
  decide +kernel

/-- `squaredMatrix`, whose array belongs to the caller, can be read. -/
theorem C77_squaredMatrix_partial [Zero α] {v : List α} {m : Nat} (hv : v.length = m * m) (hm : m * m ≤ 2 ^ 32)
    (i j : Fin m) : (squaredMatrix v).at' i j = .ok (fullMatrix m v i j) := by
  unfold squaredMatrix
  rw [hv, Nat.sqrt_eq]
  exact C63_entry hv hm i j

example := C77_squaredMatrix_partial (v := ([1, 2, 3, 4] : List Int)) (m := 2) rfl (by decide) 1 0

/-! ## C64: Vector::norm -/

/-- The Euclidean length. -/
noncomputable def euclid (v : List ℝ) : ℝ := Real.sqrt ((v.map fun x => x * x).sum)

theorem toI32_int {n : Int} (h0 : 0 ≤ n) (h : n < 2 ^ 31) : toI32 (n : ℝ) = .ok n := by
  unfold toI32
  have h0' : (0 : ℝ) ≤ n := by exact_mod_cast h0
  rw [if_pos ⟨by linarith, by exact_mod_cast h⟩, if_pos h0', Int.floor_intCast]

theorem vecNorm_fold (v : List Int) : ∀ acc : Int, 0 ≤ acc → acc + (v.map fun x => x * x).sum < 2 ^ 31 →
    (v.map fun x : Int => (x : ℝ)).foldlM (fun (acc : Int) x => toI32 ((acc : ℝ) + x * x)) acc =
      .ok (acc + (v.map fun x => x * x).sum) := by
  induction v with
  | nil => intro acc _ _; simp
  | cons x v ih =>
    intro acc h0 h
    rw [List.map_cons, List.sum_cons] at h
    have hx : 0 ≤ x * x := mul_self_nonneg x
    have hs : 0 ≤ (v.map fun x => x * x).sum := List.sum_nonneg (by
      intro y hy
      obtain ⟨z, _, rfl⟩ := List.mem_map.1 hy
      exact mul_self_nonneg z)
    rw [List.map_cons, List.foldlM_cons,
      show (acc : ℝ) + (x : ℝ) * (x : ℝ) = ((acc + x * x : Int) : ℝ) by push_cast; ring,
      toI32_int (by linarith) (by linarith), Res.ok_bind, ih _ (by linarith) (by linarith), List.map_cons, List.sum_cons,
      add_assoc]

/-- Numbers that are integers, with a sum of squares that fits in an `int`: the Euclidean length. -/
theorem C64_integers_partial [Sqrt ℝ] (hsqrt : ∀ x : ℝ, Sqrt.sqrt x = Real.sqrt x) (v : List Int)
    (h : (v.map fun x => x * x).sum < 2 ^ 31) :
    vecNorm (v.map fun x : Int => (x : ℝ)) = .ok (euclid (v.map fun x : Int => (x : ℝ))) := by
  unfold vecNorm
  rw [vecNorm_fold v 0 (le_refl _) (by simpa using h), Res.ok_bind, hsqrt, zero_add]
  unfold euclid
  congr 2
  rw [List.map_map]
  induction v with
  | nil => simp
  | cons x v ih =>
    simp only [List.map_cons, List.sum_cons] at h ⊢
    have hx : 0 ≤ x * x := mul_self_nonneg x
    have := ih (by linarith)
    push_cast at this ⊢
    rw [this]
    rfl

/-- For such numbers, not all zero, `normalize` gives a vector of length 1. -/
theorem C64_normalize_partial [Sqrt ℝ] (hsqrt : ∀ x : ℝ, Sqrt.sqrt x = Real.sqrt x) (v : List Int)
    (h : (v.map fun x => x * x).sum < 2 ^ 31) (hnz : ∃ x ∈ v, x ≠ 0) :
    ∃ r, vecNormalize (v.map fun x : Int => (x : ℝ)) = .ok r ∧ r.length = v.length ∧ euclid r = 1 := by
  unfold vecNormalize
  rw [C64_integers_partial hsqrt v h, Res.ok_bind]
  refine ⟨_, rfl, by simp, ?_⟩
  have hpos : 0 < ((v.map fun x : Int => (x : ℝ)).map fun x => x * x).sum := by
    obtain ⟨x, hx, hx0⟩ := hnz
    refine lt_of_lt_of_le (b := (x : ℝ) * x) (mul_self_pos.2 (by exact_mod_cast hx0)) ?_
    refine List.single_le_sum ?_ _ (by simp only [List.map_map, List.mem_map]; exact ⟨x, hx, rfl⟩)
    intro y hy
    simp only [List.map_map, List.mem_map] at hy
    obtain ⟨z, _, rfl⟩ := hy
    exact mul_self_nonneg _
  generalize (v.map fun x : Int => (x : ℝ)) = w at hpos
  have hn : euclid w * euclid w = (w.map fun x => x * x).sum := Real.mul_self_sqrt (le_of_lt hpos)
  have hne : euclid w ≠ 0 := fun h0 => by rw [h0, zero_mul] at hn; linarith
  have key : ∀ (l : List ℝ) (c : ℝ), ((l.map (· / c)).map fun x => x * x).sum = (l.map fun x => x * x).sum / (c * c) := by
    intro l c
    induction l with
    | nil => simp
    | cons x l ih =>
      simp only [List.map_cons, List.sum_cons]
      rw [ih, add_div, div_mul_div_comm]
  show Real.sqrt _ = 1
  rw [key, hn, div_self (ne_of_gt hpos), Real.sqrt_one]

example := @C64_normalize_partial ⟨Real.sqrt⟩ (fun _ => rfl) [3, 4, -12] (by decide) ⟨3, by decide, by decide⟩

/-- The vector `(3, 4)`. -/
example [Sqrt ℝ] (hsqrt : ∀ x : ℝ, Sqrt.sqrt x = Real.sqrt x) : vecNorm [(3 : ℝ), 4] = .ok 5 := by
  have := C64_integers_partial hsqrt [3, 4] (by decide)
  simp only [List.map_cons, List.map_nil] at this
  push_cast at this
  rw [this]
  unfold euclid
  rw [show (([3, 4] : List ℝ).map fun x => x * x).sum = 5 ^ 2 by simp; norm_num, Real.sqrt_sq (by norm_num)]

/-- The sum of squares is truncated at each step: the vector `(1/2)` has length zero, and `normalize` divides by it. -/
theorem C64_truncation_violated [Sqrt ℝ] (hsqrt : ∀ x : ℝ, Sqrt.sqrt x = Real.sqrt x) :
    vecNorm [(1 / 2 : ℝ)] = .ok 0 ∧ euclid [(1 / 2 : ℝ)] = 1 / 2 := by
  constructor
  · unfold vecNorm
    rw [List.foldlM_cons]
    have : toI32 (((0 : Int) : ℝ) + 1 / 2 * (1 / 2)) = .ok 0 := by
      unfold toI32
      rw [if_pos (by norm_num), if_pos (by norm_num)]
      congr 1
      rw [Int.floor_eq_iff]
      norm_num
    rw [this, Res.ok_bind]
    show Res.ok (Sqrt.sqrt (((0 : Int) : ℝ))) = _
    rw [hsqrt, Int.cast_zero, Real.sqrt_zero]
  · unfold euclid
    rw [show (([1 / 2] : List ℝ).map fun x => x * x).sum = (1 / 2) ^ 2 by simp; norm_num, Real.sqrt_sq (by norm_num)]

example := @C64_truncation_violated ⟨Real.sqrt⟩ (fun _ => rfl)

/-- A vector whose first number is at least `2^16` in absolute value: the sum does not fit in an `int`, which is undefined
behaviour. -/
theorem C64_overflow_violated [Sqrt ℝ] (x : ℝ) (v : List ℝ) (hx : 2 ^ 16 ≤ |x|) : vecNorm (x :: v) = .ub := by
  unfold vecNorm
  have : toI32 (((0 : Int) : ℝ) + x * x) = .ub := by
    unfold toI32
    rw [if_neg]
    rintro ⟨_, h⟩
    have h2 : (2 ^ 16 : ℝ) * 2 ^ 16 ≤ |x| * |x| := mul_self_le_mul_self (by norm_num) hx
    rw [abs_mul_abs_self] at h2
    push_cast at h
    norm_num at h h2
    linarith
  rw [List.foldlM_cons, this]
  rfl

example := @C64_overflow_violated ⟨Real.sqrt⟩ (-70000) [1, 2] (by norm_num)

/-- Whenever `norm` returns, it is at most the Euclidean length. -/
theorem C64_upper_bound_partial [Sqrt ℝ] (hsqrt : ∀ x : ℝ, Sqrt.sqrt x = Real.sqrt x) (v : List ℝ) {n : ℝ}
    (h : vecNorm v = .ok n) : 0 ≤ n ∧ n ≤ euclid v := by
  have key : ∀ (v : List ℝ) (acc r : Int), 0 ≤ acc →
      v.foldlM (fun (acc : Int) x => toI32 ((acc : ℝ) + x * x)) acc = .ok r →
        0 ≤ r ∧ (r : ℝ) ≤ acc + (v.map fun x => x * x).sum := by
    intro v
    induction v with
    | nil => intro acc r h0 h; cases h; simpa using h0
    | cons x v ih =>
      intro acc r h0 h
      have h0' : (0 : ℝ) ≤ (acc : ℝ) + x * x := add_nonneg (by exact_mod_cast h0) (mul_self_nonneg x)
      rw [List.foldlM_cons] at h
      have ht : ∀ y : ℝ, 0 ≤ y → toI32 y = .ok ⌊y⌋ ∨ toI32 y = .ub := fun y hy => by
        unfold toI32
        rw [if_pos hy]
        split
        · exact .inl rfl
        · exact .inr rfl
      rcases ht _ h0' with ht | ht
      · rw [ht, Res.ok_bind] at h
        obtain ⟨h1, h2⟩ := ih _ r (Int.floor_nonneg.2 h0') h
        refine ⟨h1, ?_⟩
        have := Int.floor_le ((acc : ℝ) + x * x)
        rw [List.map_cons, List.sum_cons]
        linarith
      · rw [ht] at h
        cases h
  unfold vecNorm at h
  revert h
  generalize hf : v.foldlM (fun (acc : Int) x => toI32 ((acc : ℝ) + x * x)) 0 = f
  intro h
  cases f with
  | throw e => cases h
  | ub => cases h
  | ok r =>
    rw [Res.ok_bind, hsqrt] at h
    cases h
    obtain ⟨_, h2⟩ := key v 0 r (le_refl _) hf
    rw [Int.cast_zero, zero_add] at h2
    exact ⟨Real.sqrt_nonneg _, Real.sqrt_le_sqrt h2⟩

example := @C64_upper_bound_partial ⟨Real.sqrt⟩ (fun _ => rfl) [1 / 2] 0 (@C64_truncation_violated ⟨Real.sqrt⟩ (fun _ => rfl)).1

/-! ## C78: vector arithmetic -/

theorem vecZip_ok (op : α → α → α) : ∀ v s : List α, v.length ≤ s.length → vecZip op v s = .ok (List.zipWith op v s) := by
  intro v
  induction v with
  | nil => intro s _; rfl
  | cons x v ih =>
    intro s h
    cases s with
    | nil => simp at h
    | cons y s =>
      simp only [vecZip]
      rw [ih s (by simpa using h)]
      rfl

theorem vecZip_spec (op : α → α → α) (v s : List α) (h : v.length ≤ s.length) :
    ∃ r, vecZip op v s = .ok r ∧ r.length = v.length ∧
      ∀ (k : Nat) (x y : α), v[k]? = some x → s[k]? = some y → r[k]? = some (op x y) := by
  refine ⟨_, vecZip_ok op v s h, by simp; omega, ?_⟩
  intro k x y hx hy
  rw [List.getElem?_zipWith, hx, hy]

theorem vecZip_ub (op : α → α → α) : ∀ v s : List α, s.length < v.length → vecZip op v s = .ub := by
  intro v
  induction v with
  | nil => intro s h; simp at h
  | cons x v ih =>
    intro s h
    cases s with
    | nil => rfl
    | cons y s =>
      simp only [vecZip]
      rw [ih s (by simpa using h)]
      rfl

/-- `add`: component by component; an argument longer than the vector is cut. -/
theorem C78_add [Add α] (v s : List α) (h : v.length ≤ s.length) : ∃ r, vecAdd v s = .ok r ∧ r.length = v.length ∧
    ∀ (k : Nat) (x y : α), v[k]? = some x → s[k]? = some y → r[k]? = some (x + y) := vecZip_spec _ v s h

example := C78_add ([1, 2] : List Int) [3, 4, 5] (by decide)

/-- `sub`: component by component. -/
theorem C78_sub [Sub α] (v s : List α) (h : v.length ≤ s.length) : ∃ r, vecSub v s = .ok r ∧ r.length = v.length ∧
    ∀ (k : Nat) (x y : α), v[k]? = some x → s[k]? = some y → r[k]? = some (x - y) := vecZip_spec _ v s h

example := C78_sub ([1, 2] : List Int) [3, 4, 5] (by decide)

/-- `mult`: component by component. -/
theorem C78_mult [Mul α] (v s : List α) (h : v.length ≤ s.length) : ∃ r, vecMult v s = .ok r ∧ r.length = v.length ∧
    ∀ (k : Nat) (x y : α), v[k]? = some x → s[k]? = some y → r[k]? = some (x * y) := vecZip_spec _ v s h

example := C78_mult ([1, 2] : List Int) [3, 4, 5] (by decide)

/-- An argument shorter than the vector is read out of bounds. -/
theorem C78_shorter_ub [Add α] [Sub α] [Mul α] (v s : List α) (h : s.length < v.length) :
    vecAdd v s = .ub ∧ vecSub v s = .ub ∧ vecMult v s = .ub :=
  ⟨vecZip_ub _ v s h, vecZip_ub _ v s h, vecZip_ub _ v s h⟩

example := C78_shorter_ub ([1, 2] : List Int) [3] (by decide)

/-- Multiplication by a number. -/
theorem C78_scale [Mul α] (v : List α) (c : α) : (vecScale v c).length = v.length ∧
    ∀ (k : Nat) (x : α), v[k]? = some x → (vecScale v c)[k]? = some (x * c) := by
  unfold vecScale
  refine ⟨List.length_map _, fun k x hx => ?_⟩
  rw [List.getElem?_map, hx]
  rfl

theorem dotL_prefix [CommRing α] (u w : List α) {n : Nat} (hu : n ≤ u.length) (hw : n ≤ w.length) :
    dotL (u.take n) (w.take n) = ∑ k ∈ Finset.range n, num u k * num w k := by
  induction n with
  | zero => simp [dotL]
  | succ n ih =>
    rw [Finset.sum_range_succ, ← ih (by omega) (by omega), List.take_succ_eq_append_getElem (by omega),
      List.take_succ_eq_append_getElem (l := w) (by omega)]
    unfold dotL
    rw [List.zipWith_append (by simp; omega), List.sum_append, num_eq (by omega), num_eq (by omega)]
    simp

/-- The dot product; an argument longer than the vector is cut. -/
theorem C78_dot [CommRing α] (v s : List α) (h : v.length ≤ s.length) : vecDot v s = .ok (dotL v s) := by
  unfold vecDot
  have := forLoop_exact (m := Res) (f := fun i d => rd v i >>= fun x => rd s i >>= fun y => pure (d + x * y))
    (fun n => ∑ k ∈ Finset.range n, num v k * num s k) v.length 0 (fun i _ hi => by
      rw [rd_of_lt (by omega), Res.ok_bind, rd_of_lt (by omega), Res.ok_bind, Finset.sum_range_succ, num_eq (by omega),
        num_eq (by omega)])
  rw [Nat.zero_add, Finset.range_zero, Finset.sum_empty] at this
  refine this.trans ?_
  rw [← dotL_prefix v s (Nat.le_refl _) h, List.take_length]
  show Res.ok _ = Res.ok _
  congr 1
  unfold dotL
  have hz : ∀ (u w : List α), List.zipWith (· * ·) u (w.take u.length) = List.zipWith (· * ·) u w := by
    intro u
    induction u with
    | nil => intro w; simp
    | cons x u ih =>
      intro w
      cases w with
      | nil => rfl
      | cons y w => simp [ih w]
  rw [hz]

example := C78_dot ([1, 2] : List Int) [3, 4, 5] (by decide)

/-- A shorter argument is read out of bounds. -/
theorem C78_dot_shorter_ub [CommRing α] (v s : List α) (h : s.length < v.length) : vecDot v s = .ub := by
  have : ∀ (n lo : Nat) (d : α), lo ≤ s.length → s.length < lo + n → lo + n = v.length →
      forLoop (m := Res) (fun i d => rd v i >>= fun x => rd s i >>= fun y => pure (d + x * y)) lo n d = .ub := by
    intro n
    induction n with
    | zero => intro lo d h1 h2; omega
    | succ n ih =>
      intro lo d h1 h2 h3
      rw [forLoop_succ, rd_of_lt (by omega), Res.ok_bind]
      by_cases hlo : lo < s.length
      · rw [rd_of_lt hlo, Res.ok_bind]
        exact ih (lo + 1) _ (by omega) (by omega) (by omega)
      · rw [rd_of_ge (by omega)]
        rfl
  exact this v.length 0 0 (by omega) (by omega) (by omega)

example := C78_dot_shorter_ub ([1, 2] : List Int) [3] (by decide)

/-- The dot product of vectors of the same length is symmetric. -/
theorem C78_dot_symmetric [CommRing α] (v s : List α) (h : v.length = s.length) : vecDot v s = vecDot s v := by
  rw [C78_dot v s (Nat.le_of_eq h), C78_dot s v (Nat.le_of_eq h.symm)]
  congr 1
  unfold dotL
  rw [List.zipWith_comm]
  congr 2
  funext x y
  exact mul_comm _ _

example := C78_dot_symmetric ([1, 2] : List Int) [3, 4] rfl

/-- The dot product of a vector with itself is non-negative, and zero only for the zero vector. -/
theorem C78_dot_self [Field α] [LinearOrder α] [IsStrictOrderedRing α] (v : List α) :
    ∃ d, vecDot v v = .ok d ∧ 0 ≤ d ∧ (d = 0 ↔ ∀ x ∈ v, x = 0) := by
  refine ⟨_, C78_dot v v (Nat.le_refl _), ?_⟩
  unfold dotL
  induction v with
  | nil => simp
  | cons x v ih =>
    rw [List.zipWith_cons_cons, List.sum_cons, List.forall_mem_cons]
    have hx := mul_self_nonneg x
    refine ⟨add_nonneg hx ih.1, ?_⟩
    rw [← ih.2]
    constructor
    · intro h
      have h1 : x * x = 0 := by linarith [ih.1]
      exact ⟨mul_self_eq_zero.1 h1, by linarith⟩
    · rintro ⟨rfl, h⟩
      rw [h]
      simp

example : vecSub [5, 7] [1, 2, 3] = .ok ([4, 5] : List Int) ∧ vecDot [5, 7] [1, 2, 3] = .ok (19 : Int) ∧
    vecDot [5, 7] [1] = (.ub : Res Int) := by decide +kernel

end DF
