import Verif.Model.View
import Verif.Spec.Algebra
import Verif.Lemmas.Loops
import Mathlib.Algebra.BigOperators.Fin
import Mathlib.LinearAlgebra.Matrix.Trace
import Mathlib.LinearAlgebra.Matrix.Symmetric
import Mathlib.Tactic.Ring
import Mathlib.Tactic.Linarith

/-! # Lemmas on the matrix and vector views -/

namespace DF

open Spec

variable {α : Type}

/-! ## indices -/

/-- First position of row `i` in the packed upper triangle of an `m × m` matrix. -/
def packedRow (m : Nat) : Nat → Nat
  | 0 => 0
  | i + 1 => packedRow m i + (m - i)

theorem packedRow_double {m : Nat} : ∀ i, i ≤ m → 2 * packedRow m i = i * (2 * m + 1 - i) := by
  intro i
  induction i with
  | zero => intro _; simp [packedRow]
  | succ i ih =>
    intro h
    have := ih (by omega)
    obtain ⟨d, rfl⟩ : ∃ d, m = i + 1 + d := ⟨m - (i + 1), by omega⟩
    rw [show 2 * (i + 1 + d) + 1 - i = i + 3 + 2 * d by omega] at this
    rw [show 2 * (i + 1 + d) + 1 - (i + 1) = i + 2 + 2 * d by omega, packedRow,
      show i + 1 + d - i = 1 + d by omega, Nat.mul_add, this]
    ring

theorem packedRow_mono {m : Nat} {i i' : Nat} (h : i < i') : packedRow m i + (m - i) ≤ packedRow m i' := by
  induction i' with
  | zero => omega
  | succ n ih =>
    rcases Nat.lt_succ_iff_lt_or_eq.1 h with h | rfl
    · have := ih h
      simp only [packedRow]
      omega
    · exact Nat.le_refl _

theorem packedRow_last (m : Nat) : packedRow m m = m * (m + 1) / 2 := by
  have := packedRow_double (m := m) m (Nat.le_refl _)
  rw [show 2 * m + 1 - m = m + 1 by omega] at this
  omega

theorem packed_lt {m i j : Nat} (hij : i ≤ j) (hj : j < m) : packedRow m i + (j - i) < m * (m + 1) / 2 := by
  rw [← packedRow_last]
  have := packedRow_mono (m := m) (i := i) (i' := m) (by omega)
  omega

theorem indexS_eq {i j m : Nat} (hij : i ≤ j) (hj : j < m) (hm : m * (m + 1) / 2 ≤ 2 ^ 32) :
    indexS i j m = .ok (packedRow m i + (j - i)) ∧ indexS j i m = .ok (packedRow m i + (j - i)) := by
  have hlt := packed_lt hij hj
  have h2 := packedRow_double (m := m) i (by omega)
  have hm' : m < 2 ^ 31 := by
    by_contra hc
    have : 2 ^ 31 * (2 ^ 31 + 1) ≤ m * (m + 1) := Nat.mul_le_mul (by omega) (by omega)
    omega
  have hkey : i * u32 (2 * m + 2 ^ 33 - 1 - i) / 2 + j = packedRow m i + (j - i) := by
    have hu : u32 (2 * m + 2 ^ 33 - 1 - i) = 2 * m - 1 - i := by unfold u32; omega
    rw [hu]
    obtain ⟨d, rfl⟩ : ∃ d, m = i + 1 + d := ⟨m - (i + 1), by omega⟩
    rw [show 2 * (i + 1 + d) - 1 - i = i + 1 + 2 * d by omega]
    rw [show 2 * (i + 1 + d) + 1 - i = i + 3 + 2 * d by omega] at h2
    have e : i * (i + 3 + 2 * d) = i * (i + 1 + 2 * d) + 2 * i := by ring
    omega
  have h1 : indexS j i m = .ok (packedRow m i + (j - i)) := by
    unfold indexS
    by_cases hc : i < j
    · simp only [hc, if_true]
      rw [hkey, if_pos (by omega)]
    · have : i = j := by omega
      subst this
      simp only [Nat.lt_irrefl, if_false]
      rw [hkey, if_pos (by omega)]
  refine ⟨?_, h1⟩
  unfold indexS
  rw [if_neg (by omega)]
  simp only []
  rw [hkey, if_pos (by omega)]

/-- Every packed position is in some row. -/
theorem packed_surj {m : Nat} : ∀ n, n ≤ m → ∀ p, p < packedRow m n →
    ∃ i j, i ≤ j ∧ j < m ∧ p = packedRow m i + (j - i) := by
  intro n
  induction n with
  | zero => intro _ p hp; simp [packedRow] at hp
  | succ n ih =>
    intro hn p hp
    by_cases h : p < packedRow m n
    · exact ih (by omega) p h
    · simp only [packedRow] at hp
      exact ⟨n, p - packedRow m n + n, by omega, by omega, by omega⟩

/-! ## reading -/

theorem fits_index {i j m : Nat} (hi : i < m) (hj : j < m) : i * m + j < m * m := by
  have : (i + 1) * m ≤ m * m := Nat.mul_le_mul_right _ hi
  rw [Nat.succ_mul] at this
  omega

theorem at_eq [Zero α] {v : List α} {m i j : Nat} (hv : v.length = m * m) (hm : m * m ≤ 2 ^ 32) (hi : i < m) (hj : j < m) :
    (MatView.of v m).at' i j = .ok (num v (i * m + j)) := by
  have := fits_index hi hj
  unfold MatView.at' MatView.of MatView.deref matIndex
  simp only [Res.ok_bind]
  rw [u32_of_lt (by omega), rd_of_lt (by omega)]
  unfold num
  rw [List.getElem?_eq_getElem (by omega)]
  rfl

theorem num_eq [Zero α] {v : List α} {k : Nat} (h : k < v.length) : num v k = v[k] := by
  unfold num
  rw [List.getElem?_eq_getElem h]
  rfl

/-! ## trace, multVec -/

theorem trace_eq [CommRing α] {v : List α} {m : Nat} (hv : v.length = m * m) (hm : m * m ≤ 2 ^ 32) :
    (MatView.of v m).trace = .ok (∑ i ∈ Finset.range m, num v (i * m + i)) := by
  unfold MatView.trace
  have := forLoop_exact (m := Res) (f := fun i t => (MatView.of v m).at' i i >>= fun x => pure (t + x))
    (fun n => ∑ i ∈ Finset.range n, num v (i * m + i)) m 0 (fun j _ hj => by
      rw [at_eq hv hm (by omega) (by omega), Res.ok_bind, Finset.sum_range_succ])
  rw [Nat.zero_add] at this
  exact this

theorem multVec_row [CommRing α] {v a t : List α} {m i : Nat} (hv : v.length = m * m) (hm : m * m ≤ 2 ^ 32)
    (ha : a.length = m) (ht : t.length = m) (hi : i < m) :
    forLoop (m := Res) (fun j t => do
      let y ← rd t i
      let x ← (MatView.of v m).at' i j
      let b ← rd a j
      wr t i (y + x * b)) 0 m t = .ok (t.set i (num t i + ∑ k ∈ Finset.range m, num v (i * m + k) * num a k)) := by
  have := forLoop_exact (m := Res) (f := fun j t => rd t i >>= fun y => (MatView.of v m).at' i j >>= fun x =>
      rd a j >>= fun b => wr t i (y + x * b))
    (fun n => t.set i (num t i + ∑ k ∈ Finset.range n, num v (i * m + k) * num a k)) m 0 (fun j _ hj => by
      rw [rd_of_lt (by rw [List.length_set]; omega), Res.ok_bind, at_eq hv hm hi (by omega), Res.ok_bind,
        rd_of_lt (by omega), Res.ok_bind, wr_of_lt (by rw [List.length_set]; omega), List.getElem_set_self, List.set_set,
        Finset.sum_range_succ, num_eq (v := a) (by omega), add_assoc]
      rfl)
  rw [Nat.zero_add, Finset.range_zero, Finset.sum_empty, add_zero, num_eq (by omega), List.set_getElem_self] at this
  rw [num_eq (v := t) (by omega)]
  exact this

theorem multVec_eq [CommRing α] {v a : List α} {m : Nat} (hv : v.length = m * m) (hm : m * m ≤ 2 ^ 32)
    (hm' : m < 2 ^ 32) (ha : a.length = m) :
    (MatView.of v m).multVec a =
      .ok ((List.range m).map fun i => ∑ k ∈ Finset.range m, num v (i * m + k) * num a k) := by
  unfold MatView.multVec
  rw [u32_of_lt (by omega), if_neg (by simp [ha, MatView.of])]
  have := forLoop_exact (m := Res) (f := fun i t => forLoop (fun j t => do
      let y ← rd t i
      let x ← (MatView.of v m).at' i j
      let b ← rd a j
      wr t i (y + x * b)) 0 m t)
    (fun n => ((List.range n).map fun i => ∑ k ∈ Finset.range m, num v (i * m + k) * num a k) ++
      List.replicate (m - n) 0) m 0 (fun i _ hi => by
      rw [multVec_row hv hm ha (by simp; omega) (by omega)]
      congr 1
      have hl : ((List.range i).map fun i => ∑ k ∈ Finset.range m, num v (i * m + k) * num a k).length = i := by simp
      rw [List.set_append_right _ _ (Nat.le_of_eq hl), hl, Nat.sub_self, List.range_succ, List.map_append,
        show m - i = m - (i + 1) + 1 by omega, List.replicate_succ, List.set_cons_zero]
      simp only [List.map_cons, List.map_nil, List.append_assoc, List.cons_append, List.nil_append]
      congr 2
      rw [num_eq (by simp), List.getElem_append_right (Nat.le_of_eq hl)]
      simp)
  rw [Nat.zero_add, Nat.sub_self, List.replicate_zero, List.append_nil, Nat.sub_zero] at this
  rw [ha]
  exact this

/-! ## isSymmetric, array -/

theorem isSymmetric_eq [Zero α] [DecidableEq α] {v : List α} {m : Nat} (hv : v.length = m * m) (hm : m * m ≤ 2 ^ 32) :
    ∃ b, (MatView.of v m).isSymmetric = .ok b ∧
      (b = true ↔ ∀ i j, i ≤ j → j < m → num v (i * m + j) = num v (j * m + i)) := by
  unfold MatView.isSymmetric
  obtain ⟨b, h1, h2⟩ := forLoop_inv (f := fun i ok => forLoop (m := Res) (fun j ok =>
      if ok then do
        let a ← (MatView.of v m).at' i j
        let b ← (MatView.of v m).at' j i
        pure (decide (a = b))
      else pure false) i (m - i) ok)
    (fun n b => b = true ↔ ∀ i j, i < n → i ≤ j → j < m → num v (i * m + j) = num v (j * m + i)) m 0 true
    (by
      intro i b _ hi hb
      obtain ⟨c, h1, h2⟩ := forLoop_inv (f := fun j ok => if ok then (do
          let a ← (MatView.of v m).at' i j
          let b ← (MatView.of v m).at' j i
          pure (decide (a = b)) : Res Bool)
        else pure false)
        (fun n c => c = true ↔ b = true ∧ ∀ j, i ≤ j → j < n → num v (i * m + j) = num v (j * m + i)) (m - i) i b
        (by
          intro j c _ hj hc
          cases c with
          | false =>
            refine ⟨false, rfl, ?_⟩
            simp only [Bool.false_eq_true, false_iff] at hc ⊢
            intro ⟨h1, h2⟩
            exact hc ⟨h1, fun j h3 h4 => h2 j h3 (by omega)⟩
          | true =>
            rw [if_pos rfl, at_eq hv hm (by omega) (by omega), Res.ok_bind, at_eq hv hm (by omega) (by omega), Res.ok_bind]
            refine ⟨_, rfl, ?_⟩
            simp only [true_iff] at hc
            rw [decide_eq_true_iff]
            constructor
            · intro he
              refine ⟨hc.1, fun k h1 h2 => ?_⟩
              rcases Nat.lt_succ_iff_lt_or_eq.1 h2 with h | rfl
              · exact hc.2 k h1 h
              · exact he
            · intro h
              exact h.2 j (by omega) (by omega))
        (by simp only [iff_self_and]; intro _ j h1 h2; omega)
      refine ⟨c, h1, ?_⟩
      rw [h2, hb]
      constructor
      · rintro ⟨h1, h2⟩ k j hk hkj hj
        rcases Nat.lt_succ_iff_lt_or_eq.1 hk with h | rfl
        · exact h1 k j h hkj hj
        · exact h2 j hkj (by omega)
      · intro h
        exact ⟨fun k j hk => h k j (by omega), fun j h1 h2 => h i j (by omega) h1 (by omega)⟩)
    (by simp)
  refine ⟨b, h1, h2.trans ?_⟩
  constructor
  · intro h i j hij hj
    exact h i j (by omega) hij hj
  · intro h i j _ hij hj
    exact h i j hij hj

theorem array_sym [Zero α] [DecidableEq α] {v : List α} {m : Nat} (hv : v.length = m * m) (hm : m * (m + 1) < 2 ^ 32)
    (hs : (MatView.of v m).isSymmetric = .ok true) :
    ∃ a, (MatView.of v m).array = .ok a ∧ a.length = m * (m + 1) / 2 ∧
      ∀ i j, i ≤ j → j < m → a[packedRow m i + (j - i)]? = some (num v (i * m + j)) := by
  have hm' : m * m ≤ 2 ^ 32 := by
    have : m * (m + 1) = m * m + m := by ring
    omega
  unfold MatView.array
  rw [hs, Res.ok_bind, if_pos rfl]
  obtain ⟨⟨a, k⟩, h1, h2, h3, h4⟩ := forLoop_inv (f := fun i (p : List α × Nat) =>
      forLoop (m := Res) (fun j (p : List α × Nat) => do
        let x ← (MatView.of v m).at' i j
        let a ← wr p.1 p.2 x
        pure (a, u32 (p.2 + 1))) i (m - i) p)
    (fun n p => p.2 = packedRow m n ∧ p.1.length = m * (m + 1) / 2 ∧
      ∀ i j, i < n → i ≤ j → j < m → p.1[packedRow m i + (j - i)]? = some (num v (i * m + j))) m 0
    (List.replicate (u32 (m * (m + 1)) / 2) 0, 0)
    (by
      rintro i p - hi ⟨hp1, hp2, hp3⟩
      obtain ⟨q, hq1, hq2, hq3, hq4, hq5⟩ := forLoop_inv (f := fun j (p : List α × Nat) => (do
          let x ← (MatView.of v m).at' i j
          let a ← wr p.1 p.2 x
          pure (a, u32 (p.2 + 1)) : Res (List α × Nat)))
        (fun n p => p.2 = packedRow m i + (n - i) ∧ p.1.length = m * (m + 1) / 2 ∧
          (∀ i' j, i' < i → i' ≤ j → j < m → p.1[packedRow m i' + (j - i')]? = some (num v (i' * m + j))) ∧
          ∀ j, i ≤ j → j < n → p.1[packedRow m i + (j - i)]? = some (num v (i * m + j))) (m - i) i p
        (by
          rintro j q hj1 hj2 ⟨hq1, hq2, hq3, hq4⟩
          have hlt := packed_lt (m := m) hj1 (by omega)
          rw [at_eq hv hm' (by omega) (by omega), Res.ok_bind, wr_of_lt (by omega), Res.ok_bind]
          refine ⟨_, rfl, ?_, ?_, ?_, ?_⟩
          · show u32 (q.2 + 1) = _
            rw [u32_of_lt (by omega)]
            omega
          · show (List.set _ _ _).length = _
            rw [List.length_set, hq2]
          · intro i' j' h1 h2 h3
            show (List.set _ _ _)[_]? = _
            have := packedRow_mono (m := m) h1
            rw [List.getElem?_set_ne (by omega)]
            exact hq3 i' j' h1 h2 h3
          · intro j' h1 h2
            show (List.set _ _ _)[_]? = _
            rcases Nat.lt_succ_iff_lt_or_eq.1 h2 with h | rfl
            · rw [List.getElem?_set_ne (by omega)]
              exact hq4 j' h1 h
            · rw [hq1, List.getElem?_set_self (by omega)])
        ⟨by rw [hp1]; omega, hp2, hp3, fun j h1 h2 => by omega⟩
      refine ⟨q, hq1, ?_, hq3, ?_⟩
      · rw [hq2]
        simp only [packedRow]
        omega
      · intro i' j h1 h2 h3
        rcases Nat.lt_succ_iff_lt_or_eq.1 h1 with h | rfl
        · exact hq4 i' j h h2 h3
        · exact hq5 j h2 (by omega))
    ⟨rfl, by simp [u32_of_lt hm], fun i j h => by omega⟩
  refine ⟨a, ?_, h3, fun i j hij hj => h4 i j (by omega) hij hj⟩
  show (forLoop _ _ _ _ >>= _) = _
  exact (congrArg (· >>= fun p => match p with | (a, _) => pure a) h1)

theorem array_not_sym [Zero α] [DecidableEq α] {v : List α} {m : Nat}
    (hs : (MatView.of v m).isSymmetric = .ok false) : (MatView.of v m).array = .ok v := by
  unfold MatView.array
  rw [hs, Res.ok_bind]
  rfl

/-! ## symmetric matrices -/

theorem symDim_eq {n k : Nat} (h1 : k * (k + 1) ≤ 2 * n) (h2 : 2 * n < (k + 1) * (k + 2)) : symDim n = k := by
  unfold symDim
  have a : 2 * k + 1 ≤ Nat.sqrt (8 * n + 1) := Nat.le_sqrt.2 (by nlinarith)
  have b : Nat.sqrt (8 * n + 1) < 2 * k + 3 := Nat.sqrt_lt.2 (by nlinarith)
  omega

theorem half_pronic (k : Nat) : 2 * (k * (k + 1) / 2) = k * (k + 1) :=
  Nat.mul_div_cancel' (Nat.even_mul_succ_self k).two_dvd

/-- A loop whose body keeps an invariant or is undefined. -/
theorem forLoop_or_ub {β : Type} {f : Nat → β → Res β} (I : β → Prop) (n : Nat) : ∀ lo b,
    (∀ i b, lo ≤ i → i < lo + n → I b → f i b = .ub ∨ ∃ b', f i b = .ok b' ∧ I b') → I b →
      forLoop f lo n b = .ub ∨ ∃ b', forLoop f lo n b = .ok b' ∧ I b' := by
  induction n with
  | zero => intro lo b _ h; exact .inr ⟨b, rfl, h⟩
  | succ n ih =>
    intro lo b h h0
    rw [forLoop_succ]
    rcases h lo b (Nat.le_refl _) (by omega) h0 with e | ⟨b', e, hI⟩
    · left; rw [e]; rfl
    · rw [e, Res.ok_bind]
      exact ih (lo + 1) b' (fun i b h1 h2 h3 => h i b (by omega) (by omega) h3) hI

/-- A step of the loop of `symSquaredMatrix` writes in the array, or is undefined. -/
theorem symStep_or_ub {v w : List α} (i j k : Nat) :
    (indexS i j k >>= fun p => rd v p >>= fun x => wr w (matIndex j i k) x) = .ub ∨
    ∃ w', (indexS i j k >>= fun p => rd v p >>= fun x => wr w (matIndex j i k) x) = .ok w' ∧ w'.length = w.length := by
  have e : ∀ a b : Nat, (if b < 2 ^ 32 then Res.ok b else .ub : Res Nat) = .ub ∨
      ∃ p, (if b < 2 ^ 32 then Res.ok b else .ub : Res Nat) = .ok p := fun a b => by
    split
    · exact .inr ⟨_, rfl⟩
    · exact .inl rfl
  have hp : indexS i j k = .ub ∨ ∃ p, indexS i j k = .ok p := by
    unfold indexS
    split
    · exact e 0 _
    · exact e 0 _
  rcases hp with h | ⟨p, h⟩
  · left; rw [h]; rfl
  · rw [h, Res.ok_bind]
    by_cases hp : p < v.length
    · rw [rd_of_lt hp, Res.ok_bind]
      by_cases hm : matIndex j i k < w.length
      · rw [wr_of_lt hm]
        exact .inr ⟨_, rfl, List.length_set⟩
      · left; exact wr_of_ge (by omega)
    · left; rw [rd_of_ge (by omega)]; rfl

theorem indexS_small {i j k b : Nat} (hk : k < 2 ^ 31) (hb : b ≤ k) (hb' : 0 < k) (hi : i ≤ b) (hj : j ≤ b) {n : Nat}
    (hn : k * (k - 1) + 2 * b < 2 * n) (hn' : n < 2 ^ 31) : ∃ p, indexS i j k = .ok p ∧ p < n := by
  have key : ∀ a c, a ≤ b → c ≤ b → a * u32 (2 * k + 2 ^ 33 - 1 - a) / 2 + c < n := by
    intro a c ha hc
    have hu : u32 (2 * k + 2 ^ 33 - 1 - a) = 2 * k - 1 - a := by unfold u32; omega
    rw [hu]
    have : a * (2 * k - 1 - a) ≤ k * (k - 1) := by
      obtain ⟨d, rfl⟩ : ∃ d, k = a + d := ⟨k - a, by omega⟩
      rcases d with _ | d
      · simp only [Nat.add_zero]
        apply Nat.mul_le_mul_left
        omega
      · have e1 : 2 * (a + (d + 1)) - 1 - a = a + 1 + 2 * d := by omega
        have e2 : a + (d + 1) - 1 = a + d := by omega
        rw [e1, e2]
        nlinarith
    omega
  unfold indexS
  simp only []
  split
  · have := key j i hj hi
    exact ⟨_, if_pos (by omega), this⟩
  · have := key i j hi hj
    exact ⟨_, if_pos (by omega), this⟩

end DF
