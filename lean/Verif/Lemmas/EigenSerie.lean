import Verif.Lemmas.EigenItem

/-! # The eigen functions on whole Series -/

namespace DF

open Spec Matrix

/-! ## whole Series, any type of numbers -/

theorem forLoop_pair {A B : Type} {f : Nat → A → Res A} {g : Nat → B → Res B} {h : Nat → A × B → Res (A × B)}
    (hh : ∀ i a b a' b', f i a = .ok a' → g i b = .ok b' → h i (a, b) = .ok (a', b')) :
    ∀ n lo a b ra rb, forLoop f lo n a = .ok ra → forLoop g lo n b = .ok rb → forLoop h lo n (a, b) = .ok (ra, rb) := by
  intro n
  induction n with
  | zero => intro lo a b ra rb h1 h2; cases h1; cases h2; rfl
  | succ n ih =>
    intro lo a b ra rb h1 h2
    rw [forLoop_succ] at h1 h2 ⊢
    cases hf : f lo a with
    | throw e => rw [hf] at h1; cases h1
    | ub => rw [hf] at h1; cases h1
    | ok a' =>
      cases hg : g lo b with
      | throw e => rw [hg] at h2; cases h2
      | ub => rw [hg] at h2; cases h2
      | ok b' =>
        rw [hf, Res.ok_bind] at h1
        rw [hg, Res.ok_bind] at h2
        rw [hh _ _ _ _ _ hf hg, Res.ok_bind]
        exact ih _ _ _ _ _ h1 h2

section runs

variable {α : Type} [Zero α] [One α] [Add α] [Sub α] [Mul α] [Div α] [Neg α] [OfNat α 2] [OfNat α 4] [DecidableEq α]
  [LT α] [DecidableLT α] [NatCast α] [OfScientific α] [Trig α]

/-- The values and vectors of an item. -/
def eigOf (n : Nat) (t : List α) : List α × List α :=
  match eigenItem n t with
  | .ok p => p
  | _ => ([], [])

/-- Items of `k` numbers have values and vectors. -/
def Returns (n k : Nat) : Prop := ∀ t : List α, t.length = k →
  eigenItem n t = .ok (eigOf n t) ∧ (eigOf n t).1.length = n ∧ (eigOf n t).2.length = n * n

variable {n : Nat} {s : Serie α}

omit [Zero α] [One α] [Add α] [Sub α] [Mul α] [Div α] [Neg α] [OfNat α 2] [OfNat α 4] [DecidableEq α]  [LT α] [DecidableLT α] [NatCast α] [OfScientific α] [Trig α] in
theorem Spec.EigenShape.le (hs : EigenShape n s) : 0 < n ∧ n ≤ s.itemSize ∧ n * n < 2 ^ 31 := by
  rcases hs.2 with ⟨rfl, hk⟩ | ⟨rfl, hk⟩ <;> omega

theorem eigenSystem_run (hr : Returns n s.itemSize (α := α)) (h : WF s) (hs : EigenShape n s) (hfit : s.count * (n * n) < 2 ^ 32) :
    eigenSystem s = .ok (ofItems n ((items s).map fun t => (eigOf n t).1),
      ofItems (n * n) ((items s).map fun t => (eigOf n t).2)) := by
  have hloop : eigenSystem s = eigenSystemLoop n s := by
    unfold eigenSystem
    rcases hs.2 with ⟨rfl, hk⟩ | ⟨rfl, hk⟩
    · rw [if_neg (by simp [hk]), if_neg (by simp [hs.1]), if_pos ⟨hs.1, hk⟩]
    · rw [if_neg (by simp [hs.1]), if_neg (by simp [hk]), if_neg (by simp [hs.1]), if_pos ⟨hs.1, hk⟩]
  obtain ⟨hn0, hn1, hn2⟩ := hs.le
  have hint := h.int
  have hle : s.count * n ≤ s.count * s.itemSize := Nat.mul_le_mul_left _ hn1
  have := h.fits
  have := h.small
  have hitem : ∀ i (hi : i < (items s).length),
      (s.getA i >>= eigenItem n) = .ok (eigOf n (items s)[i]) := by
    intro i hi
    rw [Serie.getA_items h hi, Res.ok_bind]
    exact (hr _ (h.item_length (List.getElem_mem hi))).1
  have hlen : ((items s).map fun t => (eigOf n t).1).length = s.count := by simp
  have hlen' : ((items s).map fun t => (eigOf n t).2).length = s.count := by simp
  have e1 := forLoop_putA (g := fun i => s.getA i >>= eigenItem n >>= fun q => .ok q.1) (d := 3) hn0 (by omega)
    ((items s).map fun t => (eigOf n t).1) (by
      intro v hv
      obtain ⟨t, hm, rfl⟩ := List.mem_map.1 hv
      exact (hr _ (h.item_length hm)).2.1) (by rw [hlen]; omega) (by
      intro i hi
      rw [hitem i (by simpa using hi), Res.ok_bind, List.getElem_map])
  have e2 := forLoop_putA (g := fun i => s.getA i >>= eigenItem n >>= fun q => .ok q.2) (d := 3)
    (Nat.mul_pos hn0 hn0) hn2
    ((items s).map fun t => (eigOf n t).2) (by
      intro v hv
      obtain ⟨t, hm, rfl⟩ := List.mem_map.1 hv
      exact (hr _ (h.item_length hm)).2.2) (by rw [hlen']; exact hfit) (by
      intro i hi
      rw [hitem i (by simpa using hi), Res.ok_bind, List.getElem_map])
  rw [hlen] at e1
  rw [hlen'] at e2
  rw [hloop]
  unfold eigenSystemLoop
  refine forLoop_pair ?_ _ _ _ _ _ _ e1 e2
  intro i a b a' b' h1 h2
  rw [bind_assoc, bind_assoc] at h1 h2
  show (s.getA i >>= _) = _
  cases hm : s.getA i with
  | throw e => rw [hm] at h1; cases h1
  | ub => rw [hm] at h1; cases h1
  | ok mat =>
    rw [hm, Res.ok_bind] at h1 h2
    rw [Res.ok_bind]
    cases hq : eigenItem n mat with
    | throw e => rw [hq] at h1; cases h1
    | ub => rw [hq] at h1; cases h1
    | ok q =>
      rw [hq, Res.ok_bind, Res.ok_bind] at h1 h2
      rw [Res.ok_bind, h1, Res.ok_bind, h2]
      rfl

theorem eigenMap_run (hr : Returns n s.itemSize (α := α)) (h : WF s) (h0 : 0 < s.count) {f : List α × List α → List α}
    {k : Nat} (hk : 0 < k) (hk' : k < 2 ^ 31) (hfit : s.count * k < 2 ^ 32)
    (hf : ∀ t, t.length = s.itemSize → (f (eigOf n t)).length = k) :
    mapArr (fun mat _ => eigenItem n mat >>= fun p => pure (f p)) s =
      .ok (ofItems k ((items s).map fun t => f (eigOf n t))) := by
  refine mapArr_ok h h0 (AllReturn_map (fun v hv i => ?_)) hk hk' ?_ (by simpa using hfit)
  · rw [(hr _ (h.item_length hv)).1]
    rfl
  · intro v hv
    obtain ⟨u, hu, rfl⟩ := List.mem_map.1 hv
    exact hf u (h.item_length hu)

theorem eigenFun_run (hr : Returns n s.itemSize (α := α)) (h : WF s) (h0 : 0 < s.count) (hs : EigenShape n s)
    (hfit : s.count * (n * n) < 2 ^ 32) :
    eigenValues s = .ok (ofItems n ((items s).map fun t => (eigOf n t).1)) ∧
      eigenVectors s = .ok (ofItems (n * n) ((items s).map fun t => (eigOf n t).2)) := by
  obtain ⟨hn0, hn1, hn2⟩ := hs.le
  have hint := h.int
  have hle : s.count * n ≤ s.count * s.itemSize := Nat.mul_le_mul_left _ hn1
  have := h.fits
  have := h.small
  have r1 := eigenMap_run hr h h0 (f := Prod.fst) hn0 (by omega) (by omega)
    (fun t hl => (hr _ hl).2.1)
  have r2 := eigenMap_run hr h h0 (f := Prod.snd) (Nat.mul_pos hn0 hn0) hn2 hfit
    (fun t hl => (hr _ hl).2.2)
  unfold eigenValues eigenVectors
  rcases hs.2 with ⟨rfl, hk⟩ | ⟨rfl, hk⟩
  · rw [if_neg (by simp [hk]), if_neg (by simp [hs.1]), if_pos ⟨hs.1, hk⟩, if_neg (by simp [hk]), if_neg (by simp [hs.1]),
      if_pos ⟨hs.1, hk⟩]
    exact ⟨r1, r2⟩
  · rw [if_neg (by simp [hs.1]), if_neg (by simp [hk]), if_neg (by simp [hs.1]), if_neg (by simp [hs.1]),
      if_neg (by simp [hk]), if_neg (by simp [hs.1])]
    exact ⟨r1, r2⟩

/-- The Series of the values and of the vectors: shape, and facts item by item. -/
theorem eigen_run {P : List α → List α → List α → Prop} (hP : ∀ t : List α, t.length = s.itemSize →
    ∃ e w, eigenItem n t = .ok (e, w) ∧ e.length = n ∧ w.length = n * n ∧ P t e w) (h : WF s) (hs : EigenShape n s) (hfit : s.count * (n * n) < 2 ^ 32) :
    ∃ val vecs, eigenSystem s = .ok (val, vecs) ∧ WF val ∧ WF vecs ∧ val.itemSize = n ∧ vecs.itemSize = n * n ∧
      val.count = s.count ∧ vecs.count = s.count ∧ ItemWise3 P s val vecs ∧
      (0 < s.count → eigenValues s = .ok val ∧ eigenVectors s = .ok vecs) := by
  have hr : Returns n s.itemSize (α := α) := fun t hl => by
    obtain ⟨e, w, h1, h2, h3, _⟩ := hP t hl
    unfold eigOf
    rw [h1]
    exact ⟨rfl, h2, h3⟩
  obtain ⟨hn0, hn1, hn2⟩ := hs.le
  have hint := h.int
  have hle : s.count * n ≤ s.count * s.itemSize := Nat.mul_le_mul_left _ hn1
  have := h.fits
  have := h.small
  have hl1 : ∀ v ∈ (items s).map fun t => (eigOf n t).1, v.length = n := by
    intro v hv
    obtain ⟨t, hm, rfl⟩ := List.mem_map.1 hv
    exact (hr _ (h.item_length hm)).2.1
  have hl2 : ∀ v ∈ (items s).map fun t => (eigOf n t).2, v.length = n * n := by
    intro v hv
    obtain ⟨t, hm, rfl⟩ := List.mem_map.1 hv
    exact (hr _ (h.item_length hm)).2.2
  refine ⟨_, _, eigenSystem_run hr h hs hfit, WF_ofItems hn0 (by omega) hl1 (by simp; omega),
    WF_ofItems (Nat.mul_pos hn0 hn0) hn2 hl2 (by simpa using hfit), rfl, rfl, by simp [ofItems], by simp [ofItems], ?_,
    fun h0 => eigenFun_run hr h h0 hs hfit⟩
  refine ⟨by simp [ofItems], ?_⟩
  rw [items_ofItems hl1, items_ofItems hl2]
  have hall : ∀ t ∈ items s, P t (eigOf n t).1 (eigOf n t).2 := by
    intro t hm
    obtain ⟨e, w, h1, _, _, h4⟩ := hP t (h.item_length hm)
    unfold eigOf
    rw [h1]
    exact h4
  generalize items s = l at hall
  induction l with
  | nil => exact .nil
  | cons t l ih =>
    exact .cons (hall t (List.mem_cons_self ..)) (ih fun t hm => hall t (List.mem_cons_of_mem _ hm))

end runs

variable [Trig ℝ]

/-! ## one item -/

/-- All that is proved of one item. -/
structure ItemFacts (n : Nat) (t e w : List ℝ) : Prop where
  len : e.length = n
  orth : Orthonormal n w
  tr : ∑ k, vec n e k = (symMatrix n t).trace
  sorted : ∀ i j : Fin n, i ≤ j → vec n e j ≤ vec n e i
  res : residualSq (symMatrix n t) e w ≤ 2 * (0.00001 * offDiag (symMatrix n t))
  exact2 : n = 2 → residualSq (symMatrix n t) e w = 0

omit [Trig ℝ] in
theorem offDiag_nonneg {n : Nat} (A : Matrix (Fin n) (Fin n) ℝ) : 0 ≤ offDiag A :=
  Finset.sum_nonneg fun i _ => Finset.sum_nonneg fun j _ => by split <;> positivity

theorem eigenItem_facts (ht : ExactTrig) {n : Nat} {s : Serie ℝ} (hs : EigenShape n s) {t : List ℝ}
    (hl : t.length = s.itemSize) : ∃ e w, eigenItem n t = .ok (e, w) ∧ ItemFacts n t e w := by
  rcases hs.2 with ⟨rfl, hk⟩ | ⟨rfl, hk⟩
  · obtain ⟨e, w, h1, h2, h3, h4, h5, h6⟩ := eigenItem2 ht (hl.trans hk)
    have h6' : residualSq (symMatrix 2 t) e w = 0 := h6
    refine ⟨e, w, h1, h2, h3, h4, h5, ?_, fun _ => h6'⟩
    rw [h6']
    have := offDiag_nonneg (symMatrix 2 t)
    positivity
  · obtain ⟨e, w, h1, h2, h3, h4, h5, h6⟩ := eigenItem3 ht (hl.trans hk)
    exact ⟨e, w, h1, h2, h3, h4, h5, h6, fun h => by omega⟩

theorem eigen_returns (ht : ExactTrig) {n : Nat} {s : Serie ℝ} (hs : EigenShape n s) : Returns n s.itemSize (α := ℝ) := by
  intro t hl
  obtain ⟨e, w, h1, h2⟩ := eigenItem_facts ht hs hl
  unfold eigOf
  rw [h1]
  exact ⟨rfl, h2.len, h2.orth.1⟩

/-- The Series of the values and of the vectors: shape, and facts item by item. -/
theorem eigen_facts {n : Nat} {s : Serie ℝ} (ht : ExactTrig) (h : WF s) (hs : EigenShape n s)
    (hfit : s.count * (n * n) < 2 ^ 32) :
    ∃ val vecs, eigenSystem s = .ok (val, vecs) ∧ WF val ∧ WF vecs ∧ val.itemSize = n ∧ vecs.itemSize = n * n ∧
      val.count = s.count ∧ vecs.count = s.count ∧ ItemWise3 (ItemFacts n) s val vecs ∧
      (0 < s.count → eigenValues s = .ok val ∧ eigenVectors s = .ok vecs) :=
  eigen_run (fun t hl => by
    obtain ⟨e, w, h1, h2⟩ := eigenItem_facts ht hs hl
    exact ⟨e, w, h1, h2.len, h2.orth.1, h2⟩) h hs hfit

variable {n : Nat}

omit [Trig ℝ] in
theorem Spec.ItemWise3.weaken {α : Type} {R R' : List α → List α → List α → Prop} {a b r : Serie α} (h : ItemWise3 R a b r)
    (hi : ∀ t e w, R t e w → R' t e w) : ItemWise3 R' a b r :=
  ⟨h.1, h.2.imp fun _ _ hr => hi _ _ _ hr⟩

omit [Trig ℝ] in
/-- The distance of the matrix to the one rebuilt from orthonormal vectors is the residual. -/
theorem rebuild_eq {A : Matrix (Fin n) (Fin n) ℝ} {e w : List ℝ} (ho : Orthonormal n w) :
    ∑ i, ∑ j, (A i j - ∑ k : Fin n, num e k * fullMatrix n w k i * fullMatrix n w k j) ^ 2 = residualSq A e w := by
  generalize hV : fullMatrix n w = V at *
  have hVV : V * Vᵀ = 1 := by
    ext k l
    rw [Matrix.mul_apply, Matrix.one_apply, ← ho.2 k l, hV]
    rfl
  let M : Matrix (Fin n) (Fin n) ℝ := A - Vᵀ * diagonal (fun k : Fin n => num e k) * V
  have h3 : ∀ M : Matrix (Fin n) (Fin n) ℝ, ∑ k, ∑ i, M k i ^ 2 = (M * Mᵀ).trace := by
    intro M
    simp only [Matrix.trace, Matrix.diag, Matrix.mul_apply, Matrix.transpose_apply, pow_two]
  have h4 : ∀ i j, M i j = A i j - ∑ k : Fin n, num e k * V k i * V k j := by
    intro i j
    show A i j - (Vᵀ * diagonal (fun k : Fin n => num e k) * V) i j = _
    congr 1
    rw [Matrix.mul_apply]
    refine Finset.sum_congr rfl fun k _ => ?_
    rw [Matrix.mul_diagonal, Matrix.transpose_apply, mul_comm (V k i)]
  have h5 : ∀ k i, (M * Vᵀ) i k = A.mulVec (V k) i - num e k * V k i := by
    intro k i
    have : M * Vᵀ = A * Vᵀ - Vᵀ * diagonal (fun k : Fin n => num e k) := by
      show (A - Vᵀ * diagonal (fun k : Fin n => num e k) * V) * Vᵀ = _
      rw [Matrix.sub_mul, Matrix.mul_assoc _ V, hVV, Matrix.mul_one]
    rw [this, Matrix.sub_apply, Matrix.mul_diagonal, Matrix.transpose_apply, mul_comm (V k i)]
    rfl
  calc _ = ∑ i, ∑ j, M i j ^ 2 := by simp only [h4]
    _ = ∑ i, ∑ k, (M * Vᵀ) i k ^ 2 := by
      rw [h3, h3, Matrix.transpose_mul, Matrix.transpose_transpose, Matrix.mul_assoc, ← Matrix.mul_assoc Vᵀ,
        mul_eq_one_comm.1 hVV, Matrix.one_mul]
    _ = residualSq A e w := by
      rw [Finset.sum_comm]
      unfold residualSq
      rw [hV]
      simp only [h5]

end DF
