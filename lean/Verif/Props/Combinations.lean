import Verif.Props.Best

/-!
# Means and covariances of a combination of Series
-/

namespace DF

open Spec

variable {α : Type}

/-- The lists of `n` numbers combined with the weights. -/
def comb [Semiring α] (n : Nat) : List (List α) → List α → List α
  | l :: ls, w :: ws => List.zipWith (fun a b => a * w + b) l (comb n ls ws)
  | _, _ => List.replicate n 0

theorem comb_length [Semiring α] (n : Nat) : ∀ (ls : List (List α)) (ws : List α), (∀ l ∈ ls, l.length = n) → (comb n ls ws).length = n
  | [], _, _ => by simp [comb]
  | _ :: _, [], _ => by simp [comb]
  | l :: ls, w :: ws, h => by
    simp only [comb, List.length_zipWith]
    rw [comb_length n ls ws fun x hx => h x (by simp [hx]), h l (by simp), Nat.min_self]

theorem comb_getElem? [Semiring α] {n i : Nat} (hi : i < n) : ∀ (ls : List (List α)) (ws xs : List α), (∀ l ∈ ls, l.length = n) →
    ls.map (fun l => l[i]?) = xs.map some → (comb n ls ws)[i]? = some (List.zipWith (· * ·) xs ws).sum
  | [], _, xs, _, h => by
    have : xs = [] := List.map_eq_nil_iff.1 h.symm
    subst this
    simp [comb, hi]
  | _ :: _, [], _, _, _ => by simp [comb, hi]
  | l :: ls, w :: ws, xs, hl, h => by
    cases xs with
    | nil => simp at h
    | cons x xs =>
      simp only [List.map_cons, List.cons.injEq] at h
      simp only [comb, List.getElem?_zipWith, h.1, comb_getElem? hi ls ws xs (fun y hy => hl y (by simp [hy])) h.2]
      simp

/-- A quantity of lists of `n` numbers, linear in the numbers, of a combination. -/
theorem linear_comb [Semiring α] {n : Nat} (F : List α → α) (h0 : F (List.replicate n 0) = 0)
    (hF : ∀ (l m : List α) (w : α), l.length = n → m.length = n → F (List.zipWith (fun a b => a * w + b) l m) = F l * w + F m) :
    ∀ (ls : List (List α)) (ws : List α), (∀ l ∈ ls, l.length = n) → F (comb n ls ws) = (List.zipWith (· * ·) (ls.map F) ws).sum
  | [], _, _ => by simp [comb, h0]
  | _ :: _, [], _ => by simp [comb, h0]
  | l :: ls, w :: ws, h => by
    simp only [comb, List.map_cons, List.zipWith_cons_cons, List.sum_cons]
    rw [hF _ _ _ (h l (by simp)) (comb_length n ls ws fun x hx => h x (by simp [hx])), linear_comb F h0 hF ls ws fun x hx => h x (by simp [hx])]

theorem sum_axpy [CommSemiring α] (w : α) : ∀ (l m : List α), l.length = m.length →
    (List.zipWith (fun a b => a * w + b) l m).sum = l.sum * w + m.sum
  | [], [], _ => by simp
  | [], _ :: _, h => by simp at h
  | _ :: _, [], h => by simp at h
  | a :: l, b :: m, h => by
    simp only [List.zipWith_cons_cons, List.sum_cons, sum_axpy w l m (by simpa using h)]
    ring

theorem sum_axpy_mul [CommSemiring α] (w : α) : ∀ (l m y : List α), l.length = m.length → m.length = y.length →
    (List.zipWith (· * ·) (List.zipWith (fun a b => a * w + b) l m) y).sum = (List.zipWith (· * ·) l y).sum * w + (List.zipWith (· * ·) m y).sum
  | [], [], _, _, _ => by simp
  | [], _ :: _, _, h, _ => by simp at h
  | _ :: _, [], _, h, _ => by simp at h
  | _ :: _, _ :: _, [], _, h => by simp at h
  | a :: l, b :: m, c :: y, h, h' => by
    simp only [List.zipWith_cons_cons, List.sum_cons, sum_axpy_mul w l m y (by simpa using h) (by simpa using h')]
    ring

theorem zipWith_replicate_zero [CommSemiring α] (n : Nat) (y : List α) : (List.zipWith (· * ·) (List.replicate n 0) y).sum = 0 := by
  induction n generalizing y with
  | zero => simp
  | succ n ih =>
    cases y with
    | nil => simp
    | cons b y => simp [List.replicate_succ, ih]

theorem weightedSum_comb [CommSemiring α] {series : List (Serie α)} {weights : List α} {n : Nat}
    (hne : series ≠ []) (hlen : series.length = weights.length)
    (hss : ∀ s ∈ series, WF s ∧ s.itemSize = 1 ∧ s.count = n) (h0 : 0 < n) :
    ∃ r, weightedSum series weights = .ok r ∧ WF r ∧ r.itemSize = 1 ∧ r.count = n ∧ scalars r = comb n (series.map scalars) weights := by
  obtain ⟨r, e, w, k, c, hc⟩ := C38_weightedSum hne hlen hss h0
  have hl : ∀ l ∈ series.map scalars, l.length = n := by
    intro l hl
    obtain ⟨s, hs, rfl⟩ := List.mem_map.1 hl
    obtain ⟨a, -, b⟩ := hss s hs
    rw [a.scalars_length, b]
  refine ⟨r, e, w, k, c, List.ext_getElem? fun i => ?_⟩
  by_cases hi : i < n
  · obtain ⟨xs, a, b⟩ := hc i 0 hi (by omega)
    rw [← cell_scalar w k, b, comb_getElem? hi _ _ xs hl]
    rw [← a, List.map_map]
    refine List.map_congr_left fun s hs => ?_
    obtain ⟨p, q, -⟩ := hss s hs
    exact (cell_scalar p q i).symm
  · rw [List.getElem?_eq_none (by rw [w.scalars_length]; omega), List.getElem?_eq_none (by rw [comb_length _ _ _ hl]; omega)]

theorem forall₂_results {β γ : Type} {R : β → γ → Prop} (f : β → γ) : ∀ l : List β, (∀ x ∈ l, R x (f x)) → List.Forall₂ R l (l.map f)
  | [], _ => .nil
  | x :: l, h => .cons (h x (by simp)) (forall₂_results f l fun y hy => h y (by simp [hy]))

/-! ## C162 -/

section

variable [Field α] [CharZero α]

/-- C162: the mean of a combination of Series is the same combination of their means. -/
theorem C162_mean {series : List (Serie α)} {weights : List α} {n : Nat} (hne : series ≠ []) (hlen : series.length = weights.length)
    (hss : ∀ s ∈ series, WF s ∧ s.itemSize = 1 ∧ s.count = n) (h0 : 0 < n) :
    ∃ r ms, weightedSum series weights = .ok r ∧ List.Forall₂ (fun s m => mean s = .ok (.number m)) series ms ∧
      mean r = .ok (.number (List.zipWith (· * ·) ms weights).sum) := by
  obtain ⟨r, e, w, k, c, hr⟩ := weightedSum_comb hne hlen hss h0
  refine ⟨r, series.map fun s => average (scalars s), e, forall₂_results _ _ fun s hs => mean_average (hss s hs).1 (hss s hs).2.1, ?_⟩
  rw [mean_average w k, hr, linear_comb (n := n) average (by simp [average]) ?_ _ _ ?_, List.map_map]
  · rfl
  · intro l m v hl hm
    unfold average
    rw [sum_axpy _ _ _ (by omega), List.length_zipWith, hl, hm, Nat.min_self]
    ring
  · intro l hl
    obtain ⟨s, hs, rfl⟩ := List.mem_map.1 hl
    obtain ⟨a, -, b⟩ := hss s hs
    rw [a.scalars_length, b]

/-- The covariance of lists of equal length. -/
def cov (y l : List α) : α := average (List.zipWith (· * ·) l y) - average l * average y

omit [CharZero α] in
theorem cov_comb {n : Nat} {y : List α} (hy : y.length = n) {series : List (Serie α)} (weights : List α)
    (hss : ∀ s ∈ series, WF s ∧ s.itemSize = 1 ∧ s.count = n) :
    cov y (comb n (series.map scalars) weights) = (List.zipWith (· * ·) (series.map fun s => cov y (scalars s)) weights).sum := by
  rw [linear_comb (n := n) (cov y) (by simp [cov, average, zipWith_replicate_zero]) ?_ _ _ ?_, List.map_map]
  · rfl
  · intro l m v hl hm
    unfold cov average
    rw [sum_axpy _ _ _ (by omega), sum_axpy_mul _ _ _ _ (by omega) (by omega)]
    simp only [List.length_zipWith, hl, hm, hy, Nat.min_self]
    ring
  · intro l hl
    obtain ⟨s, hs, rfl⟩ := List.mem_map.1 hl
    obtain ⟨a, -, b⟩ := hss s hs
    rw [a.scalars_length, b]

/-- C162: the covariance of a combination of Series with a Serie is the same combination of their covariances. -/
theorem C162_covariance {series : List (Serie α)} {weights : List α} {n : Nat} (hne : series ≠ []) (hlen : series.length = weights.length)
    (hss : ∀ s ∈ series, WF s ∧ s.itemSize = 1 ∧ s.count = n) (h0 : 0 < n) {y : Serie α} (hy : WF y) (h1 : y.itemSize = 1) (hn : y.count = n) :
    ∃ r cs, weightedSum series weights = .ok r ∧ List.Forall₂ (fun s c => covariance s y = .ok c) series cs ∧
      covariance r y = .ok (List.zipWith (· * ·) cs weights).sum := by
  obtain ⟨r, e, w, k, c, hr⟩ := weightedSum_comb hne hlen hss h0
  refine ⟨r, series.map fun s => cov (scalars y) (scalars s), e, forall₂_results _ _ fun s hs => ?_, ?_⟩
  · obtain ⟨a, b, d⟩ := hss s hs
    exact C46_covariance a hy (by omega) b h1 (by omega)
  · rw [C46_covariance w hy (by omega) k h1 (by omega), hr]
    exact congrArg Res.ok (cov_comb (by rw [hy.scalars_length, hn]) weights hss)

end

section

variable [Field α] [LinearOrder α] [IsStrictOrderedRing α]

/-- C162: the variance of a combination of Series is the quadratic form of the weights in the matrix of their covariances, so this matrix is symmetric and positive: no weights
give a negative number, and they give zero only when the combination is constant. -/
theorem C162_variance {series : List (Serie α)} {weights : List α} {n : Nat} (hne : series ≠ []) (hlen : series.length = weights.length)
    (hss : ∀ s ∈ series, WF s ∧ s.itemSize = 1 ∧ s.count = n) (h0 : 0 < n) :
    ∃ r v matrix, weightedSum series weights = .ok r ∧
      List.Forall₂ (fun s row => List.Forall₂ (fun t c => covariance s t = .ok c ∧ covariance t s = .ok c) series row) series matrix ∧
      covariance r r = .ok v ∧ v = (List.zipWith (· * ·) weights (matrix.map fun row => (List.zipWith (· * ·) row weights).sum)).sum ∧
      0 ≤ v ∧ (v = 0 ↔ ∃ m, ∀ x ∈ scalars r, x = m) := by
  obtain ⟨r, e, w, k, c, hr⟩ := weightedSum_comb hne hlen hss h0
  have hlr : (scalars r).length = n := by rw [w.scalars_length, c]
  have hn : (0 : α) < (n : α) := Nat.cast_pos.2 h0
  refine ⟨r, cov (scalars r) (scalars r), series.map fun s => series.map fun t => cov (scalars s) (scalars t), e, ?_, ?_, ?_, ?_⟩
  · refine forall₂_results _ _ fun s hs => forall₂_results _ _ fun t ht => ?_
    obtain ⟨a, b, d⟩ := hss s hs
    obtain ⟨a', b', d'⟩ := hss t ht
    refine ⟨?_, C46_covariance a' a (by omega) b' b (by omega)⟩
    rw [C46_symmetric a a' (by omega) b b' (by omega)]
    exact C46_covariance a' a (by omega) b' b (by omega)
  · exact C46_covariance w w rfl k k (by omega)
  · conv_lhs => rw [show cov (scalars r) (scalars r) = cov (scalars r) (comb n (series.map scalars) weights) from by rw [← hr]]
    rw [cov_comb hlr weights hss, List.map_map, zipWith_comm_op mul_comm]
    congr 2
    refine List.map_congr_left fun s hs => ?_
    obtain ⟨a, b, d⟩ := hss s hs
    have hls : (scalars s).length = n := by rw [a.scalars_length, d]
    show cov (scalars r) (scalars s) = _
    rw [Function.comp, ← cov_comb hls weights hss, ← hr]
    unfold cov
    rw [zipWith_comm_op mul_comm, mul_comm (average (scalars s))]
  · have hv : cov (scalars r) (scalars r) = squares (scalars r) (average (scalars r)) / (n : α) := by
      have h1 := (C46_covariance w w rfl k k (by omega)).symm.trans (variance_eq w k)
      rw [c] at h1
      exact Res.ok.inj h1
    rw [hv]
    have hs : ∀ m : α, squares (scalars r) m = ((scalars r).map fun x => (x - m) ^ 2).sum := fun m => rfl
    constructor
    · refine div_nonneg ?_ hn.le
      rw [hs]
      exact List.sum_nonneg fun x hx => by
        obtain ⟨y, -, rfl⟩ := List.mem_map.1 hx
        exact sq_nonneg _
    · rw [div_eq_zero_iff, or_iff_left hn.ne', hs]
      constructor
      · intro h
        refine ⟨average (scalars r), fun x hx => ?_⟩
        have : (x - average (scalars r)) ^ 2 = 0 := by
          refine le_antisymm ?_ (sq_nonneg _)
          rw [← h]
          refine List.single_le_sum (fun y hy => ?_) _ (List.mem_map.2 ⟨x, hx, rfl⟩)
          obtain ⟨z, -, rfl⟩ := List.mem_map.1 hy
          exact sq_nonneg _
        exact sub_eq_zero.1 (pow_eq_zero_iff (two_ne_zero) |>.1 this)
      · rintro ⟨m, hm⟩
        have : scalars r = List.replicate n m := List.eq_replicate_iff.2 ⟨hlr, hm⟩
        rw [this]
        simp [average, hn.ne']

end

example := C162_mean (α := ℚ) (series := [exQ, ⟨[0, 1, 0, 1, 0], 5, 1, 3⟩]) (weights := [2, -3]) (n := 5) (by decide) rfl (by decide) (by decide)
example := C162_covariance (α := ℚ) (series := [exQ, ⟨[0, 1, 0, 1, 0], 5, 1, 3⟩]) (weights := [2, -3]) (n := 5) (by decide) rfl (by decide) (by decide)
  (y := ⟨[2, 7, 1, 8, 2], 5, 1, 3⟩) (by decide) rfl rfl
example := C162_variance (α := ℚ) (series := [exQ, ⟨[0, 1, 0, 1, 0], 5, 1, 3⟩]) (weights := [2, -3]) (n := 5) (by decide) rfl (by decide) (by decide)

end DF
