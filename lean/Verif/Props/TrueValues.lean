import Verif.Lemmas.TrueValues
import Verif.Props.Eigen
import Verif.Props.FloatEigen

/-!
# Properties about the true eigen values (C131, C132)

C56-C58 and C121 are about pairs of a number and a vector that nearly satisfy the equation of eigen vectors. Here the numbers
returned are compared with the true eigen values, in order and with their multiplicities.
-/

namespace DF

open Spec Matrix

variable {n : Nat}

theorem symMatrix_isSymm (n : Nat) (t : List ℝ) : (symMatrix n t).IsSymm := by
  match n with
  | 2 => ext i j; fin_cases i <;> fin_cases j <;> rfl
  | 3 => ext i j; fin_cases i <;> fin_cases j <;> rfl
  | 0 => ext i j; rfl
  | 1 => ext i j; rfl
  | n + 4 => ext i j; rfl

/-- C131: a symmetric matrix has exactly one list of true eigen values. -/
theorem C131_true_values (n : Nat) (t : List ℝ) : ∃ l, TrueValues (symMatrix n t) l ∧ ∀ l', TrueValues (symMatrix n t) l' → l' = l := by
  obtain ⟨l, h⟩ := trueValues_exists (symMatrix_isSymm n t)
  exact ⟨l, h, fun l' h' => h'.unique h⟩

theorem Spec.ItemWise3.pair {α : Type} {R : List α → List α → List α → Prop} {R' : List α → List α → Prop} {a b r : Serie α}
    (h : ItemWise3 R a b r) (hi : ∀ t e w, R t e w → R' t e) : ItemWise R' a b := by
  have key : ∀ {l m k : List (List α)}, l.length = m.length → List.Forall₂ (fun p w => R p.1 p.2 w) (l.zip m) k → List.Forall₂ R' l m := by
    intro l
    induction l with
    | nil => intro m k hl _; cases m with
      | nil => exact .nil
      | cons => cases hl
    | cons x l ih => intro m k hl hk; cases m with
      | nil => cases hl
      | cons y m =>
        cases hk with
        | cons h1 h2 => exact .cons (hi _ _ _ h1) (ih (by simpa using hl) h2)
  exact key (by simp [h.1]) h.2

theorem residualSq_eq (A : Matrix (Fin n) (Fin n) ℝ) (e w : List ℝ) : residualSq A e w =
    ∑ k, (A.mulVec (fullMatrix n w k) - vec n e k • fullMatrix n w k) ⬝ᵥ (A.mulVec (fullMatrix n w k) - vec n e k • fullMatrix n w k) := by
  unfold residualSq
  refine Finset.sum_congr rfl fun k _ => ?_
  unfold dotProduct
  exact Finset.sum_congr rfl fun i _ => pow_two _

theorem values_close_exact {A : Matrix (Fin n) (Fin n) ℝ} (hs : A.IsSymm) {e w : List ℝ} (ho : Orthonormal n w)
    (hsort : ∀ i j : Fin n, i ≤ j → vec n e j ≤ vec n e i) {b : ℝ} (hb : residualSq A e w ≤ b) {l : Fin n → ℝ} (hl : TrueValues A l)
    (k : Fin n) : |vec n e k - l k| ≤ √b := by
  have h0 : 0 ≤ residualSq A e w := Finset.sum_nonneg fun k _ => Finset.sum_nonneg fun i _ => sq_nonneg _
  have := values_close (W := fullMatrix n w) (e := vec n e) (δ := 0) (m := ∑ k, |vec n e k|) (ρ := √b) hs (fun k l => by
      rw [show fullMatrix n w k ⬝ᵥ fullMatrix n w l = _ from ho.2 k l, sub_self, abs_zero])
    (fun k => Finset.single_le_sum (f := fun k => |vec n e k|) (fun _ _ => abs_nonneg _) (Finset.mem_univ k)) (Real.sqrt_nonneg _)
    (by rw [Real.sq_sqrt (h0.trans hb), ← residualSq_eq]; exact hb) (fun i j hij => hsort i j hij) hl k
  simpa using this

section exact

variable [Trig ℝ] {s s' : Serie ℝ}

/-- C131: the numbers returned by `eigenValues` are the eigen values, in order, up to the threshold of the iteration. -/
theorem C131_values (ht : ExactTrig) (h : WF s) (h0 : 0 < s.count) (hs : EigenShape n s) (hfit : s.count * (n * n) < 2 ^ 32) :
    ∃ val, eigenValues s = .ok val ∧ val.itemSize = n ∧
      ItemWise (fun t e => ∀ l, TrueValues (symMatrix n t) l →
        ∀ k, |vec n e k - l k| ≤ √(2 * (0.00001 * offDiag (symMatrix n t)))) s val := by
  obtain ⟨val, vecs, h1, _, _, h4, _, _, _, h6, h7⟩ := eigen_facts ht h hs hfit
  exact ⟨val, (h7 h0).1, h4, h6.pair fun t e w hf l hl k =>
    values_close_exact (symMatrix_isSymm n t) hf.orth hf.sorted hf.res hl k⟩

example := @C131_values _ realTrig _ exactTrig exEig3_WF (by decide) exEig3_shape (by decide)

/-- C131: when an eigen value is at least `g` away from the others, the vector returned by `eigenVectors` is close to a true
eigenvector, up to the threshold divided by `g`. -/
theorem C131_vectors (ht : ExactTrig) (h : WF s) (h0 : 0 < s.count) (hs : EigenShape n s) (hfit : s.count * (n * n) < 2 ^ 32) :
    ∃ val vecs, eigenValues s = .ok val ∧ eigenVectors s = .ok vecs ∧
      ItemWise3 (fun t e w => ∀ l, TrueValues (symMatrix n t) l → ∀ k g, 0 ≤ g → (∀ j, j ≠ k → g ≤ |vec n e k - l j|) →
        ∃ v, (symMatrix n t).mulVec v = l k • v ∧
          g ^ 2 * ∑ i, (fullMatrix n w k i - v i) ^ 2 ≤ 2 * (0.00001 * offDiag (symMatrix n t))) s val vecs := by
  obtain ⟨val, vecs, h1, _, _, h4, _, _, _, h6, h7⟩ := eigen_facts ht h hs hfit
  refine ⟨val, vecs, (h7 h0).1, (h7 h0).2, h6.weaken fun t e w hf l hl k g hg0 hg => ?_⟩
  obtain ⟨v, k1, k2⟩ := vector_close (symMatrix_isSymm n t) hl (w := fullMatrix n w k) (e := vec n e k) (le_trans (by
    rw [residualSq_eq]
    exact Finset.single_le_sum (f := fun k => ((symMatrix n t).mulVec (fullMatrix n w k) - vec n e k • fullMatrix n w k) ⬝ᵥ
      ((symMatrix n t).mulVec (fullMatrix n w k) - vec n e k • fullMatrix n w k)) (fun k _ => dot_self_nonneg' _) (Finset.mem_univ k)) hf.res) hg0 hg
  refine ⟨v, k1, le_trans (le_of_eq ?_) k2⟩
  congr 1
  exact Finset.sum_congr rfl fun i _ => pow_two _

example := @C131_vectors _ realTrig _ exactTrig exEig3_WF (by decide) exEig3_shape (by decide)

/-- C131: in dimension 2 they are the eigen values. -/
theorem C131_dim2 (ht : ExactTrig) (h : WF s) (h0 : 0 < s.count) (hs : EigenShape 2 s) (hfit : s.count * 4 < 2 ^ 32) :
    ∃ val, eigenValues s = .ok val ∧ val.itemSize = 2 ∧ ItemWise (fun t e => TrueValues (symMatrix2 t) (vec 2 e)) s val := by
  obtain ⟨val, vecs, h1, _, _, h4, _, _, _, h6, h7⟩ := eigen_facts ht h hs hfit
  refine ⟨val, (h7 h0).1, h4, h6.pair fun t e w hf => ?_⟩
  obtain ⟨l, hl⟩ := trueValues_exists (symMatrix_isSymm 2 t)
  have : vec 2 e = l := by
    funext k
    have := values_close_exact (symMatrix_isSymm 2 t) hf.orth hf.sorted (hf.exact2 rfl).le hl k
    rw [Real.sqrt_zero, abs_nonpos_iff, sub_eq_zero] at this
    exact this
  rw [this]
  exact hl

example := @C131_dim2 realTrig _ exactTrig exEig2_WF (by decide) exEig2_shape (by decide)

omit [Trig ℝ] in
theorem Spec.SameUpToFrame.values {A B : Matrix (Fin n) (Fin n) ℝ} (h : SameUpToFrame A B) {l : Fin n → ℝ} (hl : TrueValues A l) :
    TrueValues B l := by
  obtain ⟨Q, hQ, rfl⟩ := h
  refine ⟨hl.1, ?_⟩
  rw [Matrix.charpoly_mul_comm, ← Matrix.mul_assoc, mul_eq_one_comm.1 hQ, Matrix.one_mul]
  exact hl.2

/-- C131: the eigen values do not depend on the frame the matrices are given in, up to the threshold. -/
theorem C131_frame (ht : ExactTrig) (h : WF s) (h' : WF s') (h0 : 0 < s.count) (hs : EigenShape n s) (hs' : EigenShape n s')
    (hfit : s.count * (n * n) < 2 ^ 32) (hf : ItemWise (fun t u => SameUpToFrame (symMatrix n t) (symMatrix n u)) s s') :
    ∃ val val', eigenValues s = .ok val ∧ eigenValues s' = .ok val' ∧ val.count = s.count ∧ val'.count = s.count ∧
      ∀ (i : Nat) t u e e', (items s)[i]? = some t → (items s')[i]? = some u → (items val)[i]? = some e → (items val')[i]? = some e' →
        ∀ k, |vec n e k - vec n e' k| ≤
          √(2 * (0.00001 * offDiag (symMatrix n t))) + √(2 * (0.00001 * offDiag (symMatrix n u))) := by
  have hc : s.count = s'.count := by simpa using hf.length_eq
  obtain ⟨val, e1, _, f1⟩ := C131_values ht h h0 hs hfit
  obtain ⟨val', e2, _, f2⟩ := C131_values ht h' (hc ▸ h0) hs' (hc ▸ hfit)
  refine ⟨val, val', e1, e2, by simpa using f1.length_eq.symm, by simpa [hc] using f2.length_eq.symm, ?_⟩
  intro i t u e e' ht hu he he' k
  obtain ⟨l, hl⟩ := trueValues_exists (symMatrix_isSymm n t)
  have get : ∀ {R : List ℝ → List ℝ → Prop} {a b : Serie ℝ} {x y : List ℝ}, ItemWise R a b → (items a)[i]? = some x →
      (items b)[i]? = some y → R x y := by
    intro R a b x y hr hx hy
    obtain ⟨h1, rfl⟩ := List.getElem?_eq_some_iff.1 hx
    obtain ⟨h2, rfl⟩ := List.getElem?_eq_some_iff.1 hy
    exact List.forall₂_iff_get.1 hr |>.2 i h1 h2
  have k1 := get f1 ht he l hl k
  have k2 := get f2 hu he' l ((get hf ht hu).values hl) k
  rw [abs_sub_comm] at k2
  have := abs_sub_le (vec n e k) (l k) (vec n e' k)
  linarith

omit [Trig ℝ] in
theorem exTwoFrames : ItemWise (fun t u => SameUpToFrame (symMatrix 2 t) (symMatrix 2 u)) exEig2 ⟨[3, 1, 2, 4, -1, 0], 2, 3, 2⟩ := by
  have hQ : (!![0, 1; 1, 0] : Matrix (Fin 2) (Fin 2) ℝ) * (!![0, 1; 1, 0] : Matrix (Fin 2) (Fin 2) ℝ)ᵀ = 1 := by
    ext i j; fin_cases i <;> fin_cases j <;> simp [Matrix.mul_apply, Fin.sum_univ_two]
  refine .cons ⟨_, hQ, ?_⟩ (.cons ⟨_, hQ, ?_⟩ .nil) <;>
    ext i j <;> fin_cases i <;> fin_cases j <;> simp [Matrix.mul_apply, Fin.sum_univ_two, symMatrix, symMatrix2, num] <;> rfl

example := @C131_frame 2 realTrig _ _ exactTrig exEig2_WF (by decide) (by decide) exEig2_shape ⟨rfl, .inl ⟨rfl, rfl⟩⟩ (by decide) exTwoFrames

end exact

section rounded

variable {p : Nat} {R : Rounding p} [Trig (Dbl R)] {s : Serie (Dbl R)} {ε : ℝ}

theorem values_close_rounded {A : Matrix (Fin n) (Fin n) ℝ} (hn : n = 2 ∨ n = 3) (hs : A.IsSymm) {e w : List ℝ} {δ S : ℝ}
    (hδ : δ ≤ 1 / 2 ^ 20) (ho : NearlyOrthonormal n w δ) (hsort : ∀ i j : Fin n, i ≤ j → vec n e j ≤ vec n e i)
    (hS0 : 0 ≤ S) (hS : S ≤ frob A) (hb : √(residualSq A e w) ≤ S + δ * frob A) {l : Fin n → ℝ} (hl : TrueValues A l)
    (k : Fin n) : |vec n e k - l k| ≤ S + 32 * δ * frob A := by
  have hδ0 : 0 ≤ δ := (abs_nonneg _).trans (ho.2 k k)
  have hF : 0 ≤ frob A := Real.sqrt_nonneg _
  have h0 : 0 ≤ residualSq A e w := Finset.sum_nonneg fun k _ => Finset.sum_nonneg fun i _ => sq_nonneg _
  have hρ0 : 0 ≤ S + δ * frob A := by positivity
  have hres : residualSq A e w ≤ (S + δ * frob A) ^ 2 := by
    rw [← Real.sq_sqrt h0]; exact pow_le_pow_left₀ (Real.sqrt_nonneg _) hb 2
  have hv : ∀ k, |vec n e k| ≤ frob A + 2 * (S + δ * frob A) := by
    intro k
    refine value_le (w := fullMatrix n w k) hρ0 ?_ ?_
    · have := (abs_le.1 (ho.2 k k)).1
      rw [if_pos rfl] at this
      have e : fullMatrix n w k ⬝ᵥ fullMatrix n w k = ∑ i, fullMatrix n w k i * fullMatrix n w k i := rfl
      rw [e]
      have : δ ≤ 1 / 2 := hδ.trans (by norm_num)
      linarith
    · refine le_trans ?_ hres
      rw [residualSq_eq]
      exact Finset.single_le_sum (f := fun k => (A.mulVec (fullMatrix n w k) - vec n e k • fullMatrix n w k) ⬝ᵥ
        (A.mulVec (fullMatrix n w k) - vec n e k • fullMatrix n w k)) (fun k _ => dot_self_nonneg' _) (Finset.mem_univ k)
  have := values_close (W := fullMatrix n w) (e := vec n e) (δ := δ) (ρ := S + δ * frob A) hs (fun k l => ho.2 k l)
    hv hρ0 (by rw [← residualSq_eq]; exact hres) (fun i j hij => hsort i j hij) hl k
  have hl' := hl.abs_le_frob hs k
  have hn3 : (n : ℝ) ≤ 3 := by rcases hn with rfl | rfl <;> norm_num
  have hn0 : (0 : ℝ) ≤ n := Nat.cast_nonneg n
  have t1 : δ * frob A ≤ frob A := mul_le_of_le_one_left hF (hδ.trans (by norm_num))
  have t2 : n * δ ≤ 3 * δ := mul_le_mul_of_nonneg_right hn3 hδ0
  have t3 : n * δ * (frob A + 2 * (S + δ * frob A) + |l k|) ≤ 3 * δ * (6 * frob A) :=
    mul_le_mul t2 (by linarith) (by positivity) (by positivity)
  have t4 : n * δ * (S + δ * frob A) ≤ 3 * δ * (2 * frob A) := mul_le_mul t2 (by linarith) (by positivity) (by positivity)
  have t5 : 0 ≤ δ * frob A := mul_nonneg hδ0 hF
  linarith

/-- C132: with rounded arithmetic, the numbers returned by `eigenValues` are the eigen values, in order, up to the threshold of the
iteration and to rounding errors. -/
theorem C132_values (ht : AccurateTrig R ε) (hu : unit p ≤ ε) (hε : ε ≤ 1 / 2 ^ 40) (h : WF s) (h0 : 0 < s.count) (hs : EigenShape n s)
    (hfit : s.count * (n * n) < 2 ^ 32) :
    ∃ val, eigenValues s = .ok val ∧ val.itemSize = n ∧
      ItemWise (fun t e => ∃ A, A = symMatrix n (t.map Dbl.val) ∧ ∀ l, TrueValues A l →
        ∀ k, |vec n (e.map Dbl.val) k - l k| ≤ √(2 * (0.0000102 * offDiag A)) + 2 ^ 24 * ε * frob A) s val := by
  obtain ⟨val, vecs, h1, _, _, h4, _, _, _, h6, h7⟩ := eigenF_facts ht hu hε h hs hfit
  refine ⟨val, (h7 h0).1, h4, h6.pair fun t e w hf => ⟨_, rfl, fun l hl k => ?_⟩⟩
  have := values_close_rounded (hs.2.imp (·.1) (·.1)) (symMatrix_isSymm n _) (le_trans (mul_le_mul_of_nonneg_left hε (by norm_num)) (by norm_num))
    hf.orth hf.sorted (Real.sqrt_nonneg _) ?_ hf.res hl k
  · refine this.trans (le_of_eq ?_); ring
  · refine Real.sqrt_le_sqrt ?_
    have h2 : offDiag (symMatrix n (t.map Dbl.val)) ≤ ∑ i, ∑ j, symMatrix n (t.map Dbl.val) i j ^ 2 :=
      Finset.sum_le_sum fun i _ => Finset.sum_le_sum fun j _ => by split; exacts [le_refl _, sq_nonneg _]
    have h3 : 0 ≤ offDiag (symMatrix n (t.map Dbl.val)) :=
      Finset.sum_nonneg fun i _ => Finset.sum_nonneg fun j _ => by split; exacts [sq_nonneg _, le_refl _]
    linarith

example (R : Rounding 53) := @C132_values 3 53 R (roundTrig R) _ _ (accurateTrig_double R) unit53 (by norm_num) exEigF3_WF
  (of_decide_eq_true rfl) exEigF3_shape (of_decide_eq_true rfl)

/-- C132: in dimension 2 there are only rounding errors. -/
theorem C132_dim2 (ht : AccurateTrig R ε) (hu : unit p ≤ ε) (hε : ε ≤ 1 / 2 ^ 40) (h : WF s) (h0 : 0 < s.count) (hs : EigenShape 2 s)
    (hfit : s.count * 4 < 2 ^ 32) :
    ∃ val, eigenValues s = .ok val ∧
      ItemWise (fun t e => ∃ A, A = symMatrix2 (t.map Dbl.val) ∧ ∀ l, TrueValues A l →
        ∀ k, |vec 2 (e.map Dbl.val) k - l k| ≤ 2 ^ 24 * ε * frob A) s val := by
  obtain ⟨val, vecs, h1, _, _, h4, _, _, _, h6, h7⟩ := eigenF_facts ht hu hε h hs hfit
  refine ⟨val, (h7 h0).1, h6.pair fun t e w hf => ⟨_, rfl, fun l hl k => ?_⟩⟩
  have := values_close_rounded (.inl rfl) (symMatrix_isSymm 2 _) (le_trans (mul_le_mul_of_nonneg_left hε (by norm_num)) (by norm_num))
    hf.orth hf.sorted (le_refl 0) (Real.sqrt_nonneg _) (by rw [zero_add]; exact hf.res2 rfl) hl k
  refine this.trans (le_of_eq ?_)
  rw [zero_add, ← mul_assoc]
  norm_num [symMatrix]

example (R : Rounding 53) := @C132_dim2 53 R (roundTrig R) _ _ (accurateTrig_double R) unit53 (by norm_num) exEigF2_WF
  (of_decide_eq_true rfl) exEigF2_shape (of_decide_eq_true rfl)

/-- C132: the vectors are close to true eigenvectors, up to the same errors divided by the distance of the eigen value to the others. -/
theorem C132_vectors (ht : AccurateTrig R ε) (hu : unit p ≤ ε) (hε : ε ≤ 1 / 2 ^ 40) (h : WF s) (h0 : 0 < s.count) (hs : EigenShape n s)
    (hfit : s.count * (n * n) < 2 ^ 32) :
    ∃ val vecs, eigenValues s = .ok val ∧ eigenVectors s = .ok vecs ∧
      ItemWise3 (fun t e w => ∃ A, A = symMatrix n (t.map Dbl.val) ∧ ∀ l, TrueValues A l → ∀ k g, 0 ≤ g →
        (∀ j, j ≠ k → g ≤ |vec n (e.map Dbl.val) k - l j|) →
        ∃ v, A.mulVec v = l k • v ∧ g * √(∑ i, (fullMatrix n (w.map Dbl.val) k i - v i) ^ 2) ≤
          √(2 * (0.0000102 * offDiag A)) + 2 ^ 19 * ε * frob A) s val vecs := by
  obtain ⟨val, vecs, h1, _, _, h4, _, _, _, h6, h7⟩ := eigenF_facts ht hu hε h hs hfit
  refine ⟨val, vecs, (h7 h0).1, (h7 h0).2, h6.weaken fun t e w hf => ⟨_, rfl, fun l hl k g hg0 hg => ?_⟩⟩
  obtain ⟨v, k1, k2⟩ := vector_close (symMatrix_isSymm n _) hl (w := fullMatrix n (w.map Dbl.val) k) (e := vec n (e.map Dbl.val) k)
    (b := residualSq (symMatrix n (t.map Dbl.val)) (e.map Dbl.val) (w.map Dbl.val)) (by
    rw [residualSq_eq]
    exact Finset.single_le_sum (f := fun k => ((symMatrix n _).mulVec (fullMatrix n _ k) - vec n _ k • fullMatrix n _ k) ⬝ᵥ
      ((symMatrix n _).mulVec (fullMatrix n _ k) - vec n _ k • fullMatrix n _ k)) (fun k _ => dot_self_nonneg' _) (Finset.mem_univ k)) hg0 hg
  refine ⟨v, k1, le_trans ?_ hf.res⟩
  refine Real.le_sqrt_of_sq_le ?_
  rw [mul_pow, Real.sq_sqrt (Finset.sum_nonneg fun i _ => sq_nonneg _)]
  refine le_trans (le_of_eq ?_) k2
  congr 1
  exact Finset.sum_congr rfl fun i _ => pow_two _

example (R : Rounding 53) := @C132_vectors 3 53 R (roundTrig R) _ _ (accurateTrig_double R) unit53 (by norm_num) exEigF3_WF
  (of_decide_eq_true rfl) exEigF3_shape (of_decide_eq_true rfl)

/-- C132 for doubles with trigonometric functions exact up to `2^-51`. -/
theorem C132_double {R : Rounding 53} [Trig (Dbl R)] {s : Serie (Dbl R)} (ht : AccurateTrig R (1 / 2 ^ 51)) (h : WF s) (h0 : 0 < s.count)
    (hs : EigenShape n s) (hfit : s.count * (n * n) < 2 ^ 32) :
    ∃ val, eigenValues s = .ok val ∧ val.itemSize = n ∧
      ItemWise (fun t e => ∃ A, A = symMatrix n (t.map Dbl.val) ∧ ∀ l, TrueValues A l →
        ∀ k, |vec n (e.map Dbl.val) k - l k| ≤ √(2 * (0.0000102 * offDiag A)) + 1 / 2 ^ 27 * frob A) s val := by
  obtain ⟨val, h1, h2, h3⟩ := C132_values ht unit53 (by norm_num) h h0 hs hfit
  rw [show (2 : ℝ) ^ 24 * (1 / 2 ^ 51) = 1 / 2 ^ 27 by norm_num] at h3
  exact ⟨val, h1, h2, h3⟩

example (R : Rounding 53) := @C132_double 3 R (roundTrig R) _ (accurateTrig_double R) exEigF3_WF (of_decide_eq_true rfl) exEigF3_shape (of_decide_eq_true rfl)

end rounded

end DF
