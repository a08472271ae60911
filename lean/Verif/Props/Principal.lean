import Verif.Spec.Principal
import Verif.Props.TrueValues
import Verif.Props.Products

/-!
# Laws of the eigen values returned for symmetric matrices (C142)
-/

namespace DF

open Spec Matrix

variable {n : Nat}

/-- Eigen values are monotone. -/
theorem values_mono {A B : Matrix (Fin n) (Fin n) ℝ} (hA : A.IsSymm) (hB : B.IsSymm) {l m : Fin n → ℝ} (hl : TrueValues A l)
    (hm : TrueValues B m) {c : ℝ} (h : ∀ x : Fin n → ℝ, along B x ≤ along A x + c * (x ⬝ᵥ x)) (k : Fin n) : m k ≤ l k + c := by
  obtain ⟨U, hU, hUl⟩ := hl.vectors hA
  obtain ⟨V, hV, hVm⟩ := hm.vectors hB
  obtain ⟨d, d0, d1, d2⟩ := exists_upto (U * Vᵀ) k
  have hVx : V.mulVec (Vᵀ.mulVec d) = d := by rw [Matrix.mulVec_mulVec, hV, Matrix.one_mulVec]
  have hUx : U.mulVec (Vᵀ.mulVec d) = (U * Vᵀ).mulVec d := by rw [Matrix.mulVec_mulVec]
  have q1 := quad_le hU hUl hl.1 (x := Vᵀ.mulVec d) (k := k) (fun j hj => by rw [hUx]; exact d2 j hj)
  have q2 := le_quad hV hVm hm.1 (x := Vᵀ.mulVec d) (k := k) (fun j hj => by rw [hVx]; exact d1 j hj)
  have q3 := h (Vᵀ.mulVec d)
  unfold along at q3
  have hpos : 0 < Vᵀ.mulVec d ⬝ᵥ Vᵀ.mulVec d := by
    refine lt_of_le_of_ne (dot_self_nonneg' _) (Ne.symm ?_)
    rw [Ne, dotProduct_self_eq_zero]
    intro e
    rw [e, Matrix.mulVec_zero] at hVx
    exact d0 hVx.symm
  have : m k * (Vᵀ.mulVec d ⬝ᵥ Vᵀ.mulVec d) ≤ (l k + c) * (Vᵀ.mulVec d ⬝ᵥ Vᵀ.mulVec d) := by
    rw [add_mul]; linarith
  exact le_of_mul_le_mul_right this hpos

theorem along_sub (A B : Matrix (Fin n) (Fin n) ℝ) (x : Fin n → ℝ) : along (A - B) x = along A x - along B x := by
  unfold along
  rw [Matrix.sub_mulVec, dotProduct_sub]

theorem along_add (A B : Matrix (Fin n) (Fin n) ℝ) (x : Fin n → ℝ) : along (A + B) x = along A x + along B x := by
  unfold along
  rw [Matrix.add_mulVec, dotProduct_add]

theorem values_stable {A B : Matrix (Fin n) (Fin n) ℝ} (hA : A.IsSymm) (hB : B.IsSymm) {l m : Fin n → ℝ} (hl : TrueValues A l)
    (hm : TrueValues B m) (k : Fin n) : |l k - m k| ≤ frob (A - B) := by
  have q : ∀ x, |along A x - along B x| ≤ frob (A - B) * (x ⬝ᵥ x) := fun x => by rw [← along_sub]; exact abs_quad_le _ x
  have h1 := values_mono hA hB hl hm (c := frob (A - B)) (fun x => by have := (abs_le.1 (q x)).1; linarith) k
  have h2 := values_mono hB hA hm hl (c := frob (A - B)) (fun x => by have := (abs_le.1 (q x)).2; linarith) k
  rw [abs_le]
  constructor <;> linarith

/-- The eigen values are known from orthonormal eigen vectors. -/
theorem values_of_vectors {A W : Matrix (Fin n) (Fin n) ℝ} (hA : A.IsSymm) {e l : Fin n → ℝ} (hW : W * Wᵀ = 1) (he : Antitone e)
    (h : ∀ k, A.mulVec (W k) = e k • W k) (hl : TrueValues A l) : l = e := by
  funext k
  have := values_close (A := A) (W := W) hA (e := e) (l := l) (δ := 0) (m := ∑ j, |e j|) (ρ := 0) (fun i j => by
      have := congrFun (congrFun hW i) j
      rw [Matrix.mul_apply, Matrix.one_apply] at this
      have e : W i ⬝ᵥ W j = ∑ x, W i x * Wᵀ x j := rfl
      rw [e, this, sub_self, abs_zero])
    (fun k => Finset.single_le_sum (f := fun j => |e j|) (fun j _ => abs_nonneg _) (Finset.mem_univ k)) (le_refl 0)
    (by simp [h]) he hl k
  simp at this
  linarith

theorem values_scale {A : Matrix (Fin n) (Fin n) ℝ} (hA : A.IsSymm) {l m : Fin n → ℝ} (hl : TrueValues A l) {c : ℝ}
    (hm : TrueValues (c • A) m) : (0 ≤ c → ∀ k, m k = c * l k) ∧ (c ≤ 0 → ∀ k, m k = c * l k.rev) := by
  obtain ⟨U, hU, hv⟩ := hl.vectors hA
  have hS : (c • A).IsSymm := by unfold Matrix.IsSymm; rw [Matrix.transpose_smul, hA]
  constructor
  · intro h0 k
    have := values_of_vectors hS hU (e := fun k => c * l k) (fun i j hij => mul_le_mul_of_nonneg_left (hl.1 hij) h0)
      (fun k => by rw [Matrix.smul_mulVec, hv, smul_smul]) hm
    rw [this]
  · intro h0 k
    have hR : (Matrix.of fun k => U (Fin.rev k)) * (Matrix.of fun k => U (Fin.rev k))ᵀ = 1 := by
      ext i j
      have := congrFun (congrFun hU i.rev) j.rev
      rw [Matrix.mul_apply] at this ⊢
      refine this.trans ?_
      rw [Matrix.one_apply, Matrix.one_apply]
      simp [Fin.rev_inj]
    have := values_of_vectors hS hR (e := fun k => c * l k.rev) (fun i j hij =>
        mul_le_mul_of_nonpos_left (hl.1 (Fin.rev_le_rev.2 hij)) h0)
      (fun k => by
        show (c • A).mulVec (U k.rev) = _ • U k.rev
        rw [Matrix.smul_mulVec, hv, smul_smul]) hm
    rw [this]

theorem get_both {R : List ℝ → List ℝ → Prop} {a b : Serie ℝ} {i : Nat} {x y : List ℝ} (hr : ItemWise R a b) (hx : (items a)[i]? = some x)
    (hy : (items b)[i]? = some y) : R x y := by
  obtain ⟨h1, rfl⟩ := List.getElem?_eq_some_iff.1 hx
  obtain ⟨h2, rfl⟩ := List.getElem?_eq_some_iff.1 hy
  exact List.forall₂_iff_get.1 hr |>.2 i h1 h2

section exact

variable [Trig ℝ] {s s' : Serie ℝ}

/-- C142: changing the matrices a little changes the eigen values at most as much. -/
theorem C142_stable (ht : ExactTrig) (h : WF s) (h' : WF s') (h0 : 0 < s.count) (hs : EigenShape n s) (hs' : EigenShape n s')
    (hc : s'.count = s.count) (hfit : s.count * (n * n) < 2 ^ 32) :
    ∃ val val', eigenValues s = .ok val ∧ eigenValues s' = .ok val' ∧ val.count = s.count ∧ val'.count = s.count ∧
      ∀ (i : Nat) t u e e', (items s)[i]? = some t → (items s')[i]? = some u → (items val)[i]? = some e → (items val')[i]? = some e' →
        ∀ k, |vec n e k - vec n e' k| ≤
          frob (symMatrix n t - symMatrix n u) + tolerance (symMatrix n t) + tolerance (symMatrix n u) := by
  obtain ⟨val, e1, _, f1⟩ := C131_values ht h h0 hs hfit
  obtain ⟨val', e2, _, f2⟩ := C131_values ht h' (hc ▸ h0) hs' (hc ▸ hfit)
  refine ⟨val, val', e1, e2, by simpa using f1.length_eq.symm, by simpa [hc] using f2.length_eq.symm, ?_⟩
  intro i t u e e' ht hu he he' k
  obtain ⟨l, hl⟩ := trueValues_exists (symMatrix_isSymm n t)
  obtain ⟨m, hm⟩ := trueValues_exists (symMatrix_isSymm n u)
  have k1 := get_both f1 ht he l hl k
  have k2 := get_both f2 hu he' m hm k
  have k3 := values_stable (symMatrix_isSymm n t) (symMatrix_isSymm n u) hl hm k
  unfold tolerance
  rw [abs_le] at *
  constructor <;> linarith

example := @C142_stable 3 realTrig exEig3 ⟨[2, 1, 0, 3, 1, 5.25, 1, 0, 0, 2, 0.5, 3], 2, 6, 3⟩ exactTrig exEig3_WF (by decide) (by decide)
  exEig3_shape ⟨rfl, .inr ⟨rfl, rfl⟩⟩ rfl (by decide)

/-- C142: along any direction the matrix is between its extreme eigen values. -/
theorem C142_extremes (ht : ExactTrig) (h : WF s) (h0 : 0 < s.count) (hs : EigenShape n s) (hfit : s.count * (n * n) < 2 ^ 32) :
    ∃ val, eigenValues s = .ok val ∧ ItemWise (fun t e => ∀ x : Fin n → ℝ, x ⬝ᵥ x = 1 →
      num e (n - 1) - tolerance (symMatrix n t) ≤ along (symMatrix n t) x ∧
        along (symMatrix n t) x ≤ num e 0 + tolerance (symMatrix n t)) s val := by
  obtain ⟨val, e1, _, f1⟩ := C131_values ht h h0 hs hfit
  refine ⟨val, e1, f1.imp fun t e hf x hx => ?_⟩
  have hn : 0 < n := by rcases hs.2 with ⟨rfl, _⟩ | ⟨rfl, _⟩ <;> omega
  obtain ⟨l, hl⟩ := trueValues_exists (symMatrix_isSymm n t)
  obtain ⟨U, hU, hv⟩ := hl.vectors (symMatrix_isSymm n t)
  have q1 := quad_le hU hv hl.1 (x := x) (k := ⟨0, hn⟩) (fun j hj => absurd hj (by simp [Fin.lt_def]))
  have q2 := le_quad hU hv hl.1 (x := x) (k := ⟨n - 1, by omega⟩) (fun j hj => absurd hj (by simp [Fin.lt_def]; omega))
  have k1 := hf l hl ⟨0, hn⟩
  have k2 := hf l hl ⟨n - 1, by omega⟩
  rw [hx, mul_one] at q1 q2
  rw [abs_le] at k1 k2
  simp only [vec] at k1 k2
  unfold along tolerance
  constructor <;> linarith

example := @C142_extremes 3 realTrig exEig3 exactTrig exEig3_WF (by decide) exEig3_shape (by decide)

/-- C142: the eigen values of a matrix that is positive in every direction are positive. -/
theorem C142_positive (ht : ExactTrig) (h : WF s) (h0 : 0 < s.count) (hs : EigenShape n s) (hfit : s.count * (n * n) < 2 ^ 32) (c : ℝ) :
    ∃ val, eigenValues s = .ok val ∧ ItemWise (fun t e => (∀ x, c * (x ⬝ᵥ x) ≤ along (symMatrix n t) x) →
      ∀ k, c - tolerance (symMatrix n t) ≤ vec n e k) s val := by
  obtain ⟨val, e1, _, f1⟩ := C131_values ht h h0 hs hfit
  refine ⟨val, e1, f1.imp fun t e hf hp k => ?_⟩
  obtain ⟨l, hl⟩ := trueValues_exists (symMatrix_isSymm n t)
  obtain ⟨U, hU, hv⟩ := hl.vectors (symMatrix_isSymm n t)
  have hk := hf l hl k
  have e : U k ⬝ᵥ U k = 1 := by
    have := congrFun (congrFun hU k) k
    rwa [Matrix.mul_apply, Matrix.one_apply_eq] at this
  have := hp (U k)
  unfold along at this
  rw [hv, dotProduct_smul, e, smul_eq_mul, mul_one, mul_one] at this
  rw [abs_le] at hk
  unfold tolerance
  linarith

example := @C142_positive 3 realTrig exEig3 exactTrig exEig3_WF (by decide) exEig3_shape (by decide) 0

theorem add_facts (h : WF s) (h' : WF s') (h6 : s.itemSize = 6) (h6' : s'.itemSize = 6) (hc : s'.count = s.count) :
    ∃ r, add2 s s' = .ok r ∧ WF r ∧ EigenShape 3 r ∧ r.count = s.count ∧ ∀ (i : Nat) t u, (items s)[i]? = some t → (items s')[i]? = some u →
      ∃ w, (items r)[i]? = some w ∧ symMatrix 3 w = symMatrix 3 t + symMatrix 3 u := by
  have hs : SameShape s s' := ⟨h6.trans h6'.symm, hc.symm⟩
  obtain ⟨w, ⟨k, c⟩, it⟩ := WF_pointwise (op := (· + ·)) h h' hs
  refine ⟨_, binOp_eq h h' hs, w, ⟨rfl, .inr ⟨rfl, k.trans h6⟩⟩, c, fun i t u ht hu => ?_⟩
  refine ⟨_, by rw [it, List.getElem?_zipWith, ht, hu], ?_⟩
  have lt := (h.item_length (List.mem_of_getElem? ht)).trans h6
  have lu := (h'.item_length (List.mem_of_getElem? hu)).trans h6'
  obtain ⟨a0, a1, a2, a3, a4, a5, rfl⟩ : ∃ a b c d e f, t = [a, b, c, d, e, f] := by
    match t, lt with
    | [a, b, c, d, e, f], _ => exact ⟨a, b, c, d, e, f, rfl⟩
  obtain ⟨b0, b1, b2, b3, b4, b5, rfl⟩ : ∃ a b c d e f, u = [a, b, c, d, e, f] := by
    match u, lu with
    | [a, b, c, d, e, f], _ => exact ⟨a, b, c, d, e, f, rfl⟩
  ext i j
  fin_cases i <;> fin_cases j <;> rfl

/-- C142: the eigen values of a sum are between those of one matrix plus the extreme eigen values of the other. -/
theorem C142_sum (ht : ExactTrig) (h : WF s) (h' : WF s') (h0 : 0 < s.count) (hs : EigenShape 3 s) (hs' : EigenShape 3 s')
    (hc : s'.count = s.count) (hfit : s.count * 9 < 2 ^ 32) :
    ∃ val val' sum, eigenValues s = .ok val ∧ eigenValues s' = .ok val' ∧ (add2 s s' >>= eigenValues) = .ok sum ∧
      val.count = s.count ∧ val'.count = s.count ∧ sum.count = s.count ∧
      ∀ (i : Nat) t u e e' f, (items s)[i]? = some t → (items s')[i]? = some u → (items val)[i]? = some e → (items val')[i]? = some e' →
        (items sum)[i]? = some f → ∀ T, T = tolerance (symMatrix3 t) + tolerance (symMatrix3 u) + tolerance (symMatrix3 t + symMatrix3 u) →
        ∀ k, vec 3 e k + num e' 2 - T ≤ vec 3 f k ∧ vec 3 f k ≤ vec 3 e k + num e' 0 + T := by
  have h6 : s.itemSize = 6 := by rcases hs.2 with ⟨h, _⟩ | ⟨_, h⟩; exacts [absurd h (by omega), h]
  have h6' : s'.itemSize = 6 := by rcases hs'.2 with ⟨h, _⟩ | ⟨_, h⟩; exacts [absurd h (by omega), h]
  obtain ⟨r, er, wr, sr, cr, ir⟩ := add_facts h h' h6 h6' hc
  obtain ⟨val, e1, _, f1⟩ := C131_values ht h h0 hs hfit
  obtain ⟨val', e2, _, f2⟩ := C131_values ht h' (hc ▸ h0) hs' (hc ▸ hfit)
  obtain ⟨sum, e3, _, f3⟩ := C131_values ht wr (cr ▸ h0) sr (cr ▸ hfit)
  refine ⟨val, val', sum, e1, e2, by rw [er, Res.ok_bind, e3], by simpa using f1.length_eq.symm, by simpa [hc] using f2.length_eq.symm,
    by simpa [cr] using f3.length_eq.symm, ?_⟩
  rintro i t u e e' f ht hu he he' hf T rfl k
  obtain ⟨w, hw, hm⟩ := ir i t u ht hu
  obtain ⟨l, hl⟩ := trueValues_exists (symMatrix_isSymm 3 t)
  obtain ⟨m, hm'⟩ := trueValues_exists (symMatrix_isSymm 3 u)
  obtain ⟨q, hq⟩ := trueValues_exists (symMatrix_isSymm 3 w)
  obtain ⟨V, hV, hv⟩ := hm'.vectors (symMatrix_isSymm 3 u)
  have a1 := values_mono (symMatrix_isSymm 3 t) (symMatrix_isSymm 3 w) hl hq (c := m 0) (fun x => by
    rw [hm, along_add]
    have := quad_le hV hv hm'.1 (x := x) (k := 0) (fun j hj => absurd hj (by simp))
    unfold along
    linarith) k
  have a2 := values_mono (symMatrix_isSymm 3 w) (symMatrix_isSymm 3 t) hq hl (c := - m 2) (fun x => by
    rw [hm, along_add]
    have := le_quad hV hv hm'.1 (x := x) (k := 2) (fun j hj => absurd hj (by have := j.2; simp [Fin.lt_def]; omega))
    unfold along
    linarith) k
  have k1 := get_both f1 ht he l hl k
  have k2 := get_both f2 hu he' m hm' 0
  have k2' := get_both f2 hu he' m hm' 2
  have k3 := get_both f3 hw hf q hq k
  rw [hm] at k3
  have v0 : vec 3 e' 0 = num e' 0 := rfl
  have v2 : vec 3 e' 2 = num e' 2 := rfl
  rw [v0] at k2
  rw [v2] at k2'
  unfold tolerance
  simp only [symMatrix] at k1 k2 k2' k3
  rw [abs_le] at k1 k2 k2' k3
  constructor <;> linarith

example := @C142_sum realTrig exEig3 ⟨[2, 1, 0, 3, 1, 5, 1, 0, 0, 2, 1, 3], 2, 6, 3⟩ exactTrig exEig3_WF (by decide) (by decide)
  exEig3_shape ⟨rfl, .inr ⟨rfl, rfl⟩⟩ rfl (by decide)

/-- C142: adding the same pressure in all directions adds it to the eigen values. -/
theorem C142_shift (ht : ExactTrig) (h : WF s) (h' : WF s') (h0 : 0 < s.count) (hs : EigenShape 3 s) (hs' : EigenShape 3 s')
    (hc : s'.count = s.count) (hfit : s.count * 9 < 2 ^ 32) {c : ℝ} (hi : ∀ u ∈ items s', u = [c, 0, 0, c, 0, c]) :
    ∃ val sum, eigenValues s = .ok val ∧ (add2 s s' >>= eigenValues) = .ok sum ∧ val.count = s.count ∧ sum.count = s.count ∧
      ∀ (i : Nat) t e f, (items s)[i]? = some t → (items val)[i]? = some e → (items sum)[i]? = some f →
        ∀ k, |vec 3 f k - (vec 3 e k + c)| ≤ 2 * tolerance (symMatrix3 t) := by
  have h6 : s.itemSize = 6 := by rcases hs.2 with ⟨h, _⟩ | ⟨_, h⟩; exacts [absurd h (by omega), h]
  have h6' : s'.itemSize = 6 := by rcases hs'.2 with ⟨h, _⟩ | ⟨_, h⟩; exacts [absurd h (by omega), h]
  obtain ⟨r, er, wr, sr, cr, ir⟩ := add_facts h h' h6 h6' hc
  obtain ⟨val, e1, _, f1⟩ := C131_values ht h h0 hs hfit
  obtain ⟨sum, e3, _, f3⟩ := C131_values ht wr (cr ▸ h0) sr (cr ▸ hfit)
  refine ⟨val, sum, e1, by rw [er, Res.ok_bind, e3], by simpa using f1.length_eq.symm, by simpa [cr] using f3.length_eq.symm, ?_⟩
  intro i t e f ht he hf k
  have hlt : i < s'.count := by
    obtain ⟨h1, _⟩ := List.getElem?_eq_some_iff.1 ht
    rw [items_length] at h1
    omega
  have hu : (items s')[i]? = some [c, 0, 0, c, 0, c] := by
    rw [List.getElem?_eq_getElem (by rw [items_length]; exact hlt)]
    exact congrArg some (hi _ (List.getElem_mem _))
  obtain ⟨w, hw, hm⟩ := ir i t _ ht hu
  have hI : symMatrix 3 [c, 0, 0, c, 0, c] = c • (1 : Matrix (Fin 3) (Fin 3) ℝ) := by
    ext i j
    fin_cases i <;> fin_cases j <;> simp [symMatrix, symMatrix3, num]
  rw [hI] at hm
  obtain ⟨l, hl⟩ := trueValues_exists (symMatrix_isSymm 3 t)
  obtain ⟨q, hq⟩ := trueValues_exists (symMatrix_isSymm 3 w)
  have hal : ∀ x, along (symMatrix 3 w) x = along (symMatrix 3 t) x + c * (x ⬝ᵥ x) := by
    intro x
    rw [hm, along_add]
    congr 1
    unfold along
    rw [Matrix.smul_mulVec, Matrix.one_mulVec, dotProduct_smul, smul_eq_mul]
  have a1 := values_mono (symMatrix_isSymm 3 t) (symMatrix_isSymm 3 w) hl hq (c := c) (fun x => (hal x).le) k
  have a2 := values_mono (symMatrix_isSymm 3 w) (symMatrix_isSymm 3 t) hq hl (c := - c) (fun x => by rw [hal]; linarith) k
  have k1 := get_both f1 ht he l hl k
  have k3 := get_both f3 hw hf q hq k
  have ho : offDiag (symMatrix 3 w) = offDiag (symMatrix 3 t) := by
    rw [hm]
    unfold offDiag
    refine Finset.sum_congr rfl fun i _ => Finset.sum_congr rfl fun j _ => ?_
    by_cases hij : i < j
    · simp [hij, ne_of_lt hij]
    · rw [if_neg hij, if_neg hij]
  rw [ho] at k3
  simp only [symMatrix] at k1 k3
  unfold tolerance
  rw [abs_le] at k1 k3 ⊢
  constructor <;> linarith

example := @C142_shift realTrig exEig3 ⟨[7, 0, 0, 7, 0, 7, 7, 0, 0, 7, 0, 7], 2, 6, 3⟩ exactTrig exEig3_WF (by decide) (by decide)
  exEig3_shape ⟨rfl, .inr ⟨rfl, rfl⟩⟩ rfl (by decide) 7 (by
    have e : items (⟨[7, 0, 0, 7, 0, 7, 7, 0, 0, 7, 0, 7], 2, 6, 3⟩ : Serie ℝ) = [[7, 0, 0, 7, 0, 7], [7, 0, 0, 7, 0, 7]] := rfl
    rw [e]; simp)

/-- C142: scaling the matrices scales the eigen values; they change places when the factor is negative. -/
theorem C142_scale (ht : ExactTrig) (h : WF s) (h0 : 0 < s.count) (hs : EigenShape 3 s) (hfit : s.count * 9 < 2 ^ 32) (c : ℝ) :
    ∃ val r, eigenValues s = .ok val ∧ (scale s c >>= eigenValues) = .ok r ∧ val.count = s.count ∧ r.count = s.count ∧
      ∀ (i : Nat) t e f, (items s)[i]? = some t → (items val)[i]? = some e → (items r)[i]? = some f →
        ∀ k, (0 ≤ c → |vec 3 f k - c * vec 3 e k| ≤ 2 * |c| * tolerance (symMatrix3 t)) ∧
          (c ≤ 0 → |vec 3 f k - c * vec 3 e k.rev| ≤ 2 * |c| * tolerance (symMatrix3 t)) := by
  have h6 : s.itemSize = 6 := by rcases hs.2 with ⟨h, _⟩ | ⟨_, h⟩; exacts [absurd h (by omega), h]
  have hl : ∀ v : List ℝ, v.length = s.itemSize → (v.map (· * c)).length = s.itemSize := fun v hv => by simpa using hv
  obtain ⟨w1, k1, n1, i1⟩ := ofItems_map_facts h (k := s.itemSize) (g := List.map (· * c)) h.pos (le_refl _) hl
  obtain ⟨val, e1, _, f1⟩ := C131_values ht h h0 hs hfit
  obtain ⟨r, e3, _, f3⟩ := C131_values (n := 3) ht w1 (n1.symm ▸ h0) ⟨rfl, .inr ⟨rfl, k1.trans h6⟩⟩ (n1.symm ▸ hfit)
  refine ⟨val, r, e1, by rw [C36_scale h h0, Res.ok_bind]; exact e3, by simpa using f1.length_eq.symm, by simpa [n1] using f3.length_eq.symm, ?_⟩
  intro i t e f ht he hf k
  have hw : (items (ofItems s.itemSize ((items s).map (List.map (· * c)))))[i]? = some (t.map (· * c)) := by
    rw [i1, List.getElem?_map, ht]; rfl
  have hm : symMatrix 3 (t.map (· * c)) = c • symMatrix 3 t := by
    have lt := (h.item_length (List.mem_of_getElem? ht)).trans h6
    obtain ⟨a0, a1, a2, a3, a4, a5, rfl⟩ : ∃ a b c d e f, t = [a, b, c, d, e, f] := by
      match t, lt with
      | [a, b, c, d, e, f], _ => exact ⟨a, b, c, d, e, f, rfl⟩
    ext i j
    fin_cases i <;> fin_cases j <;> simp [symMatrix, symMatrix3, num, mul_comm]
  obtain ⟨l, hl⟩ := trueValues_exists (symMatrix_isSymm 3 t)
  obtain ⟨q, hq⟩ := trueValues_exists (symMatrix_isSymm 3 (t.map (· * c)))
  have g1 := fun k => get_both f1 ht he l hl k
  have g3 := get_both f3 hw hf q hq k
  rw [hm] at g3 hq
  obtain ⟨s1, s2⟩ := values_scale (symMatrix_isSymm 3 t) hl hq
  have htol : √(2 * (0.00001 * offDiag (c • symMatrix 3 t))) = |c| * √(2 * (0.00001 * offDiag (symMatrix 3 t))) := by
    have : offDiag (c • symMatrix 3 t) = c ^ 2 * offDiag (symMatrix 3 t) := by
      unfold offDiag
      rw [Finset.mul_sum]
      refine Finset.sum_congr rfl fun i _ => ?_
      rw [Finset.mul_sum]
      refine Finset.sum_congr rfl fun j _ => ?_
      by_cases hij : i < j
      · rw [if_pos hij, if_pos hij, Matrix.smul_apply, smul_eq_mul]; ring
      · rw [if_neg hij, if_neg hij, mul_zero]
    rw [this, show 2 * (0.00001 * (c ^ 2 * offDiag (symMatrix 3 t))) = c ^ 2 * (2 * (0.00001 * offDiag (symMatrix 3 t))) by ring,
      Real.sqrt_mul (sq_nonneg c), Real.sqrt_sq_eq_abs]
  rw [htol] at g3
  have close : ∀ k', |c * l k' - c * vec 3 e k'| ≤ |c| * √(2 * (0.00001 * offDiag (symMatrix 3 t))) := by
    intro k'
    rw [← mul_sub, abs_mul, abs_sub_comm]
    exact mul_le_mul_of_nonneg_left (g1 k') (abs_nonneg c)
  have tri : ∀ k', q k = c * l k' → |vec 3 f k - c * vec 3 e k'| ≤ 2 * |c| * tolerance (symMatrix3 t) := by
    intro k' e'
    rw [e'] at g3
    have := abs_sub_le (vec 3 f k) (c * l k') (c * vec 3 e k')
    have := close k'
    unfold tolerance
    simp only [symMatrix] at *
    linarith
  exact ⟨fun h0 => tri _ (s1 h0 k), fun h0 => tri _ (s2 h0 k)⟩

example := @C142_scale realTrig exEig3 exactTrig exEig3_WF (by decide) exEig3_shape (by decide) (-3)

/-- C142 is violated in dimension 2: a scaled Serie is of dimension 3 and its eigen values are refused. -/
theorem C142_scale_2d_violated (ht : ExactTrig) (h : WF s) (h0 : 0 < s.count) (hs : EigenShape 2 s) (hfit : s.count * 4 < 2 ^ 32) (c : ℝ) :
    (∃ val, eigenValues s = .ok val) ∧ (scale s c >>= eigenValues) = .throw .runtimeError := by
  obtain ⟨val, e1, _, _⟩ := C131_values ht h h0 hs hfit
  refine ⟨⟨val, e1⟩, ?_⟩
  have h3 : s.itemSize = 3 := by rcases hs.2 with ⟨_, h⟩ | ⟨h, _⟩; exacts [h, absurd h (by omega)]
  rw [C36_scale h h0, Res.ok_bind]
  exact (C79_throws (s := onNumbers (· * c) s) (.inr ⟨rfl, by show s.itemSize ≠ 6; omega⟩)).1

example := @C142_scale_2d_violated realTrig exEig2 exactTrig exEig2_WF (by decide) exEig2_shape (by decide) 2

end exact

end DF
