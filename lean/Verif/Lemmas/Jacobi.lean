import Verif.Lemmas.Eigen

/-! # The Jacobi iteration in dimensions 2 and 3 -/

namespace DF

open Spec Matrix

/-! ## dimension 2 -/

/-- The matrix of a column symmetric storage. -/
def colMatrix2 (a : List ℝ) : Matrix (Fin 2) (Fin 2) ℝ :=
  !![num a 0, num a 1;
     num a 1, num a 2]

/-- The matrix of a column symmetric storage. -/
def colMatrix3 (a : List ℝ) : Matrix (Fin 3) (Fin 3) ℝ :=
  !![num a 0, num a 1, num a 3;
     num a 1, num a 2, num a 4;
     num a 3, num a 4, num a 5]

theorem rotate_step {n : Nat} {A0 A V R A' V' : Matrix (Fin n) (Fin n) ℝ} (hV : V * Vᵀ = 1) (hA : V * A0 * Vᵀ = A)
    (hR : R * Rᵀ = 1) (hV' : V' = R * V) (hA' : A' = R * A * Rᵀ) : V' * V'ᵀ = 1 ∧ V' * A0 * V'ᵀ = A' := by
  subst hV' hA'
  constructor
  · rw [Matrix.transpose_mul, Matrix.mul_assoc, ← Matrix.mul_assoc V, hV, Matrix.one_mul, hR]
  · rw [← hA, Matrix.transpose_mul]
    simp only [Matrix.mul_assoc]

/-- Invariant of the iteration in dimension 3. -/
structure Inv3 (A0 : Matrix (Fin 3) (Fin 3) ℝ) (st : Jacobi ℝ) : Prop where
  la : st.a.length = 6
  lv : st.v.length = 9
  orth : fullMatrix 3 st.v * (fullMatrix 3 st.v)ᵀ = 1
  conj : fullMatrix 3 st.v * A0 * (fullMatrix 3 st.v)ᵀ = colMatrix3 st.a
  thr : st.thr = num st.a 1 ^ 2 + num st.a 3 ^ 2 + num st.a 4 ^ 2

theorem rot12 {α : Type} [Zero α] [Add α] [Sub α] [Mul α] (a0 a1 a2 a3 a4 a5 v0 v1 v2 v3 v4 v5 v6 v7 v8 s c : α) :
    jacobiRotate 3 1 2 s c a0 a2 a1 [a0, a1, a2, a3, a4, a5] [v0, v1, v2, v3, v4, v5, v6, v7, v8] =
      .ok ([a0 * (c * c) + a2 * (s * s) - (a1 * (s * c) + a1 * (s * c)), 0,
          a0 * (s * s) + a2 * (c * c) + (a1 * (s * c) + a1 * (s * c)), a3 * c - a4 * s, a3 * s + a4 * c, a5],
        [c * v0 - s * v3, c * v1 - s * v4, c * v2 - s * v5, s * v0 + c * v3, s * v1 + c * v4, s * v2 + c * v5,
          v6, v7, v8]) := rfl

theorem rot13 {α : Type} [Zero α] [Add α] [Sub α] [Mul α] (a0 a1 a2 a3 a4 a5 v0 v1 v2 v3 v4 v5 v6 v7 v8 s c : α) :
    jacobiRotate 3 1 3 s c a0 a5 a3 [a0, a1, a2, a3, a4, a5] [v0, v1, v2, v3, v4, v5, v6, v7, v8] =
      .ok ([a0 * (c * c) + a5 * (s * s) - (a3 * (s * c) + a3 * (s * c)), a1 * c - a4 * s, a2, 0, a1 * s + a4 * c,
          a0 * (s * s) + a5 * (c * c) + (a3 * (s * c) + a3 * (s * c))],
        [c * v0 - s * v6, c * v1 - s * v7, c * v2 - s * v8, v3, v4, v5, s * v0 + c * v6, s * v1 + c * v7,
          s * v2 + c * v8]) := rfl

theorem rot23 {α : Type} [Zero α] [Add α] [Sub α] [Mul α] (a0 a1 a2 a3 a4 a5 v0 v1 v2 v3 v4 v5 v6 v7 v8 s c : α) :
    jacobiRotate 3 2 3 s c a2 a5 a4 [a0, a1, a2, a3, a4, a5] [v0, v1, v2, v3, v4, v5, v6, v7, v8] =
      .ok ([a0, a1 * c - a3 * s, a2 * (c * c) + a5 * (s * s) - (a4 * (s * c) + a4 * (s * c)), a1 * s + a3 * c, 0,
          a2 * (s * s) + a5 * (c * c) + (a4 * (s * c) + a4 * (s * c))],
        [v0, v1, v2, c * v3 - s * v6, c * v4 - s * v7, c * v5 - s * v8, s * v3 + c * v6, s * v4 + c * v7,
          s * v5 + c * v8]) := rfl

/-- What a step does: nothing when the entry is small, otherwise it lowers `thr` by the square of the entry. -/
def StepSpec (A0 : Matrix (Fin 3) (Fin 3) ℝ) (q : ℝ) (x : ℝ) (st : Jacobi ℝ) (r : Res (Jacobi ℝ)) : Prop :=
  (x ^ 2 < q ∧ r = .ok st) ∨
  (q ≤ x ^ 2 ∧ ∃ st', r = .ok st' ∧ Inv3 A0 st' ∧ st'.iter = st.iter ∧ st'.thr = st.thr - x ^ 2)

variable [Trig ℝ]

omit [Trig ℝ] in
theorem jacobiStep_raw {α : Type} [Zero α] [Add α] [Sub α] [Mul α] [Div α] [Neg α] [OfNat α 2] [OfNat α 4]
    [DecidableEq α] [LT α] [DecidableLT α] [Trig α] {n l m : Nat} {q x y z : α} {st : Jacobi α}
    (h1 : rd1 st.a (l + (m * m - m) / 2) = .ok x) (h2 : rd1 st.a (l + (l * l - l) / 2) = .ok y)
    (h3 : rd1 st.a (m + (m * m - m) / 2) = .ok z) :
    jacobiStep n q l m st = if x * x < q then .ok st
      else jacobiRotate n l m (Trig.sin (jacobiAngle y z x)) (Trig.cos (jacobiAngle y z x)) y z x st.a st.v >>=
        fun p => .ok { st with a := p.1, v := p.2, thr := absv (st.thr - x * x) } := by
  unfold jacobiStep
  rw [h1, h2, h3]
  rfl

theorem jacobiStep_eq (ht : ExactTrig) {n l m : Nat} {q x y z : ℝ} {st : Jacobi ℝ}
    (h1 : rd1 st.a (l + (m * m - m) / 2) = .ok x) (h2 : rd1 st.a (l + (l * l - l) / 2) = .ok y)
    (h3 : rd1 st.a (m + (m * m - m) / 2) = .ok z) :
    jacobiStep n q l m st = if x ^ 2 < q then .ok st
      else jacobiRotate n l m (Real.sin (jacobiAngle y z x)) (Real.cos (jacobiAngle y z x)) y z x st.a st.v >>=
        fun p => .ok { st with a := p.1, v := p.2, thr := absv (st.thr - x ^ 2) } := by
  unfold jacobiStep
  rw [h1, h2, h3]
  simp only [Res.ok_bind, ht.sin, ht.cos, pow_two]
  rfl

theorem step12 (ht : ExactTrig) {A0 : Matrix (Fin 3) (Fin 3) ℝ} {st : Jacobi ℝ} (h : Inv3 A0 st) (q : ℝ) :
    StepSpec A0 q (num st.a 1) st (jacobiStep 3 q 1 2 st) := by
  obtain ⟨a, v, t, it⟩ := st
  obtain ⟨la, lv, orth, conj, thr⟩ := h
  obtain ⟨a0, a1, a2, a3, a4, a5, rfl⟩ := len6 la
  obtain ⟨v0, v1, v2, v3, v4, v5, v6, v7, v8, rfl⟩ := len9 lv
  replace thr : t = a1 ^ 2 + a3 ^ 2 + a4 ^ 2 := thr
  have key : jacobiStep 3 q 1 2 ⟨[a0, a1, a2, a3, a4, a5], [v0, v1, v2, v3, v4, v5, v6, v7, v8], t, it⟩ = _ :=
    jacobiStep_eq ht (x := a1) (y := a0) (z := a2) rfl rfl rfl
  unfold StepSpec
  rw [key]
  show (a1 ^ 2 < q ∧ _) ∨ (q ≤ a1 ^ 2 ∧ _)
  by_cases hc : a1 ^ 2 < q
  · exact .inl ⟨hc, if_pos hc⟩
  · refine .inr ⟨not_lt.1 hc, ?_⟩
    rw [if_neg hc, rot12, Res.ok_bind]
    have hz := jacobiAngle_zero ht a0 a2 a1
    have hsc := Real.sin_sq_add_cos_sq (jacobiAngle a0 a2 a1)
    simp only [] at hz
    generalize Real.sin (jacobiAngle a0 a2 a1) = s at hz hsc
    generalize Real.cos (jacobiAngle a0 a2 a1) = c at hz hsc
    have hthr : absv (t - a1 ^ 2) = t - a1 ^ 2 := by
      unfold absv
      rw [if_neg (by rw [thr]; nlinarith [sq_nonneg a3, sq_nonneg a4])]
    obtain ⟨o', c'⟩ := rotate_step (R := !![c, -s, 0; s, c, 0; 0, 0, 1]) orth conj
      (A' := colMatrix3 [a0 * (c * c) + a2 * (s * s) - (a1 * (s * c) + a1 * (s * c)), 0, a0 * (s * s) + a2 * (c * c) + (a1 * (s * c) + a1 * (s * c)), a3 * c - a4 * s, a3 * s + a4 * c, a5])
      (V' := fullMatrix 3 [c * v0 - s * v3, c * v1 - s * v4, c * v2 - s * v5, s * v0 + c * v3, s * v1 + c * v4, s * v2 + c * v5, v6, v7, v8])
      (by
        ext i j
        fin_cases i <;> fin_cases j <;>
          simp [Matrix.mul_apply, Fin.sum_univ_three] <;> first | ring1 | linear_combination hsc)
      (by
        ext i j
        fin_cases i <;> fin_cases j <;>
          simp [Matrix.mul_apply, Fin.sum_univ_three, fullMatrix, num] <;> ring1)
      (by
        ext i j
        fin_cases i <;> fin_cases j <;>
          simp [Matrix.mul_apply, Fin.sum_univ_three, colMatrix3, num] <;>
            first | ring1 | linear_combination hz | linear_combination -hz)
    refine ⟨_, rfl, ⟨rfl, rfl, o', c', ?_⟩, rfl, hthr⟩
    show absv (t - a1 ^ 2) = (0 : ℝ) ^ 2 + (a3 * c - a4 * s) ^ 2 + (a3 * s + a4 * c) ^ 2
    rw [hthr, thr]
    linear_combination -(a3 ^ 2 + a4 ^ 2) * hsc

theorem step13 (ht : ExactTrig) {A0 : Matrix (Fin 3) (Fin 3) ℝ} {st : Jacobi ℝ} (h : Inv3 A0 st) (q : ℝ) :
    StepSpec A0 q (num st.a 3) st (jacobiStep 3 q 1 3 st) := by
  obtain ⟨a, v, t, it⟩ := st
  obtain ⟨la, lv, orth, conj, thr⟩ := h
  obtain ⟨a0, a1, a2, a3, a4, a5, rfl⟩ := len6 la
  obtain ⟨v0, v1, v2, v3, v4, v5, v6, v7, v8, rfl⟩ := len9 lv
  replace thr : t = a1 ^ 2 + a3 ^ 2 + a4 ^ 2 := thr
  have key : jacobiStep 3 q 1 3 ⟨[a0, a1, a2, a3, a4, a5], [v0, v1, v2, v3, v4, v5, v6, v7, v8], t, it⟩ = _ :=
    jacobiStep_eq ht (x := a3) (y := a0) (z := a5) rfl rfl rfl
  unfold StepSpec
  rw [key]
  show (a3 ^ 2 < q ∧ _) ∨ (q ≤ a3 ^ 2 ∧ _)
  by_cases hc : a3 ^ 2 < q
  · exact .inl ⟨hc, if_pos hc⟩
  · refine .inr ⟨not_lt.1 hc, ?_⟩
    rw [if_neg hc, rot13, Res.ok_bind]
    have hz := jacobiAngle_zero ht a0 a5 a3
    have hsc := Real.sin_sq_add_cos_sq (jacobiAngle a0 a5 a3)
    simp only [] at hz
    generalize Real.sin (jacobiAngle a0 a5 a3) = s at hz hsc
    generalize Real.cos (jacobiAngle a0 a5 a3) = c at hz hsc
    have hthr : absv (t - a3 ^ 2) = t - a3 ^ 2 := by
      unfold absv
      rw [if_neg (by rw [thr]; nlinarith [sq_nonneg a1, sq_nonneg a4])]
    obtain ⟨o', c'⟩ := rotate_step (R := !![c, 0, -s; 0, 1, 0; s, 0, c]) orth conj
      (A' := colMatrix3 [a0 * (c * c) + a5 * (s * s) - (a3 * (s * c) + a3 * (s * c)), a1 * c - a4 * s, a2, 0, a1 * s + a4 * c, a0 * (s * s) + a5 * (c * c) + (a3 * (s * c) + a3 * (s * c))])
      (V' := fullMatrix 3 [c * v0 - s * v6, c * v1 - s * v7, c * v2 - s * v8, v3, v4, v5, s * v0 + c * v6, s * v1 + c * v7, s * v2 + c * v8])
      (by
        ext i j
        fin_cases i <;> fin_cases j <;>
          simp [Matrix.mul_apply, Fin.sum_univ_three] <;> first | ring1 | linear_combination hsc)
      (by
        ext i j
        fin_cases i <;> fin_cases j <;>
          simp [Matrix.mul_apply, Fin.sum_univ_three, fullMatrix, num] <;> ring1)
      (by
        ext i j
        fin_cases i <;> fin_cases j <;>
          simp [Matrix.mul_apply, Fin.sum_univ_three, colMatrix3, num] <;>
            first | ring1 | linear_combination hz | linear_combination -hz)
    refine ⟨_, rfl, ⟨rfl, rfl, o', c', ?_⟩, rfl, hthr⟩
    show absv (t - a3 ^ 2) = (a1 * c - a4 * s) ^ 2 + (0 : ℝ) ^ 2 + (a1 * s + a4 * c) ^ 2
    rw [hthr, thr]
    linear_combination -(a1 ^ 2 + a4 ^ 2) * hsc

theorem step23 (ht : ExactTrig) {A0 : Matrix (Fin 3) (Fin 3) ℝ} {st : Jacobi ℝ} (h : Inv3 A0 st) (q : ℝ) :
    StepSpec A0 q (num st.a 4) st (jacobiStep 3 q 2 3 st) := by
  obtain ⟨a, v, t, it⟩ := st
  obtain ⟨la, lv, orth, conj, thr⟩ := h
  obtain ⟨a0, a1, a2, a3, a4, a5, rfl⟩ := len6 la
  obtain ⟨v0, v1, v2, v3, v4, v5, v6, v7, v8, rfl⟩ := len9 lv
  replace thr : t = a1 ^ 2 + a3 ^ 2 + a4 ^ 2 := thr
  have key : jacobiStep 3 q 2 3 ⟨[a0, a1, a2, a3, a4, a5], [v0, v1, v2, v3, v4, v5, v6, v7, v8], t, it⟩ = _ :=
    jacobiStep_eq ht (x := a4) (y := a2) (z := a5) rfl rfl rfl
  unfold StepSpec
  rw [key]
  show (a4 ^ 2 < q ∧ _) ∨ (q ≤ a4 ^ 2 ∧ _)
  by_cases hc : a4 ^ 2 < q
  · exact .inl ⟨hc, if_pos hc⟩
  · refine .inr ⟨not_lt.1 hc, ?_⟩
    rw [if_neg hc, rot23, Res.ok_bind]
    have hz := jacobiAngle_zero ht a2 a5 a4
    have hsc := Real.sin_sq_add_cos_sq (jacobiAngle a2 a5 a4)
    simp only [] at hz
    generalize Real.sin (jacobiAngle a2 a5 a4) = s at hz hsc
    generalize Real.cos (jacobiAngle a2 a5 a4) = c at hz hsc
    have hthr : absv (t - a4 ^ 2) = t - a4 ^ 2 := by
      unfold absv
      rw [if_neg (by rw [thr]; nlinarith [sq_nonneg a1, sq_nonneg a3])]
    obtain ⟨o', c'⟩ := rotate_step (R := !![1, 0, 0; 0, c, -s; 0, s, c]) orth conj
      (A' := colMatrix3 [a0, a1 * c - a3 * s, a2 * (c * c) + a5 * (s * s) - (a4 * (s * c) + a4 * (s * c)), a1 * s + a3 * c, 0, a2 * (s * s) + a5 * (c * c) + (a4 * (s * c) + a4 * (s * c))])
      (V' := fullMatrix 3 [v0, v1, v2, c * v3 - s * v6, c * v4 - s * v7, c * v5 - s * v8, s * v3 + c * v6, s * v4 + c * v7, s * v5 + c * v8])
      (by
        ext i j
        fin_cases i <;> fin_cases j <;>
          simp [Matrix.mul_apply, Fin.sum_univ_three] <;> first | ring1 | linear_combination hsc)
      (by
        ext i j
        fin_cases i <;> fin_cases j <;>
          simp [Matrix.mul_apply, Fin.sum_univ_three, fullMatrix, num] <;> ring1)
      (by
        ext i j
        fin_cases i <;> fin_cases j <;>
          simp [Matrix.mul_apply, Fin.sum_univ_three, colMatrix3, num] <;>
            first | ring1 | linear_combination hz | linear_combination -hz)
    refine ⟨_, rfl, ⟨rfl, rfl, o', c', ?_⟩, rfl, hthr⟩
    show absv (t - a4 ^ 2) = (a1 * c - a3 * s) ^ 2 + (a1 * s + a3 * c) ^ 2 + (0 : ℝ) ^ 2
    rw [hthr, thr]
    linear_combination -(a1 ^ 2 + a3 ^ 2) * hsc

omit [Trig ℝ] in
theorem StepSpec.next {A0 : Matrix (Fin 3) (Fin 3) ℝ} {q x : ℝ} {st : Jacobi ℝ} {r : Res (Jacobi ℝ)}
    (h : StepSpec A0 q x st r) (hi : Inv3 A0 st) : ∃ st', r = .ok st' ∧ Inv3 A0 st' ∧ st'.iter = st.iter ∧
      st'.thr ≤ st.thr ∧ ((st' = st ∧ x ^ 2 < q) ∨ st'.thr ≤ st.thr - q) := by
  rcases h with ⟨h1, h2⟩ | ⟨h1, st', h2, h3, h4, h5⟩
  · exact ⟨st, h2, hi, rfl, le_refl _, .inl ⟨rfl, h1⟩⟩
  · exact ⟨st', h2, h3, h4, by nlinarith [sq_nonneg x], .inr (by linarith)⟩

omit [Trig ℝ] in
theorem forLoop_one {β : Type} (f : Nat → β → Res β) (lo : Nat) (b : β) : forLoop f lo 1 b = f lo b := by
  rw [forLoop_succ]
  simp only [forLoop, bind_pure]

omit [Trig ℝ] in
theorem forLoop_two {β : Type} (f : Nat → β → Res β) (lo : Nat) (b : β) :
    forLoop f lo 2 b = f lo b >>= fun b' => f (lo + 1) b' := by
  rw [forLoop_succ]
  simp only [forLoop_one]

omit [Trig ℝ] in
theorem sweep3_raw {α : Type} [Zero α] [Add α] [Sub α] [Mul α] [Div α] [Neg α] [OfNat α 2] [OfNat α 4] [DecidableEq α]
    [LT α] [DecidableLT α] [NatCast α] [Trig α] (st : Jacobi α) : jacobiSweep 3 st =
    jacobiStep 3 (st.thr / ((6 : Nat) : α)) 1 2 { st with iter := st.iter + 1 } >>= fun s1 =>
      jacobiStep 3 (st.thr / ((6 : Nat) : α)) 1 3 s1 >>= fun s2 => jacobiStep 3 (st.thr / ((6 : Nat) : α)) 2 3 s2 := by
  unfold jacobiSweep
  simp only [Nat.reduceSub, Nat.reduceAdd, Nat.reduceMul, Nat.reduceDiv, forLoop_two, forLoop_one, bind_assoc]

theorem sweep3_eq (st : Jacobi ℝ) : jacobiSweep 3 st =
    jacobiStep 3 (st.thr / 6) 1 2 { st with iter := st.iter + 1 } >>= fun s1 =>
      jacobiStep 3 (st.thr / 6) 1 3 s1 >>= fun s2 => jacobiStep 3 (st.thr / 6) 2 3 s2 := by
  have h := sweep3_raw st
  rwa [show ((6 : Nat) : ℝ) = 6 by norm_num] at h

theorem sweep3 (ht : ExactTrig) {A0 : Matrix (Fin 3) (Fin 3) ℝ} {st : Jacobi ℝ} (h : Inv3 A0 st) (hpos : 0 < st.thr) :
    ∃ st', jacobiSweep 3 st = .ok st' ∧ Inv3 A0 st' ∧ st'.iter = st.iter + 1 ∧ st'.thr ≤ st.thr * (5 / 6) := by
  rw [sweep3_eq]
  have h0 : Inv3 A0 { st with iter := st.iter + 1 } := ⟨h.la, h.lv, h.orth, h.conj, h.thr⟩
  obtain ⟨s1, e1, i1, n1, t1, c1⟩ := (step12 ht h0 (st.thr / 6)).next h0
  obtain ⟨s2, e2, i2, n2, t2, c2⟩ := (step13 ht i1 (st.thr / 6)).next i1
  obtain ⟨s3, e3, i3, n3, t3, c3⟩ := (step23 ht i2 (st.thr / 6)).next i2
  rw [e1, Res.ok_bind, e2, Res.ok_bind, e3]
  refine ⟨s3, rfl, i3, n3.trans (n2.trans n1), ?_⟩
  have t1' : s1.thr ≤ st.thr := t1
  rcases c1 with ⟨rfl, c1⟩ | c1
  · rcases c2 with ⟨rfl, c2⟩ | c2
    · rcases c3 with ⟨rfl, c3⟩ | c3
      · have := h.thr
        simp only at c1 c2 c3
        linarith
      · simp only at c3 ⊢
        linarith
    · simp only at c2 t3 ⊢
      linarith
  · have c1' : s1.thr ≤ st.thr - st.thr / 6 := c1
    linarith

/-- The loop stops because the threshold is met, after at most 64 iterations. -/
theorem loop3 (ht : ExactTrig) {A0 : Matrix (Fin 3) (Fin 3) ℝ} {S : ℝ} (hS : 0 < S) : ∀ (k : Nat) (st : Jacobi ℝ),
    Inv3 A0 st → st.thr ≤ S * (5 / 6) ^ st.iter → st.iter ≤ 64 → st.iter + k = 100 →
    ∃ st', jacobiLoop 3 (S * 0.00001) k st = .ok st' ∧ Inv3 A0 st' ∧ st'.iter ≤ 64 ∧ st'.thr ≤ S * 0.00001 := by
  intro k
  induction k with
  | zero => intro st _ _ h1 h2; omega
  | succ k ih =>
    intro st hi hb h64 hk
    unfold jacobiLoop
    by_cases hc : S * 0.00001 < st.thr
    · rw [if_pos hc]
      have hlt : st.iter < 64 := by
        by_contra hcon
        have h64' : st.iter = 64 := by omega
        rw [h64'] at hb
        have : (5 / 6 : ℝ) ^ 64 ≤ 0.00001 := by norm_num
        nlinarith
      obtain ⟨s1, e1, i1, n1, t1⟩ := sweep3 ht hi (lt_trans (by positivity) hc)
      rw [e1, Res.ok_bind]
      refine ih s1 i1 ?_ (by omega) (by omega)
      rw [n1, pow_succ]
      nlinarith
    · rw [if_neg hc]
      exact ⟨st, rfl, hi, h64, not_lt.1 hc⟩

omit [Trig ℝ] in
theorem id3 {α : Type} [Zero α] [One α] : (jacobiId 3 : List α) = [1, 0, 0, 0, 1, 0, 0, 0, 1] := by
  simp [jacobiId, List.range_succ]

omit [Trig ℝ] in
theorem norm3 {α : Type} [Zero α] [Add α] [Mul α] (a0 a1 a2 a3 a4 a5 : α) : jacobiNorm 3 [a0, a1, a2, a3, a4, a5] =
    .ok (0 + a1 * a1 + a3 * a3 + a4 * a4) := rfl

/-- The whole iteration in dimension 3. -/
theorem jacobi3 (ht : ExactTrig) {a : List ℝ} (hl : a.length = 6) :
    ∃ st, jacobi 3 a = .ok st ∧ Inv3 (colMatrix3 a) st ∧ st.iter ≤ 64 ∧
      st.thr ≤ (num a 1 ^ 2 + num a 3 ^ 2 + num a 4 ^ 2) * 0.00001 := by
  obtain ⟨a0, a1, a2, a3, a4, a5, rfl⟩ := len6 hl
  show ∃ st : Jacobi ℝ, _ ∧ _ ∧ _ ∧ st.thr ≤ (a1 ^ 2 + a3 ^ 2 + a4 ^ 2) * 0.00001
  have hS : 0 + a1 * a1 + a3 * a3 + a4 * a4 = a1 ^ 2 + a3 ^ 2 + a4 ^ 2 := by ring
  have hi : Inv3 (colMatrix3 [a0, a1, a2, a3, a4, a5])
      ⟨[a0, a1, a2, a3, a4, a5], jacobiId 3, a1 ^ 2 + a3 ^ 2 + a4 ^ 2, 0⟩ := by
    have h1 : fullMatrix 3 (jacobiId 3 : List ℝ) = 1 := by
      rw [id3]
      ext i j
      fin_cases i <;> fin_cases j <;> simp [fullMatrix, num]
    refine ⟨rfl, by rw [id3]; rfl, ?_, ?_, rfl⟩
    · show fullMatrix 3 (jacobiId 3) * _ = 1
      rw [h1]; simp
    · show fullMatrix 3 (jacobiId 3) * _ * _ = _
      rw [h1]; simp
  have hm : (List.range (3 * (3 + 1) / 2)).mapM (rd [a0, a1, a2, a3, a4, a5]) = .ok [a0, a1, a2, a3, a4, a5] := rfl
  unfold jacobi
  rw [hm, Res.ok_bind, norm3, Res.ok_bind, hS]
  by_cases hc : a1 ^ 2 + a3 ^ 2 + a4 ^ 2 = 0
  · simp only [hc, ne_eq, not_true_eq_false, if_false]
    rw [hc] at hi
    exact ⟨_, rfl, hi, Nat.zero_le _, by simp⟩
  · simp only [ne_eq, hc, not_false_eq_true, if_true]
    have hpos : 0 < a1 ^ 2 + a3 ^ 2 + a4 ^ 2 := lt_of_le_of_ne (by positivity) (Ne.symm hc)
    exact loop3 ht hpos 100 _ hi (by simp) (Nat.zero_le _) rfl

/-! ## dimension 2 -/

omit [Trig ℝ] in
theorem rot2 {α : Type} [Zero α] [Add α] [Sub α] [Mul α] (a0 a1 a2 v0 v1 v2 v3 s c : α) :
    jacobiRotate 2 1 2 s c a0 a2 a1 [a0, a1, a2] [v0, v1, v2, v3] =
      .ok ([a0 * (c * c) + a2 * (s * s) - (a1 * (s * c) + a1 * (s * c)), 0,
          a0 * (s * s) + a2 * (c * c) + (a1 * (s * c) + a1 * (s * c))],
        [c * v0 - s * v2, c * v1 - s * v3, s * v0 + c * v2, s * v1 + c * v3]) := rfl

omit [Trig ℝ] in
theorem id2 {α : Type} [Zero α] [One α] : (jacobiId 2 : List α) = [1, 0, 0, 1] := by
  simp [jacobiId, List.range_succ]

omit [Trig ℝ] in
theorem norm2d {α : Type} [Zero α] [Add α] [Mul α] (a0 a1 a2 : α) : jacobiNorm 2 [a0, a1, a2] = .ok (0 + a1 * a1) := rfl

omit [Trig ℝ] in
theorem sweep2_raw {α : Type} [Zero α] [Add α] [Sub α] [Mul α] [Div α] [Neg α] [OfNat α 2] [OfNat α 4] [DecidableEq α]
    [LT α] [DecidableLT α] [NatCast α] [Trig α] (st : Jacobi α) : jacobiSweep 2 st =
    jacobiStep 2 (st.thr / ((3 : Nat) : α)) 1 2 { st with iter := st.iter + 1 } := by
  unfold jacobiSweep
  simp only [Nat.reduceSub, Nat.reduceAdd, Nat.reduceMul, Nat.reduceDiv, forLoop_one]

theorem sweep2_eq (st : Jacobi ℝ) : jacobiSweep 2 st =
    jacobiStep 2 (st.thr / 3) 1 2 { st with iter := st.iter + 1 } := by
  have h := sweep2_raw st
  rwa [show ((3 : Nat) : ℝ) = 3 by norm_num] at h

/-- The whole iteration in dimension 2: at most one rotation, which is exact. -/
theorem jacobi2 (ht : ExactTrig) {a : List ℝ} (hl : a.length = 3) :
    ∃ st, jacobi 2 a = .ok st ∧ st.iter ≤ 1 ∧ st.thr = 0 ∧ st.a.length = 3 ∧ st.v.length = 4 ∧
      fullMatrix 2 st.v * (fullMatrix 2 st.v)ᵀ = 1 ∧
      fullMatrix 2 st.v * colMatrix2 a * (fullMatrix 2 st.v)ᵀ = colMatrix2 st.a ∧ num st.a 1 = 0 := by
  obtain ⟨a0, a1, a2, rfl⟩ := len3 hl
  have h1 : fullMatrix 2 (jacobiId 2 : List ℝ) = 1 := by
    rw [id2]
    ext i j
    fin_cases i <;> fin_cases j <;> simp [fullMatrix, num]
  have hm : (List.range (2 * (2 + 1) / 2)).mapM (rd [a0, a1, a2]) = .ok [a0, a1, a2] := rfl
  unfold jacobi
  rw [hm, Res.ok_bind, norm2d, Res.ok_bind, show 0 + a1 * a1 = a1 ^ 2 by ring]
  by_cases hc : a1 = 0
  · subst hc
    simp only [ne_eq, OfNat.ofNat_ne_zero, not_false_eq_true, zero_pow, not_true_eq_false, if_false]
    refine ⟨_, rfl, Nat.zero_le _, rfl, rfl, by rw [id2]; rfl, ?_, ?_, rfl⟩
    · show fullMatrix 2 (jacobiId 2) * _ = 1
      rw [h1]; simp
    · show fullMatrix 2 (jacobiId 2) * _ * _ = _
      rw [h1]; simp
  · have hpos : 0 < a1 ^ 2 := by positivity
    simp only [ne_eq, ne_of_gt hpos, not_false_eq_true, if_true]
    rw [jacobiLoop, if_pos (show a1 ^ 2 * 0.00001 < a1 ^ 2 by nlinarith), sweep2_eq]
    have key : jacobiStep 2 (a1 ^ 2 / 3) 1 2 ⟨[a0, a1, a2], jacobiId 2, a1 ^ 2, 0 + 1⟩ = _ :=
      jacobiStep_eq ht (x := a1) (y := a0) (z := a2) rfl rfl rfl
    rw [key, if_neg (by linarith)]
    simp only [id2]
    rw [rot2, Res.ok_bind, Res.ok_bind]
    have hz := jacobiAngle_zero ht a0 a2 a1
    have hsc := Real.sin_sq_add_cos_sq (jacobiAngle a0 a2 a1)
    simp only [] at hz
    generalize Real.sin (jacobiAngle a0 a2 a1) = s at hz hsc
    generalize Real.cos (jacobiAngle a0 a2 a1) = c at hz hsc
    have hthr : absv (a1 ^ 2 - a1 ^ 2) = 0 := by simp [absv]
    rw [jacobiLoop, if_neg (by simp only [hthr]; exact not_lt.2 (by positivity))]
    rw [id2] at h1
    obtain ⟨o', c'⟩ := rotate_step (R := !![c, -s; s, c]) (A0 := colMatrix2 [a0, a1, a2]) (A := colMatrix2 [a0, a1, a2])
      (V := fullMatrix 2 [1, 0, 0, 1]) (by rw [h1]; simp) (by rw [h1]; simp)
      (A' := colMatrix2 [a0 * (c * c) + a2 * (s * s) - (a1 * (s * c) + a1 * (s * c)), 0,
          a0 * (s * s) + a2 * (c * c) + (a1 * (s * c) + a1 * (s * c))])
      (V' := fullMatrix 2 [c * 1 - s * 0, c * 0 - s * 1, s * 1 + c * 0, s * 0 + c * 1])
      (by
        ext i j
        fin_cases i <;> fin_cases j <;>
          simp [Matrix.mul_apply, Fin.sum_univ_two] <;> first | ring1 | linear_combination hsc)
      (by
        ext i j
        fin_cases i <;> fin_cases j <;> simp [Matrix.mul_apply, Fin.sum_univ_two, fullMatrix, num])
      (by
        ext i j
        fin_cases i <;> fin_cases j <;>
          simp [Matrix.mul_apply, Fin.sum_univ_two, colMatrix2, num] <;>
            first | ring1 | linear_combination hz | linear_combination -hz)
    exact ⟨_, rfl, Nat.le_refl _, hthr, rfl, rfl, o', c', rfl⟩

end DF
