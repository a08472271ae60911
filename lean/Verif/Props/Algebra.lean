import Verif.Lemmas.Algebra
import Verif.Props.Math
import Mathlib.Tactic.FinCases
import Mathlib.Tactic.FieldSimp
import Mathlib.LinearAlgebra.Matrix.NonsingularInverse

/-!
# Properties of transpose, det, inv, cross, dot, norm (C49-C55)

Exact arithmetic: numbers of a ring, a field or an ordered field.
-/

namespace DF

open Spec Matrix

variable {α : Type}

/-! ## C49 -/

theorem transpose_run2 [Zero α] {s : Serie α} (h : WF s) (h0 : 0 < s.count) (hk : s.itemSize = 4) :
    transpose s = .ok (ofItems 4 ((items s).map fun t => [num t 0, num t 2, num t 1, num t 3])) := by
  unfold transpose
  rw [if_neg (by omega), if_pos hk]
  refine mapArr_items h h0 (by omega) (by omega) (fun v _ => rfl) (fun v hv i => ?_)
  obtain ⟨a, b, c, d, rfl⟩ := len4 (hv.trans hk)
  rfl

theorem transpose_run3 [Zero α] {s : Serie α} (h : WF s) (h0 : 0 < s.count) (hk : s.itemSize = 9) :
    transpose s = .ok (ofItems 9 ((items s).map fun t =>
      [num t 0, num t 3, num t 6, num t 1, num t 4, num t 7, num t 2, num t 5, num t 8])) := by
  unfold transpose
  rw [if_neg (by omega), if_neg (by omega)]
  refine mapArr_items h h0 (by omega) (by omega) (fun v _ => rfl) (fun v hv i => ?_)
  obtain ⟨a, b, c, d, e, f, g, i, j, rfl⟩ := len9 (hv.trans hk)
  rfl

/-- C49: `transpose` gives the Serie of the transposed matrices. -/
theorem C49_entries [Zero α] {s : Serie α} (h : WF s) (h0 : 0 < s.count) {n : Nat} (hn : n = 2 ∨ n = 3)
    (hk : s.itemSize = n * n) :
    ∃ r, transpose s = .ok r ∧ WF r ∧ SameShape r s ∧
      ItemWise (fun t u => fullMatrix n u = (fullMatrix n t)ᵀ) s r := by
  rcases hn with rfl | rfl
  · have hf := ofItems_map_facts h (k := 4) (g := fun t => [num t 0, num t 2, num t 1, num t 3]) (by omega) (by omega)
      (fun v _ => rfl)
    refine ⟨_, transpose_run2 h h0 hk, hf.1, ⟨hf.2.1.trans hk.symm, hf.2.2.1⟩, ?_⟩
    unfold ItemWise
    rw [hf.2.2.2]
    refine forall₂_map (fun v hv => ?_)
    ext i j
    fin_cases i <;> fin_cases j <;> rfl
  · have hf := ofItems_map_facts h (k := 9) (g := fun t =>
      [num t 0, num t 3, num t 6, num t 1, num t 4, num t 7, num t 2, num t 5, num t 8]) (by omega) (by omega)
      (fun v _ => rfl)
    refine ⟨_, transpose_run3 h h0 hk, hf.1, ⟨hf.2.1.trans hk.symm, hf.2.2.1⟩, ?_⟩
    unfold ItemWise
    rw [hf.2.2.2]
    refine forall₂_map (fun v hv => ?_)
    ext i j
    fin_cases i <;> fin_cases j <;> rfl

/-- Two items of four numbers. -/
def exT4 : Serie Int := ⟨[1, 2, 3, 4, 5, 6, 7, 8], 2, 4, 2⟩

/-- One item of nine numbers. -/
def exT9 : Serie Int := ⟨[2, 0, 1, 0, 3, 1, 7, 1, 5], 1, 9, 3⟩

theorem exT4_WF : WF exT4 := by decide

theorem exT9_WF : WF exT9 := by decide

example := C49_entries exT4_WF (by decide) (.inl rfl) rfl
example := C49_entries exT9_WF (by decide) (.inr rfl) rfl

example : WF (⟨[1, 2, 3, 4, 5, 6, 7, 8], 2, 4, 2⟩ : Serie Int) ∧
    transpose (⟨[1, 2, 3, 4, 5, 6, 7, 8], 2, 4, 2⟩ : Serie Int) = .ok ⟨[1, 3, 2, 4, 5, 7, 6, 8], 2, 4, 3⟩ :=
  ⟨⟨by decide, by decide, by decide, by decide⟩, by decide +kernel⟩

/-- C49, what holds of the involution: transposing a non-empty Serie twice gives back its items. -/
theorem C49_involution_partial [Zero α] {s : Serie α} (h : WF s) (h0 : 0 < s.count)
    (hk : s.itemSize = 4 ∨ s.itemSize = 9) :
    ∃ r r', transpose s = .ok r ∧ transpose r = .ok r' ∧ WF r' ∧ SameShape r' s ∧ items r' = items s ∧
      r'.dimension = 3 := by
  rcases hk with hk | hk
  · have hf := ofItems_map_facts h (k := 4) (g := fun t => [num t 0, num t 2, num t 1, num t 3]) (by omega) (by omega)
      (fun v _ => rfl)
    have hf' := ofItems_map_facts hf.1 (k := 4) (g := fun t => [num t 0, num t 2, num t 1, num t 3]) (by omega)
      (by rw [hf.2.1]) (fun v _ => rfl)
    refine ⟨_, _, transpose_run2 h h0 hk, transpose_run2 hf.1 (by rw [hf.2.2.1]; exact h0) hf.2.1, hf'.1,
      ⟨hf'.2.1.trans hk.symm, hf'.2.2.1.trans hf.2.2.1⟩, ?_, rfl⟩
    rw [hf'.2.2.2, hf.2.2.2, List.map_map]
    conv_rhs => rw [← List.map_id (items s)]
    refine List.map_congr_left (fun v hv => ?_)
    obtain ⟨a, b, c, d, rfl⟩ := len4 ((h.item_length hv).trans hk)
    rfl
  · have hf := ofItems_map_facts h (k := 9) (g := fun t =>
      [num t 0, num t 3, num t 6, num t 1, num t 4, num t 7, num t 2, num t 5, num t 8]) (by omega) (by omega)
      (fun v _ => rfl)
    have hf' := ofItems_map_facts hf.1 (k := 9) (g := fun t =>
      [num t 0, num t 3, num t 6, num t 1, num t 4, num t 7, num t 2, num t 5, num t 8]) (by omega)
      (by rw [hf.2.1]) (fun v _ => rfl)
    refine ⟨_, _, transpose_run3 h h0 hk, transpose_run3 hf.1 (by rw [hf.2.2.1]; exact h0) hf.2.1, hf'.1,
      ⟨hf'.2.1.trans hk.symm, hf'.2.2.1.trans hf.2.2.1⟩, ?_, rfl⟩
    rw [hf'.2.2.2, hf.2.2.2, List.map_map]
    conv_rhs => rw [← List.map_id (items s)]
    refine List.map_congr_left (fun v hv => ?_)
    obtain ⟨a, b, c, d, e, f, g, i, j, rfl⟩ := len9 ((h.item_length hv).trans hk)
    rfl

example := C49_involution_partial exT4_WF (by decide) (.inl rfl)

/-- C49, full equality: for a Serie of dimension 3 without trailing numbers the double transpose is the Serie itself. -/
theorem C49_involution_dim3_partial [Zero α] {s : Serie α} (h : WF s) (h0 : 0 < s.count)
    (hk : s.itemSize = 4 ∨ s.itemSize = 9) (hd : s.dimension = 3) (hl : s.data.length = s.count * s.itemSize) :
    (do let r ← transpose s; transpose r) = .ok s := by
  obtain ⟨r, r', h1, h2, h3, h4, h5, h6⟩ := C49_involution_partial h h0 hk
  rw [h1, Res.ok_bind, h2]
  have e1 := ofItems_items hl
  have hl' : r'.data.length = r'.count * r'.itemSize := by
    rcases hk with hk | hk
    · have hf := ofItems_map_facts h (k := 4) (g := fun t => [num t 0, num t 2, num t 1, num t 3]) (by omega) (by omega)
        (fun v _ => rfl)
      rw [transpose_run2 h h0 hk] at h1
      cases h1
      rw [transpose_run2 hf.1 (by rw [hf.2.2.1]; exact h0) hf.2.1] at h2
      cases h2
      simp [ofItems, List.sum_replicate, Function.comp_def]
    · have hf := ofItems_map_facts h (k := 9) (g := fun t =>
        [num t 0, num t 3, num t 6, num t 1, num t 4, num t 7, num t 2, num t 5, num t 8]) (by omega) (by omega)
        (fun v _ => rfl)
      rw [transpose_run3 h h0 hk] at h1
      cases h1
      rw [transpose_run3 hf.1 (by rw [hf.2.2.1]; exact h0) hf.2.1] at h2
      cases h2
      simp [ofItems, List.sum_replicate, Function.comp_def]
  have e2 := ofItems_items hl'
  congr 1
  rw [← e1, ← e2, h5, h4.1, h6, hd]

example := C49_involution_dim3_partial exT9_WF (by decide) (.inr rfl) rfl rfl

/-- C49 is violated for Series of dimension other than 3: the double transpose has dimension 3. -/
theorem C49_dimension_violated : ∃ s r r' : Serie Int, WF s ∧ s.itemSize = 4 ∧ s.dimension = 2 ∧
    transpose s = .ok r ∧ transpose r = .ok r' ∧ r'.dimension ≠ s.dimension :=
  ⟨⟨[1, 2, 3, 4], 1, 4, 2⟩, ⟨[1, 3, 2, 4], 1, 4, 3⟩, ⟨[1, 2, 3, 4], 1, 4, 3⟩,
    ⟨by decide, by decide, by decide, by decide⟩, rfl, rfl, by decide +kernel, by decide +kernel, by decide⟩

/-- C49 is violated for empty Series: their transpose is invalid and cannot be transposed again. -/
theorem C49_empty_violated [Zero α] {s : Serie α} (h0 : s.count = 0) (hk : s.itemSize = 4 ∨ s.itemSize = 9) :
    ∃ r, transpose s = .ok r ∧ r.isValid = false ∧ transpose r = .throw .invalidArgument := by
  refine ⟨⟨[], 0, 0, 3⟩, ?_, rfl, rfl⟩
  unfold transpose
  rw [if_neg (by omega)]
  split <;> exact mapArr_empty h0 _

example := C49_empty_violated (s := (⟨[], 0, 9, 3⟩ : Serie Int)) rfl (.inr rfl)

/-- C49: other item sizes are rejected. -/
theorem C49_throws [Zero α] {s : Serie α} (h4 : s.itemSize ≠ 4) (h9 : s.itemSize ≠ 9) :
    transpose s = .throw .invalidArgument := if_pos ⟨h4, h9⟩

example := C49_throws (s := ex23) (by decide) (by decide)

/-! ## C50 -/

theorem det_run2 [Zero α] [Add α] [Sub α] [Mul α] {s : Serie α} (h : WF s) (h0 : 0 < s.count) (hk : s.itemSize = 4) (hd : s.dimension = 2) :
    det s = .ok (ofItems 1 ((items s).map fun t => [num t 0 * num t 3 - num t 1 * num t 2])) := by
  unfold det
  rw [h.valid, if_neg (by simp)]
  refine mapArr_items h h0 (by omega) (by omega) (fun v _ => rfl) (fun v hv i => ?_)
  obtain ⟨a, b, c, d, rfl⟩ := len4 (hv.trans hk)
  rw [if_pos ⟨.inr hk, hd⟩, if_neg (by simp), squaredMatrix_two rfl]
  rfl

theorem det_run3 [Zero α] [Add α] [Sub α] [Mul α] {s : Serie α} (h : WF s) (h0 : 0 < s.count) (hk : s.itemSize = 9) (hd : s.dimension = 3) :
    det s = .ok (ofItems 1 ((items s).map fun t => [num t 0 * num t 4 * num t 8 - num t 0 * num t 5 * num t 7 -
      num t 1 * num t 3 * num t 8 + num t 1 * num t 5 * num t 6 + num t 2 * num t 3 * num t 7 -
      num t 2 * num t 4 * num t 6])) := by
  unfold det
  rw [h.valid, if_neg (by simp)]
  refine mapArr_items h h0 (by omega) (by omega) (fun v _ => rfl) (fun v hv i => ?_)
  obtain ⟨a, b, c, d, e, f, g, i, j, rfl⟩ := len9 (hv.trans hk)
  rw [if_neg (by omega), if_pos ⟨.inr hk, hd⟩, if_neg (by simp), squaredMatrix_three rfl]
  rfl

/-- C50, what holds: for matrices stored in full, `det` gives their determinants. -/
theorem C50_full_partial [CommRing α] {s : Serie α} (h : WF s) (h0 : 0 < s.count) {n : Nat} (hn : n = 2 ∨ n = 3)
    (hk : s.itemSize = n * n) (hd : s.dimension = n) :
    ∃ r, det s = .ok r ∧ WF r ∧ r.itemSize = 1 ∧ ItemWise (fun t u => u = [(fullMatrix n t).det]) s r := by
  rcases hn with rfl | rfl
  · have hf := ofItems_map_facts h (k := 1) (g := fun t => [num t 0 * num t 3 - num t 1 * num t 2]) (by omega) (by omega)
      (fun v _ => rfl)
    refine ⟨_, det_run2 h h0 hk hd, hf.1, hf.2.1, ?_⟩
    unfold ItemWise
    rw [hf.2.2.2]
    refine forall₂_map (fun v hv => ?_)
    rw [Matrix.det_fin_two]
    rfl
  · have hf := ofItems_map_facts h (k := 1) (g := fun t => [num t 0 * num t 4 * num t 8 - num t 0 * num t 5 * num t 7 -
      num t 1 * num t 3 * num t 8 + num t 1 * num t 5 * num t 6 + num t 2 * num t 3 * num t 7 -
      num t 2 * num t 4 * num t 6]) (by omega) (by omega) (fun v _ => rfl)
    refine ⟨_, det_run3 h h0 hk hd, hf.1, hf.2.1, ?_⟩
    unfold ItemWise
    rw [hf.2.2.2]
    refine forall₂_map (fun v hv => ?_)
    rw [Matrix.det_fin_three]
    rfl

example := C50_full_partial exT4_WF (by decide) (.inl rfl) rfl rfl
example := C50_full_partial exT9_WF (by decide) (.inr rfl) rfl rfl

example : det (⟨[2, 0, 0, 0, 3, 1, 0, 1, 5], 1, 9, 3⟩ : Serie Int) = .ok ⟨[28], 1, 1, 3⟩ := by decide +kernel

/-- C50 is violated for symmetric matrices: `det` reads an array that has already been destroyed. -/
theorem C50_symmetric_violated [CommRing α] {s : Serie α} (h : WF s) (h0 : 0 < s.count)
    (hk : s.itemSize = 3 ∧ s.dimension = 2 ∨ s.itemSize = 6 ∧ s.dimension = 3) : det s = .ub := by
  unfold det
  rw [h.valid, if_neg (by simp)]
  refine mapArr_ub0 h h0 (fun v hv => ?_)
  rcases hk with ⟨hk, hd⟩ | ⟨hk, hd⟩
  · obtain ⟨a, b, c, rfl⟩ := len3 (hv.trans hk)
    rw [if_pos ⟨.inl hk, hd⟩, if_pos (show [a, b, c].length = 3 from rfl), symSquaredMatrix_two rfl]
    rfl
  · obtain ⟨a, b, c, d, e, f, rfl⟩ := len6 (hv.trans hk)
    rw [if_neg (by omega), if_pos ⟨.inl hk, hd⟩, if_pos (show [a, b, c, d, e, f].length = 6 from rfl), symSquaredMatrix_three rfl]
    rfl

example := C50_symmetric_violated (s := (⟨[1, 0, 0, 1, 0, 1], 1, 6, 3⟩ : Serie Int)) (by decide) (by decide) (.inr ⟨rfl, rfl⟩)

example : WF (⟨[1, 0, 0, 1, 0, 1], 1, 6, 3⟩ : Serie Int) := ⟨by decide, by decide, by decide, by decide⟩

/-- C50: other shapes are rejected. -/
theorem C50_throws [CommRing α] {s : Serie α} (h : WF s) (h0 : 0 < s.count)
    (h2 : ¬ ((s.itemSize = 3 ∨ s.itemSize = 4) ∧ s.dimension = 2))
    (h3 : ¬ ((s.itemSize = 6 ∨ s.itemSize = 9) ∧ s.dimension = 3)) : det s = .throw .invalidArgument := by
  unfold det
  rw [h.valid, if_neg (by simp)]
  refine mapArr_throw0 h h0 (fun v => ?_)
  rw [if_neg h2, if_neg h3]

example := C50_throws ex23_WF (by decide) (by decide) (by decide)

/-- C50, what holds of transposes: full 3D matrices and their transposes have the same determinants. -/
theorem C50_transpose_partial [CommRing α] {s : Serie α} (h : WF s) (h0 : 0 < s.count) (hk : s.itemSize = 9)
    (hd : s.dimension = 3) : ∃ r d, transpose s = .ok r ∧ det r = .ok d ∧ det s = .ok d := by
  have hf := ofItems_map_facts h (k := 9) (g := fun t =>
    [num t 0, num t 3, num t 6, num t 1, num t 4, num t 7, num t 2, num t 5, num t 8]) (by omega) (by omega)
    (fun v _ => rfl)
  refine ⟨_, _, transpose_run3 h h0 hk, det_run3 hf.1 (by rw [hf.2.2.1]; exact h0) hf.2.1 rfl, ?_⟩
  rw [det_run3 h h0 hk hd, hf.2.2.2, List.map_map]
  congr 2
  refine List.map_congr_left (fun v _ => ?_)
  simp only [Function.comp, num, List.getElem?_cons_zero, List.getElem?_cons_succ, Option.getD_some, List.cons.injEq, and_true]
  ring

example := C50_transpose_partial exT9_WF (by decide) rfl rfl

/-- C50 is violated for 2D matrices: their transpose has dimension 3, and its determinant is refused. -/
theorem C50_transpose_2d_violated [CommRing α] {s : Serie α} (h : WF s) (h0 : 0 < s.count) (hk : s.itemSize = 4) :
    ∃ r, transpose s = .ok r ∧ det r = .throw .invalidArgument := by
  have hf := ofItems_map_facts h (k := 4) (g := fun t => [num t 0, num t 2, num t 1, num t 3]) (by omega) (by omega)
    (fun v _ => rfl)
  exact ⟨_, transpose_run2 h h0 hk, C50_throws hf.1 (by rw [hf.2.2.1]; exact h0) (by simp [ofItems]) (by simp [ofItems])⟩

example := C50_transpose_2d_violated exT4_WF (by decide) rfl

/-! ## C51, C52 -/

section inverse

variable [Field α] [LinearOrder α] [IsStrictOrderedRing α]

theorem absv_lt_eps (x : α) : absv x < (1e-10 : α) ↔ |x| < 1 / 10 ^ 10 := by
  rw [eps_eq, absv_eq]

theorem ne_zero_of_not_small {x : α} (h : ¬ |x| < 1 / 10 ^ 10) : x ≠ 0 := by
  rintro rfl
  apply h
  rw [abs_zero]
  positivity

/-- The inverse computed for a symmetric tensor. -/
def symInverse (t : List α) : List α :=
  let d := 1 / (symMatrix3 t).det
  [(num t 3 * num t 5 - num t 4 * num t 4) * d, (num t 2 * num t 4 - num t 1 * num t 5) * d,
   (num t 1 * num t 4 - num t 2 * num t 3) * d, (num t 0 * num t 5 - num t 2 * num t 2) * d,
   (num t 1 * num t 2 - num t 0 * num t 4) * d, (num t 0 * num t 3 - num t 1 * num t 1) * d]

omit [LinearOrder α] [IsStrictOrderedRing α] in
theorem det_sym (a b c d e f : α) : (symMatrix3 [a, b, c, d, e, f]).det =
    a * (d * f - e * e) - b * (b * f - e * c) + c * (b * e - d * c) := by
  rw [Matrix.det_fin_three]
  simp [symMatrix3, num]
  ring

theorem invSym_small {t : List α} (h : t.length = 6) (hd : |(symMatrix3 t).det| < 1 / 10 ^ 10) :
    invSym t = .throw .runtimeError := by
  obtain ⟨a, b, c, d, e, f, rfl⟩ := len6 h
  rw [det_sym] at hd
  exact if_pos ((absv_lt_eps _).2 hd)

theorem invSym_ok {t : List α} (h : t.length = 6) (hd : ¬ |(symMatrix3 t).det| < 1 / 10 ^ 10) :
    invSym t = .ok (symInverse t) := by
  obtain ⟨a, b, c, d, e, f, rfl⟩ := len6 h
  have hdet := det_sym a b c d e f
  rw [hdet] at hd
  unfold symInverse
  rw [hdet]
  exact if_neg (fun hc => hd ((absv_lt_eps _).1 hc))

omit [LinearOrder α] [IsStrictOrderedRing α] in
theorem symInverse_mul {t : List α} (h : t.length = 6) (hd : (symMatrix3 t).det ≠ 0) :
    symMatrix3 t * symMatrix3 (symInverse t) = 1 := by
  obtain ⟨a, b, c, d, e, f, rfl⟩ := len6 h
  have hdet := det_sym a b c d e f
  unfold symInverse
  rw [hdet] at hd ⊢
  simp only [num, List.getElem?_cons_zero, List.getElem?_cons_succ, Option.getD_some]
  generalize hq : a * (d * f - e * e) - b * (b * f - e * c) + c * (b * e - d * c) = q at hd
  have hm : q * (1 / q) = 1 := mul_one_div_cancel hd
  generalize 1 / q = w at hm
  ext i j
  fin_cases i <;> fin_cases j <;> simp [symMatrix3, num, Matrix.mul_apply, Fin.sum_univ_three] <;>
    first
      | ring1
      | linear_combination w * hq + hm

/-- C51: whenever `inv` returns for symmetric 3D matrices, each item is the two-sided inverse. -/
theorem C51_inverse {s : Serie α} (h : WF s) (h0 : 0 < s.count) (hk : s.itemSize = 6) (hd : s.dimension = 3)
    (hdet : ∀ t ∈ items s, 1 / 10 ^ 10 ≤ |(symMatrix3 t).det|) :
    ∃ r, inv s = .ok r ∧ WF r ∧ SameShape r s ∧
      ItemWise (fun t u => symMatrix3 t * symMatrix3 u = 1 ∧ symMatrix3 u * symMatrix3 t = 1) s r := by
  have hf := ofItems_map_facts h (k := 6) (g := symInverse) (by omega) (by omega) (fun v _ => rfl)
  refine ⟨ofItems 6 ((items s).map symInverse), ?_, hf.1, ⟨hf.2.1.trans hk.symm, hf.2.2.1⟩, ?_⟩
  · unfold inv
    rw [h.valid, if_neg (by simp), if_neg (by simp [hk, hd]), if_pos hk]
    have hfit := h.fits
    have hsm := h.small
    rw [hk] at hfit
    refine mapArr_ok h h0 (AllReturn_map (fun v hv i => invSym_ok ((h.item_length hv).trans hk) (not_lt.2 (hdet v hv))))
      (by omega) (by omega) ?_ (by omega)
    intro v hv
    obtain ⟨u, hu, rfl⟩ := List.mem_map.1 hv
    rfl
  · unfold ItemWise
    rw [hf.2.2.2]
    refine forall₂_map (fun v hv => ?_)
    have := symInverse_mul ((h.item_length hv).trans hk) (ne_zero_of_not_small (not_lt.2 (hdet v hv)))
    exact ⟨this, mul_eq_one_comm.1 this⟩

/-- Two symmetric matrices, of determinants 7 and 4. -/
def exSym : Serie ℚ := ⟨[2, 0, 0, 1, 0, 7 / 2, 2, 1, 0, 2, 1, 2], 2, 6, 3⟩

theorem exSym_WF : WF exSym := by decide

theorem exSym_det : ∀ t ∈ items exSym, 1 / 10 ^ 10 ≤ |(symMatrix3 t).det| := by
  intro t ht
  simp only [items, chunk, exSym, List.range, List.range.loop, List.map_cons, List.map_nil, List.mem_cons, List.not_mem_nil, or_false] at ht
  rcases ht with rfl | rfl
  · rw [show (List.take 6 _ : List ℚ) = [2, 0, 0, 1, 0, 7 / 2] from rfl, det_sym]; norm_num
  · rw [show (List.take 6 _ : List ℚ) = [2, 1, 0, 2, 1, 2] from rfl, det_sym]; norm_num

example := C51_inverse exSym_WF (by decide) rfl rfl exSym_det

/-- C51: it throws as soon as some determinant is below 1e-10 in absolute value. -/
theorem C51_throws {s : Serie α} (h : WF s) (hk : s.itemSize = 6) (hd : s.dimension = 3)
    (hdet : ∃ t ∈ items s, |(symMatrix3 t).det| < 1 / 10 ^ 10) : inv s = .throw .runtimeError := by
  unfold inv
  rw [h.valid, if_neg (by simp), if_neg (by simp [hk, hd]), if_pos hk]
  refine mapArr_throw h (k := 6) (fun v hv i => ?_) ?_
  · have hl := (h.item_length hv).trans hk
    by_cases hs : |(symMatrix3 v).det| < 1 / 10 ^ 10
    · exact .inl (invSym_small hl hs)
    · exact .inr ⟨_, invSym_ok hl hs, rfl⟩
  · obtain ⟨t, ht, hs⟩ := hdet
    exact ⟨t, ht, fun i => invSym_small ((h.item_length ht).trans hk) hs⟩

example := C51_throws (s := (⟨[2, 0, 0, 1, 0, 4, 1, 1, 0, 1, 0, 1], 2, 6, 3⟩ : Serie ℚ)) (by decide) rfl rfl
  ⟨[1, 1, 0, 1, 0, 1], by decide, by rw [det_sym]; norm_num⟩

/-- C51: when `inv` returns. -/
theorem C51_returns_iff {s : Serie α} (h : WF s) (h0 : 0 < s.count) (hk : s.itemSize = 6) (hd : s.dimension = 3) :
    (∃ r, inv s = .ok r) ↔ ∀ t ∈ items s, 1 / 10 ^ 10 ≤ |(symMatrix3 t).det| := by
  constructor
  · rintro ⟨r, hr⟩ t ht
    by_contra hc
    rw [C51_throws h hk hd ⟨t, ht, not_le.1 hc⟩] at hr
    cases hr
  · intro hdet
    obtain ⟨r, hr, _⟩ := C51_inverse h h0 hk hd hdet
    exact ⟨r, hr⟩

example := C51_returns_iff exSym_WF (by decide) rfl rfl

example : inv (⟨[2, 0, 0, 1, 0, 4, 2, 1, 0, 2, 1, 2], 2, 6, 3⟩ : Serie ℚ) =
    .ok ⟨[1 / 2, 0, 0, 1, 0, 1 / 4, 3 / 4, -1 / 2, 1 / 4, 1, -1 / 2, 3 / 4], 2, 6, 3⟩ := by decide +kernel

/-- The code computes, for a full tensor, the inverse with its entry `yz` replaced by the entry `zy`. -/
def fullInverse (t : List α) : List α :=
  let d := 1 / (fullMatrix 3 t).det
  [(num t 4 * num t 8 - num t 5 * num t 7) * d, (num t 2 * num t 7 - num t 1 * num t 8) * d,
   (num t 1 * num t 5 - num t 2 * num t 4) * d, (num t 5 * num t 6 - num t 3 * num t 8) * d,
   (num t 0 * num t 8 - num t 2 * num t 6) * d, (num t 6 * num t 1 - num t 0 * num t 7) * d,
   (num t 3 * num t 7 - num t 4 * num t 6) * d, (num t 1 * num t 6 - num t 0 * num t 7) * d,
   (num t 0 * num t 4 - num t 1 * num t 3) * d]

omit [LinearOrder α] [IsStrictOrderedRing α] in
theorem det_full (xx xy xz yx yy yz zx zy zz : α) : (fullMatrix 3 [xx, xy, xz, yx, yy, yz, zx, zy, zz]).det =
    xx * (yy * zz - yz * zy) - xy * (yx * zz - yz * zx) + xz * (yx * zy - yy * zx) := by
  rw [Matrix.det_fin_three]
  simp [fullMatrix, num]
  ring

theorem invFull_small {t : List α} (h : t.length = 9) (hd : |(fullMatrix 3 t).det| < 1 / 10 ^ 10) :
    invFull t = .throw .runtimeError := by
  obtain ⟨a, b, c, d, e, f, g, i, j, rfl⟩ := len9 h
  rw [det_full] at hd
  exact if_pos ((absv_lt_eps _).2 hd)

theorem invFull_ok {t : List α} (h : t.length = 9) (hd : ¬ |(fullMatrix 3 t).det| < 1 / 10 ^ 10) :
    invFull t = .ok (fullInverse t) := by
  obtain ⟨a, b, c, d, e, f, g, i, j, rfl⟩ := len9 h
  have hdet := det_full a b c d e f g i j
  rw [hdet] at hd
  unfold fullInverse
  rw [hdet]
  exact if_neg (fun hc => hd ((absv_lt_eps _).1 hc))

theorem inv_full_run {s : Serie α} (h : WF s) (h0 : 0 < s.count) (hk : s.itemSize = 9) (hd : s.dimension = 3)
    (hdet : ∀ t ∈ items s, 1 / 10 ^ 10 ≤ |(fullMatrix 3 t).det|) :
    inv s = .ok (ofItems 9 ((items s).map fullInverse)) := by
  unfold inv
  rw [h.valid, if_neg (by simp), if_neg (by simp [hk, hd]), if_neg (by omega)]
  have hfit := h.fits
  have hsm := h.small
  rw [hk] at hfit
  refine mapArr_ok h h0 (AllReturn_map (fun v hv i => invFull_ok ((h.item_length hv).trans hk) (not_lt.2 (hdet v hv))))
    (by omega) (by omega) ?_ (by omega)
  intro v hv
  obtain ⟨u, hu, rfl⟩ := List.mem_map.1 hv
  rfl

omit [LinearOrder α] [IsStrictOrderedRing α] in
theorem fullInverse_spec {t : List α} (h : t.length = 9) (hd : (fullMatrix 3 t).det ≠ 0) :
    ∃ B : Matrix (Fin 3) (Fin 3) α, fullMatrix 3 t * B = 1 ∧ B * fullMatrix 3 t = 1 ∧
      (∀ i j, ¬ (i = 1 ∧ j = 2) → fullMatrix 3 (fullInverse t) i j = B i j) ∧
      fullMatrix 3 (fullInverse t) 1 2 = B 2 1 := by
  obtain ⟨xx, xy, xz, yx, yy, yz, zx, zy, zz, rfl⟩ := len9 h
  have hdet := det_full xx xy xz yx yy yz zx zy zz
  unfold fullInverse
  rw [hdet] at hd ⊢
  simp only [num, List.getElem?_cons_zero, List.getElem?_cons_succ, Option.getD_some]
  generalize hq : xx * (yy * zz - yz * zy) - xy * (yx * zz - yz * zx) + xz * (yx * zy - yy * zx) = q at hd
  have hm : q * (1 / q) = 1 := mul_one_div_cancel hd
  generalize 1 / q = w at hm
  have hmul : fullMatrix 3 [xx, xy, xz, yx, yy, yz, zx, zy, zz] *
      !![(yy * zz - yz * zy) * w, (xz * zy - xy * zz) * w, (xy * yz - xz * yy) * w;
         (yz * zx - yx * zz) * w, (xx * zz - xz * zx) * w, (xz * yx - xx * yz) * w;
         (yx * zy - yy * zx) * w, (xy * zx - xx * zy) * w, (xx * yy - xy * yx) * w] = 1 := by
    ext i j
    fin_cases i <;> fin_cases j <;> simp [fullMatrix, num, Matrix.mul_apply, Fin.sum_univ_three] <;>
      first
        | ring1
        | linear_combination w * hq + hm
  refine ⟨_, hmul, mul_eq_one_comm.1 hmul, ?_, ?_⟩
  · intro i j hij
    fin_cases i <;> fin_cases j <;> first | rfl | exact absurd ⟨rfl, rfl⟩ hij
  · simp [fullMatrix, num]
    left; ring

/-- C52 is violated: the inverse of a full matrix has a wrong entry. -/
theorem C52_violated : ∃ s r : Serie ℚ, WF s ∧ s.itemSize = 9 ∧ s.dimension = 3 ∧
    (∀ t ∈ items s, (fullMatrix 3 t).det = 1) ∧ inv s = .ok r ∧
    ∀ t ∈ items s, ∀ u ∈ items r, fullMatrix 3 t * fullMatrix 3 u ≠ 1 := by
  refine ⟨⟨[1, 0, 0, 0, 1, 1, 0, 0, 1], 1, 9, 3⟩, ⟨[1, 0, 0, 0, 1, 0, 0, 0, 1], 1, 9, 3⟩,
    ⟨by decide, by decide, by decide, by decide⟩, rfl, rfl, ?_, by decide +kernel, ?_⟩
  · intro t ht
    have : t = [1, 0, 0, 0, 1, 1, 0, 0, 1] := by simpa [items, chunk] using ht
    subst this
    rw [det_full]; norm_num
  · intro t ht u hu
    have e1 : t = [1, 0, 0, 0, 1, 1, 0, 0, 1] := by simpa [items, chunk] using ht
    have e2 : u = [1, 0, 0, 0, 1, 0, 0, 0, 1] := by simpa [items, chunk] using hu
    subst e1 e2
    intro hc
    have := congrFun (congrFun hc 1) 2
    simp [fullMatrix, num, Matrix.mul_apply, Fin.sum_univ_three] at this

/-- C52, what holds: every entry but `yz` is that of the inverse `B`; the entry `yz` is the entry `zy` of `B`. -/
theorem C52_entries_partial {s : Serie α} (h : WF s) (h0 : 0 < s.count) (hk : s.itemSize = 9) (hd : s.dimension = 3)
    (hdet : ∀ t ∈ items s, 1 / 10 ^ 10 ≤ |(fullMatrix 3 t).det|) :
    ∃ r, inv s = .ok r ∧ WF r ∧ SameShape r s ∧
      ItemWise (fun t u => ∃ B, fullMatrix 3 t * B = 1 ∧ B * fullMatrix 3 t = 1 ∧
        (∀ i j, ¬ (i = 1 ∧ j = 2) → fullMatrix 3 u i j = B i j) ∧ fullMatrix 3 u 1 2 = B 2 1) s r := by
  have hf := ofItems_map_facts h (k := 9) (g := fullInverse) (by omega) (by omega) (fun v _ => rfl)
  refine ⟨_, inv_full_run h h0 hk hd hdet, hf.1, ⟨hf.2.1.trans hk.symm, hf.2.2.1⟩, ?_⟩
  unfold ItemWise
  rw [hf.2.2.2]
  exact forall₂_map (fun v hv =>
    fullInverse_spec ((h.item_length hv).trans hk) (ne_zero_of_not_small (not_lt.2 (hdet v hv))))

/-- A full matrix that is not symmetric, of determinant 7, and a symmetric one, of determinant 4. -/
def exFull : Serie ℚ := ⟨[2, 0, 1, 0, 3, 1, 7, 1, 5, 2, 1, 0, 1, 2, 1, 0, 1, 2], 2, 9, 3⟩

theorem exFull_WF : WF exFull := by decide

theorem exFull_det : ∀ t ∈ items exFull, 1 / 10 ^ 10 ≤ |(fullMatrix 3 t).det| := by
  intro t ht
  simp only [items, chunk, exFull, List.range, List.range.loop, List.map_cons, List.map_nil, List.mem_cons, List.not_mem_nil, or_false] at ht
  rcases ht with rfl | rfl
  · rw [show (List.take 9 _ : List ℚ) = [2, 0, 1, 0, 3, 1, 7, 1, 5] from rfl, det_full]; norm_num
  · rw [show (List.take 9 _ : List ℚ) = [2, 1, 0, 1, 2, 1, 0, 1, 2] from rfl, det_full]; norm_num

example := C52_entries_partial exFull_WF (by decide) rfl rfl exFull_det

/-- C52, what holds: the items of `inv` are inverses for symmetric matrices (stored in full). -/
theorem C52_symmetric_partial {s : Serie α} (h : WF s) (h0 : 0 < s.count) (hk : s.itemSize = 9) (hd : s.dimension = 3)
    (hdet : ∀ t ∈ items s, 1 / 10 ^ 10 ≤ |(fullMatrix 3 t).det|) (hs : ∀ t ∈ items s, (fullMatrix 3 t).IsSymm) :
    ∃ r, inv s = .ok r ∧ WF r ∧ SameShape r s ∧
      ItemWise (fun t u => fullMatrix 3 t * fullMatrix 3 u = 1 ∧ fullMatrix 3 u * fullMatrix 3 t = 1) s r := by
  have hf := ofItems_map_facts h (k := 9) (g := fullInverse) (by omega) (by omega) (fun v _ => rfl)
  refine ⟨_, inv_full_run h h0 hk hd hdet, hf.1, ⟨hf.2.1.trans hk.symm, hf.2.2.1⟩, ?_⟩
  unfold ItemWise
  rw [hf.2.2.2]
  refine forall₂_map (fun v hv => ?_)
  obtain ⟨B, h1, h2, h3, h4⟩ :=
    fullInverse_spec ((h.item_length hv).trans hk) (ne_zero_of_not_small (not_lt.2 (hdet v hv)))
  have hB : Bᵀ = B := by
    have e := congrArg Matrix.transpose h1
    rw [Matrix.transpose_mul, hs v hv, Matrix.transpose_one] at e
    calc Bᵀ = Bᵀ * (fullMatrix 3 v * B) := by rw [h1, Matrix.mul_one]
      _ = B := by rw [← Matrix.mul_assoc, e, Matrix.one_mul]
  have : fullMatrix 3 (fullInverse v) = B := by
    ext i j
    by_cases hij : i = 1 ∧ j = 2
    · rw [hij.1, hij.2, h4]
      exact congrFun (congrFun hB 1) 2
    · exact h3 i j hij
  rw [this]
  exact ⟨h1, h2⟩

example := C52_symmetric_partial (s := (⟨[2, 1, 0, 1, 2, 1, 0, 1, 2], 1, 9, 3⟩ : Serie ℚ)) (by decide) (by decide) rfl rfl
  (by
    intro t ht
    obtain rfl : t = [2, 1, 0, 1, 2, 1, 0, 1, 2] := List.mem_singleton.1 ht
    rw [det_full]; norm_num)
  (by
    intro t ht
    obtain rfl : t = [2, 1, 0, 1, 2, 1, 0, 1, 2] := List.mem_singleton.1 ht
    unfold Matrix.IsSymm
    decide +kernel)

/-- C52: it throws as soon as some determinant is below 1e-10 in absolute value. -/
theorem C52_throws {s : Serie α} (h : WF s) (hk : s.itemSize = 9) (hd : s.dimension = 3)
    (hdet : ∃ t ∈ items s, |(fullMatrix 3 t).det| < 1 / 10 ^ 10) : inv s = .throw .runtimeError := by
  unfold inv
  rw [h.valid, if_neg (by simp), if_neg (by simp [hk, hd]), if_neg (by omega)]
  refine mapArr_throw h (k := 9) (fun v hv i => ?_) ?_
  · have hl := (h.item_length hv).trans hk
    by_cases hs : |(fullMatrix 3 v).det| < 1 / 10 ^ 10
    · exact .inl (invFull_small hl hs)
    · exact .inr ⟨_, invFull_ok hl hs, rfl⟩
  · obtain ⟨t, ht, hs⟩ := hdet
    exact ⟨t, ht, fun i => invFull_small ((h.item_length ht).trans hk) hs⟩

example := C52_throws (s := (⟨[2, 0, 1, 4, 0, 2, 7, 1, 5], 1, 9, 3⟩ : Serie ℚ)) (by decide) rfl rfl
  ⟨[2, 0, 1, 4, 0, 2, 7, 1, 5], by decide, by rw [det_full]; norm_num⟩

omit [LinearOrder α] [IsStrictOrderedRing α] in
/-- C51, C52: invalid Series and other shapes give an invalid Serie. -/
theorem C51_other_shapes [LinearOrder α] {s : Serie α}
    (h : s.isValid = false ∨ s.dimension ≠ 3 ∨ s.itemSize ≠ 6 ∧ s.itemSize ≠ 9) :
    ∃ r, inv s = .ok r ∧ r.isValid = false := by
  refine ⟨Serie.empty, ?_, rfl⟩
  unfold inv
  by_cases hv : s.isValid = true
  · rw [if_neg (by simp [hv]), if_pos (h.resolve_left (by simp [hv]))]
    rfl
  · rw [if_pos (by simp [hv])]
    rfl

example := C51_other_shapes (s := (⟨[1, 2, 3], 1, 3, 3⟩ : Serie ℚ)) (.inr (.inr (by decide)))

end inverse

/-! ## C53 -/

theorem cross_run [Zero α] [Sub α] [Mul α] {a b : Serie α} (ha : WF a) (hb : WF b) (h3 : a.itemSize = 3) (h3' : b.itemSize = 3)
    (hc : a.count = b.count) (h0 : 0 < a.count) :
    cross a b = .ok (ofItems 3 (List.zipWith (fun u v => [num u 1 * num v 2 - num u 2 * num v 1,
      num u 2 * num v 0 - num u 0 * num v 2, num u 0 * num v 1 - num u 1 * num v 0]) (items a) (items b))) := by
  unfold cross
  rw [ha.valid, hb.valid, if_neg (by simp), if_neg (by simp), if_neg (by simp [h3]), if_neg (by simp [h3'])]
  refine mapArr_items2 (f := crossItem) ha hb hc h0 (by omega) (by omega) (fun _ _ _ _ => rfl) (fun u v hu hv => ?_)
  obtain ⟨a, b, c, rfl⟩ := len3 (hu.trans h3)
  obtain ⟨d, e, f, rfl⟩ := len3 (hv.trans h3')
  rfl

/-- C53: `cross` is the cross product item by item; it is orthogonal to both operands and has squared length
`|u|²|v|² - (u·v)²`. -/
theorem C53_cross [CommRing α] {a b : Serie α} (ha : WF a) (hb : WF b) (h3 : a.itemSize = 3) (h3' : b.itemSize = 3)
    (hc : a.count = b.count) (h0 : 0 < a.count) :
    ∃ r, cross a b = .ok r ∧ WF r ∧ r.itemSize = 3 ∧
      ItemWise3 (fun u v w => vec 3 w = crossProduct (vec 3 u) (vec 3 v) ∧ dotL w u = 0 ∧ dotL w v = 0 ∧
        dotL w w = dotL u u * dotL v v - dotL u v * dotL u v) a b r := by
  have hf := ofItems_zip_facts ha hb hc (k := 3) (g := fun u v => [num u 1 * num v 2 - num u 2 * num v 1,
      num u 2 * num v 0 - num u 0 * num v 2, num u 0 * num v 1 - num u 1 * num v 0]) (by omega) (by omega)
      (fun _ _ _ _ => rfl)
  refine ⟨_, cross_run ha hb h3 h3' hc h0, hf.1, hf.2.1, ItemWise3_zip hc hf.2.2.2 (fun u hu v hv => ?_)⟩
  obtain ⟨a1, a2, a3, rfl⟩ := len3 ((ha.item_length hu).trans h3)
  obtain ⟨b1, b2, b3, rfl⟩ := len3 ((hb.item_length hv).trans h3')
  refine ⟨?_, ?_, ?_, ?_⟩
  · rw [cross_apply]
    ext i
    fin_cases i <;> rfl
  · simp [dotL, num]; ring
  · simp [dotL, num]; ring
  · simp [dotL, num]; ring

/-- Two Series of three vectors, of which one pair is parallel. -/
def exU : Serie ℚ := ⟨[1, 0, 0, 1, 2, 3, 0, 1, 5], 3, 3, 3⟩

def exV : Serie ℚ := ⟨[0, 1, 0, 2, 4, 6, 1, 1, 1], 3, 3, 3⟩

theorem exU_WF : WF exU := by decide

theorem exV_WF : WF exV := by decide

example := C53_cross exU_WF exV_WF rfl rfl rfl (by decide)

/-- C53: exchanging the operands changes the sign. -/
theorem C53_antisymmetric [CommRing α] {a b : Serie α} (ha : WF a) (hb : WF b) (h3 : a.itemSize = 3)
    (h3' : b.itemSize = 3) (hc : a.count = b.count) (h0 : 0 < a.count) :
    ∃ r r', cross a b = .ok r ∧ cross b a = .ok r' ∧ ItemWise (fun w w' => w' = w.map (- ·)) r r' := by
  have hf := ofItems_zip_facts ha hb hc (k := 3) (g := fun u v => [num u 1 * num v 2 - num u 2 * num v 1,
      num u 2 * num v 0 - num u 0 * num v 2, num u 0 * num v 1 - num u 1 * num v 0]) (by omega) (by omega)
      (fun _ _ _ _ => rfl)
  have hf' := ofItems_zip_facts hb ha hc.symm (k := 3) (g := fun u v => [num u 1 * num v 2 - num u 2 * num v 1,
      num u 2 * num v 0 - num u 0 * num v 2, num u 0 * num v 1 - num u 1 * num v 0]) (by omega) (by omega)
      (fun _ _ _ _ => rfl)
  refine ⟨_, _, cross_run ha hb h3 h3' hc h0, cross_run hb ha h3' h3 hc.symm (by omega), ?_⟩
  unfold ItemWise
  rw [hf.2.2.2, hf'.2.2.2]
  have hl : (items a).length = (items b).length := by simp [hc]
  generalize items a = l at hl
  generalize items b = m at hl
  induction l generalizing m with
  | nil => cases m with
    | nil => exact .nil
    | cons _ _ => simp at hl
  | cons u l ih =>
    cases m with
    | nil => simp at hl
    | cons v m =>
      refine .cons ?_ (ih m (by simpa using hl))
      simp only [List.map_cons, List.map_nil, List.cons.injEq, and_true]
      exact ⟨by ring, by ring, by ring⟩

example := C53_antisymmetric exU_WF exV_WF rfl rfl rfl (by decide)

/-- C53: parallel items give the zero vector. -/
theorem C53_parallel [CommRing α] {a b : Serie α} (ha : WF a) (hb : WF b) (h3 : a.itemSize = 3)
    (h3' : b.itemSize = 3) (h0 : 0 < a.count) (hp : ItemWise (fun u v => ∃ c, v = u.map (c * ·)) a b) :
    ∃ r, cross a b = .ok r ∧ r.count = a.count ∧ ∀ w ∈ items r, w = [0, 0, 0] := by
  have hc : a.count = b.count := by simpa using hp.length_eq
  have hf := ofItems_zip_facts ha hb hc (k := 3) (g := fun u v => [num u 1 * num v 2 - num u 2 * num v 1,
      num u 2 * num v 0 - num u 0 * num v 2, num u 0 * num v 1 - num u 1 * num v 0]) (by omega) (by omega)
      (fun _ _ _ _ => rfl)
  refine ⟨_, cross_run ha hb h3 h3' hc h0, hf.2.2.1, ?_⟩
  rw [hf.2.2.2]
  have hlen : ∀ u ∈ items a, u.length = 3 := fun u hu => (ha.item_length hu).trans h3
  unfold ItemWise at hp
  revert hp hlen
  generalize items a = l
  generalize items b = m
  intro hp hlen
  induction hp with
  | nil => simp
  | cons h _ ih =>
    intro w hw
    obtain ⟨c, rfl⟩ := h
    simp only [List.zipWith_cons_cons, List.mem_cons] at hw
    rcases hw with rfl | hw
    · obtain ⟨x, y, z, rfl⟩ := len3 (hlen _ List.mem_cons_self)
      simp [num]
      exact ⟨by ring, by ring, by ring⟩
    · exact ih (fun u hu => hlen u (by simp [hu])) w hw

example := C53_parallel (a := (⟨[1, 2, 3, 4, 5, 6], 2, 3, 3⟩ : Serie Int)) (b := ⟨[2, 4, 6, -4, -5, -6], 2, 3, 3⟩) (by decide)
  (by decide) rfl rfl (by decide) (.cons ⟨2, rfl⟩ (.cons ⟨-1, rfl⟩ .nil))

example : cross (⟨[1, 0, 0, 1, 2, 3], 2, 3, 3⟩ : Serie Int) ⟨[0, 1, 0, 2, 4, 6], 2, 3, 3⟩ =
    .ok ⟨[0, 0, 1, 0, 0, 0], 2, 3, 3⟩ := by decide +kernel

/-- C53: other item sizes and invalid Series are rejected. -/
theorem C53_throws [CommRing α] {a b : Serie α} (h : a.itemSize ≠ 3 ∨ b.itemSize ≠ 3) :
    cross a b = .throw .invalidArgument := by
  unfold cross
  split
  · rfl
  · split
    · rfl
    · split
      · rfl
      · rcases h with h | h
        · contradiction
        · rw [if_pos h]

example := C53_throws (a := ex23) (b := ex41) (.inr (by decide))

/-- C53: a second Serie with fewer numbers is read past its end (the counts are not compared). -/
theorem C53_shorter_ub : cross (⟨[1, 0, 0, 1, 2, 3], 2, 3, 3⟩ : Serie Int) ⟨[0, 1, 0], 1, 3, 3⟩ = .ub := by
  decide +kernel

/-! ## C54 -/

theorem dotItem_eq [CommRing α] {k : Nat} {u v : List α} (hu : u.length = k) (hv : v.length = k) :
    dotItem k u v = .ok [dotL u v] := by
  unfold dotItem
  have := forLoop_exact (m := Res) (f := fun j r => rd r 0 >>= fun r0 => rd u j >>= fun x => rd v j >>= fun y =>
    wr r 0 (r0 + x * y)) (fun j => [dotL (u.take j) (v.take j)]) k 0 ?_
  · simp only [List.take_zero, Nat.zero_add, ← hu, List.take_length] at this
    rw [hu, ← hv, List.take_length, hv] at this
    exact this
  · intro j _ hj
    simp only [Nat.zero_add] at hj
    have h1 : j < u.length := by omega
    have h2 : j < v.length := by omega
    rw [rd_of_lt (by simp), Res.ok_bind, rd_of_lt h1, Res.ok_bind, rd_of_lt h2, Res.ok_bind, wr_of_lt (by simp)]
    simp only [List.getElem_cons_zero, List.set_cons_zero, dotL]
    rw [List.take_add_one, List.take_add_one, List.getElem?_eq_getElem h1, List.getElem?_eq_getElem h2,
      List.zipWith_append (by rw [List.length_take, List.length_take]; omega)]
    simp

theorem dot_run [CommRing α] {a b : Serie α} (ha : WF a) (hb : WF b) (hs : SameShape a b) (h0 : 0 < a.count) :
    dot a b = .ok (ofItems 1 (List.zipWith (fun u v => [dotL u v]) (items a) (items b))) := by
  have := ha.pos
  exact mapArr_items2 (f := dotItem a.itemSize) ha hb hs.2 h0 (by omega) (by omega) (fun _ _ _ _ => rfl)
    (fun u v hu hv => dotItem_eq hu (hv.trans hs.1.symm))

theorem dot_facts [CommRing α] {a b : Serie α} (ha : WF a) (hb : WF b) (hs : SameShape a b) :
    let r := ofItems 1 (List.zipWith (fun u v => [dotL u v]) (items a) (items b))
    WF r ∧ r.itemSize = 1 ∧ r.count = a.count ∧ items r = List.zipWith (fun u v => [dotL u v]) (items a) (items b) := by
  have := ha.pos
  exact ofItems_zip_facts ha hb hs.2 (by omega) (by omega) (fun _ _ _ _ => rfl)

/-- C54: `dot` gives the dot products of the items. -/
theorem C54_dot [CommRing α] {a b : Serie α} (ha : WF a) (hb : WF b) (hs : SameShape a b) (h0 : 0 < a.count) :
    ∃ r, dot a b = .ok r ∧ WF r ∧ r.itemSize = 1 ∧ ItemWise3 (fun u v w => w = [dotL u v]) a b r := by
  have hf := dot_facts ha hb hs
  refine ⟨_, dot_run ha hb hs h0, hf.1, hf.2.1, ItemWise3_zip hs.2 hf.2.2.2 (fun u hu v hv => rfl)⟩

example := C54_dot exU_WF exV_WF ⟨rfl, rfl⟩ (by decide)

example : dot (⟨[1, 2, 3, 4], 2, 2, 3⟩ : Serie Int) ⟨[5, 6, 7, 8], 2, 2, 3⟩ = .ok ⟨[17, 53], 2, 1, 3⟩ := by decide +kernel

/-- C54: symmetry. -/
theorem C54_symmetric [CommRing α] {a b : Serie α} (ha : WF a) (hb : WF b) (hs : SameShape a b) (h0 : 0 < a.count) :
    dot a b = dot b a := by
  rw [dot_run ha hb hs h0, dot_run hb ha ⟨hs.1.symm, hs.2.symm⟩ (by rw [← hs.2]; exact h0)]
  congr 2
  rw [List.zipWith_comm]
  congr 1
  funext u v
  congr 1
  unfold dotL
  rw [List.zipWith_comm]
  simp only [mul_comm]

example := C54_symmetric exU_WF exV_WF ⟨rfl, rfl⟩ (by decide)

theorem dotL_add [CommRing α] : ∀ (u v w : List α), u.length = v.length →
    dotL (List.zipWith (· + ·) u v) w = dotL u w + dotL v w := by
  intro u
  induction u with
  | nil => intro v w h; cases v <;> simp_all [dotL]
  | cons x u ih =>
    intro v w h
    cases v with
    | nil => simp at h
    | cons y v =>
      cases w with
      | nil => simp [dotL]
      | cons z w =>
        have := ih v w (by simpa using h)
        simp only [dotL, List.zipWith_cons_cons, List.sum_cons] at this ⊢
        rw [this]; ring

theorem dotL_smul [CommRing α] (c : α) : ∀ (u w : List α), dotL (u.map (· * c)) w = c * dotL u w := by
  intro u
  induction u with
  | nil => intro w; simp [dotL]
  | cons x u ih =>
    intro w
    cases w with
    | nil => simp [dotL]
    | cons z w =>
      have := ih w
      simp only [dotL, List.map_cons, List.zipWith_cons_cons, List.sum_cons] at this ⊢
      rw [this]; ring

/-- C54: `dot` is additive in its first operand (hence, by symmetry, in both). -/
theorem C54_additive [CommRing α] {a b c : Serie α} (ha : WF a) (hb : WF b) (hc : WF c) (hab : SameShape a b)
    (hac : SameShape a c) (h0 : 0 < a.count) :
    ∃ s da db d, add2 a b = .ok s ∧ dot a c = .ok da ∧ dot b c = .ok db ∧ dot s c = .ok d ∧ add2 da db = .ok d := by
  obtain ⟨s, h1, h2, h3, h4⟩ : ∃ s, add2 a b = .ok s ∧ WF s ∧ SameShape s a ∧
      items s = List.zipWith (List.zipWith (· + ·)) (items a) (items b) := by
    have := WF_pointwise (op := (· + ·)) ha hb hab
    exact ⟨_, binOp_eq ha hb hab, this.1, this.2.1, this.2.2⟩
  have hbc : SameShape b c := ⟨hab.1.symm.trans hac.1, hab.2.symm.trans hac.2⟩
  have hsc : SameShape s c := ⟨h3.1.trans hac.1, h3.2.trans hac.2⟩
  have fa := dot_facts ha hc hac
  have fb := dot_facts hb hc hbc
  refine ⟨s, _, _, _, h1, dot_run ha hc hac h0, dot_run hb hc hbc (by rw [← hab.2]; exact h0),
    dot_run h2 hc hsc (by rw [h3.2]; exact h0), ?_⟩
  have hsh : SameShape (ofItems 1 (List.zipWith (fun u v => [dotL u v]) (items a) (items c)))
      (ofItems 1 (List.zipWith (fun u v => [dotL u v]) (items b) (items c))) :=
    ⟨rfl, fa.2.2.1.trans (hab.2.trans fb.2.2.1.symm)⟩
  unfold add2
  rw [binOp_eq fa.1 fb.1 hsh]
  unfold pointwise
  rw [fa.2.2.2, fb.2.2.2, h4]
  congr 1
  show ofItems 1 _ = ofItems 1 _
  congr 1
  have hla : ∀ u ∈ items a, u.length = a.itemSize := fun u hu => ha.item_length hu
  have hlb : ∀ u ∈ items b, u.length = a.itemSize := fun u hu => (hb.item_length hu).trans hab.1.symm
  generalize items a = l at hla
  generalize items b = m at hlb
  generalize items c = n
  induction l generalizing m n with
  | nil => simp
  | cons x l ih =>
    cases m with
    | nil => simp
    | cons y m =>
      cases n with
      | nil => simp
      | cons z n =>
        simp only [List.zipWith_cons_cons, List.cons.injEq]
        refine ⟨?_, ih (fun u hu => hla u (by simp [hu])) m (fun u hu => hlb u (by simp [hu])) n⟩
        rw [dotL_add x y z ((hla x (by simp)).trans (hlb y (by simp)).symm)]
        simp

example := C54_additive exU_WF exV_WF exU_WF ⟨rfl, rfl⟩ ⟨rfl, rfl⟩ (by decide)

/-- C54: `dot` commutes with scaling. -/
theorem C54_homogeneous [CommRing α] {a b : Serie α} (ha : WF a) (hb : WF b) (hs : SameShape a b) (h0 : 0 < a.count)
    (c : α) : ∃ s d d', scale a c = .ok s ∧ dot a b = .ok d ∧ dot s b = .ok d' ∧ scale d c = .ok d' := by
  have hsc : scale a c = .ok (onNumbers (· * c) a) :=
    mapArr_numbers ha h0 (fun v hv i => updLoop_map hv.symm (fun _ _ => rfl))
  have hf := onNumbers_facts (f := (· * c)) ha
  have fd := dot_facts ha hb hs
  refine ⟨_, _, _, hsc, dot_run ha hb hs h0, dot_run hf.1 hb ⟨hf.2.1.1.trans hs.1, hf.2.1.2.trans hs.2⟩
    (by rw [hf.2.1.2]; exact h0), ?_⟩
  have : scale (ofItems 1 (List.zipWith (fun u v => [dotL u v]) (items a) (items b))) c = .ok (onNumbers (· * c) _) :=
    mapArr_numbers fd.1 (by rw [fd.2.2.1]; exact h0) (fun v hv i => updLoop_map hv.symm (fun _ _ => rfl))
  rw [this]
  congr 1
  unfold onNumbers
  rw [fd.2.2.2, items_ofItems (mapItems_length ha)]
  show ofItems 1 _ = ofItems 1 _
  congr 1
  rw [List.zipWith_map_left, List.map_zipWith]
  congr 1
  funext u v
  rw [dotL_smul, mul_comm]
  rfl

example := C54_homogeneous exU_WF exV_WF ⟨rfl, rfl⟩ (by decide) 3

theorem dotL_self [CommRing α] (u : List α) : dotL u u = (u.map (fun x => x * x)).sum := by
  unfold dotL
  rw [List.zipWith_self]

theorem dotL_self_nonneg [Field α] [LinearOrder α] [IsStrictOrderedRing α] (u : List α) : 0 ≤ dotL u u := by
  rw [dotL_self]
  exact List.sum_nonneg (by
    intro x hx
    obtain ⟨y, _, rfl⟩ := List.mem_map.1 hx
    exact mul_self_nonneg y)

theorem dotL_self_eq_zero [Field α] [LinearOrder α] [IsStrictOrderedRing α] (u : List α) :
    dotL u u = 0 ↔ ∀ x ∈ u, x = 0 := by
  induction u with
  | nil => simp [dotL]
  | cons a u ih =>
    have h1 := dotL_self_nonneg u
    have h2 := mul_self_nonneg a
    have : dotL (a :: u) (a :: u) = a * a + dotL u u := by simp [dotL]
    rw [this]
    constructor
    · intro h
      have ha : a * a = 0 := by linarith
      have hu : dotL u u = 0 := by linarith
      intro x hx
      rcases List.mem_cons.1 hx with rfl | hx
      · exact mul_self_eq_zero.1 ha
      · exact ih.1 hu x hx
    · intro h
      rw [h a (by simp), ih.2 (fun x hx => h x (by simp [hx]))]
      simp

/-- C54: `dot(a, a)` gives the sums of squares, which are non-negative and vanish only on zero items. -/
theorem C54_self [Field α] [LinearOrder α] [IsStrictOrderedRing α] {a : Serie α} (ha : WF a) (h0 : 0 < a.count) :
    ∃ r, dot a a = .ok r ∧ r.itemSize = 1 ∧
      ItemWise (fun u w => ∃ x, w = [x] ∧ x = (u.map (fun y => y * y)).sum ∧ 0 ≤ x ∧ (x = 0 ↔ ∀ y ∈ u, y = 0)) a r := by
  have hf := dot_facts ha ha ⟨rfl, rfl⟩
  refine ⟨_, dot_run ha ha ⟨rfl, rfl⟩ h0, hf.2.1, ?_⟩
  unfold ItemWise
  rw [hf.2.2.2, List.zipWith_self]
  refine forall₂_map (fun v _ => ⟨_, rfl, dotL_self v, dotL_self_nonneg v, dotL_self_eq_zero v⟩)

example := C54_self exU_WF (by decide)

theorem dotL_cauchy [Field α] [LinearOrder α] [IsStrictOrderedRing α] : ∀ (u v : List α),
    dotL u v * dotL u v ≤ dotL u u * dotL v v := by
  intro u
  induction u with
  | nil => intro v; simp [dotL]
  | cons x u ih =>
    intro v
    cases v with
    | nil => simp [dotL]
    | cons y v =>
      have e1 : dotL (x :: u) (y :: v) = x * y + dotL u v := by simp [dotL]
      have e2 : dotL (x :: u) (x :: u) = x * x + dotL u u := by simp [dotL]
      have e3 : dotL (y :: v) (y :: v) = y * y + dotL v v := by simp [dotL]
      rw [e1, e2, e3]
      have hi := ih v
      have hp := dotL_self_nonneg u
      have hq := dotL_self_nonneg v
      generalize dotL u v = d at *
      generalize dotL u u = p at *
      generalize dotL v v = q at *
      have hx := mul_self_nonneg x
      have hy := mul_self_nonneg y
      have hsum : 0 ≤ x * x * q + y * y * p := add_nonneg (mul_nonneg hx hq) (mul_nonneg hy hp)
      have hsq : (2 * (x * y) * d) ^ 2 ≤ (x * x * q + y * y * p) ^ 2 := by
        nlinarith [sq_nonneg (x * x * q - y * y * p), mul_nonneg hx hy,
          mul_le_mul_of_nonneg_left hi (mul_nonneg hx hy)]
      have := abs_le_of_sq_le_sq hsq hsum
      have := le_abs_self (2 * (x * y) * d)
      nlinarith

/-- C54: Cauchy-Schwarz, item by item. -/
theorem C54_cauchy_schwarz [Field α] [LinearOrder α] [IsStrictOrderedRing α] {a b : Serie α} (ha : WF a) (hb : WF b)
    (hs : SameShape a b) (h0 : 0 < a.count) :
    ∃ ab aa bb, dot a b = .ok ab ∧ dot a a = .ok aa ∧ dot b b = .ok bb ∧
      ∀ i x y z, cell ab i 0 = some x → cell aa i 0 = some y → cell bb i 0 = some z → x * x ≤ y * z := by
  have f1 := dot_facts ha hb hs
  have f2 := dot_facts ha ha ⟨rfl, rfl⟩
  have f3 := dot_facts hb hb ⟨rfl, rfl⟩
  refine ⟨_, _, _, dot_run ha hb hs h0, dot_run ha ha ⟨rfl, rfl⟩ h0, dot_run hb hb ⟨rfl, rfl⟩ (by rw [← hs.2]; exact h0), ?_⟩
  intro i x y z hx hy hz
  unfold cell at hx hy hz
  rw [f1.2.2.2] at hx
  rw [f2.2.2.2, List.zipWith_self] at hy
  rw [f3.2.2.2, List.zipWith_self] at hz
  by_cases hi : i < a.count
  · have h1 : i < (items a).length := by simpa using hi
    have h2 : i < (items b).length := by rw [items_length, ← hs.2]; exact hi
    simp only [List.getElem?_zipWith, List.getElem?_map, List.getElem?_eq_getElem h1, List.getElem?_eq_getElem h2,
      Option.map_some, Option.bind_some, List.getElem?_cons_zero, Option.some.injEq] at hx hy hz
    rw [← hx, ← hy, ← hz]
    exact dotL_cauchy _ _
  · have h1 : (items a).length ≤ i := by rw [items_length]; omega
    simp [List.getElem?_eq_none h1] at hy

example := C54_cauchy_schwarz exU_WF exV_WF ⟨rfl, rfl⟩ (by decide)

/-- C54: `dot` against an array is `dot` against the Serie that repeats the array. -/
theorem C54_array [CommRing α] {a : Serie α} (ha : WF a) (h0 : 0 < a.count) {v : List α} (hv : v.length = a.itemSize) :
    dotArray a v = dot a (ofItems a.itemSize (List.replicate a.count v)) := by
  have hfit := ha.fits
  have hsm := ha.small
  have hpos := ha.pos
  have hl : ∀ u ∈ List.replicate a.count v, u.length = a.itemSize := fun u hu => by rw [List.eq_of_mem_replicate hu, hv]
  have hw : WF (ofItems a.itemSize (List.replicate a.count v)) :=
    WF_ofItems ha.pos ha.int hl (by rw [List.length_replicate]; omega)
  rw [dot_run ha hw ⟨rfl, by simp [ofItems]⟩ h0, items_ofItems hl]
  unfold dotArray
  rw [Serie.value_eq ha h0, Res.ok_bind, chunk_length (ha.item_fits h0), if_neg (by simp [hv])]
  rw [mapArr_items ha h0 (k := 1) (g := fun u => [dotL u v]) (by omega) (by omega) (fun _ _ => rfl)
    (fun u hu i => dotItem_eq hu hv)]
  congr 2
  rw [← items_length a]
  generalize items a = l
  induction l with
  | nil => rfl
  | cons x l ih => simp [List.replicate_succ, ih]

example := C54_array exU_WF (by decide) (v := [1, 0, 2]) rfl

/-- C54: an array of another length gives an invalid Serie. -/
theorem C54_array_length [CommRing α] {a : Serie α} (ha : WF a) (h0 : 0 < a.count) {v : List α}
    (hv : v.length ≠ a.itemSize) : ∃ r, dotArray a v = .ok r ∧ r.isValid = false := by
  refine ⟨Serie.empty, ?_, rfl⟩
  unfold dotArray
  rw [Serie.value_eq ha h0, Res.ok_bind, chunk_length (ha.item_fits h0), if_pos (fun h => hv h.symm)]
  rfl

example := C54_array_length exU_WF (by decide) (v := [1, 0]) (by decide)

/-! ## C55 -/

theorem sumSq_loop [CommRing α] (v : List α) : forLoop (m := Res) (fun j n => do
    let w ← rd v j
    pure (n + w * w)) 0 v.length 0 = .ok (dotL v v) := by
  have := forLoop_exact (m := Res) (f := fun j n => rd v j >>= fun w => pure (n + w * w))
    (fun j => dotL (v.take j) (v.take j)) v.length 0 (fun j _ hj => by
      have hj' : j < v.length := by omega
      rw [rd_of_lt hj', Res.ok_bind]
      simp only [dotL]
      rw [List.take_add_one, List.getElem?_eq_getElem hj', List.zipWith_append rfl]
      simp)
  simpa [dotL] using this

/-- C55 is violated for every vector Serie of at least two items: `norm` writes past the end of an array of size one. -/
theorem C55_vectors_violated [CommRing α] [Sqrt α] {s : Serie α} (h : WF s) (h1 : s.itemSize ≠ 1) (h2 : 2 ≤ s.count) :
    norm s = .ub ∧ norm2 s = .ub := by
  have hn : norm2 s = .ub := by
    unfold norm2
    rw [h.valid, if_neg (by simp), if_neg h1]
    have key : ∀ v : List α, ∃ x : α, forLoop (m := Res) (fun j n => do
        let w ← rd v j
        pure (n + w * w)) 0 v.length 0 = .ok x := fun v => ⟨_, sumSq_loop v⟩
    obtain ⟨x, hx⟩ := key (chunk s.itemSize s.data 0)
    obtain ⟨y, hy⟩ := key (chunk s.itemSize s.data 1)
    have hub : ∀ (d : List α) (n : Nat), d.length = 1 → forLoop (m := Res) (fun i data => do
        let v ← s.value i
        let n ← forLoop (fun j n => do
          let w ← rd v j
          pure (n + w * w)) 0 v.length 0
        wr data i n) 0 (n + 1 + 1) d = .ub := by
      intro d n hd
      rw [forLoop_succ]
      simp only [Serie.value_eq h (i := 0) (by omega), Res.ok_bind, hx]
      rw [wr_of_lt (by omega), Res.ok_bind, forLoop_succ]
      simp only [Nat.zero_add, Serie.value_eq h (i := 1) (by omega), Res.ok_bind, hy]
      rw [wr_of_ge (by simp [hd])]
      rfl
    have := hub [(s.count : α)] (s.count - 2) rfl
    rw [show s.count - 2 + 1 + 1 = s.count by omega] at this
    rw [this]
    rfl
  exact ⟨by unfold norm; rw [hn]; rfl, hn⟩

example := @C55_vectors_violated Int _ ⟨id⟩ ex23 ex23_WF (by decide) (by decide)

example : WF (⟨[1, 2, 3, 4], 2, 2, 3⟩ : Serie Int) := ⟨by decide, by decide, by decide, by decide⟩

theorem norm_of_norm2 [CommRing α] [Sqrt α] {s n : Serie α} (h : norm2 s = .ok n) (hw : WF n) (h1 : n.itemSize = 1)
    (h0 : 0 < n.count) : norm s = .ok (ofItems 1 ((items n).map fun u => [Sqrt.sqrt (num u 0)])) := by
  unfold norm
  rw [h, Res.ok_bind]
  refine mapArr_items hw h0 (by omega) (by omega) (fun _ _ => rfl) (fun v hv i => ?_)
  rw [h1] at hv
  obtain ⟨x, rfl⟩ := List.length_eq_one_iff.1 hv
  rfl

theorem WF_one (x : α) : WF (ofScalars [x]) := WF_ofScalars (by simp)

theorem items_one (x : α) : items (ofScalars [x]) = [[x]] := rfl

theorem ofArray_single (x : α) : Serie.ofArray 1 [x] = .ok (ofScalars [x]) := ofArray_one (by simp)

/-- C55 is violated for scalar Series: `norm` gives the square root of the number instead of its absolute value. -/
theorem C55_scalars_violated [Sqrt ℝ] (hsqrt : ∀ x : ℝ, Sqrt.sqrt x = Real.sqrt x) :
    ∃ s r : Serie ℝ, WF s ∧ s.itemSize = 1 ∧ norm s = .ok r ∧ items s = [[4]] ∧ items r = [[2]] := by
  have h4 : (Sqrt.sqrt (4 : ℝ)) = 2 := by
    rw [hsqrt, show (4 : ℝ) = 2 ^ 2 by norm_num, Real.sqrt_sq (by norm_num)]
  have hn : norm2 (ofScalars [(4 : ℝ)]) = .ok (ofScalars [4]) := by
    unfold norm2
    rw [(WF_one (4 : ℝ)).valid, if_neg (by simp), if_pos (show (ofScalars [(4 : ℝ)]).itemSize = 1 from rfl)]
    exact ofArray_single 4
  refine ⟨ofScalars [4], _, WF_one _, rfl, norm_of_norm2 hn (WF_one _) rfl (by simp [ofScalars]), rfl, ?_⟩
  rw [items_one, items_ofItems (by simp)]
  simp [num, h4]

example := @C55_scalars_violated ⟨Real.sqrt⟩ (fun _ => rfl)

/-- C55 is violated for an empty vector Serie: the result has one item. -/
theorem C55_empty_violated [CommRing α] [Sqrt α] {s : Serie α} (h : WF s) (h1 : s.itemSize ≠ 1) (h0 : s.count = 0) :
    ∃ r, norm s = .ok r ∧ r.count = 1 := by
  have hn : norm2 s = .ok (ofScalars [((0 : Nat) : α)]) := by
    unfold norm2
    rw [h.valid, if_neg (by simp), if_neg h1, h0]
    exact ofArray_single _
  exact ⟨_, norm_of_norm2 hn (WF_one _) rfl (by simp [ofScalars]), by simp [ofItems, ofScalars]⟩

example := @C55_empty_violated Int _ ⟨id⟩ ⟨[], 0, 3, 3⟩ (by decide) (by decide) rfl

theorem norm2_one [CommRing α] {s : Serie α} (h : WF s) (h1 : s.itemSize ≠ 1) (hc : s.count = 1) :
    ∃ u, items s = [u] ∧ norm2 s = .ok (ofScalars [(u.map (fun x => x * x)).sum]) := by
  refine ⟨chunk s.itemSize s.data 0, by unfold items; rw [hc]; rfl, ?_⟩
  unfold norm2
  rw [h.valid, if_neg (by simp), if_neg h1, hc, forLoop_succ]
  simp only [Serie.value_eq h (i := 0) (by omega), Res.ok_bind, sumSq_loop]
  rw [← dotL_self]
  exact ofArray_single _

/-- C55, what holds: for a vector Serie with exactly one item, `norm` is its Euclidean length. -/
theorem C55_one_item_partial [Sqrt ℝ] (hsqrt : ∀ x : ℝ, Sqrt.sqrt x = Real.sqrt x) {s : Serie ℝ} (h : WF s)
    (h1 : s.itemSize ≠ 1) (hc : s.count = 1) :
    ∃ r, norm s = .ok r ∧ WF r ∧ r.itemSize = 1 ∧
      ItemWise (fun u w => w = [Real.sqrt (u.map (fun x => x * x)).sum]) s r := by
  obtain ⟨u, hu, hn⟩ := norm2_one h h1 hc
  have hf := ofItems_map_facts (WF_one (u.map (fun x => x * x)).sum) (k := 1)
    (g := fun u => [Sqrt.sqrt (num u 0)]) (by omega) (Nat.le_refl 1) (fun _ _ => rfl)
  refine ⟨_, norm_of_norm2 hn (WF_one _) rfl (by simp [ofScalars]), hf.1, hf.2.1, ?_⟩
  unfold ItemWise
  rw [hf.2.2.2, hu, items_one]
  refine .cons ?_ .nil
  simp [num, hsqrt]

example := @C55_one_item_partial ⟨Real.sqrt⟩ (fun _ => rfl) ⟨[3, 4, 12], 1, 3, 3⟩ (by decide) (by decide) rfl

/-- C55: of `norm2`, on a vector Serie with exactly one item: the sum of the squares. -/
theorem C55_norm2_partial [CommRing α] {s : Serie α} (h : WF s) (h1 : s.itemSize ≠ 1) (hc : s.count = 1) :
    ∃ r, norm2 s = .ok r ∧ WF r ∧ r.itemSize = 1 ∧ ItemWise (fun u w => w = [(u.map (fun x => x * x)).sum]) s r := by
  obtain ⟨u, hu, hn⟩ := norm2_one h h1 hc
  refine ⟨_, hn, WF_one _, rfl, ?_⟩
  unfold ItemWise
  rw [hu, items_one]
  exact .cons rfl .nil

example := C55_norm2_partial (s := (⟨[3, 4, 12], 1, 3, 3⟩ : Serie Int)) (by decide) (by decide) rfl

example : norm2 (⟨[3, 4], 1, 2, 3⟩ : Serie Int) = .ok ⟨[25], 1, 1, 3⟩ := by decide +kernel

end DF
