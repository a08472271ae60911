import Verif.Spec.Best
import Verif.Props.Stats
import Mathlib.Tactic.Linarith
import Mathlib.Tactic.FieldSimp

/-!
# Lemmas about what the statistics are best at
-/

namespace DF

open Spec

variable {α : Type}

theorem squares_eq [Field α] (l : List α) (c : α) :
    squares l c = (l.map fun x => x * x).sum - 2 * c * l.sum + (l.length : α) * (c * c) := by
  unfold squares
  induction l with
  | nil => simp
  | cons x l ih =>
    simp only [List.map_cons, List.sum_cons, List.length_cons, ih]
    push_cast
    ring

theorem misfit_eq [Field α] : ∀ (xs ys : List α) (a b : α), xs.length = ys.length →
    misfit xs ys a b = (ys.map fun y => y * y).sum + b * b * (xs.map fun x => x * x).sum - 2 * b * (List.zipWith (· * ·) xs ys).sum -
      2 * a * ys.sum + 2 * a * b * xs.sum + (xs.length : α) * (a * a)
  | [], [], a, b, _ => by simp [misfit]
  | [], _ :: _, _, _, h => by simp at h
  | _ :: _, [], _, _, h => by simp at h
  | x :: xs, y :: ys, a, b, h => by
    have ih := misfit_eq xs ys a b (by simpa using h)
    unfold misfit at ih ⊢
    simp only [List.zipWith_cons_cons, List.map_cons, List.sum_cons, List.length_cons, ih]
    push_cast
    ring

theorem zipWith_self_mul [Mul α] (l : List α) : List.zipWith (· * ·) l l = l.map fun x => x * x := by
  induction l with
  | nil => rfl
  | cons x l _ => simp

section

variable [Field α] [LinearOrder α] [IsStrictOrderedRing α]

theorem squares_nonneg (l : List α) (c : α) : 0 ≤ squares l c := by
  unfold squares
  refine List.sum_nonneg fun y hy => ?_
  obtain ⟨x, _, rfl⟩ := List.mem_map.1 hy
  positivity

omit [LinearOrder α] [IsStrictOrderedRing α] in
/-- The variance is the mean of the squares of the distances to the mean. -/
theorem variance_eq {s : Serie α} (h : WF s) (h1 : s.itemSize = 1) :
    covariance s s = .ok (squares (scalars s) (average (scalars s)) / (s.count : α)) := by
  rw [covariance_eq h h rfl h1 h1, zipWith_self_mul, List.map_map, h.scalars_length]
  congr 4
  funext x
  simp [sq]

omit [LinearOrder α] [IsStrictOrderedRing α] in
theorem mean_average {s : Serie α} (h : WF s) (h1 : s.itemSize = 1) : mean s = .ok (.number (average (scalars s))) := by
  rw [mean_scalar h h1, ← h.scalars_length]; rfl

theorem squares_from {l : List α} (hl : l ≠ []) (c : α) :
    squares l c = squares l (average l) + (l.length : α) * (average l - c) ^ 2 := by
  have h0 : (l.length : α) ≠ 0 := Nat.cast_ne_zero.2 (by simpa using hl)
  rw [squares_eq, squares_eq]
  unfold average
  field_simp
  ring

theorem sum_deviation {l : List α} (hl : l ≠ []) (c : α) : (l.map (· - c)).sum = (l.length : α) * (average l - c) := by
  have h0 : (l.length : α) ≠ 0 := Nat.cast_ne_zero.2 (by simpa using hl)
  have : (l.map (· - c)).sum = l.sum - (l.length : α) * c := by
    clear h0 hl
    induction l with
    | nil => simp
    | cons x l ih => simp only [List.map_cons, List.sum_cons, ih, List.length_cons]; push_cast; ring
  rw [this]
  unfold average
  field_simp

/-- The square of a sum is at most the number of terms times the sum of the squares. -/
theorem sq_sum_le (l : List α) : l.sum ^ 2 ≤ (l.length : α) * (l.map fun x => x * x).sum := by
  have h := (cauchy l (List.replicate l.length 1) (by simp)).2.2
  have e1 : List.zipWith (· * ·) l (List.replicate l.length 1) = l := by
    clear h
    induction l with
    | nil => rfl
    | cons x l ih => simp [List.replicate_succ, ih]
  have e2 : (List.zipWith (· * ·) (List.replicate l.length (1 : α)) (List.replicate l.length 1)).sum = (l.length : α) := by
    simp
  rw [e1, e2, zipWith_self_mul] at h
  linarith [mul_comm (l.map fun x => x * x).sum (l.length : α)]

/-! ## Positions -/

omit [Field α] [IsStrictOrderedRing α] in
/-- In a sorted list, the numbers below `v` come before the first place with a number not below `v`. -/
theorem count_below {xs : List α} (hs : xs.Pairwise (· ≤ ·)) {k : Nat} {v : α} (hk : ∀ b, xs[k]? = some b → v ≤ b) :
    (xs.filter fun x => decide (x < v)).length ≤ k := by
  have e : xs.filter (fun x => decide (x < v)) = (xs.take k).filter (fun x => decide (x < v)) ++ (xs.drop k).filter (fun x => decide (x < v)) := by
    rw [← List.filter_append, List.take_append_drop]
  have e2 : (xs.drop k).filter (fun x => decide (x < v)) = [] := by
    refine List.filter_eq_nil_iff.2 fun x hx => ?_
    obtain ⟨i, hi, rfl⟩ := List.mem_iff_getElem.1 hx
    rw [List.getElem_drop]
    simp only [List.length_drop] at hi
    have hb := hk xs[k] (List.getElem?_eq_getElem (by omega))
    have : xs[k] ≤ xs[k + i] := by
      rcases Nat.eq_zero_or_pos i with rfl | h0
      · simp
      · exact List.pairwise_iff_getElem.1 hs k (k + i) (by omega) (by omega) (by omega)
    simpa using hb.trans this
  rw [e, e2, List.append_nil]
  exact (List.length_filter_le _ _).trans (by simp)

omit [Field α] [IsStrictOrderedRing α] in
theorem count_above {xs : List α} (hs : xs.Pairwise (· ≤ ·)) {k : Nat} {v a : α} (hk : xs[k]? = some a) (ha : a ≤ v) :
    (xs.filter fun x => decide (v < x)).length + (k + 1) ≤ xs.length := by
  obtain ⟨hlt, rfl⟩ := List.getElem?_eq_some_iff.1 hk
  have e : xs.filter (fun x => decide (v < x)) = (xs.take (k + 1)).filter (fun x => decide (v < x)) ++ (xs.drop (k + 1)).filter (fun x => decide (v < x)) := by
    rw [← List.filter_append, List.take_append_drop]
  have e2 : (xs.take (k + 1)).filter (fun x => decide (v < x)) = [] := by
    refine List.filter_eq_nil_iff.2 fun x hx => ?_
    obtain ⟨i, hi, rfl⟩ := List.mem_iff_getElem.1 hx
    simp only [List.length_take] at hi
    rw [List.getElem_take]
    have : xs[i]'(by omega) ≤ xs[k] := by
      rcases Nat.eq_or_lt_of_le (show i ≤ k by omega) with rfl | h0
      · exact le_refl _
      · exact List.pairwise_iff_getElem.1 hs i k (by omega) hlt h0
    simpa using this.trans ha
  rw [e, e2, List.nil_append]
  have := List.length_filter_le (fun x => decide (v < x)) (xs.drop (k + 1))
  rw [List.length_drop] at this
  omega

/-- How many numbers are below and above the interpolation at fraction `q`. -/
theorem Spec.Interpolates.sides {xs : List α} (hs : xs.Pairwise (· ≤ ·)) {q v : α} (h : Interpolates xs q v) :
    ((xs.filter fun x => decide (x < v)).length : α) < ((xs.length : α) - 1) * q + 1 ∧
    ((xs.filter fun x => decide (v < x)).length : α) < ((xs.length : α) - 1) * (1 - q) + 1 := by
  obtain ⟨k, r, a, b, r0, r1, e, ha, hb, hv⟩ := h
  have up := count_above hs ha (v := v)
  have hab : r = 0 ∨ a ≤ b := by
    rcases hb with hb | hb
    · obtain ⟨h1, rfl⟩ := List.getElem?_eq_some_iff.1 hb
      obtain ⟨h2, rfl⟩ := List.getElem?_eq_some_iff.1 ha
      exact .inr (List.pairwise_iff_getElem.1 hs k (k + 1) h2 h1 (by omega))
    · exact .inl hb
  have hav : a ≤ v := by
    rw [hv]
    rcases hab with h | h
    · simp [h]
    · nlinarith [mul_nonneg r0 (sub_nonneg.2 h)]
  have up' := up hav
  have up'' : ((xs.filter fun x => decide (v < x)).length : α) + ((k : α) + 1) ≤ (xs.length : α) := by exact_mod_cast up'
  refine ⟨?_, by linarith⟩
  rw [e]
  rcases eq_or_lt_of_le r0 with h0 | h0
  · have : (xs.filter fun x => decide (x < v)).length ≤ k := count_below hs fun b' hb' => by
      rw [ha] at hb'; cases hb'
      rw [hv, ← h0]; simp
    have : ((xs.filter fun x => decide (x < v)).length : α) ≤ (k : α) := by exact_mod_cast this
    linarith
  · have : (xs.filter fun x => decide (x < v)).length ≤ k + 1 := count_below hs fun b' hb' => by
      have hr : r ≠ 0 := ne_of_gt h0
      rcases hb with hb | hb
      · rw [hb] at hb'; cases hb'
        rcases hab with h | h
        · exact absurd h hr
        · rw [hv]; nlinarith [mul_nonneg (sub_nonneg.2 r1.le) (sub_nonneg.2 h)]
      · exact absurd hb hr
    have : ((xs.filter fun x => decide (x < v)).length : α) ≤ (k : α) + 1 := by exact_mod_cast this
    linarith

/-- Moving away from a number that has at most half of the numbers on either side does not diminish the sum of the distances. -/
theorem distances_mono {l : List α} {v c : α} (hb : 2 * (l.filter fun x => decide (x < v)).length ≤ l.length)
    (ha : 2 * (l.filter fun x => decide (v < x)).length ≤ l.length) : distances l v ≤ distances l c := by
  rcases le_total v c with h | h
  · have key : ∀ l : List α, distances l v + (c - v) * ((l.length : α) - 2 * ((l.filter fun x => decide (v < x)).length : α)) ≤ distances l c := by
      intro l
      unfold distances
      induction l with
      | nil => simp
      | cons x l ih =>
        simp only [List.map_cons, List.sum_cons, List.length_cons, List.filter_cons]
        by_cases hx : v < x
        · simp only [hx, decide_true, if_true, List.length_cons]
          push_cast
          have : |x - v| ≤ |x - c| + (c - v) := by
            calc |x - v| = |(x - c) + (c - v)| := by ring_nf
              _ ≤ |x - c| + |c - v| := abs_add_le _ _
              _ = _ := by rw [abs_of_nonneg (sub_nonneg.2 h)]
          linarith
        · simp only [hx, decide_false, Bool.false_eq_true, if_false]
          push_cast
          have hx' := not_lt.1 hx
          rw [abs_of_nonpos (by linarith : x - v ≤ 0), abs_of_nonpos (by linarith : x - c ≤ 0)]
          linarith
    have := key l
    have h2 : 2 * ((l.filter fun x => decide (v < x)).length : α) ≤ (l.length : α) := by exact_mod_cast ha
    nlinarith [mul_nonneg (sub_nonneg.2 h) (sub_nonneg.2 h2)]
  · have key : ∀ l : List α, distances l v + (v - c) * ((l.length : α) - 2 * ((l.filter fun x => decide (x < v)).length : α)) ≤ distances l c := by
      intro l
      unfold distances
      induction l with
      | nil => simp
      | cons x l ih =>
        simp only [List.map_cons, List.sum_cons, List.length_cons, List.filter_cons]
        by_cases hx : x < v
        · simp only [hx, decide_true, if_true, List.length_cons]
          push_cast
          have : |x - v| ≤ |x - c| + (v - c) := by
            calc |x - v| = |(x - c) + (c - v)| := by ring_nf
              _ ≤ |x - c| + |c - v| := abs_add_le _ _
              _ = _ := by rw [abs_of_nonpos (sub_nonpos.2 h)]; ring
          linarith
        · simp only [hx, decide_false, Bool.false_eq_true, if_false]
          push_cast
          have hx' := not_lt.1 hx
          rw [abs_of_nonneg (by linarith : 0 ≤ x - v), abs_of_nonneg (by linarith : 0 ≤ x - c)]
          linarith
    have := key l
    have h2 : 2 * ((l.filter fun x => decide (x < v)).length : α) ≤ (l.length : α) := by exact_mod_cast hb
    nlinarith [mul_nonneg (sub_nonneg.2 h) (sub_nonneg.2 h2)]

end

end DF
