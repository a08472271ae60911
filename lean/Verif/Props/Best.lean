import Verif.Lemmas.Best

/-!
# What the statistics are best at, and how they are related (C157)

Exact arithmetic. `scalars s` are the numbers of the scalar Serie `s`; `squares`, `distances` and `misfit` (Spec/Best.lean) are the sums of the squares of
the distances to a number, of the distances to a number, and of the squares of the errors of a straight line.
-/

namespace DF

open Spec

variable {α : Type} [Field α] [LinearOrder α] [IsStrictOrderedRing α]

omit [Field α] [LinearOrder α] [IsStrictOrderedRing α] in
private theorem scalars_ne_nil {s : Serie α} (h : WF s) (h0 : 0 < s.count) : scalars s ≠ [] := by
  intro he
  have := h.scalars_length
  rw [he] at this
  simp at this
  omega

/-- C157: the distances to the mean, counted with their signs, cancel; and the mean is the number for which the sum of the squares of the distances is
least: every other number gives more. -/
theorem C157_mean {s : Serie α} (h : WF s) (h1 : s.itemSize = 1) (h0 : 0 < s.count) :
    ∃ m, mean s = .ok (.number m) ∧ ((scalars s).map (· - m)).sum = 0 ∧
      ∀ c, c ≠ m → squares (scalars s) m < squares (scalars s) c := by
  have hl := scalars_ne_nil h h0
  refine ⟨_, mean_average h h1, by rw [sum_deviation hl]; simp, fun c hc => ?_⟩
  rw [squares_from hl c]
  have hn : (0 : α) < ((scalars s).length : α) := Nat.cast_pos.2 (by rw [h.scalars_length]; omega)
  have : 0 < (average (scalars s) - c) ^ 2 := by
    have : average (scalars s) - c ≠ 0 := sub_ne_zero.2 (Ne.symm hc)
    positivity
  nlinarith [mul_pos hn this]

example := C157_mean exQ_WF rfl (by decide)

/-- C157: the covariance of a Serie with itself is the mean of the squares of the distances to the mean. It is zero only if all numbers are equal. -/
theorem C157_variance {s : Serie α} (h : WF s) (h1 : s.itemSize = 1) (h0 : 0 < s.count) :
    ∃ m v, mean s = .ok (.number m) ∧ covariance s s = .ok v ∧ v * (s.count : α) = squares (scalars s) m ∧ 0 ≤ v ∧
      (v = 0 ↔ ∀ x ∈ scalars s, x = m) := by
  have hn : (0 : α) < (s.count : α) := Nat.cast_pos.2 h0
  refine ⟨_, _, mean_average h h1, variance_eq h h1, div_mul_cancel₀ _ hn.ne', div_nonneg (squares_nonneg _ _) hn.le, ?_⟩
  rw [div_eq_zero_iff, or_iff_left hn.ne']
  generalize average (scalars s) = m
  generalize scalars s = l
  constructor
  · intro e
    induction l with
    | nil => simp
    | cons x l ih =>
      have e' : (x - m) ^ 2 + squares l m = 0 := e
      have p1 := sq_nonneg (x - m)
      have p2 := squares_nonneg l m
      intro y hy
      rcases List.mem_cons.1 hy with rfl | hy
      · exact sub_eq_zero.1 (pow_eq_zero_iff (two_ne_zero) |>.1 (by linarith))
      · exact ih (by linarith) y hy
  · intro e
    unfold squares
    refine List.sum_eq_zero fun y hy => ?_
    obtain ⟨x, hx, rfl⟩ := List.mem_map.1 hy
    rw [e x hx]; simp

example := C157_variance exQ_WF rfl (by decide)

/-- C157: when all numbers lie between `a` and `b`, the variance is at most `(b - m) (m - a)`, `m` the mean, so at most a quarter of the square of the
range. -/
theorem C157_range {s : Serie α} (h : WF s) (h1 : s.itemSize = 1) (h0 : 0 < s.count) {a b : α} (ha : ∀ x ∈ scalars s, a ≤ x)
    (hb : ∀ x ∈ scalars s, x ≤ b) :
    ∃ m v, mean s = .ok (.number m) ∧ covariance s s = .ok v ∧ v ≤ (b - m) * (m - a) ∧ v ≤ (b - a) ^ 2 / 4 := by
  have hn : (0 : α) < (s.count : α) := Nat.cast_pos.2 h0
  have key : squares (scalars s) (average (scalars s)) / (s.count : α) ≤ (b - average (scalars s)) * (average (scalars s) - a) := by
    have hs : (scalars s).sum = (s.count : α) * average (scalars s) := by
      unfold average; rw [h.scalars_length, mul_div_cancel₀ _ hn.ne']
    have p : 0 ≤ ((scalars s).map fun x => (b - x) * (x - a)).sum := by
      refine List.sum_nonneg fun y hy => ?_
      obtain ⟨x, hx, rfl⟩ := List.mem_map.1 hy
      exact mul_nonneg (sub_nonneg.2 (hb x hx)) (sub_nonneg.2 (ha x hx))
    have e : ∀ l : List α, (l.map fun x => (b - x) * (x - a)).sum = (a + b) * l.sum - (l.map fun x => x * x).sum - (l.length : α) * (a * b) := by
      intro l
      induction l with
      | nil => simp
      | cons x l ih => simp only [List.map_cons, List.sum_cons, ih, List.length_cons]; push_cast; ring
    rw [e, h.scalars_length, hs] at p
    rw [div_le_iff₀ hn, squares_eq, h.scalars_length, hs]
    nlinarith
  refine ⟨_, _, mean_average h h1, variance_eq h h1, key, key.trans ?_⟩
  nlinarith [sq_nonneg (b + a - 2 * average (scalars s))]

example := C157_range exQ_WF rfl (by decide) (a := 1) (b := 5) (by decide +kernel) (by decide +kernel)

/-- C157: no number is farther from the mean than the variance allows: the square of its distance is at most `n - 1` times the variance, `n` the count. -/
theorem C157_farthest {s : Serie α} (h : WF s) (h1 : s.itemSize = 1) (h0 : 0 < s.count) :
    ∃ m v, mean s = .ok (.number m) ∧ covariance s s = .ok v ∧ ∀ x ∈ scalars s, (x - m) ^ 2 ≤ ((s.count : α) - 1) * v := by
  have hn : (0 : α) < (s.count : α) := Nat.cast_pos.2 h0
  refine ⟨_, _, mean_average h h1, variance_eq h h1, fun x hx => ?_⟩
  have hz := sum_deviation (scalars_ne_nil h h0) (average (scalars s))
  rw [sub_self, mul_zero] at hz
  have hlen := h.scalars_length
  obtain ⟨l1, l2, e⟩ := List.append_of_mem hx
  generalize average (scalars s) = m at *
  rw [e] at hz hlen ⊢
  have c := sq_sum_le ((l1 ++ l2).map (· - m))
  have e1 : ((l1 ++ l2).map (· - m)).sum = -(x - m) := by
    simp only [List.map_append, List.map_cons, List.sum_append, List.sum_cons] at hz ⊢
    linarith
  have e2 : squares (l1 ++ x :: l2) m = (((l1 ++ l2).map (· - m)).map fun y => y * y).sum + (x - m) ^ 2 := by
    unfold squares
    simp only [List.map_append, List.map_cons, List.sum_append, List.sum_cons, List.map_map]
    have : ((fun y => y * y) ∘ fun y => y - m) = fun y : α => (y - m) ^ 2 := by funext y; simp [sq]
    rw [this]; ring
  have e3 : (((l1 ++ l2).map (· - m)).length : α) = (s.count : α) - 1 := by
    rw [← hlen]; simp; ring
  rw [e1, e3] at c
  rw [e2, ← mul_div_assoc, le_div_iff₀ hn]
  nlinarith

example := C157_farthest exQ_WF rfl (by decide)

/-- C157: at a distance of `t` or more from the mean there are at most `n v / t^2` numbers, `n` the count and `v` the variance. -/
theorem C157_tails {s : Serie α} (h : WF s) (h1 : s.itemSize = 1) (h0 : 0 < s.count) {t : α} (ht : 0 < t) :
    ∃ m v, mean s = .ok (.number m) ∧ covariance s s = .ok v ∧
      (((scalars s).filter fun x => decide (t ≤ |x - m|)).length : α) ≤ (s.count : α) * v / t ^ 2 := by
  have hn : (0 : α) < (s.count : α) := Nat.cast_pos.2 h0
  refine ⟨_, _, mean_average h h1, variance_eq h h1, ?_⟩
  rw [mul_div_cancel₀ _ hn.ne', le_div_iff₀ (by positivity)]
  generalize average (scalars s) = m
  generalize scalars s = l
  induction l with
  | nil => simp [squares]
  | cons x l ih =>
    have e : squares (x :: l) m = (x - m) ^ 2 + squares l m := rfl
    rw [e, List.filter_cons]
    by_cases hx : t ≤ |x - m|
    · have : t ^ 2 ≤ (x - m) ^ 2 := by
        rw [← sq_abs (x - m)]
        exact pow_le_pow_left₀ ht.le hx 2
      simp only [hx, decide_true, if_true, List.length_cons]
      push_cast
      linarith
    · simp only [hx, decide_false, Bool.false_eq_true, if_false]
      linarith [sq_nonneg (x - m)]

example := C157_tails exQ_WF rfl (by decide) (t := 2) (by norm_num)

/-- C157: with `vx > 0` the variance of `x`, `c` the covariance, the straight line of slope `c / vx` through the point of the means is the one with the
least sum of the squares of the errors, which is `n (vy - c^2 / vx)`. -/
theorem C157_line {x y : Serie α} (hx : WF x) (hy : WF y) (hc : x.count = y.count) (h1 : x.itemSize = 1) (h1' : y.itemSize = 1)
    (h0 : 0 < x.count) :
    ∃ mx my vx vy c, mean x = .ok (.number mx) ∧ mean y = .ok (.number my) ∧ covariance x x = .ok vx ∧ covariance y y = .ok vy ∧
      covariance x y = .ok c ∧ (0 < vx →
        misfit (scalars x) (scalars y) (my - c / vx * mx) (c / vx) = (x.count : α) * (vy - c ^ 2 / vx) ∧
        ∀ a b, misfit (scalars x) (scalars y) (my - c / vx * mx) (c / vx) ≤ misfit (scalars x) (scalars y) a b) := by
  have hn : (0 : α) < (x.count : α) := Nat.cast_pos.2 h0
  have hlx := hx.scalars_length
  have hly := hy.scalars_length
  have key : ∀ a b vx vy c, vx = squares (scalars x) (average (scalars x)) / (x.count : α) →
      vy = squares (scalars y) (average (scalars y)) / (x.count : α) →
      c = average (List.zipWith (· * ·) (scalars x) (scalars y)) - average (scalars x) * average (scalars y) →
      misfit (scalars x) (scalars y) a b = (x.count : α) * (vy - 2 * b * c + b * b * vx + (average (scalars y) - a - b * average (scalars x)) ^ 2) := by
    intro a b vx vy c e1 e2 e3
    rw [e1, e2, e3, misfit_eq _ _ _ _ (by omega), squares_eq, squares_eq]
    unfold average
    rw [List.length_zipWith, hlx, hly, ← hc, Nat.min_self]
    field_simp
    ring
  refine ⟨_, _, _, _, _, mean_average hx h1, mean_average hy h1', variance_eq hx h1, variance_eq hy h1', C46_covariance hx hy hc h1 h1' h0, ?_⟩
  intro hv
  rw [← hc]
  have k := fun a b => key a b _ _ _ rfl rfl rfl
  generalize squares (scalars x) (average (scalars x)) / (x.count : α) = vx at *
  generalize squares (scalars y) (average (scalars y)) / (x.count : α) = vy at *
  generalize average (List.zipWith (· * ·) (scalars x) (scalars y)) - average (scalars x) * average (scalars y) = c at *
  have e : misfit (scalars x) (scalars y) (average (scalars y) - c / vx * average (scalars x)) (c / vx) = (x.count : α) * (vy - c ^ 2 / vx) := by
    rw [k]
    field_simp
    ring
  refine ⟨e, fun a b => ?_⟩
  rw [e, k]
  refine mul_le_mul_of_nonneg_left ?_ hn.le
  have : vy - 2 * b * c + b * b * vx = vy - c ^ 2 / vx + vx * (b - c / vx) ^ 2 := by field_simp; ring
  rw [this]
  nlinarith [mul_nonneg hv.le (sq_nonneg (b - c / vx)), sq_nonneg (average (scalars y) - a - b * average (scalars x))]

example := C157_line exQ_WF (y := ⟨[0, 1, 0, 1, 0], 5, 1, 3⟩) (by decide) rfl rfl rfl (by decide)

section

variable [FloorRing α]

/-- C157: fewer than `(n - 1) q + 1` numbers are below the quantile at `q` and fewer than `(n - 1) (1 - q) + 1` are above it. -/
theorem C157_quantile {srt : StdSort} (hs : srt.Correct) {s : Serie α} (h : WF s) (h1 : s.itemSize = 1) (h0 : 0 < s.count) {q : α}
    (hq0 : 0 ≤ q) (hq1 : q ≤ 1) :
    ∃ v, quantile srt s q = .ok v ∧
      (((scalars s).filter fun x => decide (x < v)).length : α) < ((s.count : α) - 1) * q + 1 ∧
      (((scalars s).filter fun x => decide (v < x)).length : α) < ((s.count : α) - 1) * (1 - q) + 1 := by
  obtain ⟨xs, v, hx, e, hi⟩ := C47_interpolates hs h h1 h0 hq0 hq1
  have := hi.sides hx.2
  rw [(hx.1.filter _).length_eq, (hx.1.filter _).length_eq, hx.1.length_eq, h.scalars_length] at this
  exact ⟨v, e, this⟩

example := C157_quantile stdSort_exists.choose_spec exQ_WF rfl (by decide) (q := 5 / 8) (by norm_num) (by norm_num)

/-- C157: at most half of the numbers are below the median and at most half above, and the sum of the distances to the median is least: no number gives
less. -/
theorem C157_median {srt : StdSort} (hs : srt.Correct) {s : Serie α} (h : WF s) (h1 : s.itemSize = 1) (h0 : 0 < s.count) :
    ∃ v, q50 srt s = .ok v ∧ 2 * ((scalars s).filter fun x => decide (x < v)).length ≤ s.count ∧
      2 * ((scalars s).filter fun x => decide (v < x)).length ≤ s.count ∧ ∀ c, distances (scalars s) v ≤ distances (scalars s) c := by
  obtain ⟨v, e, l1, l2⟩ := C157_quantile hs h h1 h0 (q := 1 / 2) (by positivity) (by norm_num)
  have b1 : 2 * ((scalars s).filter fun x => decide (x < v)).length ≤ s.count := by
    have : ((2 * ((scalars s).filter fun x => decide (x < v)).length : Nat) : α) < ((s.count + 1 : Nat) : α) := by push_cast; linarith
    have := Nat.cast_lt.1 this
    omega
  have b2 : 2 * ((scalars s).filter fun x => decide (v < x)).length ≤ s.count := by
    have : ((2 * ((scalars s).filter fun x => decide (v < x)).length : Nat) : α) < ((s.count + 1 : Nat) : α) := by push_cast; linarith
    have := Nat.cast_lt.1 this
    omega
  refine ⟨v, ?_, b1, b2, fun c => distances_mono (by rw [h.scalars_length]; exact b1) (by rw [h.scalars_length]; exact b2)⟩
  unfold q50
  rw [show (0.5 : α) = 1 / 2 by norm_num, e]

example := C157_median stdSort_exists.choose_spec exQ_WF rfl (by decide)

/-- C157: the square of the distance between mean and median is at most the variance. -/
theorem C157_mean_median {srt : StdSort} (hs : srt.Correct) {s : Serie α} (h : WF s) (h1 : s.itemSize = 1) (h0 : 0 < s.count) :
    ∃ m d v, mean s = .ok (.number m) ∧ q50 srt s = .ok d ∧ covariance s s = .ok v ∧ (m - d) ^ 2 ≤ v := by
  obtain ⟨d, e, _, _, hd⟩ := C157_median hs h h1 h0
  have hn : (0 : α) < (s.count : α) := Nat.cast_pos.2 h0
  refine ⟨_, d, _, mean_average h h1, e, variance_eq h h1, ?_⟩
  have hm := hd (average (scalars s))
  have hsum := sum_deviation (scalars_ne_nil h h0) d
  rw [h.scalars_length] at hsum
  have a1 : |((scalars s).map (· - d)).sum| ≤ distances (scalars s) d := by
    unfold distances
    generalize scalars s = l
    induction l with
    | nil => simp
    | cons x l ih =>
      simp only [List.map_cons, List.sum_cons]
      exact (abs_add_le _ _).trans (by linarith)
  have c := sq_sum_le ((scalars s).map fun x => |x - average (scalars s)|)
  have e2 : ((scalars s).map fun x => |x - average (scalars s)|).map (fun y => y * y) = (scalars s).map fun x => (x - average (scalars s)) ^ 2 := by
    rw [List.map_map]
    refine List.map_congr_left fun x _ => ?_
    simp [sq]
  rw [e2, List.length_map, h.scalars_length] at c
  have b : |(s.count : α) * (average (scalars s) - d)| ≤ distances (scalars s) (average (scalars s)) := by
    rw [← hsum]; exact a1.trans hm
  have b2 := pow_le_pow_left₀ (abs_nonneg _) b 2
  rw [sq_abs, mul_pow] at b2
  have b3 : (s.count : α) ^ 2 * (average (scalars s) - d) ^ 2 ≤ (s.count : α) * squares (scalars s) (average (scalars s)) := b2.trans c
  rw [le_div_iff₀ hn]
  have : (s.count : α) * ((average (scalars s) - d) ^ 2 * (s.count : α)) ≤ (s.count : α) * squares (scalars s) (average (scalars s)) := by
    linarith [b3, (by ring : (s.count : α) * ((average (scalars s) - d) ^ 2 * (s.count : α)) = (s.count : α) ^ 2 * (average (scalars s) - d) ^ 2)]
  exact le_of_mul_le_mul_left this hn

example := C157_mean_median stdSort_exists.choose_spec exQ_WF rfl (by decide)

/-- C157: whatever the numbers are, at most half of them and one more are outliers, for a `mustache` not below 0. -/
theorem C157_outliers {srt : StdSort} (hs : srt.Correct) {s : Serie α} (h : WF s) (h1 : s.itemSize = 1) (h0 : 0 < s.count) {m : α}
    (hm : 0 ≤ m) : ∃ o, outliers srt s m = .ok o ∧ 2 * o.count ≤ s.count + 2 := by
  obtain ⟨a, b, lo, hi, ea, eb, e1, e2, ho, _, _⟩ := C48_outliers hs h h1 h0 m
  obtain ⟨a', ea', l1, _⟩ := C157_quantile hs h h1 h0 (q := 1 / 4) (by positivity) (by norm_num)
  obtain ⟨b', eb', _, l2⟩ := C157_quantile hs h h1 h0 (q := 3 / 4) (by positivity) (by norm_num)
  rw [ea] at ea'; cases ea'
  rw [eb] at eb'; cases eb'
  obtain ⟨_, _, f1, f2, hab⟩ := C47_monotone hs h h1 h0 (q := 1 / 4) (q' := 3 / 4) (by positivity) (by norm_num) (by norm_num)
  rw [ea] at f1; cases f1
  rw [eb] at f2; cases f2
  have hp := mul_nonneg hm (sub_nonneg.2 hab)
  refine ⟨_, ho, ?_⟩
  have key : ∀ l : List α, (l.filter fun v => decide (v < lo ∨ hi < v)).length ≤
      (l.filter fun x => decide (x < a)).length + (l.filter fun x => decide (b < x)).length := by
    intro l
    induction l with
    | nil => simp
    | cons x l ih =>
      simp only [List.filter_cons]
      by_cases c1 : x < a <;> by_cases c2 : b < x <;> by_cases c3 : x < lo ∨ hi < x <;>
        simp only [c1, c2, c3, decide_true, decide_false, if_true, Bool.false_eq_true, if_false, List.length_cons] <;> first | omega | skip
      exfalso
      rcases c3 with c3 | c3
      · exact c1 (by linarith)
      · exact c2 (by linarith)
  have k := key (scalars s)
  have : ((2 * ((scalars s).filter fun v => decide (v < lo ∨ hi < v)).length : Nat) : α) < ((s.count + 3 : Nat) : α) := by
    have : (((scalars s).filter fun v => decide (v < lo ∨ hi < v)).length : α) ≤
        (((scalars s).filter fun x => decide (x < a)).length : α) + (((scalars s).filter fun x => decide (b < x)).length : α) := by exact_mod_cast k
    push_cast
    linarith
  have := Nat.cast_lt.1 this
  show 2 * ((scalars s).filter fun v => decide (v < lo ∨ hi < v)).length ≤ _
  omega

example := C157_outliers stdSort_exists.choose_spec exQ_WF rfl (by decide) (m := 3 / 2) (by norm_num)

end

end DF
