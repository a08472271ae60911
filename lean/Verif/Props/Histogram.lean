import Verif.Props.Stats
import Verif.Spec.Histogram
import Mathlib.Algebra.BigOperators.Intervals
import Mathlib.Algebra.Order.BigOperators.Group.Finset
import Mathlib.Data.Nat.Find

/-!
# Reading a histogram (C158)

Exact arithmetic. `InBin` (Spec/Stats.lean) says in which bin a value is, `meanOfBins` (Spec/Histogram.lean) is the mean read from the histogram; the values are between `start` and `stop`.
-/

namespace DF

open Spec

variable {α : Type} [Field α] [LinearOrder α] [IsStrictOrderedRing α]

private theorem range_bound {nb : Nat} (hnb : 0 < nb) (hnb' : nb < 2 ^ 32) {start stop v : α} (hss : start < stop) (hv : start ≤ v ∧ v ≤ stop) :
    start ≤ v ∧ v < start + 2 ^ 32 * ((stop - start) / (nb : α)) := by
  have hnbpos : (0 : α) < nb := Nat.cast_pos.2 hnb
  have h32 : (nb : α) < 2 ^ 32 := by exact_mod_cast hnb'
  have hw : 0 < (stop - start) / (nb : α) := div_pos (by linarith) hnbpos
  have : (nb : α) * ((stop - start) / (nb : α)) < 2 ^ 32 * ((stop - start) / (nb : α)) := mul_lt_mul_of_pos_right h32 hw
  rw [mul_div_cancel₀ _ hnbpos.ne'] at this
  exact ⟨hv.1, by linarith [hv.2]⟩

/-- The values below the upper end of bin `i` are those below its lower end and those in it. -/
private theorem countP_next {l : List α} {start w : α} (hw : 0 < w) {nb i : Nat} (hi : i + 1 < nb) :
    l.countP (fun v => decide (v < start + ((i + 1 : Nat) : α) * w)) =
      l.countP (fun v => decide (v < start + (i : α) * w)) + l.countP (fun v => InBin start w nb i v) := by
  induction l with
  | nil => rfl
  | cons v l ih =>
    simp only [List.countP_cons, ih]
    have e : ((i + 1 : Nat) : α) = (i : α) + 1 := by push_cast; rfl
    rw [e]
    have hb : InBin start w nb i v ↔ start + (i : α) * w ≤ v ∧ v < start + ((i : α) + 1) * w := by
      unfold InBin; exact ⟨fun h => ⟨h.1, h.2 hi⟩, fun h => ⟨h.1, fun _ => h.2⟩⟩
    by_cases c1 : v < start + (i : α) * w
    · have c2 : v < start + ((i : α) + 1) * w := by nlinarith
      have c3 : ¬ InBin start w nb i v := fun h => absurd c1 (not_lt.2 (hb.1 h).1)
      simp [c1, c2, c3]; omega
    · by_cases c2 : v < start + ((i : α) + 1) * w
      · have c3 : InBin start w nb i v := hb.2 ⟨not_lt.1 c1, c2⟩
        simp [c1, c2, c3]; omega
      · have c3 : ¬ InBin start w nb i v := fun h => c2 (hb.1 h).2
        simp [c1, c2, c3]

private theorem take_sum {l : List α} {start w : α} (hw : 0 < w) {nb : Nat} {r : List α} (hr : r.length = nb)
    (hl : ∀ v ∈ l, start ≤ v)
    (hc : ∀ i, i < nb → r[i]? = some ((l.countP (fun v => InBin start w nb i v) : Nat) : α)) :
    ∀ i, i < nb → (r.take i).sum = ((l.countP (fun v => decide (v < start + (i : α) * w)) : Nat) : α)
  | 0, _ => by
    have : l.countP (fun v => decide (v < start + ((0 : Nat) : α) * w)) = 0 :=
      List.countP_eq_zero.2 fun v hv => by simpa using hl v hv
    rw [this]; simp
  | i + 1, h => by
    have ih := take_sum hw hr hl hc i (by omega)
    have hi := hc i (by omega)
    obtain ⟨hlt, he⟩ := List.getElem?_eq_some_iff.1 hi
    rw [List.take_add_one, hi, List.sum_append, ih, countP_next hw (by omega : i + 1 < nb)]
    simp

section

variable [FloorRing α]

/-- C158: the counts of the first `i` bins add up to the number of the values below the place where bin `i` begins. -/
theorem C158_below {s : Serie α} (h : WF s) (h1 : s.itemSize = 1) {nb : Nat} (hnb : 0 < nb) (hnb' : nb < 2 ^ 32) {start stop : α}
    (hss : start < stop) (hv : ∀ v ∈ scalars s, start ≤ v ∧ v ≤ stop) :
    ∃ r, binsIn s nb start stop = .ok r ∧ ∀ i, i < nb → ((scalars r).take i).sum =
      (((scalars s).countP (fun v => decide (v < start + (i : α) * ((stop - start) / (nb : α)))) : Nat) : α) := by
  obtain ⟨r, e, w, _, hc, _, hi⟩ := C44_bins_partial h h1 hnb hnb' hss (fun v hv' => range_bound hnb hnb' hss (hv v hv'))
  have hw : 0 < (stop - start) / (nb : α) := div_pos (by linarith) (Nat.cast_pos.2 hnb)
  exact ⟨r, e, take_sum hw (by rw [w.scalars_length, hc]) (fun v hv' => (hv v hv').1) hi⟩

example := C158_below exQ_WF rfl (nb := 3) (by decide) (by decide) (start := 0) (stop := 6) (by norm_num) (by decide +kernel)

/-- C158: a histogram with `k` times as many bins, read in groups of `k`, is the histogram. -/
theorem C158_refine {s : Serie α} (h : WF s) (h1 : s.itemSize = 1) {nb k : Nat} (hnb : 0 < nb) (hk : 0 < k) (hnb' : k * nb < 2 ^ 32)
    {start stop : α} (hss : start < stop) (hv : ∀ v ∈ scalars s, start ≤ v ∧ v ≤ stop) :
    ∃ r r', binsIn s nb start stop = .ok r ∧ binsIn s (k * nb) start stop = .ok r' ∧
      ∀ i, i < nb → (scalars r)[i]? = some (((scalars r').drop (k * i)).take k).sum := by
  have hkn : 0 < k * nb := Nat.mul_pos hk hnb
  have hlt : nb < 2 ^ 32 := by have := Nat.le_mul_of_pos_left nb hk; omega
  obtain ⟨r, e, w, _, hc, hs, hi⟩ := C44_bins_partial h h1 hnb hlt hss (fun v hv' => range_bound hnb hlt hss (hv v hv'))
  obtain ⟨r', e', w', _, hc', hs', hi'⟩ := C44_bins_partial h h1 hkn hnb' hss (fun v hv' => range_bound hkn hnb' hss (hv v hv'))
  have hn0 : (0 : α) < (nb : α) := Nat.cast_pos.2 hnb
  have hk0 : (0 : α) < (k : α) := Nat.cast_pos.2 hk
  have hw : 0 < (stop - start) / (nb : α) := div_pos (by linarith) hn0
  have hw' : 0 < (stop - start) / ((k * nb : Nat) : α) := div_pos (by linarith) (Nat.cast_pos.2 hkn)
  have hl : (scalars r).length = nb := by rw [w.scalars_length, hc]
  have hl' : (scalars r').length = k * nb := by rw [w'.scalars_length, hc']
  have t := take_sum hw hl (fun v hv' => (hv v hv').1) hi
  have t' := take_sum hw' hl' (fun v hv' => (hv v hv').1) hi'
  have both : ∀ i, i ≤ nb → ((scalars r).take i).sum = ((scalars r').take (k * i)).sum := by
    intro i hin
    rcases Nat.lt_or_ge i nb with hlt | hge
    · rw [t i hlt, t' (k * i) (Nat.mul_lt_mul_of_pos_left hlt hk)]
      congr 2
      funext v
      congr 3
      push_cast
      field_simp
    · have : i = nb := by omega
      subst this
      rw [List.take_of_length_le hl.le, List.take_of_length_le hl'.le, hs, hs']
  refine ⟨r, r', e, e', fun i hin => ?_⟩
  have hx : (scalars r)[i]? = some (scalars r)[i] := List.getElem?_eq_getElem (by omega)
  have b1 := both i (by omega)
  have b2 := both (i + 1) (by omega)
  rw [List.take_add_one, hx, List.sum_append, Nat.mul_succ, List.take_add, List.sum_append, b1] at b2
  rw [hx]
  simpa using add_left_cancel b2

example := C158_refine exQ_WF rfl (nb := 3) (k := 2) (by decide) (by decide) (by decide) (start := 0) (stop := 6) (by norm_num) (by decide +kernel)

end

omit [IsStrictOrderedRing α] in
private theorem exists_bin {nb : Nat} (hnb : 0 < nb) {start w v : α} (hv : start ≤ v) : ∃ j, j < nb ∧ InBin start w nb j v := by
  classical
  let P : Nat → Prop := fun j => start + (j : α) * w ≤ v
  have hP : P (Nat.findGreatest P (nb - 1)) := Nat.findGreatest_spec (m := 0) (Nat.zero_le _) (by simpa [P] using hv)
  have hle := Nat.findGreatest_le (P := P) (nb - 1)
  refine ⟨Nat.findGreatest P (nb - 1), by omega, hP, fun hlt => ?_⟩
  have := Nat.findGreatest_is_greatest (P := P) (n := nb - 1) (k := Nat.findGreatest P (nb - 1) + 1) (by omega) (by omega)
  have := not_le.1 this
  push_cast at this
  exact this

private theorem bin_unique {nb : Nat} {start w v : α} (hw : 0 < w) {i j : Nat} (hi : i < nb) (hj : j < nb) (h : InBin start w nb i v) (h' : InBin start w nb j v) :
    i = j := by
  have key : ∀ {i j : Nat}, i < j → j < nb → InBin start w nb i v → InBin start w nb j v → False := by
    intro i j hij hj h h'
    have a := h.2 (by omega)
    have b := h'.1
    have c : (i : α) + 1 ≤ (j : α) := by exact_mod_cast hij
    nlinarith
  rcases Nat.lt_trichotomy i j with h1 | h1 | h1
  · exact (key h1 hj h h').elim
  · exact h1
  · exact (key h1 hi h' h).elim

private theorem middle_near {nb : Nat} {start w v : α} {j : Nat} (hj : j < nb) (h : InBin start w nb j v)
    (hv : v ≤ start + (nb : α) * w) : |middle start w j - v| ≤ w / 2 := by
  have a := h.1
  have b : v ≤ start + ((j : α) + 1) * w := by
    rcases Nat.lt_or_ge (j + 1) nb with hlt | hge
    · exact (h.2 hlt).le
    · have : (nb : α) = (j : α) + 1 := by exact_mod_cast (by omega : nb = j + 1)
      rw [← this]; exact hv
  unfold middle
  rw [abs_le]
  constructor <;> nlinarith

private theorem middles_near {nb : Nat} (hnb : 0 < nb) {start w : α} (hw : 0 < w) : ∀ (l : List α), (∀ v ∈ l, start ≤ v ∧ v ≤ start + (nb : α) * w) →
    |(∑ i ∈ Finset.range nb, middle start w i * ((l.countP (fun v => InBin start w nb i v) : Nat) : α)) - l.sum| ≤ (l.length : α) * (w / 2)
  | [], _ => by simp
  | v :: l, h => by
    have ih := middles_near hnb hw l (fun x hx => h x (List.mem_cons_of_mem _ hx))
    obtain ⟨j, hj, hb⟩ := exists_bin (w := w) hnb (h v List.mem_cons_self).1
    have e : ∑ i ∈ Finset.range nb, middle start w i * (((v :: l).countP (fun v => InBin start w nb i v) : Nat) : α) =
        ∑ i ∈ Finset.range nb, middle start w i * ((l.countP (fun v => InBin start w nb i v) : Nat) : α) + middle start w j := by
      have s1 : ∑ i ∈ Finset.range nb, (if InBin start w nb i v then middle start w i else 0) = middle start w j := by
        rw [Finset.sum_eq_single j]
        · rw [if_pos hb]
        · intro i hi hne
          exact if_neg fun h' => hne (bin_unique hw (Finset.mem_range.1 hi) hj h' hb)
        · intro hn; exact absurd (Finset.mem_range.2 hj) hn
      rw [← s1, ← Finset.sum_add_distrib]
      refine Finset.sum_congr rfl fun i _ => ?_
      rw [List.countP_cons]
      by_cases c : InBin start w nb i v
      · simp only [c, decide_true, if_true]; push_cast; ring
      · simp [c]
    rw [e, List.sum_cons, List.length_cons]
    have n := middle_near hj hb (h v List.mem_cons_self).2
    have : ∑ i ∈ Finset.range nb, middle start w i * ((l.countP (fun v => InBin start w nb i v) : Nat) : α) + middle start w j - (v + l.sum) =
        (∑ i ∈ Finset.range nb, middle start w i * ((l.countP (fun v => InBin start w nb i v) : Nat) : α) - l.sum) + (middle start w j - v) := by ring
    rw [this]
    refine (abs_add_le _ _).trans ?_
    push_cast
    linarith

/-- C158: the mean read from the histogram differs from the mean of the values at most by half the width of a bin. -/
theorem C158_mean [FloorRing α] {s : Serie α} (h : WF s) (h1 : s.itemSize = 1) (h0 : 0 < s.count) {nb : Nat} (hnb : 0 < nb) (hnb' : nb < 2 ^ 32)
    {start stop : α} (hss : start < stop) (hv : ∀ v ∈ scalars s, start ≤ v ∧ v ≤ stop) :
    ∃ r m, binsIn s nb start stop = .ok r ∧ mean s = .ok (.number m) ∧
      |meanOfBins start ((stop - start) / (nb : α)) (scalars r) - m| ≤ (stop - start) / (nb : α) / 2 := by
  obtain ⟨r, e, w, _, hc, hs, hi⟩ := C44_bins_partial h h1 hnb hnb' hss (fun v hv' => range_bound hnb hnb' hss (hv v hv'))
  have hn0 : (0 : α) < (nb : α) := Nat.cast_pos.2 hnb
  have hc0 : (0 : α) < (s.count : α) := Nat.cast_pos.2 h0
  have hw : 0 < (stop - start) / (nb : α) := div_pos (by linarith) hn0
  refine ⟨r, _, e, mean_scalar h h1, ?_⟩
  have m := middles_near hnb hw (scalars s) (fun v hv' => ⟨(hv v hv').1, by rw [mul_div_cancel₀ _ hn0.ne']; linarith [(hv v hv').2]⟩)
  have e2 : ((scalars r).mapIdx fun i c => middle start ((stop - start) / (nb : α)) i * c).sum =
      ∑ i ∈ Finset.range nb, middle start ((stop - start) / (nb : α)) i *
        (((scalars s).countP (fun v => InBin start ((stop - start) / (nb : α)) nb i v) : Nat) : α) := by
    have : ((scalars r).mapIdx fun i c => middle start ((stop - start) / (nb : α)) i * c) = (List.range nb).map fun i =>
        middle start ((stop - start) / (nb : α)) i * (((scalars s).countP (fun v => InBin start ((stop - start) / (nb : α)) nb i v) : Nat) : α) := by
      refine List.ext_getElem (by simp [w.scalars_length, hc]) fun i hi1 hi2 => ?_
      simp only [List.length_map, List.length_range] at hi2
      have := hi i hi2
      obtain ⟨_, he⟩ := List.getElem?_eq_some_iff.1 this
      simp [he]
    rw [this]
    rfl
  unfold meanOfBins
  rw [e2, hs, ← sub_div, abs_div, abs_of_pos hc0, div_le_iff₀ hc0]
  rw [h.scalars_length] at m
  linarith

example := C158_mean exQ_WF rfl (by decide) (nb := 3) (by decide) (by decide) (start := 0) (stop := 6) (by norm_num) (by decide +kernel)

end DF
