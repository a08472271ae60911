import Verif.Props.Units
import Verif.Props.Laws
import Verif.Props.Best

/-!
# Sorted Series, and statistics of Series that are compared number by number (C160)

`scalars s` are the numbers of the scalar Serie `s`.
-/

namespace DF

open Spec

variable {α : Type}

section order

variable [LinearOrder α]

private theorem rank_sorted {v : α} : ∀ {xs : List α}, xs.Pairwise (· ≤ ·) → ∀ {k : Nat} {x : α}, xs[k]? = some x →
    (x ≤ v ↔ k < xs.countP (fun y => decide (y ≤ v)))
  | [], _, k, x, h => by simp at h
  | a :: l, hs, k, x, h => by
    rw [List.pairwise_cons] at hs
    by_cases ha : a ≤ v
    · rw [List.countP_cons_of_pos (by simpa using ha)]
      cases k with
      | zero => simp at h; subst h; simp [ha]
      | succ k =>
        rw [List.getElem?_cons_succ] at h
        rw [rank_sorted hs.2 h]; omega
    · have hz : (a :: l).countP (fun y => decide (y ≤ v)) = 0 := by
        rw [List.countP_eq_zero]
        intro y hy
        rcases List.mem_cons.1 hy with rfl | hy
        · simpa using ha
        · simpa using (lt_of_not_ge ha).trans_le (hs.1 y hy)
      have hx : a ≤ x := by
        rcases List.mem_cons.1 (List.mem_of_getElem? h) with rfl | hy
        · exact le_refl _
        · exact hs.1 x hy
      rw [hz]
      simpa using (lt_of_not_ge ha).trans_le hx

variable [Zero α]

/-- C160: number `k` of `sort(s)` is at most `v` exactly when more than `k` numbers of `s` are. -/
theorem C160_rank {srt : StdSort} (hs : srt.Correct) {s : Serie α} (h : WF s) (h1 : s.itemSize = 1) :
    ∃ t, sortDefault srt s = .ok t ∧ WF t ∧ t.itemSize = 1 ∧ t.count = s.count ∧ ∀ k, k < s.count → ∃ x, (scalars t)[k]? = some x ∧
      ∀ v, x ≤ v ↔ k < (scalars s).countP (fun y => decide (y ≤ v)) := by
  obtain ⟨xs, e, hp, ho⟩ := C29_sort_numbers hs h h1
  have hl : xs.length = s.count := by rw [hp.length_eq, h.scalars_length]
  refine ⟨_, e, WF_ofScalars (by rw [hl]; exact h.count_lt), rfl, hl, fun k hk => ⟨xs[k], ?_, fun v => ?_⟩⟩
  · rw [scalars_ofScalars, List.getElem?_eq_getElem (by omega)]
  · rw [rank_sorted ho (List.getElem?_eq_getElem (by omega : k < xs.length)), hp.countP_eq]

example := C160_rank stdSort_exists.choose_spec exQ_WF rfl

omit [Zero α] in
private theorem firstFrom {v : α} {xs : List α} (hs : xs.Pairwise (· ≤ ·)) {i : Nat} {x : α} (h : xs[i]? = some x) :
    v ≤ x ↔ xs.countP (fun y => decide (y < v)) ≤ i := by
  induction xs generalizing i with
  | nil => simp at h
  | cons a l ih =>
    rw [List.pairwise_cons] at hs
    by_cases ha : a < v
    · rw [List.countP_cons_of_pos (by simpa using ha)]
      cases i with
      | zero => simp at h; subst h; simpa using ha
      | succ i => rw [ih hs.2 h]; omega
    · have hz : (a :: l).countP (fun y => decide (y < v)) = 0 := by
        rw [List.countP_eq_zero]
        intro y hy
        rcases List.mem_cons.1 hy with rfl | hy
        · simpa using ha
        · simpa using (not_lt.1 ha).trans (hs.1 y hy)
      have hx : a ≤ x := by
        rcases List.mem_cons.1 (List.mem_of_getElem? h) with rfl | hy
        · exact le_refl _
        · exact hs.1 x hy
      rw [hz]
      simpa using (not_lt.1 ha).trans hx

/-- C160: in `sort(s)`, `find` gives the first number that is at least `v` at the index that counts the numbers of `s` below `v`, and finds none when all
are below. -/
theorem C160_find {srt : StdSort} (hs : srt.Correct) {s : Serie α} (h : WF s) (h1 : s.itemSize = 1) (v : α) :
    ∃ t, sortDefault srt s = .ok t ∧
      ((scalars s).countP (fun y => decide (y < v)) = s.count →
        (findS (logged fun x _ => .ok (decide (v ≤ x))) t []).1 = .ok ⟨0, 0, false⟩) ∧
      ((scalars s).countP (fun y => decide (y < v)) < s.count → ∃ x, v ≤ x ∧ (∀ y ∈ scalars s, v ≤ y → x ≤ y) ∧ x ∈ scalars s ∧
        (findS (logged fun x _ => .ok (decide (v ≤ x))) t []).1 = .ok ⟨x, (scalars s).countP (fun y => decide (y < v)), true⟩) := by
  obtain ⟨xs, e, hp, ho⟩ := C29_sort_numbers hs h h1
  have hl : xs.length = s.count := by rw [hp.length_eq, h.scalars_length]
  have hw : WF (ofScalars xs) := WF_ofScalars (by rw [hl]; exact h.count_lt)
  obtain ⟨f1, f2⟩ := C14_find_number hw rfl (fun x _ => .ok (decide (v ≤ x)))
  simp only [scalars_ofScalars] at f1 f2
  rw [← hp.countP_eq]
  have key : ∀ i (hi : i < xs.length), v ≤ xs[i] ↔ xs.countP (fun y => decide (y < v)) ≤ i := fun i hi =>
    firstFrom ho (List.getElem?_eq_getElem hi)
  refine ⟨_, e, fun ha => ?_, fun hb => ?_⟩
  · rw [f1 fun i hi => ?_]
    rw [Res.ok.injEq, decide_eq_false_iff_not, key i hi]; omega
  · have hk : xs.countP (fun y => decide (y < v)) < xs.length := by omega
    refine ⟨xs[xs.countP (fun y => decide (y < v))], (key _ hk).2 (le_refl _), fun y hy hv => ?_, hp.mem_iff.1 (List.getElem_mem _), ?_⟩
    · obtain ⟨i, hi, rfl⟩ := List.getElem_of_mem (hp.mem_iff.2 hy)
      have := (key i hi).1 hv
      rcases this.eq_or_lt with he | he
      · simp [he]
      · exact (List.pairwise_iff_getElem.1 ho) _ _ hk hi he
    · rw [(f2 _ hk fun i hi hik => ?_).1 ?_]
      · rw [Res.ok.injEq, decide_eq_true_iff, key _ hk]
      · rw [Res.ok.injEq, decide_eq_false_iff_not, key i hi]; omega

example := C160_find stdSort_exists.choose_spec exQ_WF rfl 2

/-- C160: `minMax(s)` gives the first and the last number of `sort(s)`. -/
theorem C160_ends [Limits α] {srt : StdSort} (hs : srt.Correct) {s : Serie α} (h : WF s) (h1 : s.itemSize = 1) (h0 : 0 < s.count)
    (hlim : ∀ x ∈ s.data, Limits.lowest ≤ x ∧ x ≤ Limits.highest) :
    ∃ t a b, sortDefault srt s = .ok t ∧ minMax s = .ok ([a], [b]) ∧ (scalars t).head? = some a ∧ (scalars t).getLast? = some b := by
  obtain ⟨xs, e, hp, ho⟩ := C29_sort_numbers hs h h1
  have hl : xs.length = s.count := by rw [hp.length_eq, h.scalars_length]
  obtain ⟨mn, mx, em, l1, l2, hj⟩ := C39_minMax h h0 hlim
  obtain ⟨a, b, ea, eb, la, gb⟩ := hj 0 (by omega)
  rw [h1] at l1 l2
  obtain ⟨a', rfl⟩ := List.length_eq_one_iff.1 l1
  obtain ⟨b', rfl⟩ := List.length_eq_one_iff.1 l2
  simp only [List.getElem?_cons_zero, Option.some.injEq] at ea eb
  subst ea eb
  rw [component_scalar h h1] at la gb
  have hne : xs ≠ [] := by intro he; rw [he] at hl; simp at hl; omega
  refine ⟨_, a', b', e, em, ?_, ?_⟩
  · rw [scalars_ofScalars, List.head?_eq_some_head hne]
    refine congrArg some (le_antisymm ?_ (la.2 _ (hp.mem_iff.1 (List.head_mem hne))))
    obtain ⟨i, hi, rfl⟩ := List.getElem_of_mem (hp.mem_iff.2 la.1)
    rw [List.head_eq_getElem]
    rcases Nat.eq_zero_or_pos i with rfl | hi0
    · exact le_refl _
    · exact (List.pairwise_iff_getElem.1 ho) 0 i _ hi hi0
  · rw [scalars_ofScalars, List.getLast?_eq_some_getLast hne]
    refine congrArg some (le_antisymm (gb.2 _ (hp.mem_iff.1 (List.getLast_mem hne))) ?_)
    obtain ⟨i, hi, rfl⟩ := List.getElem_of_mem (hp.mem_iff.2 gb.1)
    rw [List.getLast_eq_getElem]
    rcases (Nat.le_sub_one_of_lt hi).eq_or_lt with he | hlt
    · simp [he]
    · exact (List.pairwise_iff_getElem.1 ho) i _ hi (by omega) hlt

example := @C160_ends ℚ _ _ ⟨1000, -1000⟩ _ stdSort_exists.choose_spec _ exQ_WF rfl (by decide) (by decide +kernel)

/-- C160: the parts into which `partition_n` divides a sorted Serie are sorted, and no number of a part is greater than a number of a later part. -/
theorem C160_parts {srt : StdSort} (hs : srt.Correct) {s : Serie α} (h : WF s) (h1 : s.itemSize = 1) {n : Nat} (hn : 0 < n) :
    ∃ t parts, sortDefault srt s = .ok t ∧ partitionN n t = .ok parts ∧ (parts.map scalars).flatten.Perm (scalars s) ∧
      (∀ p ∈ parts, (scalars p).Pairwise (· ≤ ·)) ∧
      parts.Pairwise (fun p q => ∀ x ∈ scalars p, ∀ y ∈ scalars q, x ≤ y) := by
  obtain ⟨xs, e, hp, ho⟩ := C29_sort_numbers hs h h1
  have hl : xs.length = s.count := by rw [hp.length_eq, h.scalars_length]
  have hw : WF (ofScalars xs) := WF_ofScalars (by rw [hl]; exact h.count_lt)
  obtain ⟨parts, ep, _, hwp, hf, _, _⟩ := C23_partition hw hn
  have hfl : (parts.map scalars).flatten = xs := by
    rw [items_scalar rfl hw.count_le, scalars_ofScalars] at hf
    have e1 : parts.map items = parts.map (fun p => (scalars p).map fun x => [x]) :=
      List.map_congr_left fun p hp' => items_scalar (hwp p hp').2 (hwp p hp').1.count_le
    rw [e1] at hf
    have hi : Function.Injective (fun x : α => [x]) := fun a b hab => by simpa using hab
    apply List.map_injective_iff.2 hi
    rw [← hf, List.map_flatten, List.map_map]
    rfl
  have ho' := ho
  rw [← hfl, List.pairwise_flatten] at ho'
  refine ⟨_, parts, e, ep, by rw [hfl]; exact hp, fun p hp' => ho'.1 _ (List.mem_map_of_mem hp'), ?_⟩
  exact List.pairwise_map.1 ho'.2

example := C160_parts stdSort_exists.choose_spec exQ_WF rfl (n := 2) (by decide)

/-- C160: to sort pieces and then the pieces put together gives the same as to sort everything at once. -/
theorem C160_pieces {srt : StdSort} (hs : srt.Correct) {ss : List (Serie α)} (hne : ss ≠ []) (hw : ∀ s ∈ ss, WF s ∧ s.itemSize = 1)
    (hn : (ss.map (·.count)).sum < 2 ^ 32) :
    ∃ ts, ss.mapM (sortDefault srt) = .ok ts ∧ (concat ts >>= sortDefault srt) = (concat ss >>= sortDefault srt) := by
  have key : ∀ ss : List (Serie α), (∀ s ∈ ss, WF s ∧ s.itemSize = 1) → ∃ ts, ss.mapM (sortDefault srt) = .ok ts ∧
      (∀ t ∈ ts, WF t ∧ t.itemSize = 1) ∧ ts.map (·.count) = ss.map (·.count) ∧ (ts.map scalars).flatten.Perm (ss.map scalars).flatten := by
    intro ss
    induction ss with
    | nil => intro _; exact ⟨[], rfl, by simp, rfl, List.Perm.refl _⟩
    | cons s ss ih =>
      intro hw
      obtain ⟨ts, e, w, c, p⟩ := ih fun s' hs' => hw s' (List.mem_cons_of_mem _ hs')
      obtain ⟨h, h1⟩ := hw s List.mem_cons_self
      obtain ⟨xs, e', hp, _⟩ := C29_sort_numbers hs h h1
      have hl : xs.length = s.count := by rw [hp.length_eq, h.scalars_length]
      refine ⟨ofScalars xs :: ts, ?_, ?_, ?_, ?_⟩
      · rw [List.mapM_cons, e', Res.ok_bind, e]; rfl
      · intro t ht
        rcases List.mem_cons.1 ht with rfl | ht
        · exact ⟨WF_ofScalars (by rw [hl]; exact h.count_lt), rfl⟩
        · exact w t ht
      · simp only [List.map_cons, c]
        congr 1
      · simp only [List.map_cons, List.flatten_cons, scalars_ofScalars]
        exact hp.append p
  obtain ⟨ts, e, w, c, p⟩ := key ss hw
  refine ⟨ts, e, ?_⟩
  have hne' : ts ≠ [] := by
    intro he
    rw [he] at c
    exact hne (List.map_eq_nil_iff.1 c.symm)
  have hn' : (ts.map (·.count)).sum < 2 ^ 32 := by rw [c]; exact hn
  rw [concat_scalars hne hw hn, concat_scalars hne' w hn', Res.ok_bind, Res.ok_bind]
  obtain ⟨xs, e1, p1, o⟩ := C29_sort_numbers hs (WF_ofScalars (xs := (ss.map scalars).flatten) (by rw [scalars_sum hw]; exact hn)) rfl
  obtain ⟨ys, e2, p2, o'⟩ := C29_sort_numbers hs (WF_ofScalars (xs := (ts.map scalars).flatten) (by rw [scalars_sum w]; exact hn')) rfl
  rw [scalars_ofScalars] at p1 p2
  rw [e1, e2, (p2.trans (p.trans p1.symm)).eq_of_pairwise (fun _ _ _ _ => le_antisymm) o' o]

example := C160_pieces stdSort_exists.choose_spec (ss := [exQ, ofScalars [2, 1]]) (by simp) (by decide) (by decide)

end order

section arithmetic

variable [Field α] [LinearOrder α] [IsStrictOrderedRing α]

/-- C160: the numbers of `sort(negate(s))` are those of `sort(s)` in reverse order, with the sign changed. -/
theorem C160_negate {srt : StdSort} (hs : srt.Correct) {s : Serie α} (h : WF s) (h1 : s.itemSize = 1) (h0 : 0 < s.count) :
    ∃ t u, sortDefault srt s = .ok t ∧ (negate s >>= sortDefault srt) = .ok u ∧ scalars u = ((scalars t).map (- ·)).reverse := by
  obtain ⟨xs, e, hp, ho⟩ := C29_sort_numbers hs h h1
  have hw : WF (ofScalars ((scalars s).map (- ·))) := WF_ofScalars (by rw [List.length_map, h.scalars_length]; exact h.count_lt)
  obtain ⟨ys, e', hp', ho'⟩ := C29_sort_numbers hs hw rfl
  refine ⟨_, _, e, by rw [C36_negate h h0, Res.ok_bind, scalars_onNumbers h h1]; exact e', ?_⟩
  rw [scalars_ofScalars, scalars_ofScalars]
  rw [scalars_ofScalars] at hp'
  refine (hp'.trans ((hp.symm.map _).trans (List.reverse_perm _).symm)).eq_of_pairwise (fun _ _ _ _ => le_antisymm) ho' ?_
  rw [List.pairwise_reverse, List.pairwise_map]
  exact ho.imp fun hab => neg_le_neg hab

example := C160_negate stdSort_exists.choose_spec exQ_WF rfl (by decide)

private theorem sorted_close {xs ys l m : List α} (hx : SortedFrom xs l) (hy : SortedFrom ys m) {d : α}
    (hlm : List.Forall₂ (fun x y => x ≤ y + d) l m) {k : Nat} {x y : α} (ex : xs[k]? = some x) (ey : ys[k]? = some y) : x ≤ y + d := by
  rw [rank_sorted hx.2 ex]
  have h2 := (rank_sorted hy.2 ey (v := y)).1 (le_refl _)
  rw [hx.1.countP_eq]
  rw [hy.1.countP_eq] at h2
  refine h2.trans_le ?_
  clear h2 ex ey hx hy
  induction hlm with
  | nil => simp
  | @cons a b l m hab _ ih =>
    simp only [List.countP_cons]
    have : (if decide (b ≤ y) = true then 1 else 0) ≤ (if decide (a ≤ y + d) = true then 1 else 0) := by
      split
      · rename_i hb
        rw [if_pos (by simp only [decide_eq_true_eq] at hb ⊢; linarith)]
      · exact Nat.zero_le _
    omega

private theorem interpolates_close {xs ys : List α} (hl : xs.length = ys.length) {d q v w : α}
    (hk : ∀ (k : Nat) (x y : α), xs[k]? = some x → ys[k]? = some y → x ≤ y + d) (hv : Interpolates xs q v) (hw : Interpolates ys q w) : v ≤ w + d := by
  obtain ⟨k, r, a, b, r0, r1, er, ea, eb, rfl⟩ := hv
  obtain ⟨k', r', a', b', r0', r1', er', ea', eb', rfl⟩ := hw
  rw [hl, er'] at er
  have hkk : k = k' := by
    rcases Nat.lt_trichotomy k k' with hlt | rfl | hlt
    · have : ((k : α) + 1) ≤ k' := by exact_mod_cast hlt
      linarith
    · rfl
    · have : ((k' : α) + 1) ≤ k := by exact_mod_cast hlt
      linarith
  subst hkk
  have hrr : r' = r := by linarith
  subst hrr
  have h1 := hk k a a' ea ea'
  rcases eb with eb | e0
  · rcases eb' with eb' | e0
    · have h2 := hk (k + 1) b b' eb eb'
      have e1 : a + r' * (b - a) = (1 - r') * a + r' * b := by ring
      have e2 : a' + r' * (b' - a') + d = (1 - r') * (a' + d) + r' * (b' + d) := by ring
      rw [e1, e2]
      exact add_le_add (mul_le_mul_of_nonneg_left h1 (by linarith)) (mul_le_mul_of_nonneg_left h2 r0)
    · subst e0; linarith
  · subst e0; linarith

private theorem sum_close {d : α} {l m : List α} (h : List.Forall₂ (fun x y => x ≤ y + d) l m) : l.sum ≤ m.sum + (m.length : α) * d := by
  induction h with
  | nil => simp
  | cons hab _ ih =>
    simp only [List.sum_cons, List.length_cons]
    push_cast
    linarith

private theorem mean_close {s t : Serie α} (h : WF s) (h' : WF t) (h0 : 0 < s.count)
    (hc : s.count = t.count) {d : α} (hle : List.Forall₂ (fun x y => x ≤ y + d) (scalars s) (scalars t)) :
    average (scalars s) ≤ average (scalars t) + d := by
  have hn : (0 : α) < (t.count : α) := Nat.cast_pos.2 (by omega)
  unfold average
  rw [h.scalars_length, h'.scalars_length, hc, div_add' _ _ _ hn.ne', div_le_div_iff_of_pos_right hn]
  have := sum_close hle
  rw [h'.scalars_length] at this
  linarith

variable [FloorRing α]

/-- C160: the quantile at `k / (n - 1)` is number `k` of `sort(s)`. -/
theorem C160_quantile {srt : StdSort} (hs : srt.Correct) {s : Serie α} (h : WF s) (h1 : s.itemSize = 1) {k : Nat} (hk : k < s.count) :
    ∃ t x, sortDefault srt s = .ok t ∧ (scalars t)[k]? = some x ∧ quantile srt s ((k : α) / ((s.count : α) - 1)) = .ok x := by
  obtain ⟨xs, e, hp, ho⟩ := C29_sort_numbers hs h h1
  have hl : xs.length = s.count := by rw [hp.length_eq, h.scalars_length]
  have hkn : (k : α) ≤ (s.count : α) - 1 := by
    have : ((k + 1 : Nat) : α) ≤ (s.count : α) := Nat.cast_le.2 hk
    push_cast at this; linarith
  have hk0 : (0 : α) ≤ (k : α) := Nat.cast_nonneg k
  obtain ⟨ys, v, sy, ev, hi⟩ := C47_interpolates hs h h1 (by omega) (q := (k : α) / ((s.count : α) - 1)) (div_nonneg hk0 (hk0.trans hkn))
    (div_le_one_of_le₀ hkn (hk0.trans hkn))
  have := SortedFrom.unique sy ⟨hp, ho⟩ (List.Perm.refl _)
  subst this
  obtain ⟨k', r, a, b, r0, r1, er, ea, eb, rfl⟩ := hi
  rw [hl] at er
  have er' : (k : α) = (k' : α) + r := by
    rw [← er]
    rcases eq_or_ne ((s.count : α) - 1) 0 with hz | hz
    · rw [hz] at hkn ⊢
      simp; exact_mod_cast le_antisymm hkn hk0
    · rw [mul_div_cancel₀ _ hz]
  have hkk : k = k' := by
    rcases Nat.lt_trichotomy k k' with hlt | rfl | hlt
    · have : ((k : α) + 1) ≤ k' := by exact_mod_cast hlt
      linarith
    · rfl
    · have : ((k' : α) + 1) ≤ k := by exact_mod_cast hlt
      linarith
  subst hkk
  have : r = 0 := by linarith
  subst this
  refine ⟨_, a, e, by rw [scalars_ofScalars]; exact ea, by rw [ev]; simp⟩

example := C160_quantile stdSort_exists.choose_spec exQ_WF rfl (k := 3) (by decide)

/-- C160: when each number of `s` is at most the number of `t` at the same place plus `d`, the same holds of the sorted Series, of the means and of every
quantile. With `d = 0`: smaller numbers give smaller statistics. -/
theorem C160_dominated {srt : StdSort} (hs : srt.Correct) {s t : Serie α} (h : WF s) (h' : WF t) (h1 : s.itemSize = 1) (h1' : t.itemSize = 1)
    (h0 : 0 < s.count) {d : α} (hle : List.Forall₂ (fun x y => x ≤ y + d) (scalars s) (scalars t)) :
    (∃ a b, sortDefault srt s = .ok a ∧ sortDefault srt t = .ok b ∧ List.Forall₂ (fun x y => x ≤ y + d) (scalars a) (scalars b)) ∧
    (∃ m m', mean s = .ok (.number m) ∧ mean t = .ok (.number m') ∧ m ≤ m' + d) ∧
    ∀ q, 0 ≤ q → q ≤ 1 → ∃ v v', quantile srt s q = .ok v ∧ quantile srt t q = .ok v' ∧ v ≤ v' + d := by
  have hc : s.count = t.count := by rw [← h.scalars_length, ← h'.scalars_length, hle.length_eq]
  refine ⟨?_, ⟨_, _, mean_average h h1, mean_average h' h1', mean_close h h' h0 hc hle⟩, fun q q0 q1 => ?_⟩
  · obtain ⟨xs, e, hp, ho⟩ := C29_sort_numbers hs h h1
    obtain ⟨ys, e', hp', ho'⟩ := C29_sort_numbers hs h' h1'
    refine ⟨_, _, e, e', ?_⟩
    rw [scalars_ofScalars, scalars_ofScalars, List.forall₂_iff_get]
    have hl : xs.length = ys.length := by rw [hp.length_eq, hp'.length_eq, hle.length_eq]
    refine ⟨hl, fun i hi hi' => ?_⟩
    exact sorted_close ⟨hp, ho⟩ ⟨hp', ho'⟩ hle (List.getElem?_eq_getElem hi) (List.getElem?_eq_getElem hi')
  · obtain ⟨xs, v, sx, ev, hi⟩ := C47_interpolates hs h h1 h0 q0 q1
    obtain ⟨ys, w, sy, ew, hi'⟩ := C47_interpolates hs h' h1' (by omega) q0 q1
    exact ⟨v, w, ev, ew, interpolates_close (by rw [sx.1.length_eq, sy.1.length_eq, hle.length_eq])
      (fun k x y => sorted_close sx sy hle) hi hi'⟩

example := C160_dominated stdSort_exists.choose_spec (s := exQ) (t := ofScalars [2, 1, 3, 2, 4]) (d := 1) exQ_WF (by decide) rfl rfl (by decide)
  (by simp [scalars, exQ, ofScalars]; norm_num)

/-- C160: when the numbers of two Series differ by at most `d` at every place, so do the numbers of the sorted Series, the means and the quantiles, and the
IQR differs by at most `2 d`. -/
theorem C160_close {srt : StdSort} (hs : srt.Correct) {s t : Serie α} (h : WF s) (h' : WF t) (h1 : s.itemSize = 1) (h1' : t.itemSize = 1)
    (h0 : 0 < s.count) {d : α} (hle : List.Forall₂ (fun x y => |x - y| ≤ d) (scalars s) (scalars t)) :
    (∃ a b, sortDefault srt s = .ok a ∧ sortDefault srt t = .ok b ∧ List.Forall₂ (fun x y => |x - y| ≤ d) (scalars a) (scalars b)) ∧
    (∃ m m', mean s = .ok (.number m) ∧ mean t = .ok (.number m') ∧ |m - m'| ≤ d) ∧
    (∀ q, 0 ≤ q → q ≤ 1 → ∃ v v', quantile srt s q = .ok v ∧ quantile srt t q = .ok v' ∧ |v - v'| ≤ d) ∧
    ∃ i i', iqr srt s = .ok i ∧ iqr srt t = .ok i' ∧ |i - i'| ≤ 2 * d := by
  have c1 : List.Forall₂ (fun x y => x ≤ y + d) (scalars s) (scalars t) := hle.imp fun x y hxy => by linarith [(abs_le.1 hxy).2]
  have c2 : List.Forall₂ (fun x y => x ≤ y + d) (scalars t) (scalars s) := hle.flip.imp fun x y hxy => by linarith [(abs_le.1 hxy).1]
  have hc : s.count = t.count := by rw [← h.scalars_length, ← h'.scalars_length, hle.length_eq]
  obtain ⟨⟨a, b, ea, eb, f1⟩, ⟨m, m', em, em', g1⟩, q1⟩ := C160_dominated hs h h' h1 h1' h0 c1
  obtain ⟨⟨b2, a2, eb2, ea2, f2⟩, ⟨m2', m2, em2', em2, g2⟩, q2⟩ := C160_dominated hs h' h h1' h1 (by omega) c2
  rw [ea] at ea2; cases ea2
  rw [eb] at eb2; cases eb2
  rw [em] at em2; cases em2
  rw [em'] at em2'; cases em2'
  have hq : ∀ q, 0 ≤ q → q ≤ 1 → ∃ v v', quantile srt s q = .ok v ∧ quantile srt t q = .ok v' ∧ |v - v'| ≤ d := by
    intro q h0' h1''
    obtain ⟨v, w, ev, ew, l1⟩ := q1 q h0' h1''
    obtain ⟨w2, v2, ew2, ev2, l2⟩ := q2 q h0' h1''
    rw [ev] at ev2; cases ev2
    rw [ew] at ew2; cases ew2
    exact ⟨v, w, ev, ew, abs_le.2 ⟨by linarith, by linarith⟩⟩
  refine ⟨⟨a, b, ea, eb, ?_⟩, ⟨m, m', em, em', abs_le.2 ⟨by linarith, by linarith⟩⟩, hq, ?_⟩
  · rw [List.forall₂_iff_get] at f1 f2 ⊢
    exact ⟨f1.1, fun i hi hi' => abs_le.2 ⟨by linarith [f2.2 i hi' hi], by linarith [f1.2 i hi hi']⟩⟩
  · obtain ⟨a1, _, b1, ea1, _, eb1, _, _, _, ei, _, _⟩ := C47_quartiles hs h h1 h0
    obtain ⟨a1', _, b1', ea1', _, eb1', _, _, _, ei', _, _⟩ := C47_quartiles hs h' h1' (by omega)
    obtain ⟨v, w, ev, ew, l1⟩ := hq (1 / 4) (by positivity) (by norm_num)
    obtain ⟨v', w', ev', ew', l2⟩ := hq (3 / 4) (by positivity) (by norm_num)
    rw [ea1] at ev; cases ev
    rw [ea1'] at ew; cases ew
    rw [eb1] at ev'; cases ev'
    rw [eb1'] at ew'; cases ew'
    refine ⟨_, _, ei, ei', ?_⟩
    rw [abs_le] at l1 l2 ⊢
    constructor <;> linarith [l1.1, l1.2, l2.1, l2.2]

example := C160_close stdSort_exists.choose_spec (s := exQ) (t := ofScalars [2, 1, 3, 2, 4]) (d := 1) exQ_WF (by decide) rfl rfl (by decide)
  (by simp [scalars, exQ, ofScalars]; norm_num)

end arithmetic

end DF
