import Verif.Props.Special

/-!
# Quantiles, outliers and bins with special values (C102-C104)

The numbers are `Ext α`, as in Props/Special.
-/

namespace DF

open Spec

variable {α : Type}

/-! ## C102: quantile -/

section
variable [Field α] [LinearOrder α] [IsStrictOrderedRing α] [FloorRing α]

theorem Ext.toU32_nat {m : Nat} (h : m < 2 ^ 32) : Trunc.toU32 (Ext.fin (m : α)) = .ok m := DF.toU32_nat h

/-- What `quantile` computes from the sorted values. -/
theorem quantile_ext_run {srt : StdSort} {s : Serie (Ext α)} (h : WF s) (h1 : s.itemSize = 1) (h0 : 0 < s.count)
    {xs : List (Ext α)} (he : sortDefault srt s = .ok (ofScalars xs)) (hn : xs.length = s.count) {q : α} (hq0 : 0 ≤ q) (hq1 : q ≤ 1) :
    ∃ (k : Nat) (v a : Ext α), quantile srt s (.fin q) = .ok v ∧ (k : α) ≤ ((s.count : α) - 1) * q ∧
      ((s.count : α) - 1) * q < (k : α) + 1 ∧ xs[k]? = some a ∧
      ((∃ b, xs[k + 1]? = some b ∧ v = a + .fin (((s.count : α) - 1) * q - k) * (b - a)) ∨
       (s.count = k + 1 ∧ ((s.count : α) - 1) * q = k ∧ v = a)) := by
  have hn32 := h.count_lt
  have c0 : ¬ ((Ext.fin q : Ext α) < 0 ∨ (Ext.fin q : Ext α) > 1) := by
    rw [not_or]
    exact ⟨fun hc => absurd (show q < 0 from hc) (not_lt.2 hq0), fun hc => absurd (show 1 < q from hc) (not_lt.2 hq1)⟩
  unfold quantile
  rw [h.valid, if_neg (by simp), if_neg (by simpa using h1), if_neg c0, he, Res.ok_bind]
  have hd : (ofScalars xs).data = xs := rfl
  simp only [hd]
  rw [if_neg (by omega), hn]
  have hcast : ((s.count - 1 : Nat) : α) = (s.count : α) - 1 := by rw [Nat.cast_sub (by omega), Nat.cast_one]
  have hP : (((s.count - 1 : Nat) : Ext α)) * Ext.fin q = Ext.fin (((s.count : α) - 1) * q) := by
    rw [← hcast]; rfl
  have hnn : (0 : α) ≤ (s.count : α) - 1 := by rw [← hcast]; exact Nat.cast_nonneg _
  have hpos0 : 0 ≤ ((s.count : α) - 1) * q := mul_nonneg hnn hq0
  have hposn : ((s.count : α) - 1) * q ≤ ((s.count - 1 : Nat) : α) := by
    rw [hcast]; exact mul_le_of_le_one_right hnn hq1
  rw [hP]
  generalize ((s.count : α) - 1) * q = pos at *
  have hfl0 : 0 ≤ ⌊pos⌋ := Int.floor_nonneg.2 hpos0
  obtain ⟨k, hk⟩ := Int.eq_ofNat_of_zero_le hfl0
  have hk' : ((⌊pos⌋ : Int) : α) = (k : α) := by rw [hk]; simp
  have hle : (k : α) ≤ pos := by rw [← hk']; exact Int.floor_le pos
  have hlt : pos < (k : α) + 1 := by rw [← hk']; exact Int.lt_floor_add_one pos
  have hkn : k < s.count := by
    have := Nat.cast_le.1 (hle.trans hposn)
    omega
  have hbase : (Trunc.floor (Ext.fin pos) : Ext α) = .fin (k : α) := by
    show Ext.fin ((⌊pos⌋ : ℤ) : α) = _
    rw [hk']
  have hnext : (Trunc.floor (Ext.fin pos) + 1 : Ext α) = .fin ((k + 1 : Nat) : α) := by
    rw [hbase]; push_cast; rfl
  have hrest : (Ext.fin pos - Trunc.floor (Ext.fin pos) : Ext α) = .fin (pos - k) := by rw [hbase]; rfl
  rw [hrest, hnext, hbase, Ext.toU32_nat (by omega), Res.ok_bind, Ext.toU32_nat (by omega), Res.ok_bind, Res.ok_bind,
    rd_of_lt (show k < xs.length by omega), Res.ok_bind]
  by_cases hkn' : k + 1 < s.count
  · rw [if_pos hkn', rd_of_lt (show k + 1 < xs.length by omega), Res.ok_bind]
    exact ⟨k, _, xs[k], rfl, hle, hlt, by simp [hn, hkn], Or.inl ⟨xs[k + 1], by simp [hn, hkn'], rfl⟩⟩
  · rw [if_neg hkn']
    refine ⟨k, _, xs[k], rfl, hle, hlt, by simp [hn, hkn], Or.inr ⟨by omega, ?_, rfl⟩⟩
    have : s.count - 1 = k := by omega
    rw [this] at hposn
    exact le_antisymm hposn hle

omit [IsStrictOrderedRing α] [FloorRing α] in
theorem Ext.fin_mul_sign {r : α} (hr : 0 ≤ r) (x : Ext α) :
    (Ext.fin r * x : Ext α) = match x with
      | .fin y => .fin (r * y)
      | .pinf => if r = 0 then .nan else .pinf
      | .ninf => if r = 0 then .nan else .ninf
      | .nan => .nan := by
  rcases hr.eq_or_lt with rfl | hr
  · cases x
    · rfl
    · show Ext.infTimes 0 = _
      simp [Ext.infTimes]
    · show Ext.ninfTimes 0 = _
      simp [Ext.ninfTimes]
    · rfl
  · cases x
    · rfl
    · show Ext.infTimes r = _
      simp [Ext.infTimes, hr, hr.ne']
    · show Ext.ninfTimes r = _
      simp [Ext.ninfTimes, hr, hr.ne']
    · rfl

omit [IsStrictOrderedRing α] [FloorRing α] in
/-- Interpolation from an infinity gives NaN. -/
theorem Ext.interpolate_inf {r : α} (hr : 0 ≤ r) {a : Ext α} (ha : ¬ IsFinite a) (b : Ext α) :
    (a + .fin r * (b - a) : Ext α) = .nan := by
  rw [Ext.fin_mul_sign hr]
  cases a with
  | fin x => exact absurd ⟨x, rfl⟩ ha
  | nan => exact Ext.nan_add _
  | pinf =>
    have hd : (b - .pinf : Ext α) = .ninf ∨ (b - .pinf : Ext α) = .nan := by
      cases b <;> first | exact Or.inl rfl | exact Or.inr rfl
    rcases hd with hd | hd
    · rw [hd]
      show (Ext.pinf + (if r = 0 then _ else _) : Ext α) = _
      split <;> rfl
    · rw [hd]; rfl
  | ninf =>
    have hd : (b - .ninf : Ext α) = .pinf ∨ (b - .ninf : Ext α) = .nan := by
      cases b <;> first | exact Or.inl rfl | exact Or.inr rfl
    rcases hd with hd | hd
    · rw [hd]
      show (Ext.ninf + (if r = 0 then _ else _) : Ext α) = _
      split <;> rfl
    · rw [hd]; rfl

/-- C102: without NaN, what `quantile` gives: the interpolation of two neighbours when both are finite; the last value when there is
no next one; but `+inf` or NaN from a finite value to an infinite one, and NaN from an infinite value. -/
theorem C102_quantile_partial {srt : StdSort} (hs : srt.Correct) {s : Serie (Ext α)} (h : WF s) (h1 : s.itemSize = 1)
    (h0 : 0 < s.count) (hn : Ext.nan ∉ scalars s) : ∃ xs : List (Ext α), xs.Perm (scalars s) ∧ xs.Pairwise (· ≤ ·) ∧
      ∀ q : α, 0 ≤ q → q ≤ 1 → ∃ (k : Nat) (v a : Ext α), quantile srt s (.fin q) = .ok v ∧ (k : α) ≤ ((s.count : α) - 1) * q ∧
        ((s.count : α) - 1) * q < (k : α) + 1 ∧ xs[k]? = some a ∧
        (∀ x y, a = .fin x → xs[k + 1]? = some (.fin y) → v = .fin (x + (((s.count : α) - 1) * q - k) * (y - x))) ∧
        (xs[k + 1]? = none → v = a) ∧
        (∀ x, a = .fin x → xs[k + 1]? = some .pinf → v = if ((s.count : α) - 1) * q = k then .nan else .pinf) ∧
        (∀ b, ¬ IsFinite a → xs[k + 1]? = some b → v = .nan) := by
  obtain ⟨xs, e1, e2, e3⟩ := C97_sort_partial hs h h1 hn
  have hl : xs.length = s.count := by rw [e2.length_eq, h.scalars_length]
  refine ⟨xs, e2, e3, fun q hq0 hq1 => ?_⟩
  obtain ⟨k, v, a, r1, r2, r3, r4, r5⟩ := quantile_ext_run h h1 h0 e1 hl hq0 hq1
  refine ⟨k, v, a, r1, r2, r3, r4, ?_⟩
  have hr : 0 ≤ ((s.count : α) - 1) * q - k := sub_nonneg.2 r2
  rcases r5 with ⟨b, hb, rfl⟩ | ⟨hk, hp, rfl⟩
  · rw [hb]
    refine ⟨?_, by simp, ?_, ?_⟩
    · rintro x y rfl hy
      cases hy
      rfl
    · rintro x rfl hy
      cases hy
      have : (Ext.pinf - Ext.fin x : Ext α) = .pinf := rfl
      rw [this, Ext.fin_mul_sign hr]
      simp only [sub_eq_zero]
      split <;> rfl
    · intro b' ha _
      exact Ext.interpolate_inf hr ha b
  · have : xs[k + 1]? = none := List.getElem?_eq_none (by omega)
    rw [this]
    simp

/-- Numbers without NaN. -/
def exInf : Serie (Ext ℚ) := ⟨[.pinf, .fin 3, .ninf, .fin (-1)], 4, 1, 3⟩

example := C102_quantile_partial stdSort_exists.choose_spec (s := exInf) (by decide) rfl (by decide) (by decide)

/-- C102: finite values have finite quantiles, between the neighbours as in C47. -/
theorem C102_finite {srt : StdSort} (hs : srt.Correct) {s : Serie (Ext α)} (h : WF s) (h1 : s.itemSize = 1)
    (h0 : 0 < s.count) (hf : ∀ x ∈ scalars s, IsFinite x) {q : α} (hq0 : 0 ≤ q) (hq1 : q ≤ 1) :
    ∃ v, quantile srt s (.fin q) = .ok (.fin v) ∧ (∃ x, .fin x ∈ scalars s ∧ x ≤ v) ∧ (∃ y, .fin y ∈ scalars s ∧ v ≤ y) := by
  have hn : Ext.nan ∉ scalars s := fun hc => by obtain ⟨y, hy⟩ := hf _ hc; cases hy
  obtain ⟨xs, p1, p2, p3⟩ := C102_quantile_partial hs h h1 h0 hn
  obtain ⟨k, v, a, r1, r2, r3, r4, r5, r6, _, _⟩ := p3 q hq0 hq1
  have hmem : ∀ {i : Nat} {z : Ext α}, xs[i]? = some z → z ∈ scalars s := fun hz => p1.mem_iff.1 (List.mem_of_getElem? hz)
  obtain ⟨x, rfl⟩ := hf a (hmem r4)
  rcases hb : xs[k + 1]? with _ | b
  · rw [r6 hb] at r1
    exact ⟨x, r1, ⟨x, hmem r4, le_refl _⟩, ⟨x, hmem r4, le_refl _⟩⟩
  · obtain ⟨y, rfl⟩ := hf b (hmem hb)
    rw [r5 x y rfl hb] at r1
    have hxy : x ≤ y := by
      obtain ⟨h3, h4⟩ := List.getElem?_eq_some_iff.1 r4
      obtain ⟨h5, h6⟩ := List.getElem?_eq_some_iff.1 hb
      have := List.pairwise_iff_getElem.1 p2 k (k + 1) h3 h5 (by omega)
      rw [h4, h6] at this
      exact this
    refine ⟨_, r1, ⟨x, hmem r4, ?_⟩, ⟨y, hmem hb, ?_⟩⟩
    · nlinarith
    · nlinarith

example := C102_finite stdSort_exists.choose_spec (s := exFin) (by decide) rfl (by decide) (by decide) (q := 1 / 4) (by norm_num)
  (by norm_num)

/-- C102 is violated by infinities: when `-inf` is among two values or more, the quantile at 0 is NaN, not the minimum. -/
theorem C102_minimum_violated {srt : StdSort} (hs : srt.Correct) {s : Serie (Ext α)} (h : WF s) (h1 : s.itemSize = 1)
    (h0 : 1 < s.count) (hn : Ext.nan ∉ scalars s) (hi : Ext.ninf ∈ scalars s) : quantile srt s 0 = .ok .nan := by
  obtain ⟨xs, p1, p2, p3⟩ := C102_quantile_partial hs h h1 (by omega) hn
  obtain ⟨k, v, a, r1, r2, r3, r4, _, _, _, r8⟩ := p3 0 (le_refl _) zero_le_one
  rw [mul_zero] at r2 r3
  have hk : k = 0 := by
    have : (k : α) ≤ ((0 : Nat) : α) := by simpa using r2
    exact Nat.le_zero.1 (Nat.cast_le.1 this)
  subst hk
  have hl : xs.length = s.count := by rw [p1.length_eq, h.scalars_length]
  have ha : a = .ninf := by
    obtain ⟨i, hlt, he⟩ := List.mem_iff_getElem.1 (p1.mem_iff.2 hi)
    obtain ⟨h3, h4⟩ := List.getElem?_eq_some_iff.1 r4
    rcases Nat.eq_zero_or_pos i with rfl | hp
    · rw [← h4, he]
    · have := List.pairwise_iff_getElem.1 p2 0 i h3 hlt hp
      rw [h4, he] at this
      cases a <;> first | rfl | exact this.elim
  have hb : xs[0 + 1]? = some xs[1] := List.getElem?_eq_getElem _
  rw [r8 _ (by rw [ha]; rintro ⟨y, hy⟩; cases hy) hb] at r1
  exact r1

example := C102_minimum_violated stdSort_exists.choose_spec (s := exInf) (by decide) rfl (by decide) (by decide) (by decide)

/-- C102: the quantile at 1 is the largest value, infinite or not. -/
theorem C102_maximum {srt : StdSort} (hs : srt.Correct) {s : Serie (Ext α)} (h : WF s) (h1 : s.itemSize = 1)
    (h0 : 0 < s.count) (hn : Ext.nan ∉ scalars s) :
    ∃ v, quantile srt s 1 = .ok v ∧ v ∈ scalars s ∧ ∀ x ∈ scalars s, x ≤ v := by
  obtain ⟨xs, p1, p2, p3⟩ := C102_quantile_partial hs h h1 h0 hn
  obtain ⟨k, v, a, r1, r2, r3, r4, _, r6, _, _⟩ := p3 1 zero_le_one (le_refl _)
  have hl : xs.length = s.count := by rw [p1.length_eq, h.scalars_length]
  have hk : s.count = k + 1 := by
    have h3 : ((s.count : Nat) : α) < ((k + 2 : Nat) : α) := by push_cast; linarith
    have h4 : ((k + 1 : Nat) : α) ≤ ((s.count : Nat) : α) := by push_cast; linarith
    have h3 := Nat.cast_lt.1 h3
    have h4 := Nat.cast_le.1 h4
    omega
  obtain ⟨h3, h4⟩ := List.getElem?_eq_some_iff.1 r4
  rw [r6 (List.getElem?_eq_none (by omega))] at r1
  refine ⟨a, r1, p1.mem_iff.1 (List.mem_of_getElem? r4), fun x hx => ?_⟩
  obtain ⟨i, hlt, he⟩ := List.mem_iff_getElem.1 (p1.mem_iff.2 hx)
  rcases Nat.lt_or_ge i k with hik | hik
  · have := List.pairwise_iff_getElem.1 p2 i k hlt h3 hik
    rwa [he, h4] at this
  · have : i = k := by omega
    subst this
    rw [← he, ← h4]
    have hne : xs[i] ≠ .nan := fun hc => hn (p1.mem_iff.1 (hc ▸ List.getElem_mem hlt))
    generalize xs[i] = z at hne
    cases z with
    | fin z => exact le_refl z
    | pinf => trivial
    | ninf => trivial
    | nan => exact absurd rfl hne

example := C102_maximum stdSort_exists.choose_spec (s := exInf) (by decide) rfl (by decide) (by decide)

omit [IsStrictOrderedRing α] in
/-- C102 is violated by a NaN level: it is not rejected, and then the behaviour is undefined. -/
theorem C102_nan_level_violated {srt : StdSort} (hs : srt.Correct) {s : Serie (Ext α)} (h : WF s) (h1 : s.itemSize = 1)
    (hn : Ext.nan ∉ scalars s) : quantile srt s .nan = .ub := by
  obtain ⟨xs, e1, _, _⟩ := C97_sort_partial hs h h1 hn
  unfold quantile
  rw [h.valid, if_neg (by simp), if_neg (by simpa using h1),
    if_neg (by rw [not_or]; exact ⟨Ext.not_nan_lt _, Ext.not_lt_nan _⟩), e1, Res.ok_bind]
  have : ∀ n : Nat, ((n : Ext α)) * Ext.nan = .nan := fun n => Ext.mul_nan _
  simp only [this]
  rfl

example := C102_nan_level_violated stdSort_exists.choose_spec (s := exInf) (by decide) rfl (by decide)

omit [IsStrictOrderedRing α] in
/-- C102: an infinite level is rejected. -/
theorem C102_infinite_level {srt : StdSort} (s : Serie (Ext α)) :
    quantile srt s .pinf = .throw .invalidArgument ∧ quantile srt s .ninf = .throw .invalidArgument := by
  constructor
  · unfold quantile
    split
    · rfl
    · split
      · rfl
      · rw [if_pos (Or.inr (show (1 : Ext α) < .pinf from trivial) : (Ext.pinf : Ext α) < 0 ∨ (Ext.pinf : Ext α) > 1)]
  · unfold quantile
    split
    · rfl
    · split
      · rfl
      · rw [if_pos (Or.inl (show (.ninf : Ext α) < 0 from trivial) : (Ext.ninf : Ext α) < 0 ∨ (Ext.ninf : Ext α) > 1)]

/-! ## C103: outliers -/

omit [IsStrictOrderedRing α] in
/-- C103: when the two quartiles and the mustache are finite, a value of the Serie is in exactly one of `outliers` and `notOutliers`,
infinities included; the orders are kept. (NaN would be in neither.) -/
theorem C103_split_partial {srt : StdSort} {s : Serie (Ext α)} (h : WF s) {a b m : α} (ha : q25 srt s = .ok (.fin a))
    (hb : q75 srt s = .ok (.fin b)) :
    ∃ r t, outliers srt s (.fin m) = .ok r ∧ notOutliers srt s (.fin m) = .ok t ∧ (scalars r).Sublist (scalars s) ∧
      (scalars t).Sublist (scalars s) ∧ ∀ v ∈ scalars s, v ≠ .nan → (v ∈ scalars r ↔ v ∉ scalars t) := by
  have hbd : outlierBounds srt s (.fin m) = .ok (.fin (a - m * (b - a)), .fin (b + m * (b - a))) := by
    unfold outlierBounds
    rw [ha, hb]
    rfl
  refine ⟨_, _, outliers_run h hbd, notOutliers_run h hbd, ?_, ?_, ?_⟩
  · rw [scalars_ofScalars]; exact List.filter_sublist
  · rw [scalars_ofScalars]; exact List.filter_sublist
  · intro v hv hne
    rw [scalars_ofScalars, scalars_ofScalars, List.mem_filter, List.mem_filter]
    simp only [hv, true_and, decide_eq_true_eq]
    generalize a - m * (b - a) = lo
    generalize b + m * (b - a) = hi
    cases v with
    | fin v =>
      show (v < lo ∨ hi < v) ↔ ¬ (lo ≤ v ∧ v ≤ hi)
      rw [not_and_or, not_le, not_le]
    | pinf => exact ⟨fun _ hc => hc.2, fun _ => Or.inr trivial⟩
    | ninf => exact ⟨fun _ hc => hc.1, fun _ => Or.inl trivial⟩
    | nan => exact absurd rfl hne

example : ∃ r t, outliers stdSort_exists.choose exFin (.fin 2) = .ok r ∧ notOutliers stdSort_exists.choose exFin (.fin 2) = .ok t ∧
    ∀ v ∈ scalars exFin, v ≠ .nan → (v ∈ scalars r ↔ v ∉ scalars t) := by
  obtain ⟨_, ha, _⟩ := C102_finite stdSort_exists.choose_spec (s := exFin) (by decide) rfl (by decide) (by decide) (q := 0.25)
    (by norm_num) (by norm_num)
  obtain ⟨_, hb, _⟩ := C102_finite stdSort_exists.choose_spec (s := exFin) (by decide) rfl (by decide) (by decide) (q := 0.75)
    (by norm_num) (by norm_num)
  obtain ⟨r, t, h1, h2, _, _, h3⟩ := C103_split_partial (by decide) ha hb (m := 2)
  exact ⟨r, t, h1, h2, h3⟩

omit [IsStrictOrderedRing α] in
/-- NaN bounds: every value is lost. -/
theorem outliers_nan_bounds {srt : StdSort} {s : Serie (Ext α)} (h : WF s) {m : Ext α}
    (hbd : outlierBounds srt s m = .ok (.nan, .nan)) :
    outliers srt s m = .ok (ofScalars []) ∧ notOutliers srt s m = .ok (ofScalars []) := by
  rw [outliers_run h hbd, notOutliers_run h hbd]
  constructor
  · congr 2
    rw [List.filter_eq_nil_iff]
    intro v _
    simp only [decide_eq_true_eq, not_or]
    exact ⟨Ext.not_lt_nan _, Ext.not_nan_lt _⟩
  · congr 2
    rw [List.filter_eq_nil_iff]
    intro v _
    simp only [decide_eq_true_eq, not_and_or]
    exact Or.inl (Ext.not_nan_le _)

/-- The quantiles of a constant Serie. -/
theorem quantile_const {srt : StdSort} (hs : srt.Correct) {s : Serie (Ext α)} (h : WF s) (h1 : s.itemSize = 1) (h0 : 0 < s.count)
    {c : Ext α} (hn : c ≠ .nan) (hc : ∀ v ∈ scalars s, v = c) {q : α} (hq0 : 0 ≤ q) (hq1 : q ≤ 1) :
    ∃ v, quantile srt s (.fin q) = .ok v ∧ (∀ x, c = .fin x → v = c) ∧ (c = .pinf → v = .pinf ∨ v = .nan) := by
  obtain ⟨xs, p1, p2, p3⟩ := C102_quantile_partial hs h h1 h0 (fun hm => hn (hc _ hm).symm)
  obtain ⟨k, v, a, r1, r2, r3, r4, r5, r6, _, r8⟩ := p3 q hq0 hq1
  have hmem : ∀ {i : Nat} {z : Ext α}, xs[i]? = some z → z = c := fun hz => hc _ (p1.mem_iff.1 (List.mem_of_getElem? hz))
  have ha := hmem r4
  subst ha
  refine ⟨v, r1, ?_, ?_⟩
  · rintro x rfl
    rcases hb : xs[k + 1]? with _ | b
    · exact r6 hb
    · have := hmem hb
      subst this
      rw [r5 x x rfl hb, sub_self, mul_zero, add_zero]
  · rintro rfl
    rcases hb : xs[k + 1]? with _ | b
    · exact Or.inl (r6 hb)
    · exact Or.inr (r8 b (by rintro ⟨y, hy⟩; cases hy) hb)

/-- C103 is violated by infinities: when all the values are `+inf`, all of them are lost, whatever the mustache. -/
theorem C103_infinite_values_violated {srt : StdSort} (hs : srt.Correct) {s : Serie (Ext α)} (h : WF s) (h1 : s.itemSize = 1)
    (h0 : 0 < s.count) (hc : ∀ v ∈ scalars s, v = .pinf) (m : Ext α) :
    outliers srt s m = .ok (ofScalars []) ∧ notOutliers srt s m = .ok (ofScalars []) := by
  obtain ⟨a, ha, _, ha'⟩ := quantile_const hs h h1 h0 (by simp) hc (q := (0.25 : α)) (by norm_num) (by norm_num)
  obtain ⟨b, hb, _, hb'⟩ := quantile_const hs h h1 h0 (by simp) hc (q := (0.75 : α)) (by norm_num) (by norm_num)
  apply outliers_nan_bounds h
  have hd : (b - a : Ext α) = .nan := by
    rcases ha' rfl with rfl | rfl <;> rcases hb' rfl with rfl | rfl <;> rfl
  unfold outlierBounds q25 q75
  rw [show (0.25 : Ext α) = .fin (0.25 : α) from rfl, show (0.75 : Ext α) = .fin (0.75 : α) from rfl, ha, hb]
  simp only [Res.ok_bind, hd, Ext.mul_nan, Ext.sub_nan, Ext.add_nan]
  rfl

example := C103_infinite_values_violated stdSort_exists.choose_spec (s := (⟨[.pinf, .pinf], 2, 1, 3⟩ : Serie (Ext ℚ))) (by decide) rfl
  (by decide) (by decide) (.fin 1)

/-- C103 is violated by an infinite mustache: the values of a constant Serie are all lost. -/
theorem C103_infinite_mustache_violated {srt : StdSort} (hs : srt.Correct) {s : Serie (Ext α)} (h : WF s) (h1 : s.itemSize = 1)
    (h0 : 0 < s.count) {c : α} (hc : ∀ v ∈ scalars s, v = .fin c) :
    outliers srt s .pinf = .ok (ofScalars []) ∧ notOutliers srt s .pinf = .ok (ofScalars []) := by
  obtain ⟨a, ha, ha', _⟩ := quantile_const hs h h1 h0 (by simp) hc (q := (0.25 : α)) (by norm_num) (by norm_num)
  obtain ⟨b, hb, hb', _⟩ := quantile_const hs h h1 h0 (by simp) hc (q := (0.75 : α)) (by norm_num) (by norm_num)
  apply outliers_nan_bounds h
  have hd : (Ext.pinf * (b - a) : Ext α) = .nan := by
    rw [ha' c rfl, hb' c rfl, Ext.fin_sub, sub_self]
    show Ext.infTimes 0 = _
    simp [Ext.infTimes]
  unfold outlierBounds q25 q75
  rw [show (0.25 : Ext α) = .fin (0.25 : α) from rfl, show (0.75 : Ext α) = .fin (0.75 : α) from rfl, ha, hb]
  simp only [Res.ok_bind, hd, Ext.sub_nan, Ext.add_nan]
  rfl

example := C103_infinite_mustache_violated stdSort_exists.choose_spec (s := (⟨[.fin 2, .fin 2], 2, 1, 3⟩ : Serie (Ext ℚ))) (by decide)
  rfl (by decide) (c := 2) (by decide +kernel)

/-! ## C104: bins -/

theorem callAll_ub {σ γ : Type} {f : γ → Nat → Eff σ Unit} {Inv : σ → Prop} : ∀ (l : List γ) (lo : Nat) (st : σ), Inv st →
    (∀ x ∈ l, ∀ i st, Inv st → (f x i st).1 = .ub ∨ ∃ st', f x i st = (.ok (), st') ∧ Inv st') →
    (∃ x ∈ l, ∀ i st, Inv st → (f x i st).1 = .ub) → (callAll f l lo st).1 = .ub
  | [], _, _, _, _, h => by obtain ⟨x, hx, _⟩ := h; simp at hx
  | x :: l, lo, st, hi, h1, h2 => by
    rw [callAll_cons]
    rcases h1 x (by simp) lo st hi with h3 | ⟨st', h3, h4⟩
    · rcases he : f x lo st with ⟨r, st'⟩
      rw [he] at h3
      simp only at h3
      subst h3
      rw [Eff.bind_ub he]
    · rw [Eff.bind_ok h3]
      have : ∃ x ∈ l, ∀ i st, Inv st → (f x i st).1 = .ub := by
        obtain ⟨y, hy, h5⟩ := h2
        rcases List.mem_cons.1 hy with rfl | hy
        · have := h5 lo st hi
          rw [h3] at this
          cases this
        · exact ⟨y, hy, h5⟩
      have h6 := callAll_ub l (lo + 1) st' h4 (fun y hy => h1 y (by simp [hy])) this
      rcases he : callAll f l (lo + 1) st' with ⟨r, st''⟩
      rw [he] at h6
      simp only at h6
      subst h6
      rw [Eff.bind_ub he]

omit [IsStrictOrderedRing α] in
/-- A value whose quotient is not finite makes `bins` undefined. -/
theorem binsIn_ub {s : Serie (Ext α)} (h : WF s) (h1 : s.itemSize = 1) {nb : Nat} (hnb : 0 < nb) {start stop : Ext α}
    (hv : ∃ v ∈ scalars s, ¬ IsFinite ((v - start) / ((stop - start) / (nb : Ext α)))) : binsIn s nb start stop = .ub := by
  unfold binsIn
  rw [if_neg (by simpa using h1), if_neg (by omega)]
  simp only
  generalize (stop - start) / (nb : Ext α) = size at *
  have hone : ∀ v b, ¬ IsFinite ((v - start) / size) → (binOne nb start size v b).1 = .ub := by
    intro v b hf
    unfold binOne
    have : (if size == 0 then .ub else Trunc.toU32 ((v - start) / size) : Res Nat) = .ub := by
      split
      · rfl
      · generalize (v - start) / size = z at *
        cases z with
        | fin z => exact absurd ⟨z, rfl⟩ hf
        | _ => rfl
    rw [this]
    rfl
  have key := callAll_ub (f := fun v (_ : Nat) => binOne nb start size v) (Inv := fun b => b.length = nb) (scalars s) 0
    (List.replicate nb 0) (by simp) (by
      intro v _ i b hb
      by_cases hf : IsFinite ((v - start) / size)
      · obtain ⟨z, hz⟩ := hf
        unfold binOne
        rw [hz]
        rcases hq : (if size == 0 then .ub else Trunc.toU32 (Ext.fin z) : Res Nat) with i | e | _
        · rw [Eff.lift_ok, pure_bind]
          have hlt : (if i ≥ nb then nb - 1 else i) < nb := by split <;> omega
          generalize (if i ≥ nb then nb - 1 else i) = i at *
          rw [if_neg (by omega)]
          refine Or.inr ⟨b.set i (b[i] + 1), Eff.update_ok ?_, by simp [hb]⟩
          rw [rd_of_lt (by omega), Res.ok_bind, wr_of_lt (by omega)]
        · exfalso
          split at hq
          · cases hq
          · have : Trunc.toU32 (Ext.fin z) = DF.toU32 z := rfl
            rw [this] at hq
            unfold DF.toU32 at hq
            split at hq <;> cases hq
        · exact Or.inl rfl
      · exact Or.inl (hone v b hf)) (by
      obtain ⟨v, hv, hf⟩ := hv
      exact ⟨v, hv, fun _ b _ => hone v b hf⟩)
  unfold Eff.exec forEachS
  rw [if_neg (by simpa using h1), forLoop_unit _ (scalars s) s.count h.scalars_length.symm (getD_hyp h)]
  rcases he : callAll (fun v (_ : Nat) => binOne nb start size v) (scalars s) 0 (List.replicate nb 0) with ⟨r, st⟩
  rw [he] at key
  simp only at key
  subst key
  rw [Eff.bind_ub he]
  rfl

omit [IsStrictOrderedRing α] in
/-- C104 is violated by special values: with finite bounds, one NaN or one infinity among the values makes `bins` undefined. -/
theorem C104_bins_violated {s : Serie (Ext α)} (h : WF s) (h1 : s.itemSize = 1) {nb : Nat} (hnb : 0 < nb) {start stop : α}
    (hv : ∃ v ∈ scalars s, ¬ IsFinite v) : binsIn s nb (.fin start) (.fin stop) = .ub := by
  obtain ⟨v, hv, hf⟩ := hv
  refine binsIn_ub h h1 hnb ⟨v, hv, ?_⟩
  rw [Ext.fin_sub]
  have hz : ¬ IsFinite (v - Ext.fin start) := by
    cases v with
    | fin v => exact absurd ⟨v, rfl⟩ hf
    | _ => rintro ⟨y, hy⟩; cases hy
  generalize v - Ext.fin start = z at *
  rcases hq : (Ext.fin (stop - start) / (nb : Ext α) : Ext α) with w | _ | _ | _
  all_goals
    cases z with
    | fin z => exact absurd ⟨z, rfl⟩ hz
    | _ =>
      first
        | (rintro ⟨y, hy⟩; cases hy)
        | (rintro ⟨y, hy⟩
           revert hy
           show (if w < 0 then _ else _ : Ext α) = _ → False
           split <;> (intro hy; cases hy))

example := C104_bins_violated (s := exInf) (by decide) rfl (nb := 3) (by decide) (start := 0) (stop := 1) ⟨.pinf, by decide, by decide⟩

/-- C104 is violated by special values for `bins(s, nb)` too, whose range is that of the values. -/
theorem C104_bins_range_violated [Limits α] {s : Serie (Ext α)} (h : WF s) (h1 : s.itemSize = 1) {nb : Nat} (hnb : 0 < nb)
    (hv : ∃ v ∈ scalars s, ¬ IsFinite v) : bins s nb = .ub := by
  have h0 : 0 < s.count := by
    obtain ⟨v, hv, _⟩ := hv
    rw [← h.scalars_length]; exact List.length_pos_of_mem hv
  unfold bins
  rw [minMax_scalar_run h h0 h1]
  show binsIn s nb ((scalars s).foldl minv Limits.highest) ((scalars s).foldl maxv Limits.lowest) = .ub
  apply binsIn_ub h h1 hnb
  have hmax : Ext.pinf ∈ scalars s → (scalars s).foldl maxv (Limits.lowest : Ext α) = .pinf := by
    have : ∀ (l : List (Ext α)) (a : Ext α), a ≠ .nan → (a = .pinf ∨ Ext.pinf ∈ l) → l.foldl maxv a = .pinf := by
      intro l
      induction l with
      | nil => intro a _ ha; rcases ha with ha | ha; exacts [ha, by simp at ha]
      | cons x l ih =>
        intro a hne ha
        rw [List.foldl_cons]
        apply ih
        · unfold maxv; split
          · cases x <;> first | (rename_i hc; exact absurd hc (Ext.not_lt_nan _)) | simp
          · exact hne
        · rcases ha with rfl | ha
          · left; unfold maxv; rw [if_neg]; cases x <;> exact id
          · rcases List.mem_cons.1 ha with rfl | ha
            · left; unfold maxv
              cases a <;> first | exact absurd rfl hne | rfl
            · exact Or.inr ha
    exact fun hm => this _ _ (by show Ext.fin _ ≠ _; simp) (Or.inr hm)
  have hmin : ∀ (l : List (Ext α)) (a : Ext α), a ≠ .nan → a ≠ .pinf → l.foldl minv a ≠ .nan ∧ l.foldl minv a ≠ .pinf ∧
      ((a = .ninf ∨ Ext.ninf ∈ l) → l.foldl minv a = .ninf) := by
    intro l
    induction l with
    | nil => intro a h1 h2; exact ⟨h1, h2, fun ha => by rcases ha with ha | ha; exacts [ha, by simp at ha]⟩
    | cons x l ih =>
      intro a h1 h2
      rw [List.foldl_cons]
      have hm : minv a x ≠ .nan ∧ minv a x ≠ .pinf := by
        unfold minv; split
        · rename_i hc
          cases x <;> first | exact absurd hc (Ext.not_nan_lt _) | (exfalso; revert hc; cases a <;> exact id) | simp
        · exact ⟨h1, h2⟩
      obtain ⟨i1, i2, i3⟩ := ih _ hm.1 hm.2
      refine ⟨i1, i2, fun ha => i3 ?_⟩
      rcases ha with rfl | ha
      · left; unfold minv; rw [if_neg]; cases x <;> exact id
      · rcases List.mem_cons.1 ha with rfl | ha
        · left; unfold minv
          cases a <;> first | exact absurd rfl h1 | rfl
        · exact Or.inr ha
  obtain ⟨m1, m2, m3⟩ := hmin (scalars s) (Limits.highest : Ext α) (by show Ext.fin _ ≠ _; simp) (by show Ext.fin _ ≠ _; simp)
  obtain ⟨v, hv, hf⟩ := hv
  refine ⟨v, hv, ?_⟩
  have hnan : ¬ IsFinite (Ext.nan : Ext α) := by rintro ⟨y, hy⟩; cases hy
  cases v with
  | fin v => exact absurd ⟨v, rfl⟩ hf
  | nan => rw [Ext.nan_sub, Ext.nan_div]; exact hnan
  | ninf =>
    rw [m3 (Or.inr hv)]
    have : (Ext.ninf - Ext.ninf : Ext α) = .nan := rfl
    rw [this, Ext.nan_div]; exact hnan
  | pinf =>
    rw [hmax hv]
    generalize (scalars s).foldl minv Limits.highest = a at *
    have h5 : (Ext.pinf - a : Ext α) = .pinf := by
      cases a <;> first | exact absurd rfl m1 | exact absurd rfl m2 | rfl
    rw [h5]
    have h6 : (Ext.pinf / (nb : Ext α) : Ext α) = .pinf := by
      show (if (nb : α) < 0 then _ else _ : Ext α) = _
      rw [if_neg (not_lt.2 (Nat.cast_nonneg nb))]
    rw [h6]
    exact hnan

example := @C104_bins_range_violated ℚ _ _ _ _ ⟨1000, -1000⟩ exInf (by decide) rfl 3 (by decide) ⟨.pinf, by decide, by decide⟩

/-- Two runs of a loop that correspond step by step. -/
theorem callAll_sim {σ τ γ δ : Type} {f : γ → Nat → Eff σ Unit} {g : δ → Nat → Eff τ Unit} (e : γ → δ) (d : σ → τ)
    (hfg : ∀ x i st, g (e x) i (d st) = ((f x i st).1, d (f x i st).2)) : ∀ (l : List γ) (lo : Nat) (st : σ),
      callAll g (l.map e) lo (d st) = ((callAll f l lo st).1, d (callAll f l lo st).2)
  | [], lo, st => by rw [List.map_nil, callAll_nil, callAll_nil]; rfl
  | x :: l, lo, st => by
    rw [List.map_cons, callAll_cons, callAll_cons]
    have h1 := hfg x lo st
    rcases hf : f x lo st with ⟨r, st'⟩
    rw [hf] at h1
    cases r with
    | ok u =>
      rw [Eff.bind_ok h1, Eff.bind_ok hf]
      have h2 := callAll_sim e d hfg l (lo + 1) st'
      rcases hc : callAll f l (lo + 1) st' with ⟨r, st''⟩
      rw [hc] at h2
      cases r with
      | ok us => rw [Eff.bind_ok h2, Eff.bind_ok hc]; rfl
      | throw er => rw [Eff.bind_throw h2, Eff.bind_throw hc]
      | ub => rw [Eff.bind_ub h2, Eff.bind_ub hc]
    | throw er => rw [Eff.bind_throw h1, Eff.bind_throw hf]
    | ub => rw [Eff.bind_ub h1, Eff.bind_ub hf]

omit [IsStrictOrderedRing α] in
theorem binOne_fin (nb : Nat) (start size v : α) (b : List α) :
    binOne nb (.fin start) (.fin size) (.fin v) (b.map Ext.fin) =
      ((binOne nb start size v b).1, (binOne nb start size v b).2.map .fin) := by
  have hq : (if (Ext.fin size : Ext α) == 0 then .ub else Trunc.toU32 ((Ext.fin v - Ext.fin start) / Ext.fin size) : Res Nat) =
      (if size == 0 then .ub else Trunc.toU32 ((v - start) / size) : Res Nat) := by
    by_cases h0 : size = 0
    · subst h0
      rw [if_pos (by rw [Ext.beq_iff]; exact ⟨rfl, by simp⟩), if_pos (by simp)]
    · rw [if_neg (by rw [Ext.beq_iff]; rintro ⟨hc, _⟩; exact h0 (Ext.fin.inj hc)), if_neg (by simpa using h0), Ext.fin_sub,
        Ext.fin_div h0]
      rfl
  unfold binOne
  rw [hq]
  rcases (if size == 0 then .ub else Trunc.toU32 ((v - start) / size) : Res Nat) with i | e | _
  · rw [Eff.lift_ok, Eff.lift_ok, pure_bind, pure_bind]
    generalize (if i ≥ nb then nb - 1 else i) = i
    by_cases hi : i ≥ nb
    · rw [if_pos hi, if_pos hi]; rfl
    · rw [if_neg hi, if_neg hi]
      by_cases hb : i < b.length
      · have e1 : ((rd (b.map Ext.fin) i) >>= fun x => wr (b.map Ext.fin) i (x + 1)) = .ok ((b.set i (b[i] + 1)).map .fin) := by
          rw [rd_of_lt (by simpa using hb), Res.ok_bind, wr_of_lt (by simpa using hb), List.map_set]
          simp only [List.getElem_map]
          rfl
        have e2 : ((rd b i) >>= fun x => wr b i (x + 1)) = .ok (b.set i (b[i] + 1)) := by
          rw [rd_of_lt hb, Res.ok_bind, wr_of_lt hb]
        rw [Eff.update_ok e1, Eff.update_ok e2]
      · have e1 : rd (b.map Ext.fin) i = .ub := by unfold rd; rw [List.getElem?_eq_none (by simpa using hb)]
        have e2 : rd b i = .ub := by unfold rd; rw [List.getElem?_eq_none (by simpa using hb)]
        unfold Eff.update
        simp only [e1, e2]
        rfl
  · rfl
  · rfl

omit [IsStrictOrderedRing α] in
/-- C104: with finite values and bounds, `bins` does what it does with exact numbers (C44), undefined behaviour included. -/
theorem C104_finite {s : Serie α} (h : WF s) (h1 : s.itemSize = 1) {nb : Nat} (hnb : 0 < nb) {start stop : α} :
    binsIn (embed s) nb (.fin start) (.fin stop) = (binsIn s nb start stop >>= fun r => .ok (embed r)) := by
  have hE : WF (embed s) := ⟨h.pos, h.int, by simpa [embed] using h.fits, by simpa [embed] using h.small⟩
  have hsc : scalars (embed s) = (scalars s).map .fin := by simp [scalars, embed, List.map_take]
  have hsz : ((Ext.fin stop - Ext.fin start) / (nb : Ext α) : Ext α) = .fin ((stop - start) / (nb : α)) := by
    rw [Ext.fin_sub]
    exact Ext.fin_div (Nat.cast_ne_zero.2 (by omega))
  have h1' : ¬ (embed s).itemSize ≠ 1 := not_not.2 h1
  unfold binsIn
  rw [if_neg h1', if_neg (by omega), if_neg (not_not.2 h1), if_neg (by omega), hsz]
  simp only
  generalize (stop - start) / (nb : α) = size
  unfold Eff.exec forEachS
  rw [if_neg (not_not.2 h1), forLoop_unit _ (scalars s) s.count h.scalars_length.symm (getD_hyp h),
    if_neg h1', forLoop_unit _ (scalars (embed s)) (embed s).count hE.scalars_length.symm (getD_hyp hE), hsc]
  have key := callAll_sim (f := fun v (_ : Nat) => binOne nb start size v) (g := fun v (_ : Nat) => binOne nb (.fin start) (.fin size) v)
    Ext.fin (List.map Ext.fin) (fun v _ b => binOne_fin nb start size v b) (scalars s) 0 (List.replicate nb 0)
  rw [List.map_replicate] at key
  rcases hc : callAll (fun v (_ : Nat) => binOne nb start size v) (scalars s) 0 (List.replicate nb 0) with ⟨r, b⟩
  rw [hc] at key
  cases r with
  | ok us =>
    have key : callAll (fun v (_ : Nat) => binOne nb (.fin start) (.fin size) v) ((scalars s).map Ext.fin) 0 (List.replicate nb 0) =
      (.ok us, b.map .fin) := key
    rw [Eff.bind_ok hc, Eff.bind_ok key]
    show Serie.ofArray 1 (b.map Ext.fin) = (Serie.ofArray 1 b >>= _)
    unfold Serie.ofArray
    rw [List.length_map]
    rcases Serie.divCount b.length 1 with c | e | _ <;> rfl
  | throw e =>
    have key : callAll (fun v (_ : Nat) => binOne nb (.fin start) (.fin size) v) ((scalars s).map Ext.fin) 0 (List.replicate nb 0) =
      (.throw e, b.map .fin) := key
    rw [Eff.bind_throw hc, Eff.bind_throw key]; rfl
  | ub =>
    have key : callAll (fun v (_ : Nat) => binOne nb (.fin start) (.fin size) v) ((scalars s).map Ext.fin) 0 (List.replicate nb 0) =
      (.ub, b.map .fin) := key
    rw [Eff.bind_ub hc, Eff.bind_ub key]; rfl

example := C104_finite exQ_WF rfl (nb := 3) (by decide) (start := 0) (stop := 6)

end

/-! ## The hypotheses can be met -/

/-- No NaN, an infinity, two values. -/
example : WF (ofScalars [(.fin 1 : Ext ℚ), .ninf]) ∧ Ext.nan ∉ scalars (ofScalars [(.fin 1 : Ext ℚ), .ninf]) ∧
    Ext.ninf ∈ scalars (ofScalars [(.fin 1 : Ext ℚ), .ninf]) :=
  ⟨WF_ofScalars (by simp), by simp [scalars_ofScalars], by simp [scalars_ofScalars]⟩

/-- The quartiles of a constant Serie are finite. -/
example : ∃ (srt : StdSort) (s : Serie (Ext ℚ)), srt.Correct ∧ WF s ∧ q25 srt s = .ok (.fin 1) ∧ q75 srt s = .ok (.fin 1) := by
  obtain ⟨srt, hs⟩ := stdSort_exists
  have hw : WF (ofScalars [(.fin 1 : Ext ℚ), .fin 1]) := WF_ofScalars (by simp)
  have hc : ∀ v ∈ scalars (ofScalars [(.fin 1 : Ext ℚ), .fin 1]), v = .fin 1 := by simp [scalars_ofScalars]
  obtain ⟨a, ha, ha', _⟩ := quantile_const hs hw rfl (by decide) (by simp) hc (q := (0.25 : ℚ)) (by norm_num) (by norm_num)
  obtain ⟨b, hb, hb', _⟩ := quantile_const hs hw rfl (by decide) (by simp) hc (q := (0.75 : ℚ)) (by norm_num) (by norm_num)
  rw [ha' 1 rfl] at ha
  rw [hb' 1 rfl] at hb
  exact ⟨srt, _, hs, hw, ha, hb⟩

end DF
