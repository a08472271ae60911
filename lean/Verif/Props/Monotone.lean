import Verif.Props.Routine
import Verif.Props.FloatStats
import Verif.Props.Sorted

/-!
# Rounding keeps the order of numbers (C168)

The numbers are `Dbl R`, as in Props/Float, with any rounding to nearest.
-/

namespace DF

open Spec

variable {σ τ : Type} {p : Nat} {R : Rounding p}

/-! ## Helpers -/

theorem le_add_kept : Kept (fun x y : Dbl R => x ≤ y) .addition := fun a b h c d h' => by
  have h1 : a.val ≤ b.val := h
  have h2 : c.val ≤ d.val := h'
  exact R.mono (by linarith)

/-- Non-negative numbers in order. -/
def Below (x y : Dbl R) : Prop := 0 ≤ x ∧ x ≤ y

theorem below_zero : Below (0 : Dbl R) 0 := ⟨le_rfl, le_rfl⟩

theorem below_add : Kept (Below (R := R)) .addition := fun a b h c d h' => by
  have h1 : (0 : ℝ) ≤ a.val := h.1
  have h2 : (0 : ℝ) ≤ c.val := h'.1
  exact ⟨R.nonneg (add_nonneg h1 h2), le_add_kept a b h.2 c d h'.2⟩

theorem below_mul : Kept (Below (R := R)) .product := fun a b h c d h' => by
  have h1 : (0 : ℝ) ≤ a.val := h.1
  have h2 : (0 : ℝ) ≤ c.val := h'.1
  have h3 : a.val ≤ b.val := h.2
  have h4 : c.val ≤ d.val := h'.2
  exact ⟨R.nonneg (mul_nonneg h1 h2), R.mono (mul_le_mul h3 h4 h2 (h1.trans h3))⟩

theorem below_one : Kept (Below (R := R)) .one := by
  have : (0 : Dbl R).val ≤ (1 : Dbl R).val := by rw [Dbl.val_zero, Dbl.val_one]; exact zero_le_one
  exact ⟨this, le_rfl⟩

/-- An operation on two Series, with a relation for each argument. -/
theorem binOp_rel3 {α β : Type} [Zero α] [Zero β] {T T' U : α → β → Prop} (h0 : U 0 0) {f : α → α → α} {g : β → β → β}
    (hf : ∀ x y, T x y → ∀ x' y', T' x' y' → U (f x x') (g y y')) {a b : Serie α} {c d : Serie β} (h1 : SRel T a c) (h2 : SRel T' b d) :
    ResRel (SRel U) (binOp f a b) (binOp g c d) := by
  unfold binOp
  rw [h1.itemSize, h1.count, h2.itemSize, h2.count]
  split
  · exact .throw _
  · refine ResRel.forLoop _ 0 (SRel.zeros h0 _ _ _) fun i s t hs => ?_
    split
    · exact (h1.getD i).bind fun x y hx => (h2.getD i).bind fun x' y' hx' => hs.putD i (hf _ _ hx _ _ hx')
    · refine (h1.getA i).bind fun v w hv => (h2.getA i).bind fun v' w' hv' => ?_
      refine (ResRel.forLoop (S := List.Forall₂ U) _ 0 (Forall₂.replicate _ h0) fun j l m hl => ?_).bind fun l m hl => hs.putA i hl
      exact (Forall₂.rd hv j).bind fun x y hx => (Forall₂.rd hv' j).bind fun x' y' hx' => Forall₂.wr hl j (hf _ _ hx _ _ hx')

/-- Two Series for the examples: 2, 5, 3 and 4, 5, 7. -/
noncomputable def exLow : Serie (Dbl exEven) := ofScalars [dbl exEven 2, dbl exEven 5, dbl exEven 3]
noncomputable def exHigh : Serie (Dbl exEven) := ofScalars [dbl exEven 4, dbl exEven 5, dbl exEven 7]

theorem exLow_exHigh : Each (fun x y => 0 ≤ x ∧ x ≤ y) exLow exHigh := by
  have h : ∀ {m n : ℤ}, 0 ≤ m → m ≤ n → Below (dbl exEven m) (dbl exEven n) := fun h0 h =>
    ⟨exEven.nonneg (by exact_mod_cast h0), exEven.mono (by exact_mod_cast h)⟩
  exact ⟨rfl, rfl, rfl, .cons (h (by norm_num) (by norm_num)) (.cons (h (by norm_num) (by norm_num)) (.cons (h (by norm_num) (by norm_num)) .nil))⟩

theorem exLow_le : Each (· ≤ ·) exLow exHigh :=
  ⟨rfl, rfl, rfl, exLow_exHigh.2.2.2.imp fun _ _ h => h.2⟩

theorem exLow_WF : WF exLow := WF_ofScalars (by simp)
theorem exHigh_WF : WF exHigh := WF_ofScalars (by simp)

/-! ## C168 -/

/-- C168: in rounded arithmetic, a program of library calls that only adds, and moves numbers, gives larger numbers for larger numbers:
run on Series with every number at least as large, it has the same outcome with every number at least as large. -/
theorem C168_programs {S : σ → τ → Prop} {f : Program σ (Dbl R)} {g : Program τ (Dbl R)} (h : f.Twin (· ≤ ·) S g)
    (hu : ∀ u, f.Uses u → u = .addition) {s : σ} {t : τ} (hs : S s t) : Outcomes (Each (· ≤ ·)) (f.run s).1 (g.run t).1 :=
  (C152_programs (R := fun x y : Dbl R => x ≤ y) le_rfl h (fun u h' => by rw [hu u h']; exact le_add_kept) hs).1

example := C168_programs (R := exEven) (S := fun _ _ : Unit => True) (f := .call2 .add (.given exLow) (.given exLow))
  (g := .call2 .add (.given exHigh) (.given exHigh)) (.call2 .add (.given exLow_le) (.given exLow_le)) (by
    rintro u (h | h | h)
    · simpa [Call2.uses] using h
    · exact absurd h id
    · exact absurd h id) (s := ()) (t := ()) trivial

/-- C168: on numbers that are not negative, products and masks may be used as well; the results are not negative either. -/
theorem C168_nonneg {S : σ → τ → Prop} {f : Program σ (Dbl R)} {g : Program τ (Dbl R)} (h : f.Twin (fun x y => 0 ≤ x ∧ x ≤ y) S g)
    (hu : ∀ u, f.Uses u → u = .addition ∨ u = .product ∨ u = .one) {s : σ} {t : τ} (hs : S s t) :
    Outcomes (Each fun x y => 0 ≤ x ∧ x ≤ y) (f.run s).1 (g.run t).1 :=
  (C152_programs (R := Below) below_zero h (fun u h' => by
    rcases hu u h' with rfl | rfl | rfl
    · exact below_add
    · exact below_mul
    · exact below_one) hs).1

example := C168_nonneg (R := exEven) (S := fun _ _ : Unit => True) (f := .call2 .mult (.given exLow) (.given exLow))
  (g := .call2 .mult (.given exHigh) (.given exHigh)) (.call2 .mult (.given exLow_exHigh) (.given exLow_exHigh)) (by
    rintro u (h | h | h)
    · exact .inr (.inl (by simpa [Call2.uses] using h))
    · exact absurd h id
    · exact absurd h id) (s := ()) (t := ()) trivial

/-- C168: the same for routines with variables, loops and handlers. -/
theorem C168_routines {S : σ → τ → Prop} {f : Routine σ (Dbl R)} {g : Routine τ (Dbl R)} (h : f.Twin (fun x y => 0 ≤ x ∧ x ≤ y) S g)
    (hu : ∀ u, f.Uses u → u = .addition ∨ u = .product ∨ u = .one) {s : σ} {t : τ} (hs : S s t) {vars vars' : Vars (Dbl R)}
    (hv : ∀ v, Each (fun x y => 0 ≤ x ∧ x ≤ y) (vars v) (vars' v)) :
    Outcomes (fun _ _ => True) (f.run (s, vars)).1 (g.run (t, vars')).1 ∧
      ∀ v, Each (fun x y => 0 ≤ x ∧ x ≤ y) ((f.run (s, vars)).2.2 v) ((g.run (t, vars')).2.2 v) := by
  have := C167_twins (R := Below) below_zero h (fun u h' => by
    rcases hu u h' with rfl | rfl | rfl
    · exact below_add
    · exact below_mul
    · exact below_one) hs hv
  exact ⟨this.1, this.2.2⟩

example := C168_routines (R := exEven) (S := fun _ _ : Unit => True)
  (.seq (.call2 (v := 2) (a := 0) (b := 1) .mult) (.call2 (v := 0) (a := 2) (b := 0) .add)) (by
    rintro u (h | h)
    · exact .inr (.inl (by simpa [Routine.Uses, Call2.uses] using h))
    · exact .inl (by simpa [Routine.Uses, Call2.uses] using h)) (s := ()) (t := ()) trivial
  (vars := fun _ => exLow) (vars' := fun _ => exHigh) fun _ => exLow_exHigh

/-- C168: `sub` gives larger numbers for a larger first argument and a smaller second one. -/
theorem C168_sub {a b a' b' : Serie (Dbl R)} (ha : Each (· ≤ ·) a a') (hb : Each (· ≥ ·) b b') :
    Outcomes (Each (· ≤ ·)) (sub2 a b) (sub2 a' b') := by
  refine outcomes_each (binOp_rel3 (T := fun x y => x ≤ y) (T' := fun x y => y ≤ x) (U := fun x y => x ≤ y) le_rfl ?_ (each_iff.1 ha) (each_iff.1 hb))
  intro x y h x' y' h'
  have h1 : x.val ≤ y.val := h
  have h2 : y'.val ≤ x'.val := h'
  exact R.mono (by linarith)

example := C168_sub (R := exEven) exLow_le (b := exHigh) (b' := exLow) ⟨rfl, rfl, rfl, exLow_le.2.2.2.flip⟩

/-- C168: `scale` by a number that is not negative keeps the order. -/
theorem C168_scale {s t : Serie (Dbl R)} (h : Each (· ≤ ·) s t) {x : Dbl R} (hx : 0 ≤ x) :
    Outcomes (Each (· ≤ ·)) (scale s x) (scale t x) := by
  unfold scale
  rw [h.2.1]
  refine outcomes_each (scaleWith_rel (R := fun x y : Dbl R => x ≤ y) le_rfl (fun a b hab => .ok ?_) (each_iff.1 h) _)
  have h1 : (0 : ℝ) ≤ x.val := hx
  have h2 : a.val ≤ b.val := hab
  exact R.mono (mul_le_mul_of_nonneg_right h2 h1)

example := C168_scale (R := exEven) exLow_le (x := 1) below_one.1

/-- C168: the mean is larger for larger numbers. -/
theorem C168_mean {s t : Serie (Dbl R)} (h : Each (· ≤ ·) s t) : Outcomes (Means (· ≤ ·)) (mean s) (mean t) := by
  refine outcomes_mean (mean_rel (R := fun x y : Dbl R => x ≤ y) le_rfl le_add_kept (fun x y hxy n => ?_) (each_iff.1 h))
  have h1 : x.val ≤ y.val := hxy
  have h2 : 0 ≤ ((n : Nat) : Dbl R).val := R.nonneg (Nat.cast_nonneg n)
  exact R.mono (div_le_div_of_nonneg_right h1 h2)

example := C168_mean (R := exEven) exLow_le

/-- C168: on numbers that are not negative, `dot` is larger for larger numbers. -/
theorem C168_dot {a b a' b' : Serie (Dbl R)} (ha : Each (fun x y => 0 ≤ x ∧ x ≤ y) a a') (hb : Each (fun x y => 0 ≤ x ∧ x ≤ y) b b') :
    Outcomes (Each fun x y => 0 ≤ x ∧ x ≤ y) (dot a b) (dot a' b') :=
  outcomes_each (dot_rel (R := Below) below_zero below_add below_mul (each_iff.1 ha) (each_iff.1 hb))

example := C168_dot (R := exEven) exLow_exHigh exLow_exHigh

section order

variable {α : Type} [LinearOrder α]

private theorem sorted_rank {v : α} : ∀ {xs : List α}, xs.Pairwise (· ≤ ·) → ∀ {k : Nat} {x : α}, xs[k]? = some x →
    (x ≤ v ↔ k < xs.countP (fun y => decide (y ≤ v)))
  | [], _, k, x, h => by simp at h
  | a :: l, hs, k, x, h => by
    rw [List.pairwise_cons] at hs
    by_cases ha : a ≤ v
    · rw [List.countP_cons_of_pos (by simpa using ha)]
      cases k with
      | zero => simp at h; subst h; simp [ha]
      | succ k =>
        rw [List.getElem?_cons_succ] at h
        rw [sorted_rank hs.2 h]; omega
    · have hz : (a :: l).countP (fun y => decide (y ≤ v)) = 0 := by
        rw [List.countP_eq_zero]
        intro y hy
        rcases List.mem_cons.1 hy with rfl | hy
        · simpa using ha
        · simpa using (lt_of_not_ge ha).trans_le (hs.1 y hy)
      have hx : a ≤ x := by
        rcases List.mem_cons.1 (List.mem_of_getElem? h) with rfl | hy
        · exact le_refl _
        · exact hs.1 x hy
      rw [hz]
      simpa using (lt_of_not_ge ha).trans_le hx

theorem countP_le_of_forall₂ {l m : List α} (h : List.Forall₂ (· ≤ ·) l m) (v : α) :
    m.countP (fun y => decide (y ≤ v)) ≤ l.countP (fun y => decide (y ≤ v)) := by
  induction h with
  | nil => simp
  | @cons a b l m hab _ ih =>
    rw [List.countP_cons, List.countP_cons]
    have : b ≤ v → a ≤ v := hab.trans
    by_cases hb : b ≤ v
    · simp [hb, this hb, ih]
    · simp only [hb, decide_false, Bool.false_eq_true, if_false]; omega

theorem sortedFrom_mono {xs ys l m : List α} (hx : SortedFrom xs l) (hy : SortedFrom ys m) (h : List.Forall₂ (· ≤ ·) l m) :
    List.Forall₂ (· ≤ ·) xs ys := by
  have hl : xs.length = ys.length := by rw [hx.1.length_eq, hy.1.length_eq, h.length_eq]
  rw [List.forall₂_iff_get]
  refine ⟨hl, fun k h1 h2 => ?_⟩
  have e1 := sorted_rank hx.2 (List.getElem?_eq_getElem h1) (v := ys[k])
  have e2 := sorted_rank hy.2 (List.getElem?_eq_getElem h2) (v := ys[k])
  rw [List.get_eq_getElem, List.get_eq_getElem, e1, hx.1.countP_eq]
  have := e2.1 le_rfl
  rw [hy.1.countP_eq] at this
  exact this.trans_le (countP_le_of_forall₂ h _)

/-- C168: sorting keeps the order of two Series: number `k` of the sorted Serie is larger when the numbers are. -/
theorem C168_sort [Zero α] {srt : StdSort} (hs : srt.Correct) {s t : Serie α} (h : WF s) (h' : WF t) (h1 : s.itemSize = 1)
    (hst : Each (· ≤ ·) s t) :
    ∃ u w, sortDefault srt s = .ok u ∧ sortDefault srt t = .ok w ∧ List.Forall₂ (· ≤ ·) (scalars u) (scalars w) := by
  obtain ⟨xs, e, hp, ho⟩ := C29_sort_numbers hs h h1
  obtain ⟨ys, e', hp', ho'⟩ := C29_sort_numbers hs h' (hst.2.1 ▸ h1)
  refine ⟨_, _, e, e', ?_⟩
  rw [scalars_ofScalars, scalars_ofScalars]
  exact sortedFrom_mono ⟨hp, ho⟩ ⟨hp', ho'⟩ (by unfold scalars; rw [hst.1]; exact List.forall₂_take _ hst.2.2.2)

example := C168_sort stdSort_exists.choose_spec exLow_WF exHigh_WF rfl exLow_le

end order

/-- C168, for a quantile that falls on a number (the median of an odd count, the minimum, the maximum): it is larger for larger numbers.
For a quantile between two numbers the statement is false, see `C168_quantile_violated`. -/
theorem C168_quantile_partial (hp : 32 ≤ p) {srt : StdSort} (hs : srt.Correct) {s t : Serie (Dbl R)} (h : WF s) (h' : WF t)
    (h1 : s.itemSize = 1) (h0 : 0 < s.count) (hst : Each (· ≤ ·) s t) {q : Dbl R} (hq0 : 0 ≤ q) (hq1 : q ≤ 1) {k : Nat}
    (hk : ((s.count - 1 : Nat) : ℝ) * q.val = k) :
    ∃ v w, quantile srt s q = .ok v ∧ quantile srt t q = .ok w ∧ v ≤ w := by
  obtain ⟨xs, hxs, hx⟩ := quantile_run hp hs h h1 h0
  obtain ⟨ys, hys, hy⟩ := quantile_run hp hs h' (hst.2.1 ▸ h1) (hst.1 ▸ h0)
  have h32 : 2 ^ 32 ≤ 2 ^ p := Nat.pow_le_pow_right (by norm_num) hp
  have hn := h.count_lt
  have hkn : k ≤ s.count - 1 := by
    have : (k : ℝ) ≤ ((s.count - 1 : Nat) : ℝ) := by rw [← hk]; exact mul_le_of_le_one_right (Nat.cast_nonneg _) hq1
    exact Nat.cast_le.1 this
  have hpos : posOf R s.count q.val = k := by unfold posOf; rw [hk, R.exact (nat_rep (by omega))]
  have key : ∀ {zs : List (Dbl R)} {v : Dbl R}, (∃ (j : Nat) (a : Dbl R), (j : ℝ) ≤ posOf R s.count q.val ∧
      posOf R s.count q.val < (j : ℝ) + 1 ∧ zs[j]? = some a ∧
      ((∃ b, zs[j + 1]? = some b ∧ v.val = R.fl (a.val + R.fl ((posOf R s.count q.val - j) * R.fl (b.val - a.val)))) ∨
       (zs.length = j + 1 ∧ posOf R s.count q.val = j ∧ v = a))) → zs[k]? = some v := by
    rintro zs v ⟨j, a, h1, h2, h3, h4⟩
    rw [hpos] at h1 h2 h4
    have hjk : j = k := by
      have a1 := Nat.cast_le.1 h1
      have a2 : k < j + 1 := by exact_mod_cast h2
      omega
    subst hjk
    rcases h4 with ⟨b, _, hv⟩ | ⟨_, _, rfl⟩
    · have hz : R.fl 0 = 0 := R.exact (by simpa using nat_rep (p := p) (n := 0) (by omega))
      rw [sub_self, zero_mul, hz, add_zero, R.exact a.rep] at hv
      rw [h3, Dbl.ext hv]
    · exact h3
  obtain ⟨v, hv, hv'⟩ := hx q hq0 hq1
  obtain ⟨w, hw, hw'⟩ := hy q hq0 hq1
  rw [← hst.1] at hw'
  have e1 := key hv'
  have e2 := key hw'
  refine ⟨v, w, hv, hw, ?_⟩
  have := sortedFrom_mono hxs hys (by unfold scalars; rw [hst.1]; exact List.forall₂_take _ hst.2.2.2)
  obtain ⟨b1, rfl⟩ := List.getElem?_eq_some_iff.1 e1
  obtain ⟨b2, rfl⟩ := List.getElem?_eq_some_iff.1 e2
  exact (List.forall₂_iff_get.1 this).2 k b1 b2

/-- The median of three numbers. -/
example := C168_quantile_partial (R := exEven) (by norm_num) stdSort_exists.choose_spec exLow_WF exHigh_WF rfl (show 0 < 3 by decide) exLow_le
  (q := Dbl.round exEven (1 / 2)) (exEven.nonneg (by norm_num)) (by
    show exEven.fl _ ≤ (1 : Dbl exEven).val
    rw [exEven.exact ⟨1, -1, by norm_num, by norm_num⟩, Dbl.val_one]; norm_num) (k := 1) (by
    show ((3 - 1 : Nat) : ℝ) * exEven.fl (1 / 2) = _
    rw [exEven.exact ⟨1, -1, by norm_num, by norm_num⟩]; norm_num)

private theorem half_of_two {R : Rounding 53} {srt : StdSort} (hs : srt.Correct) {a b q : Dbl R} (hab : a ≤ b) (hq : q.val = 1 / 2) :
    ∃ v, quantile srt (ofScalars [a, b]) q = .ok v ∧ v.val = R.fl (a.val + R.fl (1 / 2 * R.fl (b.val - a.val))) := by
  obtain ⟨xs, hxs, hx⟩ := quantile_run (R := R) (by norm_num) hs (s := ofScalars [a, b]) (WF_ofScalars (by simp)) rfl
    (show 0 < 2 by decide)
  have hxs' : xs = [a, b] := by
    rw [scalars_ofScalars] at hxs
    exact List.Perm.eq_of_pairwise (fun _ _ _ _ => le_antisymm) hxs.2 (by simpa using hab) hxs.1
  have c0 : (0 : Dbl R) ≤ q := by show (0 : ℝ) ≤ q.val; rw [hq]; norm_num
  have c1 : q ≤ 1 := by show q.val ≤ (1 : Dbl R).val; rw [hq, Dbl.val_one]; norm_num
  obtain ⟨v, hv, k, a', h1, h2, h3, h4⟩ := hx _ c0 c1
  have hpos : posOf R (ofScalars [a, b]).count q.val = 1 / 2 := by
    rw [hq]
    show R.fl (((2 - 1 : Nat) : ℝ) * (1 / 2)) = _
    rw [R.exact ⟨1, -1, by norm_num, by norm_num⟩]; norm_num
  rw [hpos] at h1 h2 h4
  have hk : k = 0 := by
    by_contra hk
    have : (1 : ℝ) ≤ k := by exact_mod_cast Nat.one_le_iff_ne_zero.2 hk
    linarith
  subst hk hxs'
  simp only [List.getElem?_cons_zero, Option.some.injEq] at h3
  subst h3
  refine ⟨v, hv, ?_⟩
  rcases h4 with ⟨b', hb, e⟩ | ⟨hl, _, _⟩
  · simp only [zero_add, List.getElem?_cons_succ, List.getElem?_cons_zero, Option.some.injEq] at hb
    subst hb
    rw [e]; norm_num
  · simp at hl

/-- C168 is violated by a quantile between two numbers: in double precision the median of 5/8 and 2^53 + 6 is 2^52 + 4, and raising
5/8 to 11/8 lowers it to 2^52 + 3. -/
theorem C168_quantile_violated (R : Rounding 53) {srt : StdSort} (hs : srt.Correct) :
    ∃ a a' b q v w : Dbl R, a.val = 5 / 8 ∧ a'.val = 11 / 8 ∧ b.val = 2 ^ 53 + 6 ∧ q.val = 1 / 2 ∧
      quantile srt (ofScalars [a, b]) q = .ok v ∧ quantile srt (ofScalars [a', b]) q = .ok w ∧
      v.val = 2 ^ 52 + 4 ∧ w.val = 2 ^ 52 + 3 := by
  have ha : (Dbl.round R (5 / 8)).val = 5 / 8 := R.exact ⟨5, -3, by norm_num, by norm_num⟩
  have ha' : (Dbl.round R (11 / 8)).val = 11 / 8 := R.exact ⟨11, -3, by norm_num, by norm_num⟩
  have hb : (Dbl.round R (2 ^ 53 + 6)).val = 2 ^ 53 + 6 := R.exact ⟨2 ^ 52 + 3, 1, by norm_num, by norm_num⟩
  have hq : (Dbl.round R (1 / 2)).val = 1 / 2 := R.exact ⟨1, -1, by norm_num, by norm_num⟩
  have le1 : Dbl.round R (5 / 8) ≤ Dbl.round R (2 ^ 53 + 6) := R.mono (by norm_num)
  have le2 : Dbl.round R (11 / 8) ≤ Dbl.round R (2 ^ 53 + 6) := R.mono (by norm_num)
  obtain ⟨v, hv, ev⟩ := half_of_two hs le1 hq
  obtain ⟨w, hw, ew⟩ := half_of_two hs le2 hq
  refine ⟨_, _, _, _, v, w, ha, ha', hb, hq, hv, hw, ?_, ?_⟩
  · rw [ev, ha, hb, R.eq_of_close (x := 2 ^ 53 + 6 - 5 / 8) (k := 2 ^ 52 + 3) (e := 1) (by norm_num) (by norm_num) (by norm_num [abs_lt]),
      R.exact (x := 1 / 2 * _) ⟨2 ^ 52 + 3, 0, by norm_num, by norm_num⟩,
      R.eq_of_close (k := 2 ^ 52 + 4) (e := 0) (by norm_num) (by norm_num) (by norm_num [abs_lt])]
    norm_num
  · rw [ew, ha', hb, R.eq_of_close (x := 2 ^ 53 + 6 - 11 / 8) (k := 2 ^ 52 + 2) (e := 1) (by norm_num) (by norm_num) (by norm_num [abs_lt]),
      R.exact (x := 1 / 2 * _) ⟨2 ^ 52 + 2, 0, by norm_num, by norm_num⟩,
      R.eq_of_close (k := 2 ^ 52 + 3) (e := 0) (by norm_num) (by norm_num) (by norm_num [abs_lt])]
    norm_num

example := C168_quantile_violated exEven stdSort_exists.choose_spec

end DF
