import Verif.Spec.Rounded
import Verif.Props.IeeeNorm
import Verif.Props.SpecialReal

/-!
# Operations on `double` deliver the rounded result (C135)

Unlike C118, the operands may be infinite or NaN.
-/

namespace DF

open Spec

variable {D : Machine}

/-- The same value among the unrounded ones, for the proofs. -/
def exactly : Ext (Num D) → Ext ℝ
  | .fin x => .fin x.val
  | .pinf => .pinf
  | .ninf => .ninf
  | .nan => .nan

theorem extended_eq (x : Ext (Num D)) : extended x = toE (exactly x) := by cases x <;> rfl

theorem Delivers.fin (x : ℝ) : Delivers (Ext.ofReal D x) (some (x : EReal)) := by
  refine ⟨by simp, by simp, by simp, fun y hy => ?_⟩
  have : x = y := by simpa using hy
  subst this
  refine ⟨Ext.ofReal_cases x, fun r hr y => ?_⟩
  have := Ext.real_ofReal (D := D) (x := x) ⟨r, hr⟩
  rw [hr] at this
  change r.val = _ at this
  rw [this]
  exact D.near x y.val y.rep

theorem Delivers.of_exactly {z : Ext (Num D)} {e : Ext ℝ} (h : exactly z = e) :
    Delivers z (toE e) := by
  subst h
  refine ⟨?_, ?_, ?_, ?_⟩
  all_goals cases z <;> simp [exactly, toE]
  exact .inl ⟨_, rfl⟩

theorem delivers_add (x y : Ext (Num D)) : Delivers (x + y) (addE (extended x) (extended y)) := by
  rw [extended_eq, extended_eq, ← toE_add]
  cases x with
  | fin x => cases y with
    | fin y => exact Delivers.fin _
    | _ => exact Delivers.of_exactly rfl
  | _ => cases y <;> exact Delivers.of_exactly rfl

theorem delivers_sub (x y : Ext (Num D)) : Delivers (x - y) (subE (extended x) (extended y)) := by
  rw [extended_eq, extended_eq, ← toE_sub]
  cases x with
  | fin x => cases y with
    | fin y => exact Delivers.fin _
    | _ => exact Delivers.of_exactly rfl
  | _ => cases y <;> exact Delivers.of_exactly rfl

theorem infTimes_exactly (x : Num D) : exactly (Ext.infTimes x) = Ext.infTimes x.val := by
  unfold Ext.infTimes
  by_cases h1 : (0 : Num D) < x
  · rw [if_pos h1, if_pos (show 0 < x.val from h1)]; rfl
  · rw [if_neg h1, if_neg (show ¬ 0 < x.val from h1)]
    by_cases h2 : x < (0 : Num D)
    · rw [if_pos h2, if_pos (show x.val < 0 from h2)]; rfl
    · rw [if_neg h2, if_neg (show ¬ x.val < 0 from h2)]; rfl

theorem ninfTimes_exactly (x : Num D) : exactly (Ext.ninfTimes x) = Ext.ninfTimes x.val := by
  unfold Ext.ninfTimes
  by_cases h1 : (0 : Num D) < x
  · rw [if_pos h1, if_pos (show 0 < x.val from h1)]; rfl
  · rw [if_neg h1, if_neg (show ¬ 0 < x.val from h1)]
    by_cases h2 : x < (0 : Num D)
    · rw [if_pos h2, if_pos (show x.val < 0 from h2)]; rfl
    · rw [if_neg h2, if_neg (show ¬ x.val < 0 from h2)]; rfl

theorem delivers_mul (x y : Ext (Num D)) : Delivers (x * y) (mulE (extended x) (extended y)) := by
  rw [extended_eq, extended_eq, ← toE_mul]
  cases x with
  | fin x => cases y with
    | fin y => exact Delivers.fin _
    | pinf => exact Delivers.of_exactly (infTimes_exactly x)
    | ninf => exact Delivers.of_exactly (ninfTimes_exactly x)
    | nan => exact Delivers.of_exactly rfl
  | pinf => cases y with
    | fin y => exact Delivers.of_exactly (infTimes_exactly y)
    | _ => exact Delivers.of_exactly rfl
  | ninf => cases y with
    | fin y => exact Delivers.of_exactly (ninfTimes_exactly y)
    | _ => exact Delivers.of_exactly rfl
  | nan => cases y <;> exact Delivers.of_exactly rfl

theorem delivers_div (x y : Ext (Num D)) : Delivers (x / y) (divE (extended x) (extended y)) := by
  rw [extended_eq, extended_eq, ← toE_div]
  cases x with
  | fin x => cases y with
    | fin y =>
      by_cases hy : y = 0
      · subst hy
        have e1 : (.fin x / .fin 0 : Ext (Num D)) = Ext.infTimes x := if_pos rfl
        have e2 : exactly (.fin x : Ext (Num D)) / exactly (.fin 0 : Ext (Num D)) = Ext.infTimes x.val := if_pos rfl
        rw [e1, e2]
        exact Delivers.of_exactly (infTimes_exactly x)
      · have hv : y.val ≠ 0 := fun h => hy (Num.val_injective h)
        rw [Ext.fin_div' hy, show exactly (.fin x : Ext (Num D)) / exactly (.fin y : Ext (Num D)) = Ext.fin (x.val / y.val)
          from if_neg hv]
        exact Delivers.fin _
    | nan => exact Delivers.of_exactly rfl
    | _ => exact Delivers.of_exactly rfl
  | pinf => cases y with
    | fin y =>
      refine Delivers.of_exactly ?_
      show exactly (if y < 0 then _ else _) = if y.val < 0 then _ else _
      by_cases h : y < (0 : Num D)
      · rw [if_pos h, if_pos (show y.val < 0 from h)]; rfl
      · rw [if_neg h, if_neg (show ¬ y.val < 0 from h)]; rfl
    | _ => exact Delivers.of_exactly rfl
  | ninf => cases y with
    | fin y =>
      refine Delivers.of_exactly ?_
      show exactly (if y < 0 then _ else _) = if y.val < 0 then _ else _
      by_cases h : y < (0 : Num D)
      · rw [if_pos h, if_pos (show y.val < 0 from h)]; rfl
      · rw [if_neg h, if_neg (show ¬ y.val < 0 from h)]; rfl
    | _ => exact Delivers.of_exactly rfl
  | nan => cases y <;> exact Delivers.of_exactly rfl

/-- C135: `add` and `sub` deliver the sums and the differences. -/
theorem C135_add_sub {a b : Serie (Ext (Num D))} (ha : WF a) (hb : WF b) (hs : SameShape a b) :
    ∃ r t, add2 a b = .ok r ∧ sub2 a b = .ok t ∧ WF r ∧ WF t ∧ SameShape r a ∧ SameShape t a ∧
      ∀ i j x y, cell a i j = some x → cell b i j = some y → ∃ z w, cell r i j = some z ∧ cell t i j = some w ∧
        Delivers z (addE (extended x) (extended y)) ∧ Delivers w (subE (extended x) (extended y)) := by
  obtain ⟨r, h1, h2, h3, h4⟩ := (C35_add ha hb).2 hs
  obtain ⟨t, k1, k2, k3, k4⟩ := (C35_sub ha hb).2 hs
  exact ⟨r, t, h1, k1, h2, k2, h3, k3, fun i j x y hx hy =>
    ⟨_, _, h4 i j x y hx hy, k4 i j x y hx hy, delivers_add x y, delivers_sub x y⟩⟩

example (D : Machine) := C135_add_sub (exI_WF D) (exJ_WF D) ⟨rfl, rfl⟩

/-- C135: `mult` by a number and `scale` deliver the products. -/
theorem C135_scale {s : Serie (Ext (Num D))} (h : WF s) (h0 : 0 < s.count) (d : Ext (Num D)) :
    ∃ r, mult s d = .ok r ∧ scale s d = .ok r ∧ WF r ∧ SameShape r s ∧ ∀ i j x, cell s i j = some x →
      ∃ z, cell r i j = some z ∧ Delivers z (mulE (extended x) (extended d)) := by
  obtain ⟨c1, c2, c3⟩ := onNumbers_cells (f := (· * d)) h
  exact ⟨_, C36_mult h h0 d, C36_scale h h0 d, c1, c2, fun i j x hx => ⟨_, c3 i j x hx, delivers_mul x d⟩⟩

example (D : Machine) := C135_scale (exI_WF D) (of_decide_eq_true rfl) .ninf

/-- C135: `mult` of two Series of the same shape delivers the products of their numbers. -/
theorem C135_mult {a b : Serie (Ext (Num D))} (ha : WF a) (hb : WF b) (hs : SameShape a b) (h0 : 0 < a.count)
    (h1 : a.itemSize ≠ 1) :
    ∃ r, multSerie a b = .ok r ∧ WF r ∧ SameShape r a ∧ ∀ i j x y, cell a i j = some x → cell b i j = some y →
      ∃ z, cell r i j = some z ∧ Delivers z (mulE (extended x) (extended y)) := by
  obtain ⟨h2, h3, _⟩ := WF_pointwise (op := (· * ·)) ha hb hs
  exact ⟨_, multSerie_same ha hb h0 hs h1, h2, h3, fun i j x y hx hy =>
    ⟨_, cell_pointwise ha hb hs hx hy, delivers_mul x y⟩⟩

example (D : Machine) := C135_mult (exI_WF D) (exJ_WF D) ⟨rfl, rfl⟩ (of_decide_eq_true rfl) (of_decide_eq_true rfl)

/-- C135: `div` by a number delivers the quotients. -/
theorem C135_div {s : Serie (Ext (Num D))} (h : WF s) (h0 : 0 < s.count) (d : Ext (Num D)) :
    ∃ r, divNum d s = .ok r ∧ WF r ∧ SameShape r s ∧ ∀ i j x, cell s i j = some x →
      ∃ z, cell r i j = some z ∧ Delivers z (divE (extended x) (extended d)) := by
  obtain ⟨c1, c2, c3⟩ := onNumbers_cells (f := (· / d)) h
  exact ⟨_, C36_div h h0 d, c1, c2, fun i j x hx => ⟨_, c3 i j x hx, delivers_div x d⟩⟩

example (D : Machine) := C135_div (exI_WF D) (of_decide_eq_true rfl) (.fin 0)

/-- C135: `negate` is exact: it changes the sign of every number, exchanges the infinities and keeps NaN. -/
theorem C135_negate {s : Serie (Ext (Num D))} (h : WF s) (h0 : 0 < s.count) :
    ∃ r, negate s = .ok r ∧ WF r ∧ SameShape r s ∧ ∀ i j x, cell s i j = some x → ∃ z, cell r i j = some z ∧
      extended z = (extended x).map (- ·) := by
  have hrun : negate s = .ok (onNumbers (fun y : Ext (Num D) => y * (-1)) s) :=
    mapArr_numbers h h0 (fun _ hv _ => updLoop_map hv.symm (fun _ _ => rfl))
  obtain ⟨c1, c2, c3⟩ := onNumbers_cells (f := fun y : Ext (Num D) => y * (-1)) h
  refine ⟨_, hrun, c1, c2, fun i j x hx => ⟨_, c3 i j x hx, ?_⟩⟩
  have hm : (-1 : Ext (Num D)) = .fin (-1) := rfl
  have hn : ((-1 : Num D)).val = -1 := rfl
  have l1 : ¬ (0 : Num D) < -1 := by
    show ¬ (0 : ℝ) < -1
    norm_num
  have l2 : (-1 : Num D) < 0 := by
    show (-1 : ℝ) < 0
    norm_num
  rw [hm]
  cases x with
  | fin x =>
    rw [Ext.fin_mul', hn, show x.val * -1 = (-x : Num D).val by show _ = -x.val; ring, Ext.ofReal_val]
    rfl
  | pinf =>
    show extended (Ext.infTimes (-1 : Num D)) = _
    unfold Ext.infTimes
    rw [if_neg l1, if_pos l2]; rfl
  | ninf =>
    show extended (Ext.ninfTimes (-1 : Num D)) = _
    unfold Ext.ninfTimes
    rw [if_neg l1, if_pos l2]; rfl
  | nan => rfl

example (D : Machine) := C135_negate (exI_WF D) (of_decide_eq_true rfl)

/-! ## Sums -/

theorem add_nan (x : Ext (Num D)) : x + .nan = .nan := by cases x <;> rfl
theorem nan_add (x : Ext (Num D)) : .nan + x = .nan := by cases x <;> rfl

theorem nan_fold : ∀ l : List (Ext (Num D)), l.foldl (· + ·) .nan = .nan
  | [] => rfl
  | x :: l => by rw [List.foldl_cons, nan_add]; exact nan_fold l

theorem fold_nan : ∀ (l : List (Ext (Num D))) (acc : Ext (Num D)), .nan ∈ l → l.foldl (· + ·) acc = .nan
  | x :: l, acc, h => by
    rw [List.foldl_cons]
    rcases List.mem_cons.1 h with e | h
    · rw [← e, add_nan]; exact nan_fold l
    · exact fold_nan l _ h

theorem fold_pinf_ninf : ∀ (l : List (Ext (Num D))) (acc : Ext (Num D)), acc = .pinf ∨ acc = .nan → .ninf ∈ l →
    l.foldl (· + ·) acc = .nan
  | x :: l, acc, ha, h => by
    rw [List.foldl_cons]
    rcases List.mem_cons.1 h with e | h
    · rw [← e, show acc + .ninf = (.nan : Ext (Num D)) by rcases ha with rfl | rfl <;> rfl]; exact nan_fold l
    · refine fold_pinf_ninf l _ ?_ h
      rcases ha with rfl | rfl
      · cases x
        · exact .inl rfl
        · exact .inl rfl
        · exact .inr rfl
        · exact .inr rfl
      · exact .inr (nan_add x)

theorem fold_ninf_pinf : ∀ (l : List (Ext (Num D))) (acc : Ext (Num D)), acc = .ninf ∨ acc = .nan → .pinf ∈ l →
    l.foldl (· + ·) acc = .nan
  | x :: l, acc, ha, h => by
    rw [List.foldl_cons]
    rcases List.mem_cons.1 h with e | h
    · rw [← e, show acc + .pinf = (.nan : Ext (Num D)) by rcases ha with rfl | rfl <;> rfl]; exact nan_fold l
    · refine fold_ninf_pinf l _ ?_ h
      rcases ha with rfl | rfl
      · cases x
        · exact .inl rfl
        · exact .inr rfl
        · exact .inl rfl
        · exact .inr rfl
      · exact .inr (nan_add x)

theorem add_pinf (x : Ext (Num D)) : x + .pinf = .pinf ∨ x + .pinf = .nan := by
  cases x
  · exact .inl rfl
  · exact .inl rfl
  · exact .inr rfl
  · exact .inr rfl

theorem add_ninf (x : Ext (Num D)) : x + .ninf = .ninf ∨ x + .ninf = .nan := by
  cases x
  · exact .inl rfl
  · exact .inr rfl
  · exact .inl rfl
  · exact .inr rfl

theorem fold_both : ∀ (l : List (Ext (Num D))) (acc : Ext (Num D)), .pinf ∈ l → .ninf ∈ l → l.foldl (· + ·) acc = .nan
  | x :: l, acc, hp, hn => by
    rw [List.foldl_cons]
    rcases List.mem_cons.1 hp with e | hp
    · subst e
      exact fold_pinf_ninf l _ (add_pinf acc) ((List.mem_cons.1 hn).resolve_left (fun e => by cases e))
    · rcases List.mem_cons.1 hn with e | hn
      · rw [← e]
        exact fold_ninf_pinf l _ (add_ninf acc) (by assumption)
      · exact fold_both l _ (by assumption) hn

theorem fin_add_not_nan {x y : Ext (Num D)} (hx : x ≠ .nan) (hy : IsFinite y) : x + y ≠ .nan := by
  obtain ⟨y, rfl⟩ := hy
  cases x with
  | fin x => exact Ext.ofReal_not_nan _
  | pinf => intro h; cases h
  | ninf => intro h; cases h
  | nan => exact absurd rfl hx

theorem fold_not_nan : ∀ (l : List (Ext (Num D))) (acc : Ext (Num D)), acc ≠ .nan → (∀ x ∈ l, IsFinite x) →
    l.foldl (· + ·) acc ≠ .nan
  | [], _, h, _ => h
  | x :: l, acc, h, hf => by
    rw [List.foldl_cons]
    exact fold_not_nan l _ (fin_add_not_nan h (hf x (by simp))) (fun y hy => hf y (by simp [hy]))

theorem fold_pinf : ∀ (l : List (Ext (Num D))), .ninf ∉ l → .nan ∉ l → l.foldl (· + ·) .pinf = .pinf
  | [], _, _ => rfl
  | x :: l, h1, h2 => by
    rw [List.mem_cons, not_or] at h1 h2
    rw [List.foldl_cons, show (.pinf + x : Ext (Num D)) = .pinf by cases x <;> first | rfl | simp at h1 h2]
    exact fold_pinf l h1.2 h2.2

theorem fold_ninf : ∀ (l : List (Ext (Num D))), .pinf ∉ l → .nan ∉ l → l.foldl (· + ·) .ninf = .ninf
  | [], _, _ => rfl
  | x :: l, h1, h2 => by
    rw [List.mem_cons, not_or] at h1 h2
    rw [List.foldl_cons, show (.ninf + x : Ext (Num D)) = .ninf by cases x <;> first | rfl | simp at h1 h2]
    exact fold_ninf l h1.2 h2.2

theorem sum_finite (hD : IsDouble D) {l : List (Ext (Num D))} (hl : l.length < 2 ^ 32) (hf : ∀ x ∈ l, IsFinite x)
    (hb : (absReals l).sum ≤ D.top / 2) : IsFinite (l.foldl (· + ·) 0) := by
  have hg : growth D.p l.length ≤ 1 := by
    rw [hD.1]
    have hu : unit 53 = 1 / 2 ^ 53 := by unfold unit; norm_num
    have hc : (l.length : ℝ) ≤ 2 ^ 32 := by exact_mod_cast (by omega : l.length ≤ 2 ^ 32)
    have := growth_le (p := 53) (n := l.length) (by rw [hu]; nlinarith)
    rw [hu] at this
    nlinarith
  have hT := Ext.absReals_nonneg l
  refine Ext.fold_of_le l 0 ⟨0, rfl⟩ hf ?_
  simp only [show real (0 : Ext (Num D)) = 0 from rfl, abs_zero, zero_add]
  nlinarith

theorem sum_split {a : Ext (Num D)} {l : List (Ext (Num D))} (ha : a ∈ l) (ho : ∀ x ∈ l, x = a ∨ IsFinite x) :
    ∃ l1 l2, l = l1 ++ a :: l2 ∧ (∀ x ∈ l1, IsFinite x) ∧ (absReals l1).sum ≤ (absReals l).sum ∧ l1.length ≤ l.length := by
  obtain ⟨l1, l2, rfl, h⟩ := List.eq_append_cons_of_mem ha
  refine ⟨l1, l2, rfl, fun x hx => (ho x (by simp [hx])).resolve_left (fun e => h (e ▸ hx)), ?_, by simp⟩
  have := Ext.absReals_nonneg (a :: l2)
  unfold absReals at this ⊢
  rw [List.map_append, List.sum_append]
  linarith

theorem sum_pinf (hD : IsDouble D) {l : List (Ext (Num D))} (hl : l.length < 2 ^ 32) (hp : .pinf ∈ l)
    (ho : ∀ x ∈ l, x = .pinf ∨ IsFinite x) (hb : (absReals l).sum ≤ D.top / 2) : l.foldl (· + ·) 0 = .pinf := by
  obtain ⟨l1, l2, rfl, h1, h2, h3⟩ := sum_split hp ho
  obtain ⟨z, hz⟩ := sum_finite hD (by omega) h1 (h2.trans hb)
  rw [List.foldl_append, hz, List.foldl_cons]
  have key : ∀ x ∈ l2, x ≠ .ninf ∧ x ≠ .nan := by
    intro x hx
    rcases ho x (by simp [hx]) with rfl | ⟨y, rfl⟩ <;> exact ⟨fun h => (by cases h), fun h => (by cases h)⟩
  exact fold_pinf l2 (fun h => (key _ h).1 rfl) (fun h => (key _ h).2 rfl)

theorem sum_ninf (hD : IsDouble D) {l : List (Ext (Num D))} (hl : l.length < 2 ^ 32) (hp : .ninf ∈ l)
    (ho : ∀ x ∈ l, x = .ninf ∨ IsFinite x) (hb : (absReals l).sum ≤ D.top / 2) : l.foldl (· + ·) 0 = .ninf := by
  obtain ⟨l1, l2, rfl, h1, h2, h3⟩ := sum_split hp ho
  obtain ⟨z, hz⟩ := sum_finite hD (by omega) h1 (h2.trans hb)
  rw [List.foldl_append, hz, List.foldl_cons]
  have key : ∀ x ∈ l2, x ≠ .pinf ∧ x ≠ .nan := by
    intro x hx
    rcases ho x (by simp [hx]) with rfl | ⟨y, rfl⟩ <;> exact ⟨fun h => (by cases h), fun h => (by cases h)⟩
  exact fold_ninf l2 (fun h => (key _ h).1 rfl) (fun h => (key _ h).2 rfl)

/-- C135: the mean of numbers among which there is NaN or both infinities is NaN; the mean of finite numbers is never NaN; one
infinity makes it infinite (as long as the finite numbers do not overflow). -/
theorem C135_mean (hD : IsDouble D) {s : Serie (Ext (Num D))} (h : WF s) (h0 : 0 < s.count) :
    ∃ t, mean s = .ok t ∧ ∀ j, j < s.itemSize → ∃ z, tupleAt t j = some z ∧
      (.nan ∈ component s j → z = .nan) ∧
      (.pinf ∈ component s j → .ninf ∈ component s j → z = .nan) ∧
      ((∀ x ∈ component s j, IsFinite x) → z ≠ .nan) ∧
      ((absReals (component s j)).sum ≤ D.top / 2 →
        (.pinf ∈ component s j → (∀ x ∈ component s j, x = .pinf ∨ IsFinite x) → z = .pinf) ∧
        (.ninf ∈ component s j → (∀ x ∈ component s j, x = .ninf ∨ IsFinite x) → z = .ninf)) := by
  have hn := h.count_lt
  obtain ⟨⟨c, c1⟩, c2⟩ := Ext.natCast_finite hD (n := s.count) (by omega)
  have hc : (0 : ℝ) < c.val := by
    rw [c1] at c2
    rw [show c.val = _ from c2]
    exact_mod_cast h0
  have hc0 : c ≠ 0 := fun e => by rw [e] at hc; exact lt_irrefl _ hc
  have hcn : ¬ c < 0 := not_lt.2 hc.le
  have key : ∀ l : List (Ext (Num D)), l.length = s.count → ∀ z, z = l.foldl (· + ·) 0 / ((s.count : Nat) : Ext (Num D)) →
      (.nan ∈ l → z = .nan) ∧ (.pinf ∈ l → .ninf ∈ l → z = .nan) ∧ ((∀ x ∈ l, IsFinite x) → z ≠ .nan) ∧
      ((absReals l).sum ≤ D.top / 2 → (.pinf ∈ l → (∀ x ∈ l, x = .pinf ∨ IsFinite x) → z = .pinf) ∧
        (.ninf ∈ l → (∀ x ∈ l, x = .ninf ∨ IsFinite x) → z = .ninf)) := by
    rintro l hl z rfl
    rw [c1]
    refine ⟨fun hm => ?_, fun hp hm => ?_, fun hf => ?_, fun hb => ⟨fun hp ho => ?_, fun hp ho => ?_⟩⟩
    · rw [fold_nan l 0 hm]; rfl
    · rw [fold_both l 0 hp hm]; rfl
    · have := fold_not_nan l 0 (fun e => by cases e) hf
      generalize l.foldl (· + ·) 0 = y at this
      cases y with
      | fin y => rw [Ext.fin_div' hc0]; exact Ext.ofReal_not_nan _
      | pinf => rw [show (.pinf / .fin c : Ext (Num D)) = .pinf from if_neg hcn]; intro e; cases e
      | ninf => rw [show (.ninf / .fin c : Ext (Num D)) = .ninf from if_neg hcn]; intro e; cases e
      | nan => exact absurd rfl this
    · rw [sum_pinf hD (by omega) hp ho hb]; exact if_neg hcn
    · rw [sum_ninf hD (by omega) hp ho hb]; exact if_neg hcn
  by_cases h1 : s.itemSize = 1
  · refine ⟨_, mean_scalar_run h h1, fun j hj => ?_⟩
    obtain rfl : j = 0 := by omega
    refine ⟨_, rfl, ?_⟩
    rw [component_scalar h h1]
    exact key _ h.scalars_length _ rfl
  · obtain ⟨b, h2, h3, h4⟩ := mean_items_run h h1
    exact ⟨_, h2, fun j hj => ⟨_, h4 j hj, key _ (component_length h hj) _ rfl⟩⟩

example := C135_mean binary64_isDouble (exI_WF binary64) (of_decide_eq_true rfl)

/-! ## Lengths -/

/-- A number that is not negative, or infinity. -/
def NotNeg (x : Ext (Num D)) : Prop := x = .pinf ∨ ∃ y : Num D, x = .fin y ∧ 0 ≤ y.val

theorem fl_nonneg {x : ℝ} (h : 0 ≤ x) : 0 ≤ D.fl x := by
  by_contra hc
  have := D.near x 0 (Num.rep (D := D) 0)
  rw [zero_sub, abs_neg, abs_of_nonneg h, abs_sub_comm, abs_of_pos (by linarith)] at this
  linarith

theorem NotNeg.ofReal {x : ℝ} (h : 0 ≤ x) : NotNeg (Ext.ofReal D x) := by
  unfold Ext.ofReal
  split
  · exact .inr ⟨_, rfl, fl_nonneg h⟩
  · rename_i hb
    rcases h.lt_or_eq with h | h
    · rw [if_pos h]; exact .inl rfl
    · exact absurd (by rw [← h, D.fl_zero, abs_zero]; exact D.top_pos.le) hb

theorem NotNeg.add {x y : Ext (Num D)} (hx : NotNeg x) (hy : NotNeg y) : NotNeg (x + y) := by
  rcases hx with rfl | ⟨a, rfl, ha⟩ <;> rcases hy with rfl | ⟨b, rfl, hb⟩
  · exact .inl rfl
  · exact .inl rfl
  · exact .inl rfl
  · exact NotNeg.ofReal (add_nonneg ha hb)

theorem NotNeg.sq {x : Ext (Num D)} (h : x ≠ .nan) : NotNeg (x * x) := by
  cases x with
  | fin x => exact NotNeg.ofReal (mul_self_nonneg _)
  | pinf => exact .inl rfl
  | ninf => exact .inl rfl
  | nan => exact absurd rfl h

theorem sqSum_nan : ∀ (v : List (Ext (Num D))) (acc : Ext (Num D)), acc = .nan ∨ .nan ∈ v →
    v.foldl (fun acc x => acc + x * x) acc = .nan
  | [], _, h => by simpa using h
  | x :: v, acc, h => by
    rw [List.foldl_cons]
    refine sqSum_nan v _ ?_
    rcases h with rfl | h
    · exact .inl (nan_add _)
    · rcases List.mem_cons.1 h with rfl | h
      · exact .inl (add_nan _)
      · exact .inr h

theorem sqSum_inf : ∀ (v : List (Ext (Num D))) (acc : Ext (Num D)), NotNeg acc → .nan ∉ v →
    (acc = .pinf ∨ .pinf ∈ v ∨ .ninf ∈ v) → v.foldl (fun acc x => acc + x * x) acc = .pinf
  | [], _, _, _, h => by simpa using h
  | x :: v, acc, ha, hn, h => by
    rw [List.mem_cons, not_or] at hn
    have hx : NotNeg (x * x) := NotNeg.sq (Ne.symm hn.1)
    rw [List.foldl_cons]
    refine sqSum_inf v _ (ha.add hx) hn.2 ?_
    rcases h with rfl | h
    · left
      rcases hx with e | ⟨y, e, _⟩ <;> rw [e] <;> rfl
    have key : x * x = .pinf → acc + x * x = .pinf := by
      intro e
      rw [e]
      rcases ha with rfl | ⟨y, rfl, _⟩ <;> rfl
    rcases h with h | h
    · rcases List.mem_cons.1 h with rfl | h
      · exact .inl (key rfl)
      · exact .inr (.inl h)
    · rcases List.mem_cons.1 h with rfl | h
      · exact .inl (key rfl)
      · exact .inr (.inr h)

/-- C135: `normalize` makes NaN of all the numbers of a vector that contains NaN. In a vector that contains an infinity it makes
NaN of the infinite numbers and zero of the others. -/
theorem C135_normalize {s : Serie (Ext (Num D))} (h : WF s) (h0 : 0 < s.count) (h1 : s.itemSize ≠ 1) :
    ∃ r, normalize s = .ok r ∧ WF r ∧ SameShape r s ∧ ItemWise (fun v w =>
      (.nan ∈ v → ∀ y ∈ w, y = .nan) ∧
      (.nan ∉ v → .pinf ∈ v ∨ .ninf ∈ v → List.Forall₂ (fun x y => (IsFinite x → y = 0) ∧ (¬ IsFinite x → y = .nan)) v w)) s r := by
  let S : List (Ext (Num D)) → Ext (Num D) := fun v => v.foldl (fun acc x => acc + x * x) 0
  have hf := ofItems_map_facts h (k := s.itemSize) (g := fun v => v.map (· * (1 / Sqrt.sqrt (S v)))) h.pos le_rfl
    (fun v hv => by simpa using hv)
  refine ⟨_, ?_, hf.1, ⟨hf.2.1, hf.2.2.1⟩, ItemWise_map hf.2.2.2 (fun v hv => ⟨fun hm => ?_, fun hn hi => ?_⟩)⟩
  · unfold normalize
    rw [h.valid, if_neg (by simp), if_neg h1]
    exact mapArr_items h h0 h.pos le_rfl (fun v hv => by simpa using hv) (fun v hv i => rfl)
  · have e : (1 : Ext (Num D)) / Sqrt.sqrt (S v) = .nan := by
      rw [show S v = .nan from sqSum_nan v 0 (.inr hm)]; rfl
    rw [e]
    intro y hy
    obtain ⟨x, _, rfl⟩ := List.mem_map.1 hy
    cases x <;> rfl
  · have e : (1 : Ext (Num D)) / Sqrt.sqrt (S v) = .fin 0 := by
      rw [show S v = .pinf from sqSum_inf v 0 (.inr ⟨0, rfl, le_rfl⟩) hn (.inr hi)]; rfl
    have z : (0 : Num D).val = 0 := rfl
    rw [e, List.forall₂_map_right_iff, List.forall₂_same]
    intro x _
    constructor
    · rintro ⟨x, rfl⟩
      rw [Ext.fin_mul', z, mul_zero, ← z, Ext.ofReal_val]; rfl
    · intro hx
      cases x with
      | fin x => exact absurd ⟨x, rfl⟩ hx
      | pinf =>
        show Ext.infTimes (0 : Num D) = _
        unfold Ext.infTimes
        rw [if_neg (lt_irrefl _), if_neg (lt_irrefl _)]
      | ninf =>
        show Ext.ninfTimes (0 : Num D) = _
        unfold Ext.ninfTimes
        rw [if_neg (lt_irrefl _), if_neg (lt_irrefl _)]
      | nan => rfl

example (D : Machine) := C135_normalize (exI_WF D) (of_decide_eq_true rfl) (of_decide_eq_true rfl)

end DF
