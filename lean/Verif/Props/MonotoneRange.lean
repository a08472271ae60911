import Verif.Props.Monotone
import Verif.Props.Ieee

/-!
# Sums of numbers that are not negative, through overflow (C169)

The numbers are `Ext (Num D)`, as in Model/Ieee: a format with a largest number, infinities and NaN. `x ≤ y` is the comparison of the
language, false as soon as one of them is NaN; so `0 ≤ x` says that `x` is not NaN and not negative.
-/

namespace DF

open Spec

variable {σ τ : Type} {D : Machine}

/-! ## Helpers -/

theorem Machine.fl_mono {x y : ℝ} (h : x ≤ y) : D.fl x ≤ D.fl y := by
  rcases h.lt_or_eq with h | rfl
  · by_contra hc
    rw [not_le] at hc
    have h1 := D.near x _ (D.rep y)
    have h2 := D.near y _ (D.rep x)
    rw [← sq_le_sq] at h1 h2
    nlinarith
  · exact le_rfl

/-- Values that are not NaN and not negative, in order. -/
def BelowX (x y : Ext (Num D)) : Prop := 0 ≤ x ∧ x ≤ y

theorem belowX_ofReal {x y : ℝ} (h0 : 0 ≤ x) (h : x ≤ y) : BelowX (Ext.ofReal D x) (Ext.ofReal D y) := by
  have hx : 0 ≤ D.fl x := by have := D.fl_mono h0; rwa [D.fl_zero] at this
  have hxy := D.fl_mono h
  unfold Ext.ofReal
  by_cases h1 : |D.fl y| ≤ D.top
  · have h2 : |D.fl x| ≤ D.top := by
      rw [abs_of_nonneg (hx.trans hxy)] at h1
      rw [abs_of_nonneg hx]; exact hxy.trans h1
    rw [dif_pos h1, dif_pos h2]
    exact ⟨hx, hxy⟩
  · have hy : 0 < y := by
      rcases h0.trans h |>.lt_or_eq with h | rfl
      · exact h
      · exact absurd (by rw [D.fl_zero, abs_zero]; exact D.top_pos.le) h1
    rw [dif_neg h1, if_pos hy]
    by_cases h2 : |D.fl x| ≤ D.top
    · rw [dif_pos h2]; exact ⟨hx, trivial⟩
    · have hx0 : 0 < x := by
        rcases h0.lt_or_eq with h | rfl
        · exact h
        · exact absurd (by rw [D.fl_zero, abs_zero]; exact D.top_pos.le) h2
      rw [dif_neg h2, if_pos hx0]; exact ⟨trivial, trivial⟩

theorem belowX_pinf {x y : ℝ} (h0 : 0 ≤ x) : BelowX (Ext.ofReal D x) .pinf := by
  have := belowX_ofReal (D := D) h0 le_rfl
  refine ⟨this.1, ?_⟩
  generalize Ext.ofReal D x = z at *
  cases z with
  | fin _ => trivial
  | pinf => trivial
  | ninf => trivial
  | nan => exact this.2

theorem belowX_zero : BelowX (0 : Ext (Num D)) 0 := ⟨le_rfl (a := (0 : Num D)), le_rfl (a := (0 : Num D))⟩

/-- The cases of two values in order. -/
theorem belowX_cases {x y : Ext (Num D)} (h : BelowX x y) :
    (∃ a b : Num D, x = .fin a ∧ y = .fin b ∧ 0 ≤ a.val ∧ a.val ≤ b.val) ∨ (∃ a : Num D, x = .fin a ∧ y = .pinf ∧ 0 ≤ a.val) ∨
      (x = .pinf ∧ y = .pinf) := by
  obtain ⟨h1, h2⟩ := h
  cases x <;> cases y <;> first
    | exact .inl ⟨_, _, rfl, rfl, h1, h2⟩
    | exact .inr (.inl ⟨_, rfl, rfl, h1⟩)
    | exact .inr (.inr ⟨rfl, rfl⟩)
    | exact (h1 : False).elim
    | exact (h2 : False).elim

theorem belowX_add : Kept (BelowX (D := D)) .addition := fun x y h x' y' h' => by
  rcases belowX_cases h with ⟨a, b, rfl, rfl, p, q⟩ | ⟨a, rfl, rfl, p⟩ | ⟨rfl, rfl⟩ <;>
    rcases belowX_cases h' with ⟨a', b', rfl, rfl, p', q'⟩ | ⟨a', rfl, rfl, p'⟩ | ⟨rfl, rfl⟩ <;> first
    | exact belowX_ofReal (add_nonneg p p') (add_le_add q q')
    | exact belowX_pinf (y := 0) (add_nonneg p p')
    | exact ⟨trivial, trivial⟩


/-- Division by a positive number. -/
theorem belowX_div {x y : Ext (Num D)} (h : BelowX x y) {c : Num D} (hc : 0 < c.val) : BelowX (x / .fin c) (y / .fin c) := by
  have hc0 : c ≠ 0 := by rintro rfl; exact lt_irrefl _ hc
  have hc1 : ¬ c < 0 := not_lt.2 (show (0 : ℝ) ≤ c.val from hc.le)
  have hinf : (.pinf / .fin c : Ext (Num D)) = .pinf := if_neg hc1
  rcases belowX_cases h with ⟨a, b, rfl, rfl, p, q⟩ | ⟨a, rfl, rfl, p⟩ | ⟨rfl, rfl⟩
  · rw [Ext.fin_div' hc0, Ext.fin_div' hc0]
    exact belowX_ofReal (div_nonneg p hc.le) (div_le_div_of_nonneg_right q hc.le)
  · rw [Ext.fin_div' hc0, hinf]
    exact belowX_pinf (y := 0) (div_nonneg p hc.le)
  · rw [hinf]; exact ⟨trivial, trivial⟩

theorem belowX_count (hD : IsDouble D) {x y : Ext (Num D)} (h : BelowX x y) {n : Nat} (h0 : 0 < n) (hn : n < 2 ^ 32) :
    BelowX (x / (n : Ext (Num D))) (y / (n : Ext (Num D))) := by
  have htop : |(n : ℝ)| ≤ D.top := by
    rw [abs_of_nonneg (Nat.cast_nonneg n)]
    have h1 : (n : ℝ) ≤ 2 ^ 32 := by exact_mod_cast hn.le
    have h2 : (2 : ℝ) ^ 32 ≤ 2 ^ 1023 := pow_le_pow_right₀ (by norm_num) (by norm_num)
    exact h1.trans (h2.trans (Ext.top_large hD))
  have e : (n : Ext (Num D)) = .fin ⟨D.fl n, D.rep n, D.abs_fl_le D.top_rep htop⟩ := Ext.ofReal_of_le htop
  rw [e]
  refine belowX_div h ?_
  have h1 := D.fl_mono (show (1 : ℝ) ≤ n by exact_mod_cast h0)
  have e1 : D.fl 1 = 1 := D.exact (Num.rep (D := D) 1)
  rw [e1] at h1
  exact lt_of_lt_of_le zero_lt_one h1

/-- `mean` of related Series, when the relation is kept by the division by the count. -/
theorem mean_rel_count {α β : Type} [Zero α] [Zero β] [Add α] [Add β] [Div α] [Div β] [NatCast α] [NatCast β] {T : α → β → Prop} (h0 : T 0 0)
    (ha : Rel2 T (· + ·) (· + ·)) {s : Serie α} {t : Serie β} (hd : ∀ x y, T x y → T (x / (t.count : Nat)) (y / (t.count : Nat)))
    (h : SRel T s t) : ResRel (TRel T) (mean s) (mean t) := by
  unfold mean
  rw [h.itemSize, h.count]
  split
  · exact (h.reduceS h0 (f := fun a v _ => .ok (a + v)) (g := fun a v _ => .ok (a + v)) fun _ _ hx _ _ hy _ =>
      .ok (ha _ _ hx _ _ hy)).bind fun _ _ hx => .ok (.number (hd _ _ hx))
  · have key : EffRel (List.Forall₂ T) (fun _ _ : Unit => True)
        (forEachV (fun a _ => Eff.update (fun b => updLoop a.length (fun j x => do
          let y ← rd a j
          pure (x + y)) b)) s)
        (forEachV (fun a _ => Eff.update (fun b => updLoop a.length (fun j x => do
          let y ← rd a j
          pure (x + y)) b)) t) := by
      unfold forEachV
      rw [h.itemSize, h.count]
      split
      · exact EffRel.throw _
      · refine EffRel.forLoop _ 0 trivial fun i _ _ _ => (EffRel.lift (h.getA i)).bind fun v w hv => ?_
        refine EffRel.update fun l m hl => ?_
        rw [hv.length_eq]
        exact ResRel.updLoop _ hl fun j _ _ hx => (Forall₂.rd hv j).bind fun _ _ hy => .ok (ha _ _ hx _ _ hy)
    refine (exec_rel (key _ _ (Forall₂.replicate _ h0))).bind fun l m hl => .ok (.array ?_)
    exact Forall₂.map hl fun _ _ hx => hd _ _ hx

/-- Finite numbers that are not negative, in order. -/
def BelowFin (x y : Ext (Num D)) : Prop := IsFinite x ∧ IsFinite y ∧ 0 ≤ x ∧ x ≤ y

theorem belowFin_mul {x y x' y' : Ext (Num D)} (h : BelowFin x y) (h' : BelowFin x' y') : BelowX (x * x') (y * y') := by
  obtain ⟨⟨a, rfl⟩, ⟨b, rfl⟩, p, q⟩ := h
  obtain ⟨⟨a', rfl⟩, ⟨b', rfl⟩, p', q'⟩ := h'
  have p : (0 : ℝ) ≤ a.val := p
  have q : a.val ≤ b.val := q
  have p' : (0 : ℝ) ≤ a'.val := p'
  have q' : a'.val ≤ b'.val := q'
  exact belowX_ofReal (mul_nonneg p p') (mul_le_mul q q' p' (p.trans q))

/-- Two Series for the examples: 1 and 2^1023, then 1 and an infinity. -/
noncomputable def exBig : Serie (Ext (Num binary64)) :=
  ofScalars [.fin (power binary64_isDouble 0 (by norm_num) (by norm_num)), .fin (power binary64_isDouble 1023 (by norm_num) (by norm_num))]
noncomputable def exBigger : Serie (Ext (Num binary64)) :=
  ofScalars [.fin (power binary64_isDouble 0 (by norm_num) (by norm_num)), .pinf]

theorem exBig_nonneg (e : ℤ) : (0 : ℝ) ≤ (2 : ℝ) ^ e := by positivity

theorem exBig_below : Each (fun x y => 0 ≤ x ∧ x ≤ y) exBig exBigger :=
  ⟨rfl, rfl, rfl, .cons ⟨exBig_nonneg 0, le_rfl (a := (2 : ℝ) ^ (0 : ℤ))⟩ (.cons ⟨exBig_nonneg 1023, trivial⟩ .nil)⟩

theorem exBig_finite : Each (fun x y => IsFinite x ∧ IsFinite y ∧ 0 ≤ x ∧ x ≤ y) exBig exBig :=
  ⟨rfl, rfl, rfl, .cons ⟨⟨_, rfl⟩, ⟨_, rfl⟩, exBig_nonneg 0, le_rfl (a := (2 : ℝ) ^ (0 : ℤ))⟩
    (.cons ⟨⟨_, rfl⟩, ⟨_, rfl⟩, exBig_nonneg 1023, le_rfl (a := (2 : ℝ) ^ (1023 : ℤ))⟩ .nil)⟩

/-! ## C169 -/

/-- C169: a program of library calls that only adds, and moves numbers, run on values that are not NaN and not negative, gives no NaN and
nothing negative, whatever overflows; larger values give larger values. -/
theorem C169_programs {S : σ → τ → Prop} {f : Program σ (Ext (Num D))} {g : Program τ (Ext (Num D))}
    (h : f.Twin (fun x y => 0 ≤ x ∧ x ≤ y) S g) (hu : ∀ u, f.Uses u → u = .addition) {s : σ} {t : τ} (hs : S s t) :
    Outcomes (Each fun x y => 0 ≤ x ∧ x ≤ y) (f.run s).1 (g.run t).1 :=
  (C152_programs (R := BelowX) belowX_zero h (fun u h' => by rw [hu u h']; exact belowX_add) hs).1

example := C169_programs (S := fun _ _ : Unit => True) (.call2 .add (.given exBig_below) (.given exBig_below)) (by
    rintro u (h | h | h)
    · simpa [Call2.uses] using h
    · exact absurd h id
    · exact absurd h id) (s := ()) (t := ()) trivial

/-- C169: the same for routines with variables, loops and handlers. -/
theorem C169_routines {S : σ → τ → Prop} {f : Routine σ (Ext (Num D))} {g : Routine τ (Ext (Num D))}
    (h : f.Twin (fun x y => 0 ≤ x ∧ x ≤ y) S g) (hu : ∀ u, f.Uses u → u = .addition) {s : σ} {t : τ} (hs : S s t)
    {vars vars' : Vars (Ext (Num D))} (hv : ∀ v, Each (fun x y => 0 ≤ x ∧ x ≤ y) (vars v) (vars' v)) :
    Outcomes (fun _ _ => True) (f.run (s, vars)).1 (g.run (t, vars')).1 ∧
      ∀ v, Each (fun x y => 0 ≤ x ∧ x ≤ y) ((f.run (s, vars)).2.2 v) ((g.run (t, vars')).2.2 v) := by
  have := C167_twins (R := BelowX) belowX_zero h (fun u h' => by rw [hu u h']; exact belowX_add) hs hv
  exact ⟨this.1, this.2.2⟩

/-- Doubling in a loop, until everything has overflowed. -/
example (n : Nat) := C169_routines (S := fun _ _ : Unit => True)
  (.loop (n := n) (f := fun _ s => (.ok true, s)) (g := fun _ s => (.ok true, s)) (fun _ _ _ _ _ _ => ⟨rfl, trivial⟩)
    (.call2 (v := 0) (a := 0) (b := 0) .add)) (by
    intro u h
    simpa [Routine.Uses, Call2.uses] using h) (s := ()) (t := ()) trivial (fun _ => exBig_below)

/-- C169: the mean of values that are not NaN and not negative is neither, and is larger for larger values. -/
theorem C169_mean (hD : IsDouble D) {s t : Serie (Ext (Num D))} (h : WF s) (h0 : 0 < s.count) (hst : Each (fun x y => 0 ≤ x ∧ x ≤ y) s t) :
    Outcomes (Means fun x y => 0 ≤ x ∧ x ≤ y) (mean s) (mean t) :=
  outcomes_mean (mean_rel_count (T := BelowX) belowX_zero belowX_add
    (fun _ _ hxy => belowX_count hD hxy (hst.1 ▸ h0) (hst.1 ▸ h.count_lt)) (each_iff.1 hst))

example := C169_mean binary64_isDouble (s := exBig) (WF_ofScalars (by simp)) (show 0 < 2 by decide) exBig_below

/-- C169: on finite numbers that are not negative, `dot` gives no NaN and nothing negative, also when products or sums overflow, and
larger numbers for larger numbers. -/
theorem C169_dot {a b a' b' : Serie (Ext (Num D))} (ha : Each (fun x y => IsFinite x ∧ IsFinite y ∧ 0 ≤ x ∧ x ≤ y) a a')
    (hb : Each (fun x y => IsFinite x ∧ IsFinite y ∧ 0 ≤ x ∧ x ≤ y) b b') :
    Outcomes (Each fun x y => 0 ≤ x ∧ x ≤ y) (dot a b) (dot a' b') := by
  refine outcomes_each (R := BelowX) ?_
  have h := each_iff.1 ha
  have h' := each_iff.1 hb
  unfold dot
  rw [h.itemSize]
  refine mapArr_rel2 belowX_zero h fun v w hv i => (h'.value i).bind fun _ _ hw => ?_
  exact ResRel.forLoop _ 0 (.cons belowX_zero .nil) fun k _ _ hr => (Forall₂.rd hr 0).bind fun _ _ r0 => (Forall₂.rd hv k).bind fun _ _ hx =>
    (Forall₂.rd hw k).bind fun _ _ hy => Forall₂.wr hr 0 (belowX_add _ _ r0 _ _ (belowFin_mul hx hy))

example := C169_dot exBig_finite exBig_finite

/-- C169 does not extend to programs with products: from finite numbers that are not negative, `mult(mult(s, s), t)` with an overflow in
the first product and a zero in `t` is NaN. -/
theorem C169_product_nan (hD : IsDouble D) : ∃ s t : Serie (Ext (Num D)),
    (∀ x ∈ scalars s, IsFinite x ∧ 0 ≤ x) ∧ (∀ x ∈ scalars t, IsFinite x ∧ 0 ≤ x) ∧
      (do let r ← multSerie s s; multSerie r t) = .ok (ofScalars [.nan]) := by
  let b : Num D := power hD 1023 (by norm_num) (by norm_num)
  refine ⟨ofScalars [.fin b], ofScalars [0], ?_, ?_, ?_⟩
  · rw [scalars_ofScalars]
    intro x hx
    rw [List.mem_singleton.1 hx]
    exact ⟨⟨_, rfl⟩, show (0 : ℝ) ≤ (2 : ℝ) ^ (1023 : ℤ) by positivity⟩
  · rw [scalars_ofScalars]
    intro x hx
    rw [List.mem_singleton.1 hx]
    exact ⟨⟨_, rfl⟩, le_rfl (a := (0 : Num D))⟩
  · have w1 : ∀ x : Ext (Num D), WF (ofScalars [x]) := fun x => WF_ofScalars (by simp)
    have e1 : (.fin b * .fin b : Ext (Num D)) = .pinf := by
      rw [Ext.fin_mul']
      show Ext.ofReal D ((2 : ℝ) ^ (1023 : ℤ) * (2 : ℝ) ^ (1023 : ℤ)) = _
      rw [← zpow_add₀ (by norm_num)]
      exact Ext.ofReal_power hD (by norm_num)
    have e2 : (.pinf * 0 : Ext (Num D)) = .nan := by
      show Ext.infTimes (0 : Num D) = _
      unfold Ext.infTimes
      rw [if_neg (lt_irrefl _), if_neg (lt_irrefl _)]
    rw [multSerie_scalar (w1 _) (w1 _) rfl rfl rfl rfl, Res.ok_bind]
    simp only [scalars_ofScalars, List.zipWith_cons_cons, List.zipWith_nil_left]
    rw [e1, multSerie_scalar (s := ofScalars [.pinf]) (m := ofScalars [0]) (w1 _) (w1 _) rfl rfl rfl rfl]
    simp only [scalars_ofScalars, List.zipWith_cons_cons, List.zipWith_nil_left, e2]

example := C169_product_nan binary64_isDouble

end DF
