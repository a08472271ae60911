import Verif.Lemmas.Zeros
import Verif.Props.Ieee

/-!
# Properties about the sign of zeros (C126-C128)

Numbers are `Double D`: the numbers of a format `D` with two infinities, NaN and two zeros (Verif/Model/Zeros.lean). `Same x y` says
that `x` and `y` are the same number or both zeros; `Each Same s t` that two Series have the same shape and the same numbers up to
the sign of zeros; `Outcomes` that two runs return results so related, throw the same exception, or are both undefined.
-/

namespace DF

open Spec

variable {D : Machine}

/-! ## Data used in the examples -/

/-- Two negative zeros and the number one. -/
def exMinus (D : Machine) : Serie (Double D) := ⟨[.nzero, 1, .nzero, 0], 4, 1, 3⟩
/-- The same with other signs. -/
def exPlus (D : Machine) : Serie (Double D) := ⟨[0, 1, .nzero, .nzero], 4, 1, 3⟩
/-- The same with a single zero. -/
def exSingle (D : Machine) : Serie (Ext (Num D)) := ⟨[0, 1, 0, 0], 4, 1, 3⟩

theorem exMinus_same : Each Same (exMinus D) (exPlus D) :=
  ⟨rfl, rfl, rfl, .cons (.inr ⟨.inr rfl, .inl rfl⟩) (.cons (.inl rfl) (.cons (.inl rfl) (.cons (.inr ⟨.inl rfl, .inr rfl⟩) .nil)))⟩

theorem exMinus_stands : Each Stands (exMinus D) (exSingle D) :=
  ⟨rfl, rfl, rfl, .cons (.inr ⟨rfl, rfl⟩) (.cons (.inl rfl) (.cons (.inr ⟨rfl, rfl⟩) (.cons (.inl rfl) .nil)))⟩

theorem exMinus_WF : WF (exMinus D) := ⟨of_decide_eq_true rfl, of_decide_eq_true rfl, of_decide_eq_true rfl, of_decide_eq_true rfl⟩
theorem exPlus_WF : WF (exPlus D) := ⟨of_decide_eq_true rfl, of_decide_eq_true rfl, of_decide_eq_true rfl, of_decide_eq_true rfl⟩

/-- One item of four numbers, of either sign. -/
def exMinus4 (D : Machine) : Serie (Double D) := { exMinus D with count := 1, itemSize := 4 }
def exPlus4 (D : Machine) : Serie (Double D) := { exPlus D with count := 1, itemSize := 4 }
def exSingle4 (D : Machine) : Serie (Ext (Num D)) := { exSingle D with count := 1, itemSize := 4 }
theorem exMinus4_same : Each Same (exMinus4 D) (exPlus4 D) := ⟨rfl, rfl, rfl, exMinus_same.2.2.2⟩
theorem exMinus4_stands : Each Stands (exMinus4 D) (exSingle4 D) := ⟨rfl, rfl, rfl, exMinus_stands.2.2.2⟩
theorem exMinus4_WF : WF (exMinus4 D) := ⟨of_decide_eq_true rfl, of_decide_eq_true rfl, of_decide_eq_true rfl, of_decide_eq_true rfl⟩
theorem exPlus4_WF : WF (exPlus4 D) := ⟨of_decide_eq_true rfl, of_decide_eq_true rfl, of_decide_eq_true rfl, of_decide_eq_true rfl⟩

/-! ## C128: one zero is enough -/

/-- C128: `add` and `sub` of Series or of a number: with signed zeros the outcome is that with one zero, up to the signs. -/
theorem C128_add_sub {a b : Serie (Double D)} {a' b' : Serie (Ext (Num D))} (ha : Each Stands a a') (hb : Each Stands b b')
    {l : List (Serie (Double D))} {l' : List (Serie (Ext (Num D)))} (hl : List.Forall₂ (Each Stands) l l')
    {x : Double D} {x' : Ext (Num D)} (hx : Stands x x') :
    Outcomes (Each Stands) (add2 a b) (add2 a' b') ∧ Outcomes (Each Stands) (sub2 a b) (sub2 a' b') ∧
    Outcomes (Each Stands) (addList l) (addList l') ∧ Outcomes (Each Stands) (subList l) (subList l') ∧
    Outcomes (Each Stands) (addNum a x) (addNum a' x') ∧ Outcomes (Each Stands) (subNum a x) (subNum a' x') := by
  have h1 := each_iff.1 ha
  have h2 := each_iff.1 hb
  exact ⟨outcomes_each (binOp_rel stands.zero stands.add h1 h2), outcomes_each (binOp_rel stands.zero stands.sub h1 h2),
    outcomes_each (opList_rel stands.zero stands.add (eachList hl)), outcomes_each (opList_rel stands.zero stands.sub (eachList hl)),
    outcomes_each (addNum_rel stands.add h1 hx), outcomes_each (subNum_rel stands.sub h1 hx)⟩

example := C128_add_sub (exMinus_stands (D := binary64)) exMinus_stands (.cons exMinus_stands (.cons exMinus_stands .nil))
  (.inr ⟨rfl, rfl⟩ : Stands (.nzero : Double binary64) 0)

/-- C128: the products. -/
theorem C128_mult {a b : Serie (Double D)} {a' b' : Serie (Ext (Num D))} (ha : Each Stands a a') (hb : Each Stands b b')
    {l : List (Serie (Double D))} {l' : List (Serie (Ext (Num D)))} (hl : List.Forall₂ (Each Stands) l l')
    {x : Double D} {x' : Ext (Num D)} (hx : Stands x x') {v : List (Double D)} {v' : List (Ext (Num D))} (hv : List.Forall₂ Stands v v') :
    Outcomes (Each Stands) (scale a x) (scale a' x') ∧ Outcomes (Each Stands) (scaleBy a v) (scaleBy a' v') ∧
    Outcomes (Each Stands) (negate a) (negate a') ∧ Outcomes (Each Stands) (mult a x) (mult a' x') ∧
    Outcomes (Each Stands) (multSerie a b) (multSerie a' b') ∧
    Outcomes (Each Stands) (weightedSum l v) (weightedSum l' v') := by
  have h1 := each_iff.1 ha
  have h2 := each_iff.1 hb
  exact ⟨outcomes_each (scale_rel stands.zero stands.mul h1 hx), outcomes_each (scaleBy_rel stands.zero stands.mul h1 hv),
    outcomes_each (negate_rel stands.zero (stands.neg _ _ stands.one) stands.mul h1), outcomes_each (mult_rel stands.zero stands.mul h1 hx),
    outcomes_each (multSerie_rel stands.zero stands.mul h1 h2),
    outcomes_each (weightedSum_rel stands.zero stands.add stands.mul (eachList hl) hv)⟩

example := C128_mult (exMinus_stands (D := binary64)) exMinus_stands (.cons exMinus_stands (.cons exMinus_stands .nil))
  (.inr ⟨rfl, rfl⟩ : Stands (.nzero : Double binary64) 0) (.cons (.inr ⟨rfl, rfl⟩) (.cons (.inl rfl) .nil) : List.Forall₂ Stands [(.nzero : Double binary64), 1] [0, 1])

/-- C128: division of Series, which leaves out divisors below `1e-10`, and by a number other than the negative zero. -/
theorem C128_div_partial (hD : IsDouble D) {a b : Serie (Double D)} {a' b' : Serie (Ext (Num D))} (ha : Each Stands a a')
    (hb : Each Stands b b') {x : Double D} {x' : Ext (Num D)} (hx : Stands x x') (h0 : x ≠ .nzero) :
    Outcomes (Each Stands) (divSerie a b) (divSerie a' b') ∧ Outcomes (Each Stands) (divNum x a) (divNum x' a') :=
  ⟨outcomes_each (divSerie_rel stands.zero threshold_stands (fun a b h x y hx k => stands.div a b h x y hx (big_ne hD k))
    (each_iff.1 ha) (each_iff.1 hb)), outcomes_each (divNum_rel stands.zero (fun a b h => stands.div a b h _ _ hx h0) (each_iff.1 ha))⟩

example := C128_div_partial binary64_isDouble exMinus_stands exMinus_stands (.inl rfl : Stands (1 : Double binary64) 1) (fun h => by cases h)

/-- C128: `transpose`, `det`, `inv`, `cross`, `dot`, `norm`. -/
theorem C128_algebra (hD : IsDouble D) {a b : Serie (Double D)} {a' b' : Serie (Ext (Num D))} (ha : Each Stands a a')
    (hb : Each Stands b b') {v : List (Double D)} {v' : List (Ext (Num D))} (hv : List.Forall₂ Stands v v') :
    Outcomes (Each Stands) (transpose a) (transpose a') ∧ Outcomes (Each Stands) (det a) (det a') ∧
    Outcomes (Each Stands) (inv a) (inv a') ∧ Outcomes (Each Stands) (cross a b) (cross a' b') ∧
    Outcomes (Each Stands) (dot a b) (dot a' b') ∧ Outcomes (Each Stands) (dotArray a v) (dotArray a' v') ∧
    Outcomes (Each Stands) (norm2 a) (norm2 a') ∧ Outcomes (Each Stands) (norm a) (norm a') := by
  have h1 := each_iff.1 ha
  have h2 := each_iff.1 hb
  exact ⟨outcomes_each (transpose_rel stands.zero h1), outcomes_each (det_rel stands.zero stands.add stands.sub stands.mul h1),
    outcomes_each (inv_rel stands.zero stands.add stands.sub stands.mul threshold_stands
      (fun x y h k => stands.div _ _ stands.one _ _ h (big_ne hD k)) h1),
    outcomes_each (cross_rel stands.zero stands.sub stands.mul h1 h2),
    outcomes_each (dot_rel stands.zero stands.add stands.mul h1 h2), outcomes_each (dotArray_rel stands.zero stands.add stands.mul h1 hv),
    outcomes_each (norm2_rel stands.zero stands.add stands.mul stands.nat h1),
    outcomes_each (norm_rel stands.zero stands.add stands.mul stands.nat stands.sqrt h1)⟩

example := C128_algebra binary64_isDouble exMinus4_stands exMinus4_stands
  (.cons (.inr ⟨rfl, rfl⟩) (.cons (.inl rfl) .nil) : List.Forall₂ Stands [(.nzero : Double binary64), 1] [0, 1])

/-- C128: `mean`, `covariance`, `minMax`. -/
theorem C128_stats {a b : Serie (Double D)} {a' b' : Serie (Ext (Num D))} (ha : Each Stands a a') (hb : Each Stands b b') :
    Outcomes (Means Stands) (mean a) (mean a') ∧ Outcomes Stands (covariance a b) (covariance a' b') ∧
    Outcomes (fun p q => List.Forall₂ Stands p.1 q.1 ∧ List.Forall₂ Stands p.2 q.2) (minMax a) (minMax a') := by
  have h1 := each_iff.1 ha
  have h2 := each_iff.1 hb
  exact ⟨outcomes_mean (mean_rel stands.zero stands.add div_nat_stands h1),
    outcomes_of_rel (covariance_rel stands.zero stands.add stands.sub stands.mul div_nat_stands h1 h2),
    outcomes_of_rel (minMax_rel stands.lt stands.high stands.low h1)⟩

example := C128_stats (exMinus_stands (D := binary64)) exMinus_stands

/-- C128: `normalize`. -/
theorem C128_normalize {s : Serie (Double D)} (h : WF s) {s' : Serie (Ext (Num D))} (hs : Each Stands s s') :
    Outcomes (Each Stands) (normalize s) (normalize s') := by
  refine outcomes_each (normalize_rel (P := fun x => x ≠ .nzero) stands.zero stands.add stands.sub stands.mul stands.lt stands.high
    stands.low stands.sqrt (fun x y k hx => stands.div _ _ stands.one _ _ k hx) (each_iff.1 hs) ?_ Signed.squares_ne)
  intro h1 mn mx hi lo hm e1 e2
  by_cases h0 : s.count = 0
  · have : minMax s = .ok ([], []) := by
      unfold minMax
      rw [if_neg (by simp [Serie.isValid, h1]), if_pos h0]; rfl
    rw [this] at hm
    cases hm
    cases e1
  · rw [minMax_scalar_run h (Nat.pos_of_ne_zero h0) h1] at hm
    cases hm
    cases e1
    cases e2
    exact Signed.range_ne Ext.highest_ne Ext.lowest_ne _

example := C128_normalize (exMinus_WF (D := binary64)) exMinus_stands

/-- C128: the comparisons. -/
theorem C128_compare {a b : Serie (Double D)} {a' b' : Serie (Ext (Num D))} (ha : Each Stands a a') (hb : Each Stands b b')
    {e : Double D} {e' : Ext (Num D)} (he : Stands e e') :
    equals a b = equals a' b' ∧ approximatelyEquals a b e = approximatelyEquals a' b' e' ∧
    Outcomes (Each Stands) (equalityMask a b) (equalityMask a' b') ∧
    Outcomes (Each Stands) (approximateEqualityMask a b e) (approximateEqualityMask a' b' e') := by
  have h1 := each_iff.1 ha
  have h2 := each_iff.1 hb
  exact ⟨equals_rel stands.beq h1 h2, approximatelyEquals_rel (near_stands he) h1 h2,
    outcomes_each (maskWith_rel stands.zero stands.one stands.beq h1 h2),
    outcomes_each (maskWith_rel stands.zero stands.one (near_stands he) h1 h2)⟩

example := C128_compare (exMinus_stands (D := binary64)) exMinus_stands (.inl rfl : Stands (1 : Double binary64) 1)

/-- One number. -/
def single1 (x : Double D) : Serie (Double D) := ⟨[x], 1, 1, 3⟩

theorem single1_WF (x : Double D) : WF (single1 x) :=
  ⟨of_decide_eq_true rfl, of_decide_eq_true rfl, of_decide_eq_true rfl, of_decide_eq_true rfl⟩

theorem one_div_zero : (1 : Ext (Num D)) / 0 = .pinf := (if_pos rfl).trans (if_pos Num.zero_lt_one)

theorem div_nzero : divNum .nzero (single1 (1 : Double D)) = .ok (single1 (.val .ninf)) := by
  rw [C36_div (single1_WF _) (by decide : 0 < 1)]
  show Res.ok (single1 (.val (-((1 : Ext (Num D)) / 0)))) = _
  rw [one_div_zero]; rfl

theorem div_pzero : divNum 0 (single1 (1 : Double D)) = .ok (single1 (.val .pinf)) := by
  rw [C36_div (single1_WF _) (by decide : 0 < 1)]
  show Res.ok (single1 (Signed.withSign _ ((1 : Ext (Num D)) / 0))) = _
  rw [one_div_zero, Signed.withSign_ne (fun h => by cases h)]

/-- C128 fails for the division by a number: with one zero, the quotients by it are those by the positive zero. -/
theorem C128_div_violated : ∃ (s : Serie (Double D)) (s' : Serie (Ext (Num D))), WF s ∧ Each Stands s s' ∧
    Stands (.nzero : Double D) 0 ∧ divNum .nzero s = .ok ⟨[.val .ninf], 1, 1, 3⟩ ∧ divNum 0 s' = .ok ⟨[.pinf], 1, 1, 3⟩ := by
  refine ⟨single1 1, ⟨[1], 1, 1, 3⟩, single1_WF _, ⟨rfl, rfl, rfl, .cons (.inl rfl) .nil⟩, .inr ⟨rfl, rfl⟩, div_nzero, ?_⟩
  rw [C36_div (s := ⟨[1], 1, 1, 3⟩) ⟨of_decide_eq_true rfl, of_decide_eq_true rfl, of_decide_eq_true rfl, of_decide_eq_true rfl⟩ (by decide : 0 < 1)]
  show Res.ok (⟨[(1 : Ext (Num D)) / 0], 1, 1, 3⟩ : Serie _) = _
  rw [one_div_zero]

/-! ## C126: the sign of zeros does not matter -/

/-- C126: arguments that differ only in the sign of zeros give sums and differences that differ only so. -/
theorem C126_add_sub {a b a' b' : Serie (Double D)} (ha : Each Same a a') (hb : Each Same b b')
    {l l' : List (Serie (Double D))} (hl : List.Forall₂ (Each Same) l l') {x x' : Double D} (hx : Same x x') :
    Outcomes (Each Same) (add2 a b) (add2 a' b') ∧ Outcomes (Each Same) (sub2 a b) (sub2 a' b') ∧
    Outcomes (Each Same) (addList l) (addList l') ∧ Outcomes (Each Same) (subList l) (subList l') ∧
    Outcomes (Each Same) (addNum a x) (addNum a' x') ∧ Outcomes (Each Same) (subNum a x) (subNum a' x') := by
  obtain ⟨p1, p2, p3, p4, p5, p6⟩ := C128_add_sub (plain_stands a) (plain_stands b) (plains_stands l) (stands_self x)
  obtain ⟨q1, q2, q3, q4, q5, q6⟩ := C128_add_sub (plain_stands' ha) (plain_stands' hb) (plains_stands' hl)
    (Signed.stands_iff.2 (Signed.same_iff.1 hx).symm)
  exact ⟨Outcomes.same p1 q1, Outcomes.same p2 q2, Outcomes.same p3 q3, Outcomes.same p4 q4, Outcomes.same p5 q5, Outcomes.same p6 q6⟩

example := C126_add_sub (exMinus_same (D := binary64)) exMinus_same (.cons exMinus_same (.cons exMinus_same .nil))
  (.inr ⟨.inr rfl, .inl rfl⟩ : Same (.nzero : Double binary64) 0)

/-- C126: the products. -/
theorem C126_mult {a b a' b' : Serie (Double D)} (ha : Each Same a a') (hb : Each Same b b')
    {l l' : List (Serie (Double D))} (hl : List.Forall₂ (Each Same) l l') {x x' : Double D} (hx : Same x x')
    {v v' : List (Double D)} (hv : List.Forall₂ Same v v') :
    Outcomes (Each Same) (scale a x) (scale a' x') ∧ Outcomes (Each Same) (scaleBy a v) (scaleBy a' v') ∧
    Outcomes (Each Same) (negate a) (negate a') ∧ Outcomes (Each Same) (mult a x) (mult a' x') ∧
    Outcomes (Each Same) (multSerie a b) (multSerie a' b') ∧ Outcomes (Each Same) (weightedSum l v) (weightedSum l' v') := by
  obtain ⟨p1, p2, p3, p4, p5, p6⟩ := C128_mult (plain_stands a) (plain_stands b) (plains_stands l) (stands_self x)
    (stands_forget v)
  obtain ⟨q1, q2, q3, q4, q5, q6⟩ := C128_mult (plain_stands' ha) (plain_stands' hb) (plains_stands' hl)
    (Signed.stands_iff.2 (Signed.same_iff.1 hx).symm) (stands_forget' hv)
  exact ⟨Outcomes.same p1 q1, Outcomes.same p2 q2, Outcomes.same p3 q3, Outcomes.same p4 q4, Outcomes.same p5 q5, Outcomes.same p6 q6⟩

example := C126_mult (exMinus_same (D := binary64)) exMinus_same (.cons exMinus_same (.cons exMinus_same .nil))
  (.inr ⟨.inr rfl, .inl rfl⟩ : Same (.nzero : Double binary64) 0)
  (.cons (.inr ⟨.inl rfl, .inr rfl⟩) (.cons (.inl rfl) .nil) : List.Forall₂ Same [(0 : Double binary64), 1] [.nzero, 1])

/-- C126: the quotients of Series, and those by a number that is not a negative zero. -/
theorem C126_div_partial (hD : IsDouble D) {a b a' b' : Serie (Double D)} (ha : Each Same a a') (hb : Each Same b b') {x : Double D}
    (h0 : x ≠ .nzero) :
    Outcomes (Each Same) (divSerie a b) (divSerie a' b') ∧ Outcomes (Each Same) (divNum x a) (divNum x a') := by
  obtain ⟨p1, p2⟩ := C128_div_partial hD (plain_stands a) (plain_stands b) (stands_self x) h0
  obtain ⟨q1, q2⟩ := C128_div_partial hD (plain_stands' ha) (plain_stands' hb) (stands_self x) h0
  exact ⟨Outcomes.same p1 q1, Outcomes.same p2 q2⟩

example := C126_div_partial binary64_isDouble exMinus_same exMinus_same (x := 1) (fun h => by cases h)

/-- C126: `transpose`, `det`, `inv`, `cross`, `dot`, `norm`. -/
theorem C126_algebra (hD : IsDouble D) {a b a' b' : Serie (Double D)} (ha : Each Same a a') (hb : Each Same b b')
    {v v' : List (Double D)} (hv : List.Forall₂ Same v v') :
    Outcomes (Each Same) (transpose a) (transpose a') ∧ Outcomes (Each Same) (det a) (det a') ∧
    Outcomes (Each Same) (inv a) (inv a') ∧ Outcomes (Each Same) (cross a b) (cross a' b') ∧
    Outcomes (Each Same) (dot a b) (dot a' b') ∧ Outcomes (Each Same) (dotArray a v) (dotArray a' v') ∧
    Outcomes (Each Same) (norm2 a) (norm2 a') ∧ Outcomes (Each Same) (norm a) (norm a') := by
  obtain ⟨p1, p2, p3, p4, p5, p6, p7, p8⟩ := C128_algebra hD (plain_stands a) (plain_stands b) (stands_forget v)
  obtain ⟨q1, q2, q3, q4, q5, q6, q7, q8⟩ := C128_algebra hD (plain_stands' ha) (plain_stands' hb) (stands_forget' hv)
  exact ⟨Outcomes.same p1 q1, Outcomes.same p2 q2, Outcomes.same p3 q3, Outcomes.same p4 q4, Outcomes.same p5 q5, Outcomes.same p6 q6, Outcomes.same p7 q7, Outcomes.same p8 q8⟩

example := C126_algebra binary64_isDouble exMinus4_same exMinus4_same
  (.cons (.inr ⟨.inl rfl, .inr rfl⟩) (.cons (.inl rfl) .nil) : List.Forall₂ Same [(0 : Double binary64), 1] [.nzero, 1])

/-- C126: `mean`, `covariance`, `minMax`, `normalize`. -/
theorem C126_stats {a b a' b' : Serie (Double D)} (ha : Each Same a a') (hb : Each Same b b') :
    Outcomes (Means Same) (mean a) (mean a') ∧ Outcomes Same (covariance a b) (covariance a' b') ∧
    Outcomes (fun p q => List.Forall₂ Same p.1 q.1 ∧ List.Forall₂ Same p.2 q.2) (minMax a) (minMax a') ∧
    (WF a → Outcomes (Each Same) (normalize a) (normalize a')) := by
  obtain ⟨p1, p2, p3⟩ := C128_stats (plain_stands a) (plain_stands b)
  obtain ⟨q1, q2, q3⟩ := C128_stats (plain_stands' ha) (plain_stands' hb)
  refine ⟨Outcomes.join ?_ p1 q1, Outcomes.join (S := Stands) (S' := Stands) (fun _ _ _ h k => same_of_stands h k) p2 q2,
    Outcomes.join (fun _ _ _ h k => ⟨sames_of_stands h.1 k.1, sames_of_stands h.2 k.2⟩) p3 q3, fun h => ?_⟩
  · intro x y z h k
    cases x <;> cases y <;> cases z <;> first | exact same_of_stands h k | exact sames_of_stands h k | exact h.elim | exact k.elim
  · have h' : WF a' := by
      obtain ⟨w1, w2, w3, w4⟩ := h
      obtain ⟨e1, e2, e3, e4⟩ := ha
      exact ⟨e2 ▸ w1, e2 ▸ w2, by rw [← e1, ← e2, ← e4.length_eq]; exact w3, by rw [← e4.length_eq]; exact w4⟩
    exact Outcomes.same (C128_normalize h (plain_stands a)) (C128_normalize h' (plain_stands' ha))

example := C126_stats (exMinus_same (D := binary64)) exMinus_same

/-- C126: the comparisons give the same answers. -/
theorem C126_compare {a b a' b' : Serie (Double D)} (ha : Each Same a a') (hb : Each Same b b') {e e' : Double D} (he : Same e e') :
    equals a b = equals a' b' ∧ approximatelyEquals a b e = approximatelyEquals a' b' e' ∧
    Outcomes (Each Same) (equalityMask a b) (equalityMask a' b') ∧
    Outcomes (Each Same) (approximateEqualityMask a b e) (approximateEqualityMask a' b' e') := by
  obtain ⟨p1, p2, p3, p4⟩ := C128_compare (plain_stands a) (plain_stands b) (stands_self e)
  obtain ⟨q1, q2, q3, q4⟩ := C128_compare (plain_stands' ha) (plain_stands' hb) (Signed.stands_iff.2 (Signed.same_iff.1 he).symm)
  exact ⟨p1.trans q1.symm, p2.trans q2.symm, Outcomes.same p3 q3, Outcomes.same p4 q4⟩

example := C126_compare (exMinus_same (D := binary64)) exMinus_same (.inr ⟨.inr rfl, .inl rfl⟩ : Same (.nzero : Double binary64) 0)

/-- C126 fails for the division by a number: by the two zeros the quotients are opposite infinities. -/
theorem C126_div_violated : ∃ s : Serie (Double D), WF s ∧ Same (.nzero : Double D) 0 ∧
    divNum .nzero s = .ok ⟨[.val .ninf], 1, 1, 3⟩ ∧ divNum 0 s = .ok ⟨[.val .pinf], 1, 1, 3⟩ :=
  ⟨single1 1, single1_WF _, .inr ⟨.inr rfl, .inl rfl⟩, div_nzero, div_pzero⟩

/-! ## C127: laws that hold for the signs of zeros too -/

theorem negate_run {s : Serie (Double D)} (h : WF s) (h0 : 0 < s.count) : negate s = .ok (onNumbers (fun x => -x) s) := by
  have : negate s = .ok (onNumbers (fun y : Double D => y * (-1)) s) :=
    mapArr_numbers h h0 (fun _ hv _ => updLoop_map hv.symm (fun _ _ => rfl))
  rw [this]
  congr 2
  exact funext Signed.mul_neg_one'

/-- C127: `negate` changes the sign of every number, of zeros and infinities too, and keeps NaN; it is `scale` by minus one. -/
theorem C127_negate {s : Serie (Double D)} (h : WF s) (h0 : 0 < s.count) :
    negate s = scale s (-1) ∧ ∃ r, negate s = .ok r ∧ WF r ∧ SameShape r s ∧ ∀ i j x, cell s i j = some x →
      ∃ z, cell r i j = some z ∧ (x = 0 ↔ z = .nzero) ∧ (x = .nzero ↔ z = 0) ∧ (x = .val .nan ↔ z = .val .nan) ∧
        (x = .val .pinf ↔ z = .val .ninf) ∧ (x = .val .ninf ↔ z = .val .pinf) ∧
        ∀ u : Num D, u ≠ 0 → x = .val (.fin u) → ∃ v : Num D, z = .val (.fin v) ∧ v.val = -u.val := by
  obtain ⟨w, c2, c3⟩ := onNumbers_cells (f := fun x : Double D => -x) h
  refine ⟨?_, _, negate_run h h0, w, c2, fun i j x hx => ⟨_, c3 i j x hx, ?_⟩⟩
  · rw [negate_run h h0, C36_scale h h0]
    congr 2
    exact (funext Signed.mul_neg_one').symm
  · have inj : ∀ y : Double D, (x = y ↔ -x = -y) := fun y =>
      ⟨fun e => by rw [e], fun e => by rw [← Signed.neg_neg' x, e, Signed.neg_neg']⟩
    have hn : -(.val .nan : Double D) = .val .nan := Signed.neg_val (fun h => by cases h)
    have hp : -(.val .pinf : Double D) = .val .ninf := Signed.neg_val (fun h => by cases h)
    have hm : -(.val .ninf : Double D) = .val .pinf := Signed.neg_val (fun h => by cases h)
    refine ⟨?_, ?_, ?_, ?_, ?_, ?_⟩
    · rw [inj 0, Signed.neg_zero']
    · rw [inj .nzero, Signed.neg_nzero]
    · rw [inj, hn]
    · rw [inj, hp]
    · rw [inj, hm]
    · rintro u hu rfl
      exact ⟨-u, Signed.neg_val (fun e => hu (Ext.fin.inj e)), rfl⟩

example := C127_negate (exMinus_WF (D := binary64)) (of_decide_eq_true rfl)

/-- C127: negating twice gives back every number, bit for bit. -/
theorem C127_negate_negate {s : Serie (Double D)} (h : WF s) (h0 : 0 < s.count) :
    (negate s >>= negate) = .ok (ofItems s.itemSize (items s)) := by
  rw [negate_run h h0, Res.ok_bind, negate_run (onNumbers_facts h).1 (by rw [onNumbers_count]; exact h0),
    onNumbers_comp h, onNumbers_id (fun x => Signed.neg_neg' x)]

example := C127_negate_negate (exMinus_WF (D := binary64)) (of_decide_eq_true rfl)

/-- C127: multiplying or dividing by one, and subtracting zero, change no number, zeros included. -/
theorem C127_neutral {s : Serie (Double D)} (h : WF s) (h0 : 0 < s.count) :
    scale s 1 = .ok (ofItems s.itemSize (items s)) ∧ mult s 1 = .ok (ofItems s.itemSize (items s)) ∧
    divNum 1 s = .ok (ofItems s.itemSize (items s)) := by
  rw [C36_scale h h0, C36_mult h h0, C36_div h h0, onNumbers_id (fun x => Signed.mul_one' x), onNumbers_id (fun x => Signed.div_one' x)]
  exact ⟨rfl, rfl, rfl⟩

example := C127_neutral (exMinus_WF (D := binary64)) (of_decide_eq_true rfl)

/-- C127: subtracting a Serie of (positive) zeros gives back every number, bit for bit; so does adding a Serie of negative zeros. -/
theorem C127_zeros {a b : Serie (Double D)} (ha : WF a) (hb : WF b) (hs : SameShape a b) :
    ((∀ i j y, cell b i j = some y → y = 0) → ∃ r, sub2 a b = .ok r ∧ SameShape r a ∧
      ∀ i j x y, cell a i j = some x → cell b i j = some y → cell r i j = some x) ∧
    ((∀ i j y, cell b i j = some y → y = .nzero) → ∃ r, add2 a b = .ok r ∧ SameShape r a ∧
      ∀ i j x y, cell a i j = some x → cell b i j = some y → cell r i j = some x) := by
  constructor
  · intro hz
    obtain ⟨r, h1, _, h3, h4⟩ := (C35_sub ha hb).2 hs
    refine ⟨r, h1, h3, fun i j x y hx hy => ?_⟩
    rw [h4 i j x y hx hy, hz i j y hy, Signed.sub_zero']
  · intro hz
    obtain ⟨r, h1, _, h3, h4⟩ := (C35_add ha hb).2 hs
    refine ⟨r, h1, h3, fun i j x y hx hy => ?_⟩
    rw [h4 i j x y hx hy, hz i j y hy, Signed.add_nzero]

example := C127_zeros (single1_WF (.nzero : Double binary64)) (single1_WF 0) ⟨rfl, rfl⟩

/-- C127: `add` does not depend on the order of its arguments, bit for bit. -/
theorem C127_add_comm {a b : Serie (Double D)} (ha : WF a) (hb : WF b) (hs : SameShape a b) :
    ∃ r r', add2 a b = .ok r ∧ add2 b a = .ok r' ∧ SameShape r r' ∧
      ∀ i j x y, cell a i j = some x → cell b i j = some y → ∃ z, cell r i j = some z ∧ cell r' i j = some z := by
  obtain ⟨r, h1, _, h3, h4⟩ := (C35_add ha hb).2 hs
  obtain ⟨r', k1, _, k3, k4⟩ := (C35_add hb ha).2 ⟨hs.1.symm, hs.2.symm⟩
  refine ⟨r, r', h1, k1, ⟨h3.1.trans (hs.1.trans k3.1.symm), h3.2.trans (hs.2.trans k3.2.symm)⟩, fun i j x y hx hy => ?_⟩
  exact ⟨_, h4 i j x y hx hy, by rw [k4 i j y x hy hx, Signed.add_comm']⟩

example := C127_add_comm (exMinus_WF (D := binary64)) exPlus_WF ⟨rfl, rfl⟩

theorem add_single (x y : Double D) : add2 (single1 x) (single1 y) = .ok (single1 (x + y)) := rfl
theorem sub_single (x y : Double D) : sub2 (single1 x) (single1 y) = .ok (single1 (x - y)) := rfl

/-- C127 fails for `sub(a, b)` and the negation of `sub(b, a)`: on equal numbers the first has a positive zero, the second a negative one. -/
theorem C127_sub_violated : ∃ a : Serie (Double D), WF a ∧ sub2 a a = .ok ⟨[0], 1, 1, 3⟩ ∧ (sub2 a a >>= negate) = .ok ⟨[.nzero], 1, 1, 3⟩ := by
  have e : sub2 (single1 (0 : Double D)) (single1 0) = .ok (single1 0) := by rw [sub_single, Signed.sub_zero']
  refine ⟨single1 0, single1_WF _, e, ?_⟩
  rw [e, Res.ok_bind, negate_run (single1_WF _) (by decide : 0 < 1)]
  show Res.ok (single1 (-(0 : Double D))) = _
  rw [Signed.neg_zero']; rfl

/-- C127 fails for adding zeros: negative zeros become positive. -/
theorem C127_add_zero_violated : ∃ a b : Serie (Double D), WF a ∧ WF b ∧ scalars b = [0] ∧ scalars a = [.nzero] ∧
    add2 a b = .ok ⟨[0], 1, 1, 3⟩ := by
  refine ⟨single1 .nzero, single1 0, single1_WF _, single1_WF _, rfl, rfl, ?_⟩
  rw [add_single, Signed.add_comm', Signed.add_nzero]; rfl

/-- C127 fails for `mean`: the mean of negative zeros is the positive zero. -/
theorem C127_mean_violated : ∃ s : Serie (Double D), WF s ∧ scalars s = [.nzero] ∧ mean s = .ok (.number 0) := by
  refine ⟨single1 .nzero, single1_WF _, rfl, ?_⟩
  rw [mean_scalar_run (single1_WF _) rfl]
  show Res.ok (Tuple.number (((0 : Double D) + .nzero) / ((1 : Nat) : Double D))) = _
  have e : ((1 : Nat) : Double D) = 1 := by
    show Signed.val (Ext.ofReal D ((1 : Nat) : ℝ)) = .val (.fin 1)
    rw [← Ext.ofReal_num (1 : Num D), Nat.cast_one]; rfl
  rw [Signed.add_nzero, e, Signed.div_one']

/-- C127 fails for `minMax`: with zeros of both signs the result depends on their order. -/
theorem C127_minMax_violated : ∃ s t : Serie (Double D), WF s ∧ WF t ∧ (scalars s).Perm (scalars t) ∧
    minMax s = .ok ([.nzero], [.nzero]) ∧ minMax t = .ok ([0], [0]) := by
  have hs : WF (⟨[.nzero, 0], 2, 1, 3⟩ : Serie (Double D)) :=
    ⟨of_decide_eq_true rfl, of_decide_eq_true rfl, of_decide_eq_true rfl, of_decide_eq_true rfl⟩
  have ht : WF (⟨[0, .nzero], 2, 1, 3⟩ : Serie (Double D)) :=
    ⟨of_decide_eq_true rfl, of_decide_eq_true rfl, of_decide_eq_true rfl, of_decide_eq_true rfl⟩
  have hh : ((0 : Ext (Num D)) < Limits.highest) := show (0 : ℝ) < D.top from D.top_pos
  have hl : ((Limits.lowest : Ext (Num D)) < 0) := show -D.top < (0 : ℝ) from neg_lt_zero.2 D.top_pos
  have h0 : ¬ ((0 : Ext (Num D)) < 0) := OneZero.irrefl _
  refine ⟨⟨[.nzero, 0], 2, 1, 3⟩, ⟨[0, .nzero], 2, 1, 3⟩, hs, ht, List.Perm.swap _ _ _, ?_, ?_⟩
  · rw [minMax_scalar_run hs (of_decide_eq_true rfl) rfl]
    show Res.ok ([minv (minv Limits.highest .nzero) (0 : Double D)], [maxv (maxv Limits.lowest .nzero) (0 : Double D)]) = _
    rw [show minv (Limits.highest : Double D) .nzero = .nzero from if_pos hh, show maxv (Limits.lowest : Double D) .nzero = .nzero from if_pos hl,
      show minv (.nzero : Double D) 0 = .nzero from if_neg h0, show maxv (.nzero : Double D) 0 = .nzero from if_neg h0]
  · rw [minMax_scalar_run ht (of_decide_eq_true rfl) rfl]
    show Res.ok ([minv (minv Limits.highest (0 : Double D)) .nzero], [maxv (maxv Limits.lowest (0 : Double D)) .nzero]) = _
    rw [show minv (Limits.highest : Double D) 0 = 0 from if_pos hh, show maxv (Limits.lowest : Double D) 0 = 0 from if_pos hl,
      show minv (0 : Double D) .nzero = 0 from if_neg h0, show maxv (0 : Double D) .nzero = 0 from if_neg h0]

/-- C127 fails for a memoized function: asked for a negative zero after a positive one, it answers with the result for the
positive zero, which for `negate` is not the same. -/
theorem C127_memoize_violated : ∃ (s t : Serie (Double D)) (c : Cache (Double D)), WF s ∧ WF t ∧
    memoCall (σ := Unit) (fun x u => (negate x, u)) s ([], ()) = (negate s, (c, ())) ∧
    memoCall (σ := Unit) (fun x u => (negate x, u)) t (c, ()) = (.ok ⟨[.nzero], 1, 1, 3⟩, (c, ())) ∧
    negate t = .ok ⟨[0], 1, 1, 3⟩ := by
  have e0 : negate (single1 (0 : Double D)) = .ok (single1 .nzero) := by
    rw [negate_run (single1_WF _) (by decide : 0 < 1)]
    show Res.ok (single1 (-(0 : Double D))) = _
    rw [Signed.neg_zero']
  have e1 : negate (single1 (.nzero : Double D)) = .ok (single1 0) := by
    rw [negate_run (single1_WF _) (by decide : 0 < 1)]; rfl
  have k : ∀ a b : Double D, IsZero a → IsZero b → keyLess [a] [b] = false := by
    intro a b ha hb
    have : ¬ a < b := by
      rcases ha with rfl | rfl <;> rcases hb with rfl | rfl <;> exact OneZero.irrefl (0 : Ext (Num D))
    rw [keyLess, if_neg this]
    simp [keyLess]
  have k1 := k 0 0 (.inl rfl) (.inl rfl)
  have k2 := k 0 .nzero (.inl rfl) (.inr rfl)
  have k3 := k .nzero 0 (.inr rfl) (.inl rfl)
  have k4 := k .nzero .nzero (.inr rfl) (.inr rfl)
  have f1 : cacheFind ([] : Cache (Double D)) [0] = .ok none := by
    unfold cacheFind
    simp [isStrictWeak, k1]
  have f2 : ∀ r, cacheFind ([([0], r)] : Cache (Double D)) [.nzero] = .ok (some r) := by
    intro r
    unfold cacheFind
    simp [isStrictWeak, sameKey, k1, k2, k3, k4]
  have m0 : makeKey (single1 (0 : Double D)) = .ok [0] := rfl
  have m1 : makeKey (single1 (.nzero : Double D)) = .ok [.nzero] := rfl
  refine ⟨single1 0, single1 .nzero, [([0], single1 .nzero)], single1_WF _, single1_WF _, ?_, ?_, e1⟩
  · simp only [memoCall, m0, f1, e0, cacheStore]
    rfl
  · simp only [memoCall, m1, f2]
    rfl

end DF
