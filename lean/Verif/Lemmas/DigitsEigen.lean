import Verif.Lemmas.DigitsOps

/-!
# Eigen values and vectors under a change of unit by an exact factor
-/

namespace DF

open Spec

variable {p : Nat} {R : Rounding p} {k : ℝ}

theorem rd1_rel {α β : Type} {S : α → β → Prop} {l : List α} {m : List β} (h : List.Forall₂ S l m) (i : Nat) :
    ResRel S (rd1 l i) (rd1 m i) := by
  cases i with
  | zero => exact .ub
  | succ i => exact Forall₂.rd h i

theorem wr1_rel {α β : Type} {S : α → β → Prop} {l : List α} {m : List β} (h : List.Forall₂ S l m) (i : Nat) {x : α} {y : β}
    (hx : S x y) : ResRel (List.Forall₂ S) (wr1 l i x) (wr1 m i y) := by
  cases i with
  | zero => exact .ub
  | succ i => exact Forall₂.wr h i hx

theorem jacobiNorm_times (hk : ExactFactor R k) (n : Nat) {a b : List (Dbl R)} (h : List.Forall₂ (Times k) a b) :
    ResRel (Times (k * k)) (jacobiNorm n a) (jacobiNorm n b) := by
  unfold jacobiNorm
  refine (ResRel.forLoop (S := fun p q : Nat × Dbl R => p.1 = q.1 ∧ Times (k * k) p.2 q.2) _ 1 ⟨rfl, times_zero⟩
    fun i p q hp => ?_).bind fun _ _ hp => .ok hp.2
  refine ResRel.forLoop _ 1 hp fun j p q hp => ?_
  split
  · rw [hp.1]
    exact (rd1_rel h _).bind fun _ _ hx => .ok ⟨rfl, times_add (exact_mul hk hk) _ _ hp.2 _ _ (times_mul hk hk hx hx)⟩
  · exact .ok ⟨by rw [hp.1], hp.2⟩

variable [Trig (Dbl R)]

theorem jacobiAngle_times (hk : ExactFactor R k) (h0 : k ≠ 0) {a b c a' b' c' : Dbl R} (ha : Times k a a') (hb : Times k b b')
    (hc : Times k c c') : jacobiAngle a b c = jacobiAngle a' b' c' := by
  unfold jacobiAngle
  have hd := times_sub hk _ _ ha _ _ hb
  have he : (c + c) / (a - b) = (c' + c') / (a' - b') := by
    have := times_div hk hk (times_add hk _ _ hc _ _ hc) hd
    rw [div_self h0] at this
    exact times_one.1 this
  dsimp only
  by_cases z : a - b = 0
  · rw [if_pos z, if_pos ((times_eq_zero h0 hd).1 z)]
  · rw [if_neg z, if_neg (fun z' => z ((times_eq_zero h0 hd).2 z')), he]

omit [Trig (Dbl R)] in
theorem jacobiRow_times (hk : ExactFactor R k) (l m : Nat) (s c : Dbl R) (i : Nat) {a b : List (Dbl R)}
    (h : List.Forall₂ (Times k) a b) : ResRel (List.Forall₂ (Times k)) (jacobiRow l m s c i a) (jacobiRow l m s c i b) := by
  unfold jacobiRow
  split
  · exact (rd1_rel h _).bind fun _ _ hx => (rd1_rel h _).bind fun _ _ hy =>
      (wr1_rel h _ (times_sub hk _ _ (times_mulSame hk hy _) _ _ (times_mulSame hk hx _))).bind fun _ _ h' =>
      wr1_rel h' _ (times_add hk _ _ (times_mulSame hk hy _) _ _ (times_mulSame hk hx _))
  · exact .ok h

omit [Trig (Dbl R)] in
theorem jacobiRotate_times (hk : ExactFactor R k) (n l m : Nat) (s c : Dbl R) {x y z x' y' z' : Dbl R} (hx : Times k x x')
    (hy : Times k y y') (hz : Times k z z') {a b : List (Dbl R)} (h : List.Forall₂ (Times k) a b) (v : List (Dbl R)) :
    ResRel (fun p q => List.Forall₂ (Times k) p.1 q.1 ∧ p.2 = q.2) (jacobiRotate n l m s c x y z a v)
      (jacobiRotate n l m s c x' y' z' b v) := by
  unfold jacobiRotate
  have hw := times_mulSame hk hz (s * c)
  have hw := times_add hk _ _ hw _ _ hw
  refine (ResRel.forLoop (S := fun p q : List (Dbl R) × List (Dbl R) => List.Forall₂ (Times k) p.1 q.1 ∧ p.2 = q.2) _ 1
    (show List.Forall₂ (Times k) (a, v).1 (b, v).1 ∧ (a, v).2 = (b, v).2 from ⟨h, rfl⟩) fun i p q hp => ?_).bind fun p q hp => ?_
  · refine (jacobiRow_times hk l m s c i hp.1).bind fun _ _ ha => ?_
    rw [hp.2]
    exact (ResRel.refl_eq _).bind fun _ _ e => .ok ⟨ha, e⟩
  · refine (wr1_rel hp.1 _ (times_sub hk _ _ (times_add hk _ _ (times_mulSame hk hx _) _ _ (times_mulSame hk hy _)) _ _ hw)).bind
      fun _ _ h1 => (wr1_rel h1 _ (times_add hk _ _ (times_add hk _ _ (times_mulSame hk hx _) _ _ (times_mulSame hk hy _)) _ _ hw)).bind
      fun _ _ h2 => (wr1_rel h2 _ times_zero).bind fun _ _ h3 => .ok ⟨h3, hp.2⟩

/-- The state of the iteration in the two units. -/
structure JRel (k : ℝ) (x y : Jacobi (Dbl R)) : Prop where
  a : List.Forall₂ (Times k) x.a y.a
  v : x.v = y.v
  thr : Times (k * k) x.thr y.thr
  iter : x.iter = y.iter

theorem jacobiStep_times (hk : ExactFactor R k) (h0 : 0 < k) (n l m : Nat) {t t' : Dbl R} (ht : Times (k * k) t t')
    {x y : Jacobi (Dbl R)} (h : JRel k x y) : ResRel (JRel k) (jacobiStep n t l m x) (jacobiStep n t' l m y) := by
  unfold jacobiStep
  refine (rd1_rel h.a _).bind fun a b hab => ?_
  have h2 := times_mul hk hk hab hab
  have hlt := times_lt (mul_pos h0 h0) h2 ht
  dsimp only
  by_cases c : a * a < t
  · rw [if_pos c, if_pos (hlt.1 c)]; exact .ok h
  · rw [if_neg c, if_neg (fun c' => c (hlt.2 c'))]
    refine (rd1_rel h.a _).bind fun a1 b1 h1 => (rd1_rel h.a _).bind fun a3 b3 h3 => ?_
    rw [jacobiAngle_times hk h0.ne' h1 h3 hab, h.v]
    refine (jacobiRotate_times hk n l m _ _ h1 h3 hab h.a _).bind fun p q hp => .ok ⟨hp.1, hp.2, ?_, h.iter⟩
    exact times_abs (mul_pos h0 h0).le (times_sub (exact_mul hk hk) _ _ h.thr _ _ h2)

theorem jacobiSweep_times (hk : ExactFactor R k) (h0 : 0 < k) (n : Nat) {x y : Jacobi (Dbl R)} (h : JRel k x y) :
    ResRel (JRel k) (jacobiSweep n x) (jacobiSweep n y) := by
  unfold jacobiSweep
  refine ResRel.forLoop _ 1 ⟨h.a, h.v, h.thr, by rw [h.iter]⟩ fun l _ _ h' => ResRel.forLoop _ _ h' fun m _ _ h' => ?_
  exact jacobiStep_times hk h0 n l m (times_divSame (exact_mul hk hk) h.thr _) h'

theorem jacobiLoop_times (hk : ExactFactor R k) (h0 : 0 < k) (n : Nat) {t t' : Dbl R} (ht : Times (k * k) t t') (i : Nat) :
    ∀ {x y : Jacobi (Dbl R)}, JRel k x y → ResRel (JRel k) (jacobiLoop n t i x) (jacobiLoop n t' i y) := by
  induction i with
  | zero => intro x y h; exact .ok h
  | succ i ih =>
    intro x y h
    unfold jacobiLoop
    have hlt := times_lt (mul_pos h0 h0) ht h.thr
    by_cases c : t < x.thr
    · rw [if_pos c, if_pos (hlt.1 c)]
      exact (jacobiSweep_times hk h0 n h).bind fun _ _ h => ih h
    · rw [if_neg c, if_neg (fun c' => c (hlt.2 c'))]; exact .ok h

theorem jacobi_times (hk : ExactFactor R k) (h0 : 0 < k) (n : Nat) {a b : List (Dbl R)} (h : List.Forall₂ (Times k) a b) :
    ResRel (JRel k) (jacobi n a) (jacobi n b) := by
  unfold jacobi
  refine (ResRel.mapM_same _ fun i => Forall₂.rd h i).bind fun a b h => (jacobiNorm_times hk n h).bind fun x y hx => ?_
  have hz := times_eq_zero (mul_pos h0 h0).ne' hx
  dsimp only
  by_cases c : x = 0
  · rw [if_neg (not_not.2 c), if_neg (not_not.2 (hz.1 c))]; exact .ok ⟨h, rfl, hx, rfl⟩
  · rw [if_pos c, if_pos (fun c' => c (hz.2 c'))]
    exact jacobiLoop_times hk h0 n (times_mulSame (exact_mul hk hk) hx _) 100 ⟨h, rfl, hx, rfl⟩

omit [Trig (Dbl R)] in
theorem selectMax_times (h0 : 0 < k) (n i : Nat) {a b : List (Dbl R)} (h : List.Forall₂ (Times k) a b) :
    ResRel (fun p q => p.1 = q.1 ∧ Times k p.2 q.2) (selectMax n i a) (selectMax n i b) := by
  unfold selectMax
  refine (Forall₂.rd h i).bind fun x y hx => ResRel.forLoop _ _ ⟨rfl, hx⟩ fun j p q hp => ?_
  refine (Forall₂.rd h j).bind fun x y hx => ?_
  have hlt := times_lt h0 hp.2 hx
  by_cases c : p.2 < x
  · rw [if_pos c, if_pos (hlt.1 c)]; exact .ok ⟨rfl, hx⟩
  · rw [if_neg c, if_neg (fun c' => c (hlt.2 c'))]; exact .ok hp

omit [Trig (Dbl R)] in
theorem selectSort_times (h0 : 0 < k) (n : Nat) {a b : List (Dbl R)} (h : List.Forall₂ (Times k) a b) :
    ResRel (fun p q => List.Forall₂ (Times k) p.1 q.1 ∧ p.2 = q.2) (selectSort n a) (selectSort n b) := by
  unfold selectSort
  refine ResRel.forLoop _ _ ⟨h, rfl⟩ fun i p q hp => ?_
  refine (selectMax_times h0 n i hp.1).bind fun m m' hm => (Forall₂.rd hp.1 i).bind fun y y' hy => ?_
  obtain ⟨m1, m2⟩ := m
  obtain ⟨m1', m2'⟩ := m'
  obtain ⟨rfl, hm⟩ : m1 = m1' ∧ Times k m2 m2' := hm
  refine (Forall₂.wr hp.1 _ hy).bind fun _ _ h1 => (Forall₂.wr h1 _ hm).bind fun _ _ h2 => ?_
  rw [hp.2]
  refine (ResRel.refl_eq _).bind fun j _ e => ?_
  subst e
  refine (ResRel.refl_eq _).bind fun j _ e => ?_
  subst e
  refine (ResRel.refl_eq _).bind fun j _ e => ?_
  subst e
  exact (ResRel.refl_eq _).bind fun _ _ e => .ok ⟨h2, e⟩

theorem symmetricEigen_times (hk : ExactFactor R k) (h0 : 0 < k) (n : Nat) {a b : List (Dbl R)} (h : List.Forall₂ (Times k) a b) :
    ResRel (fun p q => List.Forall₂ (Times k) p.1 q.1 ∧ p.2 = q.2) (symmetricEigen a n) (symmetricEigen b n) := by
  unfold symmetricEigen
  refine (jacobi_times hk h0 n h).bind fun x y hx => ?_
  refine (ResRel.mapM_same _ fun i => Forall₂.rd hx.a _).bind fun v w hv => ?_
  refine (selectSort_times h0 n hv).bind fun p q hp => ?_
  obtain ⟨v, i⟩ := p
  obtain ⟨w, j⟩ := q
  obtain ⟨hv, rfl⟩ : List.Forall₂ (Times k) v w ∧ i = j := hp
  rw [hx.v]
  exact (ResRel.refl_eq _).bind fun _ _ e => .ok ⟨hv, by rw [e]⟩

theorem eigenItem_times (hk : ExactFactor R k) (h0 : 0 < k) (n : Nat) {a b : List (Dbl R)} (h : List.Forall₂ (Times k) a b) :
    ResRel (fun p q => List.Forall₂ (Times k) p.1 q.1 ∧ p.2 = q.2) (eigenItem n a) (eigenItem n b) := by
  unfold eigenItem eigenInput
  by_cases c : n = 2
  · simp only [if_pos c]; exact (ResRel.mapM_same [0, 1, 2] fun i => Forall₂.rd h i).bind fun _ _ h => symmetricEigen_times hk h0 n h
  · simp only [if_neg c]; exact (ResRel.mapM_same [0, 1, 3, 2, 4, 5] fun i => Forall₂.rd h i).bind fun _ _ h => symmetricEigen_times hk h0 n h

theorem eigenValues_times (hk : ExactFactor R k) (h0 : 0 < k) {s t : Serie (Dbl R)} (h : SRel (Times k) s t) :
    ResRel (SRel (Times k)) (eigenValues s) (eigenValues t) := by
  unfold eigenValues
  rw [h.dimension, h.itemSize]
  repeat' split
  all_goals first | exact .throw _ | skip
  all_goals exact SRel.mapArr times_zero h fun _ _ hv _ => (eigenItem_times hk h0 _ hv).bind fun _ _ hp => .ok hp.1

omit [Trig (Dbl R)] in
theorem forall₂_times_one {l m : List (Dbl R)} (h : l = m) : List.Forall₂ (Times 1) l m := by
  subst h
  exact List.forall₂_same.2 fun x _ => times_refl x

omit [Trig (Dbl R)] in
theorem srel_times_one {s t : Serie (Dbl R)} (h : SRel (Times 1) s t) : s = t := by
  obtain ⟨d, c, i, n⟩ := s
  obtain ⟨d', c', i', n'⟩ := t
  obtain ⟨rfl, rfl, rfl, hd⟩ := h
  have : d = d' := by
    have : List.Forall₂ (· = ·) d d' := hd.imp fun _ _ => times_one.1
    rwa [List.forall₂_eq_eq_eq] at this
  subst this
  rfl

theorem eigenVectors_times (hk : ExactFactor R k) (h0 : 0 < k) {s t : Serie (Dbl R)} (h : SRel (Times k) s t) :
    ResRel (SRel (Times 1)) (eigenVectors s) (eigenVectors t) := by
  unfold eigenVectors
  rw [h.dimension, h.itemSize]
  repeat' split
  all_goals first | exact .throw _ | skip
  all_goals exact mapArr_rel2 times_zero h fun _ _ hv _ => (eigenItem_times hk h0 _ hv).bind fun _ _ hp => .ok (forall₂_times_one hp.2)

theorem eigenSystemLoop_times (hk : ExactFactor R k) (h0 : 0 < k) (n : Nat) {s t : Serie (Dbl R)} (h : SRel (Times k) s t) :
    ResRel (fun p q => SRel (Times k) p.1 q.1 ∧ SRel (Times 1) p.2 q.2) (eigenSystemLoop n s) (eigenSystemLoop n t) := by
  unfold eigenSystemLoop
  rw [h.count]
  refine ResRel.forLoop _ 0 ⟨SRel.zeros times_zero _ _ _, SRel.zeros times_zero _ _ _⟩ fun i p q hp => ?_
  exact (h.getA i).bind fun _ _ hv => (eigenItem_times hk h0 n hv).bind fun _ _ he => (hp.1.putA i he.1).bind fun _ _ h1 =>
    (hp.2.putA i (forall₂_times_one he.2)).bind fun _ _ h2 => .ok ⟨h1, h2⟩

theorem eigenSystem_times (hk : ExactFactor R k) (h0 : 0 < k) {s t : Serie (Dbl R)} (h : SRel (Times k) s t) :
    ResRel (fun p q => SRel (Times k) p.1 q.1 ∧ SRel (Times 1) p.2 q.2) (eigenSystem s) (eigenSystem t) := by
  unfold eigenSystem
  rw [h.dimension, h.itemSize]
  split
  · exact .throw _
  · split
    · exact .throw _
    · split
      · exact eigenSystemLoop_times hk h0 2 h
      · split
        · exact eigenSystemLoop_times hk h0 3 h
        · exact .ok ⟨SRel.empty times_zero, SRel.empty times_zero⟩

end DF
