import Verif.Lemmas.Digits
import Verif.Lemmas.Zeros
import Verif.Lemmas.FloatQuantile
import Verif.Model.Eigen
import Verif.Model.Geo

/-!
# Functions under a change of unit by an exact factor
-/

namespace DF

open Spec

variable {α β γ δ : Type}

/-! ## Parametricity with different relations on the arguments and the results -/

section two

variable {R : α → β → Prop} {S : α → β → Prop} {T : α → β → Prop}

theorem mapArr_rel2 [Zero α] [Zero β] (h0 : S 0 0) {f : List α → Nat → Res (List α)} {g : List β → Nat → Res (List β)}
    {s : Serie α} {t : Serie β} (h : SRel R s t)
    (hf : ∀ v w, List.Forall₂ R v w → ∀ i, ResRel (List.Forall₂ S) (f v i) (g w i)) :
    ResRel (SRel S) (mapArr f s) (mapArr g t) := by
  have key : EffRel (fun _ _ : Unit => True) (SRel S) (mapVV (σ := Unit) (fun v i => Eff.lift (f v i)) s)
      (mapVV (σ := Unit) (fun v i => Eff.lift (g v i)) t) := by
    unfold mapVV
    rw [h.count]
    split
    · exact EffRel.pure (SRel.zeros h0 0 0 3)
    · refine (EffRel.lift (h.getA 0)).bind fun v w hv => ?_
      refine (EffRel.lift (hf v w hv 0)).bind fun v1 w1 h1 => ?_
      dsimp only
      rw [h1.length_eq]
      refine (EffRel.forLoop _ 1 h1 fun i a b hab => ?_).bind fun a b hab => EffRel.lift (SRel.ofArray _ hab _)
      refine (EffRel.lift (h.getA i)).bind fun v w hv => (EffRel.lift (hf v w hv i)).bind fun v2 w2 h2 => ?_
      rw [h2.length_eq]
      split
      · exact EffRel.throw _
      · exact EffRel.pure (Forall₂.append hab h2)
  exact (key () () trivial).1

theorem mapNum_rel2 {f : α → Nat → Res α} {g : β → Nat → Res β} {s : Serie α} {t : Serie β} (h : SRel R s t)
    (hf : ∀ v w, R v w → ∀ i, ResRel S (f v i) (g w i)) : ResRel (SRel S) (mapNum f s) (mapNum g t) := by
  have key : EffRel (fun _ _ : Unit => True) (SRel S) (mapSS (σ := Unit) (fun v i => Eff.lift (f v i)) s)
      (mapSS (σ := Unit) (fun v i => Eff.lift (g v i)) t) := by
    unfold mapSS
    rw [h.count]
    refine (EffRel.forLoop _ 0 .nil fun i a b hab => ?_).bind fun a b hab => EffRel.lift (SRel.ofArray _ hab _)
    exact (EffRel.lift (h.getD i)).bind fun v w hv => (EffRel.lift (hf v w hv i)).bind fun v2 w2 h2 =>
      EffRel.pure (Forall₂.append hab (.cons h2 .nil))
  exact (key () () trivial).1

theorem reduceS_rel2 {f : α → α → Nat → Res α} {g : β → β → Nat → Res β} {Q : α → β → Prop} {s : Serie α} {t : Serie β}
    (h : SRel R s t) {x : α} {y : β} (hx : Q x y) (hf : ∀ a b, Q a b → ∀ v w, R v w → ∀ i, ResRel Q (f a v i) (g b w i)) :
    ResRel Q (reduceS (σ := Unit) (fun a v i => Eff.lift (f a v i)) s x ()).1
      (reduceS (σ := Unit) (fun a v i => Eff.lift (g a v i)) t y ()).1 := by
  have key : EffRel (fun _ _ : Unit => True) Q (reduceS (σ := Unit) (fun a v i => Eff.lift (f a v i)) s x)
      (reduceS (σ := Unit) (fun a v i => Eff.lift (g a v i)) t y) := by
    unfold reduceS
    rw [h.count]
    exact EffRel.forLoop _ 0 hx fun i a b hab => (EffRel.lift (h.getD i)).bind fun v w hv => EffRel.lift (hf a b hab v w hv i)
  exact (key () () trivial).1

theorem updLoop_rel2 {f : Nat → α → Res α} {g : Nat → β → Res β} (hf : ∀ k, ∀ a b, R a b → ResRel S (f k a) (g k b)) {l : List α}
    {m : List β} (h : List.Forall₂ R l m) : ResRel (List.Forall₂ S) (updLoop l.length f l) (updLoop m.length g m) := by
  have key : ∀ (l : List α) (m : List β), List.Forall₂ R l m → ∀ (p : List α) (q : List β), List.Forall₂ S p q →
      ResRel (List.Forall₂ S) (forLoop (fun k r => do
        let x ← rd r k
        let y ← f k x
        wr r k y) p.length l.length (p ++ l)) (forLoop (fun k r => do
        let x ← rd r k
        let y ← g k x
        wr r k y) q.length m.length (q ++ m)) := by
    intro l m h
    induction h with
    | nil => intro p q hp; rw [List.append_nil, List.append_nil]; exact .ok hp
    | @cons a b l m hab _ ih =>
      intro p q hp
      rw [List.length_cons, List.length_cons]
      unfold forLoop
      rw [rd_of_lt (by simp), rd_of_lt (by simp), List.getElem_append_right (le_refl _),
        List.getElem_append_right (le_refl _)]
      simp only [Nat.sub_self, List.getElem_cons_zero, Res.ok_bind, bind_assoc]
      have e := hp.length_eq
      have hfg := hf p.length a b hab
      rw [← e]
      revert hfg
      generalize f p.length a = x
      generalize g p.length b = y
      intro hfg
      cases hfg with
      | throw e => exact .throw e
      | ub => exact .ub
      | @ok x y hxy =>
        have := ih (p ++ [x]) (q ++ [y]) (Forall₂.append hp (.cons hxy .nil))
        rw [List.length_append, List.length_append, List.append_assoc, List.append_assoc, ← e] at this
        simp only [Res.ok_bind]
        rw [wr_of_lt (by simp), wr_of_lt (by simp [e])]
        simp only [Res.ok_bind]
        rw [List.set_append_right _ _ (le_refl _), e, List.set_append_right _ _ (le_refl _), Nat.sub_self]
        rw [e] at this
        exact this
  exact key l m h [] [] .nil

theorem multSerie_rel2 [Zero α] [Zero β] [Mul α] [Mul β] (h0 : T 0 0)
    (hm : ∀ a b, R a b → ∀ c d, S c d → T (a * c) (b * d)) {s a : Serie α} {t b : Serie β}
    (h : SRel R s t) (h' : SRel S a b) : ResRel (SRel T) (multSerie s a) (multSerie t b) := by
  unfold multSerie
  rw [h.count, h.itemSize, h'.count, h'.itemSize, h.data.length_eq]
  split
  · exact .throw _
  · split
    · split
      · exact .throw _
      · refine (ResRel.forLoop (S := List.Forall₂ T) _ 0 (Forall₂.replicate _ h0) fun i l m hl => ?_).bind fun l m hl =>
          SRel.ofArray _ hl _
        exact (Forall₂.rd h.data i).bind fun x y hx => (Forall₂.rd h'.data i).bind fun _ _ hx' =>
          Forall₂.wr hl i (hm _ _ hx _ _ hx')
    · refine mapArr_rel2 h0 h fun v w hv i => ?_
      split
      · refine (h'.scalar i).bind fun x y hx => updLoop_rel2 (R := R) ?_ hv
        exact (fun _ _ _ hy => .ok (hm _ _ hy _ _ hx))
      · split
        · exact .throw _
        · refine (h'.value i).bind fun x y hx => updLoop_rel2 (R := R) ?_ hv
          exact (fun j _ _ hy => (Forall₂.rd hx j).bind fun _ _ hz =>
            .ok (hm _ _ hy _ _ hz))

end two

/-! ## Exact factors -/

variable {p : Nat} {R : Rounding p} {k l : ℝ}

theorem exact_one : ExactFactor R 1 := fun x => by rw [one_mul, one_mul]

theorem exact_zero : ExactFactor R 0 := fun x => by rw [zero_mul, zero_mul]; exact R.exact Rounding.zero_rep

theorem exact_mul (hk : ExactFactor R k) (hl : ExactFactor R l) : ExactFactor R (k * l) := fun x => by
  rw [mul_assoc, hk, hl, mul_assoc]

theorem exact_inv (hk : ExactFactor R k) : ExactFactor R k⁻¹ := by
  by_cases h : k = 0
  · rw [h, inv_zero]; exact exact_zero
  · intro x
    have := hk (k⁻¹ * x)
    rw [mul_inv_cancel_left₀ h] at this
    rw [this, inv_mul_cancel_left₀ h]

theorem exact_div (hk : ExactFactor R k) (hl : ExactFactor R l) : ExactFactor R (k / l) := by
  rw [div_eq_mul_inv]; exact exact_mul hk (exact_inv hl)

theorem times_one {x y : Dbl R} : Times 1 x y ↔ x = y :=
  ⟨fun h => Dbl.ext (by rw [h, one_mul]), fun h => by subst h; exact (one_mul _).symm⟩

theorem times_refl (x : Dbl R) : Times 1 x x := times_one.2 rfl

theorem times_zero : Times k (0 : Dbl R) 0 := by
  show (0 : Dbl R).val = k * (0 : Dbl R).val
  rw [Dbl.val_zero, mul_zero]

theorem times_add (hk : ExactFactor R k) : Rel2 (Times (R := R) k) (· + ·) (· + ·) := fun a b h c d h' => by
  show (b + d).val = k * (a + c).val
  rw [Dbl.val_add, Dbl.val_add, h, h', ← hk, mul_add]

theorem times_sub (hk : ExactFactor R k) : Rel2 (Times (R := R) k) (· - ·) (· - ·) := fun a b h c d h' => by
  show (b - d).val = k * (a - c).val
  rw [Dbl.val_sub, Dbl.val_sub, h, h', ← hk, mul_sub]

theorem times_mul (hk : ExactFactor R k) (hl : ExactFactor R l) {a b c d : Dbl R} (h : Times k a b) (h' : Times l c d) :
    Times (k * l) (a * c) (b * d) := by
  show (b * d).val = k * l * (a * c).val
  rw [Dbl.val_mul, Dbl.val_mul, h, h', ← exact_mul hk hl, mul_mul_mul_comm]

theorem times_div (hk : ExactFactor R k) (hl : ExactFactor R l) {a b c d : Dbl R} (h : Times k a b) (h' : Times l c d) :
    Times (k / l) (a / c) (b / d) := by
  show (b / d).val = k / l * (a / c).val
  rw [Dbl.val_div, Dbl.val_div, h, h', ← exact_div hk hl, mul_div_mul_comm]

theorem times_neg {a b : Dbl R} (h : Times k a b) : Times k (-a) (-b) := by
  show (-b).val = k * (-a).val
  rw [Dbl.val_neg, Dbl.val_neg, h, mul_neg]

theorem times_sqrt (hk : ExactFactor R k) (h0 : 0 ≤ k) {a b : Dbl R} (h : Times (k * k) a b) :
    Times k (Sqrt.sqrt a) (Sqrt.sqrt b) := by
  show (Sqrt.sqrt b).val = k * (Sqrt.sqrt a).val
  rw [Dbl.val_sqrt, Dbl.val_sqrt, h, ← hk, Real.sqrt_mul (mul_nonneg h0 h0), Real.sqrt_mul_self h0]

theorem times_lt (h0 : 0 < k) {a b c d : Dbl R} (h : Times k a b) (h' : Times k c d) : a < c ↔ b < d := by
  show a.val < c.val ↔ b.val < d.val
  rw [h, h', mul_lt_mul_iff_right₀ h0]

theorem times_le (h0 : 0 < k) {a b c d : Dbl R} (h : Times k a b) (h' : Times k c d) : a ≤ c ↔ b ≤ d := by
  show a.val ≤ c.val ↔ b.val ≤ d.val
  rw [h, h', mul_le_mul_iff_right₀ h0]

theorem times_eq_zero (h0 : k ≠ 0) {a b : Dbl R} (h : Times k a b) : a = 0 ↔ b = 0 := by
  constructor
  · rintro rfl
    exact Dbl.ext (by rw [h, Dbl.val_zero, mul_zero])
  · rintro rfl
    refine Dbl.ext ?_
    have : (0 : ℝ) = k * a.val := h
    rw [Dbl.val_zero]
    exact (mul_eq_zero.1 this.symm).resolve_left h0

theorem times_abs (h0 : 0 ≤ k) {a b : Dbl R} (h : Times k a b) : Times k (absv a) (absv b) := by
  rcases h0.eq_or_lt with rfl | h0
  · have : b = 0 := Dbl.ext (by rw [h, zero_mul, Dbl.val_zero])
    subst this
    show (absv (0 : Dbl R)).val = 0 * _
    unfold absv
    rw [if_neg (lt_irrefl _), Dbl.val_zero, zero_mul]
  · unfold absv
    by_cases c : a < 0
    · rw [if_pos c, if_pos ((times_lt h0 h times_zero).1 c)]; exact times_neg h
    · rw [if_neg c, if_neg (fun c' => c ((times_lt h0 h times_zero).2 c'))]; exact h

/-! ## Functions of one or two Series -/

theorem times_divSame (hk : ExactFactor R k) {x y : Dbl R} (h : Times k x y) (n : Dbl R) : Times k (x / n) (y / n) := by
  have := times_div hk exact_one h (times_refl n)
  rwa [div_one] at this

theorem times_mulSame (hk : ExactFactor R k) {x y : Dbl R} (h : Times k x y) (n : Dbl R) : Times k (x * n) (y * n) := by
  have := times_mul hk exact_one h (times_refl n)
  rwa [mul_one] at this

theorem times_sameMul (hk : ExactFactor R k) {x y : Dbl R} (h : Times k x y) (n : Dbl R) : Times k (n * x) (n * y) := by
  have := times_mul exact_one hk (times_refl n) h
  rwa [one_mul] at this

theorem covariance_times (hk : ExactFactor R k) (hl : ExactFactor R l) {s a : Serie (Dbl R)} {t b : Serie (Dbl R)}
    (h : SRel (Times k) s t) (h' : SRel (Times l) a b) : ResRel (Times (k * l)) (covariance s a) (covariance t b) := by
  have hg : ∀ {k : ℝ} (p q : Tuple (Dbl R)), TRel (Times k) p q → ResRel (Times k) p.getNumber q.getNumber := by
    intro k p q hp
    cases hp with
    | number h => exact .ok h
    | array h => exact .ub
  unfold covariance
  rw [h.count, h'.count, h.itemSize, h'.itemSize, h.size]
  split
  · exact .throw _
  · split
    · exact .throw _
    · split
      · exact .throw _
      · refine ((mean_rel times_zero (times_add hk) (fun _ _ h n => times_divSame hk h _) h).bind hg).bind fun _ _ hx =>
          ((mean_rel times_zero (times_add hl) (fun _ _ h n => times_divSame hl h _) h').bind hg).bind fun _ _ hy => ?_
        refine (subNum_rel (times_sub hk) h hx).bind fun _ _ hdx => (subNum_rel (times_sub hl) h' hy).bind fun _ _ hdy =>
          (multSerie_rel2 (T := Times (k * l)) times_zero (fun _ _ p _ _ q => times_mul hk hl p q) hdx hdy).bind fun p q hp => ?_
        exact hp.reduceS times_zero (f := fun a v _ => .ok (a + v / _)) (g := fun a v _ => .ok (a + v / _)) fun _ _ hx _ _ hy _ =>
          .ok (times_add (exact_mul hk hl) _ _ hx _ _ (times_divSame (exact_mul hk hl) hy _))

theorem weightedSum_times (hk : ExactFactor R k) {l m : List (Serie (Dbl R))} (h : List.Forall₂ (SRel (Times k)) l m)
    (x : List (Dbl R)) : ResRel (SRel (Times k)) (weightedSum l x) (weightedSum m x) := by
  unfold weightedSum
  rw [h.length_eq]
  split
  · exact .throw _
  · refine (Forall₂.rd h 0).bind fun a b hab => ?_
    refine (ResRel.foldlM (S := fun _ _ : Unit => True) h trivial fun _ _ _ s t hs => ?_).bind fun _ _ _ => ?_
    · rw [hab.count, hab.itemSize, hs.count, hs.itemSize]
      split
      · exact .throw _
      · split
        · exact .throw _
        · exact .ok trivial
    · refine SRel.mapArr times_zero hab fun v w hv i => ?_
      rw [hab.itemSize]
      refine ResRel.forLoop _ 0 (Forall₂.replicate _ times_zero) fun j r r' hr => ?_
      refine (Forall₂.rd h j).bind fun s t hs => (hs.value i).bind fun _ _ hv => (ResRel.refl_eq _).bind fun _ w e => ?_
      subst e
      exact ResRel.updLoop _ hr fun k _ _ hp => (Forall₂.rd hv k).bind fun _ _ hy =>
        .ok (times_add hk _ _ hp _ _ (times_mulSame hk hy _))

theorem dotItem_times (hk : ExactFactor R k) (hl : ExactFactor R l) {v v' w w' : List (Dbl R)}
    (h : List.Forall₂ (Times k) v w) (h' : List.Forall₂ (Times l) v' w') (n : Nat) :
    ResRel (List.Forall₂ (Times (k * l))) (dotItem n v v') (dotItem n w w') :=
  ResRel.forLoop _ 0 (.cons times_zero .nil) fun i _ _ hr => (Forall₂.rd hr 0).bind fun _ _ r0 => (Forall₂.rd h i).bind fun _ _ hx =>
    (Forall₂.rd h' i).bind fun _ _ hy => Forall₂.wr hr 0 (times_add (exact_mul hk hl) _ _ r0 _ _ (times_mul hk hl hx hy))

theorem dot_times (hk : ExactFactor R k) (hl : ExactFactor R l) {s a t b : Serie (Dbl R)} (h : SRel (Times k) s t)
    (h' : SRel (Times l) a b) : ResRel (SRel (Times (k * l))) (dot s a) (dot t b) := by
  unfold dot
  rw [h.itemSize]
  exact mapArr_rel2 times_zero h fun v w hv i => (h'.value i).bind fun _ _ hw => dotItem_times hk hl hv hw _

theorem dotArray_times (hk : ExactFactor R k) (hl : ExactFactor R l) {s t : Serie (Dbl R)} (h : SRel (Times k) s t)
    {v w : List (Dbl R)} (hv : List.Forall₂ (Times l) v w) : ResRel (SRel (Times (k * l))) (dotArray s v) (dotArray t w) := by
  unfold dotArray
  refine (h.value 0).bind fun _ _ h1 => ?_
  rw [h1.length_eq, hv.length_eq, h.itemSize]
  split
  · exact .ok (SRel.empty times_zero)
  · exact mapArr_rel2 times_zero h fun _ _ hu _ => dotItem_times hk hl hu hv _

theorem insar_times (hk : ExactFactor R k) (hl : ExactFactor R l) {s t : Serie (Dbl R)} (h : SRel (Times k) s t)
    {v w : List (Dbl R)} (hv : List.Forall₂ (Times l) v w) : ResRel (SRel (Times (k * l))) (insar s v) (insar t w) := by
  unfold insar
  rw [h.isValid, h.itemSize, hv.length_eq]
  split
  · exact .ok (SRel.empty times_zero)
  · split
    · exact .ok (SRel.empty times_zero)
    · exact dotArray_times hk hl h hv

theorem crossItem_times (hk : ExactFactor R k) (hl : ExactFactor R l) {v v' w w' : List (Dbl R)}
    (h : List.Forall₂ (Times k) v w) (h' : List.Forall₂ (Times l) v' w') :
    ResRel (List.Forall₂ (Times (k * l))) (crossItem v v') (crossItem w w') := by
  have hm : ∀ {a b c d : Dbl R}, Times k a b → Times l c d → Times (k * l) (a * c) (b * d) := fun h h' => times_mul hk hl h h'
  have hs := times_sub (exact_mul hk hl)
  unfold crossItem
  refine (Forall₂.rd h 0).bind fun _ _ a0 => (Forall₂.rd h 1).bind fun _ _ a1 => (Forall₂.rd h 2).bind fun _ _ a2 =>
    (Forall₂.rd h' 0).bind fun _ _ b0 => (Forall₂.rd h' 1).bind fun _ _ b1 => (Forall₂.rd h' 2).bind fun _ _ b2 => .ok ?_
  exact .cons (hs _ _ (hm a1 b2) _ _ (hm a2 b1)) (.cons (hs _ _ (hm a2 b0) _ _ (hm a0 b2))
    (.cons (hs _ _ (hm a0 b1) _ _ (hm a1 b0)) .nil))

theorem cross_times (hk : ExactFactor R k) (hl : ExactFactor R l) {s a t b : Serie (Dbl R)} (h : SRel (Times k) s t)
    (h' : SRel (Times l) a b) : ResRel (SRel (Times (k * l))) (cross s a) (cross t b) := by
  unfold cross
  rw [h.isValid, h'.isValid, h.itemSize, h'.itemSize]
  repeat' split
  all_goals first | exact .throw _ | skip
  exact mapArr_rel2 times_zero h fun v w hv i => (h'.value i).bind fun _ _ hw => crossItem_times hk hl hv hw

theorem det2_times (hk : ExactFactor R k) {M N : MatView (Dbl R)} (h : MRel (Times k) M N) :
    ResRel (List.Forall₂ (Times (k * k))) (det2 M) (det2 N) :=
  (h.at' 0 0).bind fun _ _ a => (h.at' 1 1).bind fun _ _ b => (h.at' 0 1).bind fun _ _ c => (h.at' 1 0).bind fun _ _ d =>
    .ok (.cons (times_sub (exact_mul hk hk) _ _ (times_mul hk hk a b) _ _ (times_mul hk hk c d)) .nil)

theorem det3_times (hk : ExactFactor R k) {M N : MatView (Dbl R)} (h : MRel (Times k) M N) :
    ResRel (List.Forall₂ (Times (k * k * k))) (det3 M) (det3 N) := by
  unfold det3
  refine (h.at' 0 0).bind fun _ _ m00 => (h.at' 0 1).bind fun _ _ m01 => (h.at' 0 2).bind fun _ _ m02 =>
    (h.at' 1 0).bind fun _ _ m10 => (h.at' 1 1).bind fun _ _ m11 => (h.at' 1 2).bind fun _ _ m12 =>
    (h.at' 2 0).bind fun _ _ m20 => (h.at' 2 1).bind fun _ _ m21 => (h.at' 2 2).bind fun _ _ m22 => .ok (.cons ?_ .nil)
  have m3 : ∀ {a a' a'' b b' b'' : Dbl R}, Times k a b → Times k a' b' → Times k a'' b'' →
      Times (k * k * k) (a * a' * a'') (b * b' * b'') :=
    fun x y z => times_mul (exact_mul hk hk) hk (times_mul hk hk x y) z
  have ha := times_add (exact_mul (exact_mul hk hk) hk)
  have hs := times_sub (exact_mul (exact_mul hk hk) hk)
  exact hs _ _ (ha _ _ (ha _ _ (hs _ _ (hs _ _ (m3 m00 m11 m22) _ _ (m3 m00 m12 m21)) _ _ (m3 m01 m10 m22)) _ _ (m3 m01 m12 m20)) _ _
    (m3 m02 m10 m21)) _ _ (m3 m02 m11 m20)

theorem det2d_times (hk : ExactFactor R k) {s t : Serie (Dbl R)} (h : SRel (Times k) s t) (h2 : s.dimension = 2) :
    ResRel (SRel (Times (k * k))) (det s) (det t) := by
  unfold det
  rw [h.isValid, h.itemSize, ← h.dimension, h2]
  split
  · exact .throw _
  · refine mapArr_rel2 times_zero h fun v w hv i => ?_
    rw [hv.length_eq]
    split
    · split
      · exact (symSquaredMatrix_rel times_zero hv).bind fun _ _ hM => det2_times hk hM
      · exact det2_times hk (squaredMatrix_rel hv)
    · rw [if_neg (by omega), if_neg (by omega)]
      exact .throw _

theorem det3d_times (hk : ExactFactor R k) {s t : Serie (Dbl R)} (h : SRel (Times k) s t) (h2 : s.dimension ≠ 2) :
    ResRel (SRel (Times (k * k * k))) (det s) (det t) := by
  unfold det
  rw [h.isValid, h.itemSize, ← h.dimension]
  split
  · exact .throw _
  · refine mapArr_rel2 times_zero h fun v w hv i => ?_
    rw [hv.length_eq, if_neg (fun c : (t.itemSize = 3 ∨ t.itemSize = 4) ∧ s.dimension = 2 => h2 c.2)]
    rw [if_neg (fun c : (t.itemSize = 3 ∨ t.itemSize = 4) ∧ s.dimension = 2 => h2 c.2)]
    split
    · split
      · exact (symSquaredMatrix_rel times_zero hv).bind fun _ _ hM => det3_times hk hM
      · exact det3_times hk (squaredMatrix_rel hv)
    · exact .throw _

/-! ## normals, fringes, grids -/

theorem edge_times (hk : ExactFactor R k) {v v' w w' : List (Dbl R)} (h : List.Forall₂ (Times k) v w)
    (h' : List.Forall₂ (Times k) v' w') : ResRel (List.Forall₂ (Times k)) (edge v v') (edge w w') := by
  have hs := times_sub hk
  unfold edge
  exact (Forall₂.rd h' 0).bind fun _ _ b0 => (Forall₂.rd h 0).bind fun _ _ a0 => (Forall₂.rd h' 1).bind fun _ _ b1 =>
    (Forall₂.rd h 1).bind fun _ _ a1 => (Forall₂.rd h' 2).bind fun _ _ b2 => (Forall₂.rd h 2).bind fun _ _ a2 =>
    .ok (.cons (hs _ _ b0 _ _ a0) (.cons (hs _ _ b1 _ _ a1) (.cons (hs _ _ b2 _ _ a2) .nil)))

theorem crossArr_times (hk : ExactFactor R k) {v v' w w' : List (Dbl R)} (h : List.Forall₂ (Times k) v w)
    (h' : List.Forall₂ (Times k) v' w') : ResRel (List.Forall₂ (Times (k * k))) (crossArr v v') (crossArr w w') := by
  have hm : ∀ {a b c d : Dbl R}, Times k a b → Times k c d → Times (k * k) (a * c) (b * d) := fun h h' => times_mul hk hk h h'
  have hs := times_sub (exact_mul hk hk)
  unfold crossArr
  refine (Forall₂.rd h 0).bind fun _ _ a0 => (Forall₂.rd h 1).bind fun _ _ a1 => (Forall₂.rd h 2).bind fun _ _ a2 =>
    (Forall₂.rd h' 0).bind fun _ _ b0 => (Forall₂.rd h' 1).bind fun _ _ b1 => (Forall₂.rd h' 2).bind fun _ _ b2 => .ok ?_
  exact .cons (hs _ _ (hm a1 b2) _ _ (hm a2 b1)) (.cons (hs _ _ (hm a2 b0) _ _ (hm a0 b2))
    (.cons (hs _ _ (hm a0 b1) _ _ (hm a1 b0)) .nil))

theorem vertex_times {s t : Serie (Dbl R)} (h : SRel (Times k) s t) (v : List (Dbl R)) (i : Nat) :
    ResRel (List.Forall₂ (Times k)) (vertex s v i) (vertex t v i) := by
  unfold vertex
  refine (ResRel.refl_eq _).bind fun x _ e => ?_
  subst e
  refine (ResRel.refl_eq _).bind fun j _ e => ?_
  subst e
  exact h.value j

theorem normalOf_times (hk : ExactFactor R k) {s t : Serie (Dbl R)} (h : SRel (Times k) s t) (v : List (Dbl R)) :
    ResRel (List.Forall₂ (Times (k * k))) (normalOf s v) (normalOf t v) := by
  unfold normalOf
  exact (vertex_times h v 0).bind fun _ _ a => (vertex_times h v 1).bind fun _ _ b => (vertex_times h v 2).bind fun _ _ c =>
    (edge_times hk a b).bind fun _ _ d => (edge_times hk a c).bind fun _ _ e => crossArr_times hk d e

theorem normals_times (hk : ExactFactor R k) {s t : Serie (Dbl R)} (h : SRel (Times k) s t) (tri : Serie (Dbl R)) :
    ResRel (SRel (Times (k * k))) (normals s tri) (normals t tri) := by
  unfold normals
  rw [h.isValid, h.itemSize]
  split
  · exact .ok (SRel.empty times_zero)
  · split
    · exact .ok (SRel.empty times_zero)
    · have key : EffRel (fun p q : List (Dbl R) × Nat => List.Forall₂ (Times (k * k)) p.1 q.1 ∧ p.2 = q.2) (fun _ _ : Unit => True)
          (forEachV (fun v _ => Eff.update (normalStep s v)) tri) (forEachV (fun v _ => Eff.update (normalStep t v)) tri) := by
        unfold forEachV
        split
        · exact EffRel.throw _
        · refine EffRel.forLoop _ 0 trivial fun i _ _ _ => (EffRel.lift (ResRel.refl_eq _)).bind fun v _ e => ?_
          subst e
          refine EffRel.update fun p q hp => ?_
          obtain ⟨l, i⟩ := p
          obtain ⟨m, j⟩ := q
          obtain ⟨hl, rfl⟩ : List.Forall₂ (Times (k * k)) l m ∧ i = j := hp
          unfold normalStep
          exact (normalOf_times hk h v).bind fun _ _ hn => (Forall₂.rd hn 0).bind fun _ _ n0 => (Forall₂.wr hl _ n0).bind fun _ _ h0 =>
            (Forall₂.rd hn 1).bind fun _ _ n1 => (Forall₂.wr h0 _ n1).bind fun _ _ h1 => (Forall₂.rd hn 2).bind fun _ _ n2 =>
            (Forall₂.wr h1 _ n2).bind fun _ _ h2 => .ok ⟨h2, rfl⟩
      have := key (List.replicate (u32 (tri.count * 3)) 0, 0) (List.replicate (u32 (tri.count * 3)) 0, 0)
        ⟨Forall₂.replicate _ times_zero, rfl⟩
      exact (exec_rel (S := fun p q : List (Dbl R) × Nat => List.Forall₂ (Times (k * k)) p.1 q.1 ∧ p.2 = q.2) this).bind fun _ _ hp => SRel.ofArray _ hp.1 _

theorem fringes_times (hk : ExactFactor R k) (h0 : 0 < k) {s t : Serie (Dbl R)} (h : SRel (Times k) s t) {x y : Dbl R}
    (hx : Times k x y) : ResRel (SRel (Times k)) (fringes s x) (fringes t y) := by
  unfold fringes
  rw [h.isValid, h.itemSize]
  split
  · exact .ok (SRel.empty times_zero)
  · refine SRel.mapArr times_zero h fun v w hv i => (Forall₂.rd hv 0).bind fun a b hab => .ok (.cons ?_ .nil)
    have e : a / x = b / y := by
      have := times_div hk hk hab hx
      rw [div_self h0.ne'] at this
      exact times_one.1 this
    rw [e]
    refine times_abs h0.le (times_mulSame hk hx _)

theorem gridSpacing_times (hk : ExactFactor R k) (npts : List Nat) {f g : Nat → Res (Dbl R)} (h : ∀ i, ResRel (Times k) (f i) (g i)) :
    ResRel (List.Forall₂ (Times k)) (gridSpacing npts f) (gridSpacing npts g) := by
  unfold gridSpacing
  refine ResRel.forLoop _ 0 (.cons times_zero (.cons times_zero (.cons times_zero .nil))) fun i l m hl => ?_
  refine (ResRel.refl_eq _).bind fun n _ e => ?_
  subst e
  split
  · exact (h i).bind fun _ _ hd => Forall₂.wr hl i (times_divSame hk hd _)
  · exact Forall₂.wr hl i times_zero

theorem gridFill_times (n : List Nat) {f g : Nat → Nat → Nat → Res (List (Dbl R))}
    (h : ∀ i j l, ResRel (List.Forall₂ (Times k)) (f i j l) (g i j l)) {s t : Serie (Dbl R)} (hs : SRel (Times k) s t) (j : Nat) :
    ResRel (fun p q => SRel (Times k) p.1 q.1 ∧ p.2 = q.2) (gridFill n f (s, j)) (gridFill n g (t, j)) := by
  unfold gridFill
  refine (ResRel.refl_eq _).bind fun n0 _ e => ?_
  subst e
  refine (ResRel.refl_eq _).bind fun n1 _ e => ?_
  subst e
  refine (ResRel.refl_eq _).bind fun n2 _ e => ?_
  subst e
  refine ResRel.forLoop _ 0 ⟨hs, rfl⟩ fun c p q hp => ResRel.forLoop _ 0 hp fun b p q hp => ResRel.forLoop _ 0 hp fun a p q hp => ?_
  rw [hp.2]
  exact (h a b c).bind fun _ _ hv => (hp.1.putA _ hv).bind fun _ _ hr => .ok ⟨hr, rfl⟩

theorem fromPoints_times (hk : ExactFactor R k) (npts : List Nat) {p q p' q' : List (Dbl R)} (h : List.Forall₂ (Times k) p p')
    (h' : List.Forall₂ (Times k) q q') : ResRel (SRel (Times k)) (fromPoints npts p q) (fromPoints npts p' q') := by
  unfold fromPoints
  rw [h.length_eq, h'.length_eq]
  split
  · exact .throw _
  · split
    · exact .throw _
    · refine (gridSpacing_times hk npts fun i => (Forall₂.rd h' i).bind fun _ _ b => (Forall₂.rd h i).bind fun _ _ a =>
        .ok (times_sub hk _ _ b _ _ a)).bind fun d d' hd => ?_
      have hc : ∀ a i : Nat, ResRel (Times k) (rd p a >>= fun x => rd d a >>= fun s => pure (x + (i : Dbl R) * s))
          (rd p' a >>= fun x => rd d' a >>= fun s => pure (x + (i : Dbl R) * s)) := fun a i =>
        (Forall₂.rd h a).bind fun _ _ hx => (Forall₂.rd hd a).bind fun _ _ hs => .ok (times_add hk _ _ hx _ _ (times_sameMul hk hs _))
      exact (gridFill_times _ (fun i j l => (hc 0 i).bind fun _ _ x => (hc 1 j).bind fun _ _ y => (hc 2 l).bind fun _ _ z =>
        .ok (.cons x (.cons y (.cons z .nil)))) (SRel.zeros times_zero _ _ _) 0).bind fun _ _ hp => .ok hp.1

theorem fromDims_times (hk : ExactFactor R k) (npts : List Nat) {p q p' q' : List (Dbl R)} (h : List.Forall₂ (Times k) p p')
    (h' : List.Forall₂ (Times k) q q') : ResRel (SRel (Times k)) (fromDims npts p q) (fromDims npts p' q') := by
  unfold fromDims
  rw [h.length_eq, h'.length_eq]
  split
  · exact .throw _
  · split
    · exact .throw _
    · refine (gridSpacing_times hk npts fun i => Forall₂.rd h' i).bind fun d d' hd => ?_
      have hc : ∀ a i : Nat, ResRel (Times k)
          (rd p a >>= fun c => rd q a >>= fun x => rd d a >>= fun s => pure (c - x / 2 + (i : Dbl R) * s))
          (rd p' a >>= fun c => rd q' a >>= fun x => rd d' a >>= fun s => pure (c - x / 2 + (i : Dbl R) * s)) := fun a i =>
        (Forall₂.rd h a).bind fun _ _ hc => (Forall₂.rd h' a).bind fun _ _ hx => (Forall₂.rd hd a).bind fun _ _ hs =>
          .ok (times_add hk _ _ (times_sub hk _ _ hc _ _ (times_divSame hk hx _)) _ _ (times_sameMul hk hs _))
      exact (gridFill_times _ (fun i j l => (hc 0 i).bind fun _ _ x => (hc 1 j).bind fun _ _ y => (hc 2 l).bind fun _ _ z =>
        .ok (.cons x (.cons y (.cons z .nil)))) (SRel.zeros times_zero _ _ _) 0).bind fun _ _ hp => .ok hp.1

end DF
