import Verif.Spec.Zeros
import Verif.Lemmas.ParamOps
import Verif.Lemmas.Special
import Verif.Lemmas.Ieee

/-!
# Lemmas on signed zeros
-/

namespace DF

open Spec

variable {α β γ δ : Type}

theorem outcomes_of_rel {R : γ → δ → Prop} {x : Res γ} {y : Res δ} (h : ResRel R x y) : Outcomes R x y := by
  cases h with
  | ok h => exact h
  | throw e => rfl
  | ub => trivial

theorem Outcomes.mono {S T : γ → δ → Prop} (h : ∀ a b, S a b → T a b) {x : Res γ} {y : Res δ} (hx : Outcomes S x y) : Outcomes T x y := by
  cases x <;> cases y <;> first | exact h _ _ hx | exact hx

theorem each_iff {R : γ → δ → Prop} {s : Serie γ} {t : Serie δ} : Each R s t ↔ SRel R s t :=
  ⟨fun ⟨a, b, c, d⟩ => ⟨a, b, c, d⟩, fun ⟨a, b, c, d⟩ => ⟨a, b, c, d⟩⟩

theorem outcomes_each {R : γ → δ → Prop} {x : Res (Serie γ)} {y : Res (Serie δ)} (h : ResRel (SRel R) x y) :
    Outcomes (Each R) x y := outcomes_of_rel (h.mono fun _ _ => each_iff.2)

theorem eachList {R : γ → δ → Prop} {l : List (Serie γ)} {m : List (Serie δ)} (h : List.Forall₂ (Each R) l m) :
    List.Forall₂ (SRel R) l m := h.imp fun _ _ => each_iff.1

theorem outcomes_mean {R : γ → δ → Prop} {x : Res (Tuple γ)} {y : Res (Tuple δ)} (h : ResRel (TRel R) x y) :
    Outcomes (Means R) x y := outcomes_of_rel (h.mono fun _ _ h => by cases h <;> assumption)

/-- What is needed of a type of numbers with a single zero. -/
class OneZero (β : Type) [Zero β] [Add β] [Sub β] [BEq β] [LT β] [Sqrt β] : Prop where
  add_zz : (0 : β) + 0 = 0
  sub_zz : (0 : β) - 0 = 0
  beq_zero : ∀ x : β, (x == 0) = true ↔ x = 0
  sqrt_zero : Sqrt.sqrt (0 : β) = 0
  irrefl : ∀ x : β, ¬ x < x

instance {D : Machine} : OneZero (Ext (Num D)) where
  add_zz := by
    show Ext.ofReal D ((0 : ℝ) + 0) = _
    rw [add_zero, Ext.ofReal_of_le (by simpa using le_trans zero_le_one D.top_le)]
    exact congrArg Ext.fin (Num.val_injective D.fl_zero)
  sub_zz := by
    show Ext.ofReal D ((0 : ℝ) - 0) = _
    rw [sub_zero, Ext.ofReal_of_le (by simpa using le_trans zero_le_one D.top_le)]
    exact congrArg Ext.fin (Num.val_injective D.fl_zero)
  beq_zero := by
    intro x
    cases x with
    | fin x =>
      show decide (x = 0) = true ↔ Ext.fin x = Ext.fin 0
      simp
    | pinf => exact ⟨(fun h => by cases h), (fun h => by cases h)⟩
    | ninf => exact ⟨(fun h => by cases h), (fun h => by cases h)⟩
    | nan => exact ⟨(fun h => by cases h), (fun h => by cases h)⟩
  sqrt_zero := by
    show (if (0 : Num D) < 0 then Ext.nan else Ext.ofReal D (Real.sqrt ((0 : Num D).val))) = _
    rw [if_neg (lt_irrefl _)]
    show Ext.ofReal D (Real.sqrt 0) = _
    rw [Real.sqrt_zero, Ext.ofReal_of_le (by simpa using le_trans zero_le_one D.top_le)]
    exact congrArg Ext.fin (Num.val_injective D.fl_zero)
  irrefl := by
    intro x
    cases x with
    | fin x => exact lt_irrefl x
    | pinf => exact id
    | ninf => exact id
    | nan => exact id

namespace Signed

variable [Zero β]

theorem stands_iff {x : Signed β} {y : β} : Stands x y ↔ x.forget = y := by
  cases x with
  | val x => simp [Stands, forget]
  | nzero => simp [Stands, forget, eq_comm]

theorem same_iff {x y : Signed β} : Same x y ↔ x.forget = y.forget := by
  cases x <;> cases y <;> simp [Same, IsZero, forget]
  · rintro rfl rfl; rfl
  · exact eq_comm

theorem forget_zero : (0 : Signed β).forget = 0 := rfl

variable [Add β] [Sub β] [BEq β] [LT β] [Sqrt β] [OneZero β]

theorem forget_add (a b : Signed β) : (a + b).forget = a.forget + b.forget := by
  cases a <;> cases b <;> first | rfl | exact (OneZero.add_zz).symm

theorem forget_sub (a b : Signed β) : (a - b).forget = a.forget - b.forget := by
  cases a with
  | val x => rfl
  | nzero =>
    cases b with
    | nzero => rfl
    | val y =>
      show (if (y == 0) = true then nzero else val (0 - y)).forget = 0 - y
      split
      · rename_i h
        rw [(OneZero.beq_zero y).1 h, OneZero.sub_zz]; rfl
      · rfl

theorem forget_withSign (d : Bool) (x : β) : (withSign d x).forget = x := by
  unfold withSign
  split
  · rename_i h
    rw [(OneZero.beq_zero x).1 h]
    split <;> rfl
  · rfl

theorem forget_mul [DecidableLT β] [Mul β] (a b : Signed β) : (a * b).forget = a.forget * b.forget := forget_withSign _ _

theorem forget_sqrt (a : Signed β) : (Sqrt.sqrt a).forget = Sqrt.sqrt a.forget := by
  cases a with
  | val x => rfl
  | nzero => exact (OneZero.sqrt_zero).symm

theorem forget_div [DecidableLT β] [Neg β] [Div β] {a b : Signed β} (h : b ≠ nzero) : (a / b).forget = a.forget / b.forget := by
  cases b with
  | val y => exact forget_withSign _ _
  | nzero => exact absurd rfl h

theorem natCast_ne [NatCast β] (n : Nat) : ((n : Nat) : Signed β) ≠ nzero := fun h => by cases h

theorem add_ne {a b : Signed β} (h : a ≠ nzero) : a + b ≠ nzero := by
  cases a with
  | val x => intro e; cases b <;> cases e
  | nzero => exact absurd rfl h

theorem sqrt_ne {a : Signed β} (h : a ≠ nzero) : Sqrt.sqrt a ≠ nzero := by
  cases a with
  | val x => intro e; cases e
  | nzero => exact absurd rfl h

theorem squares_ne [DecidableLT β] [Mul β] (l : List (Signed β)) :
    Sqrt.sqrt (l.foldl (fun acc v => acc + v * v) 0) ≠ nzero := by
  apply sqrt_ne
  have : ∀ x : Signed β, x ≠ nzero → l.foldl (fun acc v => acc + v * v) x ≠ nzero := by
    induction l with
    | nil => exact fun x h => h
    | cons v l ih => exact fun x h => ih _ (add_ne h)
  exact this 0 (fun h => by cases h)

theorem absv_val [DecidableLT β] [Neg β] {x : β} : absv (val x) = val (absv x) := by
  unfold absv
  by_cases h : x < 0
  · rw [if_pos h]
    refine (if_pos h).trans ?_
    show (if (x == 0) = true then nzero else val (-x)) = _
    rw [if_neg]
    intro e
    rw [(OneZero.beq_zero x).1 e] at h
    exact OneZero.irrefl _ h
  · rw [if_neg h]
    exact if_neg h

theorem absv_nzero [DecidableLT β] [Neg β] : absv (nzero : Signed β) = nzero :=
  if_neg (show ¬ ((0 : β) < 0) from OneZero.irrefl _)

theorem absv_zero [DecidableLT β] [Neg β] : absv (0 : β) = 0 := if_neg (OneZero.irrefl _)

theorem forget_absv [DecidableLT β] [Neg β] (x : Signed β) : (absv x).forget = absv x.forget := by
  cases x with
  | val x => rw [absv_val]; rfl
  | nzero => rw [absv_nzero]; exact absv_zero.symm

theorem ne_of_big [DecidableLT β] [Neg β] [OfScientific β] (h10 : (0 : β) < 1e-10) {x : Signed β}
    (h : ¬ absv x < (1e-10 : Signed β)) : x ≠ nzero := by
  rintro rfl
  rw [absv_nzero] at h
  exact h h10

/-- The range of `normalize` is not a negative zero. -/
theorem range_ne [DecidableLT β] [Neg β] [Limits β] (hh : (Limits.highest : β) ≠ 0) (hw : (Limits.lowest : β) ≠ 0) (l : List (Signed β)) :
    l.foldl maxv Limits.lowest - l.foldl minv Limits.highest ≠ nzero := by
  have key : ∀ mn mx : Signed β, ((mx < mn → mn = Limits.highest ∧ mx = Limits.lowest) ∧
      (mn.forget = 0 → mx.forget = 0 → mn = mx)) →
      ((l.foldl maxv mx).forget = 0 → (l.foldl minv mn).forget = 0 → l.foldl minv mn = l.foldl maxv mx) := by
    induction l with
    | nil => exact fun mn mx h a b => h.2 b a
    | cons v l ih =>
      intro mn mx h
      refine ih _ _ ⟨?_, ?_⟩
      · unfold minv maxv
        intro hlt
        by_cases a : v < mn
        · by_cases b : mx < v
          · rw [if_pos a, if_pos b] at hlt
            exact absurd hlt (OneZero.irrefl v.forget)
          · rw [if_pos a, if_neg b] at hlt
            exact absurd hlt b
        · by_cases b : mx < v
          · rw [if_neg a, if_pos b] at hlt
            exact absurd hlt a
          · rw [if_neg a, if_neg b] at hlt ⊢
            exact h.1 hlt
      · unfold minv maxv
        by_cases a : v < mn
        · by_cases b : mx < v
          · rw [if_pos a, if_pos b]
            exact fun _ _ => rfl
          · rw [if_pos a, if_neg b]
            intro e f
            have : mx < mn := by
              show mx.forget < mn.forget
              rw [f, ← e]; exact a
            rw [(h.1 this).2] at f
            exact absurd f hw
        · by_cases b : mx < v
          · rw [if_neg a, if_pos b]
            intro e f
            have : mx < mn := by
              show mx.forget < mn.forget
              rw [e, ← f]; exact b
            rw [(h.1 this).1] at e
            exact absurd e hh
          · rw [if_neg a, if_neg b]
            exact h.2
  intro e
  have K := key Limits.highest Limits.lowest ⟨fun _ => ⟨rfl, rfl⟩, fun e => absurd e hh⟩
  generalize l.foldl maxv Limits.lowest = hi at e K
  generalize l.foldl minv Limits.highest = lo at e K
  cases hi with
  | val x => cases lo <;> cases e
  | nzero =>
    cases lo with
    | nzero => cases e
    | val y =>
      have e' : (if (y == 0) = true then nzero else val (0 - y)) = (nzero : Signed β) := e
      split at e'
      · rename_i h
        cases K rfl ((OneZero.beq_zero y).1 h)
      · cases e'

end Signed

/-- What the numbers with and without the signs of their zeros have in common. -/
structure Respects [Zero β] [One β] [Add β] [Sub β] [BEq β] [LT β] [LE β] [DecidableLT β] [DecidableLE β] [Sqrt β] [Mul β] [Neg β]
    [Div β] [NatCast β] [OfScientific β] [Limits β]
    [Zero δ] [One δ] [Add δ] [Sub δ] [BEq δ] [LT δ] [LE δ] [DecidableLT δ] [DecidableLE δ] [Sqrt δ] [Mul δ] [Neg δ]
    [Div δ] [NatCast δ] [OfScientific δ] [Limits δ]
    (R : Signed β → δ → Prop) : Prop where
  zero : R 0 0
  one : R 1 1
  neg : ∀ x y, R x y → R (-x) (-y)
  add : Rel2 R (· + ·) (· + ·)
  sub : Rel2 R (· - ·) (· - ·)
  mul : Rel2 R (· * ·) (· * ·)
  div : ∀ a b, R a b → ∀ x y, R x y → x ≠ .nzero → R (a / x) (b / y)
  nat : ∀ n : Nat, R n n
  sci : ∀ m s e, R (OfScientific.ofScientific m s e) (OfScientific.ofScientific m s e)
  high : R Limits.highest Limits.highest
  low : R Limits.lowest Limits.lowest
  sqrt : ∀ x y, R x y → R (Sqrt.sqrt x) (Sqrt.sqrt y)
  lt : ∀ a b, R a b → ∀ c d, R c d → (a < c ↔ b < d)
  le : ∀ a b, R a b → ∀ c d, R c d → (a ≤ c ↔ b ≤ d)
  beq : ∀ a b, R a b → ∀ c d, R c d → (a == c) = (b == d)
  abs : ∀ x y, R x y → R (absv x) (absv y)

section respects

variable [Zero β] [One β] [Add β] [Sub β] [BEq β] [LT β] [LE β] [DecidableLT β] [DecidableLE β] [Sqrt β] [Mul β] [Neg β]
    [Div β] [NatCast β] [OfScientific β] [Limits β] [OneZero β]

theorem Signed.forget_neg (hn : -(0 : β) = 0) (x : Signed β) : (-x).forget = -x.forget := by
  cases x with
  | nzero => exact hn.symm
  | val x =>
    show (if (x == 0) = true then nzero else val (-x)).forget = -x
    split
    · rename_i h
      rw [(OneZero.beq_zero x).1 h, hn]; rfl
    · rfl

theorem respects_stands (hn : -(0 : β) = 0) : Respects (Stands : Signed β → β → Prop) where
  zero := Signed.stands_iff.2 rfl
  one := Signed.stands_iff.2 rfl
  neg x y h := Signed.stands_iff.2 (by rw [Signed.forget_neg hn, Signed.stands_iff.1 h])
  add x y h z w k := Signed.stands_iff.2 (by rw [Signed.forget_add, Signed.stands_iff.1 h, Signed.stands_iff.1 k])
  sub x y h z w k := Signed.stands_iff.2 (by rw [Signed.forget_sub, Signed.stands_iff.1 h, Signed.stands_iff.1 k])
  mul x y h z w k := Signed.stands_iff.2 (by rw [Signed.forget_mul, Signed.stands_iff.1 h, Signed.stands_iff.1 k])
  div x y h z w k p := Signed.stands_iff.2 (by rw [Signed.forget_div p, Signed.stands_iff.1 h, Signed.stands_iff.1 k])
  nat _ := Signed.stands_iff.2 rfl
  sci _ _ _ := Signed.stands_iff.2 rfl
  high := Signed.stands_iff.2 rfl
  low := Signed.stands_iff.2 rfl
  sqrt x y h := Signed.stands_iff.2 (by rw [Signed.forget_sqrt, Signed.stands_iff.1 h])
  lt x y h z w k := by rw [← Signed.stands_iff.1 h, ← Signed.stands_iff.1 k]; exact Iff.rfl
  le x y h z w k := by rw [← Signed.stands_iff.1 h, ← Signed.stands_iff.1 k]; exact Iff.rfl
  beq x y h z w k := by rw [← Signed.stands_iff.1 h, ← Signed.stands_iff.1 k]; rfl
  abs x y h := Signed.stands_iff.2 (by rw [Signed.forget_absv, Signed.stands_iff.1 h])

/-! ### Series with one zero -/

/-- The Serie with the signs of zeros forgotten. -/
def plain (s : Serie (Signed β)) : Serie β := ⟨s.data.map Signed.forget, s.count, s.itemSize, s.dimension⟩

omit [One β] [Add β] [Sub β] [BEq β] [LT β] [LE β] [DecidableLT β] [DecidableLE β] [Sqrt β] [Mul β] [Neg β] [Div β] [NatCast β] [OfScientific β] [Limits β] [OneZero β]

theorem stands_self (x : Signed β) : Stands x x.forget := Signed.stands_iff.2 rfl

theorem stands_forget (l : List (Signed β)) : List.Forall₂ Stands l (l.map Signed.forget) := by
  induction l with
  | nil => exact .nil
  | cons x l ih => exact .cons (Signed.stands_iff.2 rfl) ih

theorem stands_forget' {l m : List (Signed β)} (h : List.Forall₂ Same l m) : List.Forall₂ Stands m (l.map Signed.forget) := by
  induction h with
  | nil => exact .nil
  | cons hx _ ih => exact .cons (Signed.stands_iff.2 (Signed.same_iff.1 hx).symm) ih

theorem same_of_stands {x y : Signed β} {z : β} (h : Stands x z) (k : Stands y z) : Same x y :=
  Signed.same_iff.2 ((Signed.stands_iff.1 h).trans (Signed.stands_iff.1 k).symm)

theorem sames_of_stands {l m : List (Signed β)} {n : List β} (h : List.Forall₂ Stands l n) (k : List.Forall₂ Stands m n) :
    List.Forall₂ Same l m := by
  induction h generalizing m with
  | nil => cases k; exact .nil
  | cons hx _ ih =>
    cases k with
    | cons hy k => exact .cons (same_of_stands hx hy) (ih k)

theorem plain_stands (s : Serie (Signed β)) : Each Stands s (plain s) := ⟨rfl, rfl, rfl, stands_forget _⟩

theorem plain_stands' {s t : Serie (Signed β)} (h : Each Same s t) : Each Stands t (plain s) :=
  ⟨h.1.symm, h.2.1.symm, h.2.2.1.symm, stands_forget' h.2.2.2⟩

theorem plains_stands (l : List (Serie (Signed β))) : List.Forall₂ (Each Stands) l (l.map plain) := by
  induction l with
  | nil => exact .nil
  | cons x l ih => exact .cons (plain_stands x) ih

theorem plains_stands' {l m : List (Serie (Signed β))} (h : List.Forall₂ (Each Same) l m) :
    List.Forall₂ (Each Stands) m (l.map plain) := by
  induction h with
  | nil => exact .nil
  | cons hx _ ih => exact .cons (plain_stands' hx) ih

theorem Outcomes.join {γ γ' δ : Type} {S : γ → δ → Prop} {S' : γ' → δ → Prop} {T : γ → γ' → Prop}
    (h : ∀ a b c, S a c → S' b c → T a b) {x : Res γ} {y : Res γ'} {z : Res δ} (hx : Outcomes S x z) (hy : Outcomes S' y z) :
    Outcomes T x y := by
  cases x <;> cases y <;> cases z <;> first | exact h _ _ _ hx hy | exact hx.trans hy.symm | trivial | exact hx.elim | exact hy.elim

theorem Outcomes.same {x y : Res (Serie (Signed β))} {z : Res (Serie β)} (hx : Outcomes (Each Stands) x z)
    (hy : Outcomes (Each Stands) y z) : Outcomes (Each Same) x y :=
  Outcomes.join (fun _ _ _ h k => ⟨h.1.trans k.1.symm, h.2.1.trans k.2.1.symm, h.2.2.1.trans k.2.2.1.symm,
    sames_of_stands h.2.2.2 k.2.2.2⟩) hx hy

end respects

/-! ## Doubles -/

section double

variable {D : Machine}

theorem Ext.neg_zero' : -(0 : Ext (Num D)) = 0 :=
  congrArg Ext.fin (Num.val_injective (show -(0 : ℝ) = 0 from neg_zero))

theorem stands : Respects (Stands : Double D → Ext (Num D) → Prop) := respects_stands Ext.neg_zero'

theorem Ext.highest_ne : (Limits.highest : Ext (Num D)) ≠ 0 := by
  intro h
  have : D.top = 0 := congrArg Num.val (Ext.fin.inj h)
  exact absurd this D.top_pos.ne'

theorem Ext.lowest_ne : (Limits.lowest : Ext (Num D)) ≠ 0 := by
  intro h
  have : -D.top = 0 := congrArg Num.val (Ext.fin.inj h)
  exact absurd (neg_eq_zero.1 this) D.top_pos.ne'

/-- The double `1e-10` is positive. -/
theorem Ext.threshold_pos (hD : IsDouble D) : (0 : Ext (Num D)) < 1e-10 := by
  have hle : |(1e-10 : ℝ)| ≤ D.top := le_trans (by norm_num [abs_of_pos]) D.top_le
  have e : (1e-10 : Ext (Num D)) = Ext.ofReal D 1e-10 := rfl
  rw [e, Ext.ofReal_of_le hle]
  show (0 : ℝ) < D.fl 1e-10
  have hr : RepMin D.p D.emin ((2 : ℝ) ^ (-34 : ℤ)) := ⟨1, -34, by simp [hD.1], by rw [hD.2.1]; norm_num, by simp⟩
  have := D.near 1e-10 _ hr
  rw [abs_le] at this
  have h1 := this.1
  rw [abs_of_nonpos (by norm_num)] at h1
  norm_num at h1 ⊢
  linarith

theorem big_ne (hD : IsDouble D) {x : Double D} (h : ¬ absv x < (1e-10 : Double D)) : x ≠ .nzero :=
  Signed.ne_of_big (Ext.threshold_pos hD) h

theorem threshold_stands (x : Double D) (y : Ext (Num D)) (h : Stands x y) :
    absv x < (1e-10 : Double D) ↔ absv y < (1e-10 : Ext (Num D)) := stands.lt _ _ (stands.abs _ _ h) _ _ (stands.sci _ _ _)

theorem near_stands {e : Double D} {e' : Ext (Num D)} (he : Stands e e') (a : Double D) (b : Ext (Num D)) (h : Stands a b)
    (c : Double D) (d : Ext (Num D)) (k : Stands c d) : near e a c = near e' b d :=
  decide_eq_decide.2 (stands.le _ _ (stands.abs _ _ (stands.sub _ _ h _ _ k)) _ _ he)

theorem div_nat_stands (x : Double D) (y : Ext (Num D)) (h : Stands x y) (n : Nat) : Stands (x / (n : Double D)) (y / (n : Ext (Num D))) :=
  stands.div _ _ h _ _ (stands.nat n) (Signed.natCast_ne n)

theorem Ext.ofReal_num (x : Num D) : Ext.ofReal D x.val = .fin x := by
  rw [Ext.ofReal_of_le x.le]
  exact congrArg Ext.fin (Num.val_injective (D.exact x.rep))

theorem Ext.one_ne : (1 : Ext (Num D)) ≠ 0 := by
  intro h
  have : (1 : ℝ) = 0 := congrArg Num.val (Ext.fin.inj h)
  exact one_ne_zero this

theorem Ext.add_comm' (x y : Ext (Num D)) : x + y = y + x := by
  cases x <;> cases y <;> first | rfl | (rw [Ext.fin_add', Ext.fin_add', add_comm])

theorem Ext.sub_zero' (x : Ext (Num D)) : x - 0 = x := by
  cases x with
  | fin x =>
    show Ext.ofReal D (x.val - 0) = _
    rw [sub_zero, Ext.ofReal_num]
  | _ => rfl

theorem Ext.add_zero' (x : Ext (Num D)) : x + 0 = x := by
  cases x with
  | fin x =>
    show Ext.ofReal D (x.val + 0) = _
    rw [add_zero, Ext.ofReal_num]
  | _ => rfl

theorem Num.zero_lt_one : (0 : Num D) < 1 := show (0 : ℝ) < 1 from one_pos
theorem Num.neg_one_lt : (-1 : Num D) < 0 := show (-1 : ℝ) < 0 from by norm_num

theorem Ext.mul_one' (x : Ext (Num D)) : x * 1 = x := by
  cases x with
  | fin x =>
    show Ext.ofReal D (x.val * 1) = _
    rw [mul_one, Ext.ofReal_num]
  | pinf => exact if_pos Num.zero_lt_one
  | ninf => exact if_pos Num.zero_lt_one
  | nan => rfl

theorem Ext.div_one' (x : Ext (Num D)) : x / 1 = x := by
  have h1 : (1 : Num D) ≠ 0 := fun h => Ext.one_ne (congrArg Ext.fin h)
  cases x with
  | fin x =>
    rw [show (1 : Ext (Num D)) = .fin 1 from rfl, Ext.fin_div' h1]
    show Ext.ofReal D (x.val / 1) = _
    rw [div_one, Ext.ofReal_num]
  | pinf => exact if_neg Num.zero_lt_one.not_gt
  | ninf => exact if_neg Num.zero_lt_one.not_gt
  | nan => rfl

theorem Ext.mul_neg_one' (x : Ext (Num D)) : x * (-1) = -x := by
  cases x with
  | fin x =>
    show Ext.ofReal D (x.val * -1) = _
    rw [mul_neg_one]
    exact Ext.ofReal_num (-x)
  | pinf => exact (if_neg Num.neg_one_lt.not_gt).trans (if_pos Num.neg_one_lt)
  | ninf => exact (if_neg Num.neg_one_lt.not_gt).trans (if_pos Num.neg_one_lt)
  | nan => rfl

theorem Ext.neg_eq_zero' {x : Ext (Num D)} : -x = 0 ↔ x = 0 := by
  cases x with
  | fin x =>
    constructor
    · intro h
      have : -x.val = 0 := congrArg Num.val (Ext.fin.inj h)
      exact congrArg Ext.fin (Num.val_injective (neg_eq_zero.1 this))
    · rintro h
      rw [h, Ext.neg_zero']
  | _ => exact ⟨(fun h => by cases h), (fun h => by cases h)⟩

theorem Ext.neg_neg' (x : Ext (Num D)) : - -x = x := by
  cases x with
  | fin x => exact congrArg Ext.fin (Num.val_injective (neg_neg x.val))
  | _ => rfl

namespace Signed

theorem beq_zero_false {x : Ext (Num D)} (h : x ≠ 0) : (x == 0) = false := by
  rw [← Bool.not_eq_true, OneZero.beq_zero]; exact h

theorem beq_zero_true : ((0 : Ext (Num D)) == 0) = true := (OneZero.beq_zero _).2 rfl

theorem neg_val {x : Ext (Num D)} (h : x ≠ 0) : -(val x) = val (-x) := by
  show (if (x == 0) = true then nzero else val (-x)) = _
  rw [beq_zero_false h]; rfl

theorem neg_zero' : -(0 : Double D) = nzero := by
  show (if ((0 : Ext (Num D)) == 0) = true then nzero else val (-0)) = _
  rw [beq_zero_true]; rfl

theorem neg_nzero : -(nzero : Double D) = 0 := rfl

theorem neg_neg' (x : Double D) : - -x = x := by
  cases x with
  | nzero => exact neg_zero'
  | val x =>
    by_cases h : x = 0
    · subst h
      rw [show (val 0 : Double D) = 0 from rfl, neg_zero', neg_nzero]
    · rw [neg_val h, neg_val (fun e => h (Ext.neg_eq_zero'.1 e)), Ext.neg_neg']

theorem not_neg_one : (1 : Double D).neg? = false := decide_eq_false Num.zero_lt_one.not_gt

theorem withSign_ne {d : Bool} {x : Ext (Num D)} (h : x ≠ 0) : withSign d x = val x := by
  unfold withSign; rw [beq_zero_false h]; rfl

theorem withSign_zero {d : Bool} : withSign d (0 : Ext (Num D)) = if d then nzero else val 0 := by
  unfold withSign; rw [beq_zero_true]; rfl

theorem not_neg_zero : (val 0 : Double D).neg? = false := decide_eq_false (OneZero.irrefl _)

theorem mul_one' (x : Double D) : x * 1 = x := by
  show withSign (x.neg? != (1 : Double D).neg?) (x.forget * 1) = x
  rw [Ext.mul_one', not_neg_one]
  cases x with
  | nzero => exact withSign_zero
  | val x =>
    by_cases h : x = 0
    · subst h
      rw [not_neg_zero]; exact withSign_zero
    · exact withSign_ne h

theorem div_one' (x : Double D) : x / 1 = x := by
  show withSign (x.neg? != (1 : Double D).neg?) (x.forget / 1) = x
  rw [Ext.div_one', not_neg_one]
  cases x with
  | nzero => exact withSign_zero
  | val x =>
    by_cases h : x = 0
    · subst h
      rw [not_neg_zero]; exact withSign_zero
    · exact withSign_ne h

theorem sub_zero' (x : Double D) : x - 0 = x := by
  cases x with
  | nzero =>
    show (if ((0 : Ext (Num D)) == 0) = true then nzero else val (0 - 0)) = _
    rw [beq_zero_true]; rfl
  | val x => exact congrArg val (Ext.sub_zero' x)

theorem add_nzero (x : Double D) : x + nzero = x := by
  cases x with
  | nzero => rfl
  | val x => exact congrArg val (Ext.add_zero' x)

theorem add_comm' (x y : Double D) : x + y = y + x := by
  cases x <;> cases y <;> first | rfl | exact congrArg val (Ext.add_comm' _ _)

theorem mul_neg_one' (x : Double D) : x * (-1) = -x := by
  have e : (-1 : Double D) = val (-1) := neg_val Ext.one_ne
  have e' : (val (-1) : Double D).neg? = true := decide_eq_true Num.neg_one_lt
  rw [e]
  show withSign (x.neg? != (val (-1) : Double D).neg?) (x.forget * (-1)) = -x
  rw [Ext.mul_neg_one', e']
  cases x with
  | nzero =>
    show withSign false (-(0 : Ext (Num D))) = _
    rw [Ext.neg_zero', withSign_zero]; rfl
  | val x =>
    by_cases h : x = 0
    · subst h
      rw [not_neg_zero, show (val 0 : Double D) = 0 from rfl, neg_zero']
      show withSign true (-(0 : Ext (Num D))) = _
      rw [Ext.neg_zero', withSign_zero]; rfl
    · rw [neg_val h]
      exact withSign_ne (fun e => h (Ext.neg_eq_zero'.1 e))

end Signed

end double

end DF
