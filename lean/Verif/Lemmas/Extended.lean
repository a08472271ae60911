import Verif.Spec.Extended
import Verif.Lemmas.Special

/-!
# The operations on `Ext ℝ` are those of the extended real numbers
-/

namespace DF

open Spec

theorem toE_add (x y : Ext ℝ) : toE (x + y) = addE (toE x) (toE y) := by
  show toE (Ext.add x y) = _
  cases x <;> cases y <;> simp [Ext.add, toE, addE, Opposite]

theorem toE_sub (x y : Ext ℝ) : toE (x - y) = subE (toE x) (toE y) := by
  show toE (Ext.sub x y) = _
  cases x <;> cases y <;> simp [Ext.sub, toE, subE, IsInf]

theorem toE_mul (x y : Ext ℝ) : toE (x * y) = mulE (toE x) (toE y) := by
  show toE (Ext.mul x y) = _
  have hp : ∀ a : ℝ, toE (Ext.infTimes a) = mulE (some a) (some ⊤) ∧ toE (Ext.infTimes a) = mulE (some ⊤) (some a) ∧
      toE (Ext.ninfTimes a) = mulE (some a) (some ⊥) ∧ toE (Ext.ninfTimes a) = mulE (some ⊥) (some a) := by
    intro a
    rcases lt_trichotomy a 0 with h | h | h
    · simp [Ext.infTimes, Ext.ninfTimes, toE, mulE, IsInf, h, h.ne, not_lt.2 h.le, EReal.coe_mul_top_of_neg, EReal.top_mul_coe_of_neg,
        EReal.coe_mul_bot_of_neg, EReal.bot_mul_coe_of_neg]
    · subst h; simp [Ext.infTimes, Ext.ninfTimes, toE, mulE, IsInf]
    · simp [Ext.infTimes, Ext.ninfTimes, toE, mulE, IsInf, h, h.ne', EReal.coe_mul_top_of_pos, EReal.top_mul_coe_of_pos,
        EReal.coe_mul_bot_of_pos, EReal.bot_mul_coe_of_pos]
  cases x with
  | fin x => cases y with
    | fin y => simp [Ext.mul, toE, mulE, IsInf]
    | pinf => exact (hp x).1
    | ninf => exact (hp x).2.2.1
    | nan => rfl
  | pinf => cases y with
    | fin y => exact (hp y).2.1
    | pinf => simp [Ext.mul, toE, mulE]
    | ninf => simp [Ext.mul, toE, mulE]
    | nan => rfl
  | ninf => cases y with
    | fin y => exact (hp y).2.2.2
    | pinf => simp [Ext.mul, toE, mulE]
    | ninf => simp [Ext.mul, toE, mulE]
    | nan => rfl
  | nan => cases y <;> rfl

theorem toE_div (x y : Ext ℝ) : toE (x / y) = divE (toE x) (toE y) := by
  show toE (Ext.div x y) = _
  cases x with
  | fin x => cases y with
    | fin y =>
      by_cases hy : y = 0
      · subst hy
        rcases lt_trichotomy x 0 with h | h | h
        · simp [Ext.div, Ext.infTimes, toE, divE, IsInf, h, h.ne, not_lt.2 h.le]
        · subst h; simp [Ext.div, Ext.infTimes, toE, divE]
        · simp [Ext.div, Ext.infTimes, toE, divE, IsInf, h, h.ne']
      · simp [Ext.div, toE, divE, IsInf, hy, EReal.coe_div]
    | pinf => simp [Ext.div, toE, divE, IsInf]
    | ninf => simp [Ext.div, toE, divE, IsInf]
    | nan => rfl
  | pinf => cases y with
    | fin y =>
      rcases lt_trichotomy y 0 with h | h | h
      · simp [Ext.div, toE, divE, IsInf, h, h.ne]
        rw [EReal.top_div_of_neg_ne_bot (by exact_mod_cast h) (by simp)]
      · subst h; simp [Ext.div, toE, divE, IsInf]
      · simp [Ext.div, toE, divE, IsInf, h.ne', not_lt.2 h.le]
        rw [EReal.top_div_of_pos_ne_top (by exact_mod_cast h) (by simp)]
    | pinf => simp [Ext.div, toE, divE, IsInf]
    | ninf => simp [Ext.div, toE, divE, IsInf]
    | nan => rfl
  | ninf => cases y with
    | fin y =>
      rcases lt_trichotomy y 0 with h | h | h
      · simp [Ext.div, toE, divE, IsInf, h, h.ne]
        rw [EReal.bot_div_of_neg_ne_bot (by exact_mod_cast h) (by simp)]
      · subst h; simp [Ext.div, toE, divE, IsInf]
      · simp [Ext.div, toE, divE, IsInf, h.ne', not_lt.2 h.le]
        rw [EReal.bot_div_of_pos_ne_top (by exact_mod_cast h) (by simp)]
    | pinf => simp [Ext.div, toE, divE, IsInf]
    | ninf => simp [Ext.div, toE, divE, IsInf]
    | nan => rfl
  | nan => cases y <;> rfl

theorem toE_zero : toE 0 = some 0 := rfl

theorem addE_none (a : Option EReal) : addE a none = none := by cases a <;> rfl

theorem sumE_cons_addE (a b : Option EReal) (l : List (Option EReal)) : sumE (addE a b :: l) = sumE (a :: b :: l) := by
  cases a with
  | none => unfold sumE; simp [addE]
  | some x => cases b with
    | none => unfold sumE; simp [addE]
    | some y =>
      unfold sumE addE
      induction x <;> induction y <;> simp [Opposite, add_assoc]
      · rename_i a b
        have t1 : (⊤ : EReal) ≠ a + b := by rw [← EReal.coe_add]; exact (EReal.coe_ne_top _).symm
        have b1 : (⊥ : EReal) ≠ a + b := by rw [← EReal.coe_add]; exact (EReal.coe_ne_bot _).symm
        simp [t1, b1]
      · rename_i a
        rw [← add_assoc, EReal.coe_add_top]
      · rename_i a
        rw [← add_assoc, EReal.top_add_coe]
      · rw [← add_assoc, EReal.top_add_top]

theorem toE_sum (l : List (Ext ℝ)) (a : Ext ℝ) : toE (l.foldl (· + ·) a) = sumE (toE a :: l.map toE) := by
  induction l generalizing a with
  | nil => cases a <;> simp [toE, sumE]
  | cons x l ih => rw [List.foldl_cons, ih, toE_add, sumE_cons_addE]; rfl

theorem sumE_zero (l : List (Option EReal)) : sumE (some 0 :: l) = sumE l := by
  unfold sumE; simp

theorem toE_near (e x y : Ext ℝ) : near e x y = true ↔ Within (toE e) (toE x) (toE y) := by
  unfold near Within
  rw [decide_eq_true_eq, ← toE_sub]
  generalize x - y = d
  have p0 : ¬ (Ext.pinf : Ext ℝ) < 0 := fun h => h
  have n0 : (Ext.ninf : Ext ℝ) < 0 := trivial
  have m0 : ¬ (Ext.nan : Ext ℝ) < 0 := fun h => h
  unfold absv
  cases d with
  | fin d =>
    rw [show (if Ext.fin d < 0 then -Ext.fin d else Ext.fin d : Ext ℝ) = Ext.fin |d| by
      split
      · rename_i h; rw [abs_of_neg h]; rfl
      · rename_i h; rw [abs_of_nonneg (not_lt.1 h)]]
    cases e with
    | fin e =>
      show |d| ≤ e ↔ _
      have key : (d : EReal) ≤ (e : EReal) ∧ -(d : EReal) ≤ (e : EReal) ↔ |d| ≤ e := by
        rw [← EReal.coe_neg, EReal.coe_le_coe_iff, EReal.coe_le_coe_iff, abs_le]
        constructor
        · rintro ⟨a, b⟩; exact ⟨by linarith, a⟩
        · rintro ⟨a, b⟩; exact ⟨b, by linarith⟩
      rw [← key]
      constructor
      · intro h; exact ⟨_, _, rfl, rfl, h⟩
      · rintro ⟨_, _, h1, h2, h⟩; cases h1; cases h2; exact h
    | pinf => exact ⟨fun _ => ⟨_, _, rfl, rfl, le_top, le_top⟩, fun _ => trivial⟩
    | ninf =>
      refine ⟨fun h => h.elim, ?_⟩
      rintro ⟨_, _, h1, h2, h3, _⟩
      cases h1; cases h2
      simp at h3
    | nan => exact ⟨fun h => h.elim, by rintro ⟨_, _, _, h, _⟩; cases h⟩
  | pinf =>
    rw [if_neg p0]
    cases e with
    | pinf => exact ⟨fun _ => ⟨_, _, rfl, rfl, le_top, le_top⟩, fun _ => trivial⟩
    | fin e => exact ⟨fun h => h.elim, by rintro ⟨_, _, h1, h2, h3, _⟩; cases h1; cases h2; simp at h3⟩
    | ninf => exact ⟨fun h => h.elim, by rintro ⟨_, _, h1, h2, h3, _⟩; cases h1; cases h2; simp at h3⟩
    | nan => exact ⟨fun h => h.elim, by rintro ⟨_, _, _, h, _⟩; cases h⟩
  | ninf =>
    rw [if_pos n0]
    cases e with
    | pinf => exact ⟨fun _ => ⟨_, _, rfl, rfl, le_top, le_top⟩, fun _ => trivial⟩
    | fin e => exact ⟨fun h => h.elim, by rintro ⟨_, _, h1, h2, _, h3⟩; cases h1; cases h2; simp at h3⟩
    | ninf => exact ⟨fun h => h.elim, by rintro ⟨_, _, h1, h2, _, h3⟩; cases h1; cases h2; simp at h3⟩
    | nan => exact ⟨fun h => h.elim, by rintro ⟨_, _, _, h, _⟩; cases h⟩
  | nan =>
    rw [if_neg m0]
    exact ⟨fun h => by cases e <;> exact h.elim, by rintro ⟨_, _, h, _⟩; cases h⟩

end DF
