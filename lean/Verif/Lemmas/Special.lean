import Verif.Spec.Special
import Verif.Lemmas.MathMore
import Verif.Lemmas.FloatOps
import Mathlib.Algebra.Order.Field.Basic

/-!
# Lemmas on special values
-/

namespace DF

open Spec

variable {α : Type}

/-! ## minMax on any type with a `<` -/

theorem minMax_scalar_run [LT α] [DecidableLT α] [Limits α] {s : Serie α} (h : WF s) (h0 : 0 < s.count)
    (h1 : s.itemSize = 1) :
    minMax s = .ok ([(scalars s).foldl minv Limits.highest], [(scalars s).foldl maxv Limits.lowest]) := by
  have hl := h.scalars_length
  obtain ⟨p, hp, hI⟩ := forLoop_inv (f := fun i (p : α × α) => do
      let v ← s.getD i
      pure (minv p.1 v, maxv p.2 v))
    (fun i p => p = (((scalars s).take i).foldl minv Limits.highest, ((scalars s).take i).foldl maxv Limits.lowest)) s.count 0
      (Limits.highest, Limits.lowest) (by
      intro i p _ hi hI
      simp only [Nat.zero_add] at hi
      have hi' : i < (scalars s).length := by omega
      refine ⟨_, by rw [Serie.getD_scalars h.count_le hi', Res.ok_bind]; rfl, ?_⟩
      rw [List.take_add_one, List.getElem?_eq_getElem hi', hI]
      simp only [Option.toList_some, List.foldl_append, List.foldl_cons, List.foldl_nil]) rfl
  rw [Nat.zero_add, List.take_of_length_le (by omega)] at hI
  unfold minMax
  rw [h.valid, if_neg (by simp), if_neg (by omega), if_pos h1, hp, hI]
  rfl

theorem minMax_items_run [LT α] [DecidableLT α] [Limits α] {s : Serie α} (h : WF s) (h0 : 0 < s.count)
    (h1 : s.itemSize ≠ 1) :
    ∃ mn mx, minMax s = .ok (mn, mx) ∧ mn.length = s.itemSize ∧ mx.length = s.itemSize ∧
      ∀ j, j < s.itemSize → ∃ x l, component s j = x :: l ∧ mn[j]? = some (l.foldl minv x) ∧ mx[j]? = some (l.foldl maxv x) := by
  have hil := items_length s
  obtain ⟨p, hp, hl1, hl2, hI⟩ := forLoop_inv (f := fun i (p : List α × List α) => do
      let v ← s.getA i
      forLoop (fun j (p : List α × List α) => do
        let x ← rd v j
        let a ← rd p.1 j
        let b ← rd p.2 j
        let mn ← wr p.1 j (minv a x)
        let mx ← wr p.2 j (maxv b x)
        pure (mn, mx)) 0 v.length p)
    (fun i p => p.1.length = s.itemSize ∧ p.2.length = s.itemSize ∧
      ∀ j, j < s.itemSize → ∃ x l, ((items s).take i).filterMap (·[j]?) = x :: l ∧
        p.1[j]? = some (l.foldl minv x) ∧ p.2[j]? = some (l.foldl maxv x))
    (s.count - 1) 1 ((items s)[0], (items s)[0]) (by
      intro i p hi1 hi2 ⟨hp1, hp2, hI⟩
      have hi : i < (items s).length := by omega
      have hv := h.item_length (List.getElem_mem hi)
      refine ⟨_, by rw [Serie.getA_items h hi, Res.ok_bind, minMax_inner (by omega) (by omega)], ?_, ?_, ?_⟩
      · simp only [List.length_zipWith]; omega
      · simp only [List.length_zipWith]; omega
      · intro j hj
        obtain ⟨x, l, hc, ha, hb⟩ := hI j hj
        have hx : (items s)[i][j]? = some ((items s)[i][j]'(by omega)) := List.getElem?_eq_getElem (by omega)
        rw [List.take_add_one, List.getElem?_eq_getElem hi]
        simp only [Option.toList_some]
        rw [component_snoc hx, hc]
        refine ⟨x, _, rfl, ?_, ?_⟩
        · rw [List.getElem?_zipWith, ha, hx]; simp [List.foldl_append]
        · rw [List.getElem?_zipWith, hb, hx]; simp [List.foldl_append])
    (by
      have hv := h.item_length (List.getElem_mem (show 0 < (items s).length by omega))
      refine ⟨hv, hv, fun j hj => ?_⟩
      have hx : (items s)[0][j]? = some ((items s)[0][j]'(by omega)) := List.getElem?_eq_getElem (by omega)
      refine ⟨(items s)[0][j]'(by omega), [], ?_, hx, hx⟩
      rw [List.take_one, List.head?_eq_getElem?, List.getElem?_eq_getElem (by omega)]
      simp [hx])
  refine ⟨p.1, p.2, ?_, hl1, hl2, ?_⟩
  · unfold minMax
    rw [h.valid, if_neg (by simp), if_neg (by omega), if_neg h1, Serie.getA_items h (by omega), Res.ok_bind, hp]
  · rw [show 1 + (s.count - 1) = s.count by omega, List.take_of_length_le (by omega)] at hI
    exact hI

/-! ## Folds of `std::min` and `std::max` over numbers and NaN -/

namespace Ext

@[simp] theorem not_lt_nan [LT α] (x : Ext α) : ¬ x < nan := by cases x <;> exact id
@[simp] theorem not_nan_lt [LT α] (x : Ext α) : ¬ nan < x := by cases x <;> exact id
@[simp] theorem not_le_nan [LE α] (x : Ext α) : ¬ x ≤ nan := by cases x <;> exact id
@[simp] theorem not_nan_le [LE α] (x : Ext α) : ¬ nan ≤ x := by cases x <;> exact id
@[simp] theorem fin_lt_fin [LT α] {x y : α} : fin x < fin y ↔ x < y := Iff.rfl
@[simp] theorem fin_le_fin [LE α] {x y : α} : fin x ≤ fin y ↔ x ≤ y := Iff.rfl

theorem minv_nan_left [LT α] [DecidableLT α] (x : Ext α) : minv nan x = nan := by simp [minv]
theorem minv_nan_right [LT α] [DecidableLT α] (x : Ext α) : minv x nan = x := by simp [minv]
theorem maxv_nan_left [LT α] [DecidableLT α] (x : Ext α) : maxv nan x = nan := by simp [maxv]
theorem maxv_nan_right [LT α] [DecidableLT α] (x : Ext α) : maxv x nan = x := by simp [maxv]

theorem minv_fin [LinearOrder α] (x y : α) : minv (fin x) (fin y) = fin (min x y) := by
  unfold minv
  rw [min_def]
  by_cases h : y < x
  · rw [if_pos (show fin y < fin x from h), if_neg (not_le.2 h)]
  · rw [if_neg (show ¬ fin y < fin x from h), if_pos (not_lt.1 h)]

theorem maxv_fin [LinearOrder α] (x y : α) : maxv (fin x) (fin y) = fin (max x y) := by
  unfold maxv
  rw [max_def]
  by_cases h : x < y
  · rw [if_pos (show fin x < fin y from h), if_pos h.le]
  · rw [if_neg (show ¬ fin x < fin y from h)]
    by_cases h' : x ≤ y
    · rw [if_pos h', le_antisymm h' (not_lt.1 h)]
    · rw [if_neg h']

theorem foldl_minv_nan [LT α] [DecidableLT α] (l : List (Ext α)) : l.foldl minv nan = nan := by
  induction l with
  | nil => rfl
  | cons x l ih => rw [List.foldl_cons, minv_nan_left, ih]

theorem foldl_maxv_nan [LT α] [DecidableLT α] (l : List (Ext α)) : l.foldl maxv nan = nan := by
  induction l with
  | nil => rfl
  | cons x l ih => rw [List.foldl_cons, maxv_nan_left, ih]

theorem foldl_minv_fin [LinearOrder α] (l : List (Ext α)) (h : ∀ x ∈ l, NotInf x) : ∀ a : α,
    l.foldl minv (fin a) = fin ((finites l).foldl min a) := by
  induction l with
  | nil => intro a; rfl
  | cons x l ih =>
    intro a
    have hl : ∀ x ∈ l, NotInf x := fun y hy => h y (List.mem_cons_of_mem _ hy)
    cases x with
    | fin y => rw [List.foldl_cons, minv_fin, ih hl]; rfl
    | nan => rw [List.foldl_cons, minv_nan_right, ih hl]; rfl
    | pinf => exact absurd rfl (h pinf (by simp)).1
    | ninf => exact absurd rfl (h ninf (by simp)).2

theorem foldl_maxv_fin [LinearOrder α] (l : List (Ext α)) (h : ∀ x ∈ l, NotInf x) : ∀ a : α,
    l.foldl maxv (fin a) = fin ((finites l).foldl max a) := by
  induction l with
  | nil => intro a; rfl
  | cons x l ih =>
    intro a
    have hl : ∀ x ∈ l, NotInf x := fun y hy => h y (List.mem_cons_of_mem _ hy)
    cases x with
    | fin y => rw [List.foldl_cons, maxv_fin, ih hl]; rfl
    | nan => rw [List.foldl_cons, maxv_nan_right, ih hl]; rfl
    | pinf => exact absurd rfl (h pinf (by simp)).1
    | ninf => exact absurd rfl (h ninf (by simp)).2

end Ext

theorem foldl_min_least [LinearOrder α] (l : List α) : ∀ a, Least (l.foldl min a) (a :: l) := by
  induction l with
  | nil => intro a; simp [Least]
  | cons x l ih =>
    intro a
    obtain ⟨h1, h2⟩ := ih (min a x)
    rw [List.foldl_cons]
    refine ⟨?_, fun y hy => ?_⟩
    · rcases List.mem_cons.1 h1 with e | e
      · rw [e]
        rcases min_choice a x with e' | e' <;> rw [e'] <;> simp
      · exact List.mem_cons_of_mem _ (List.mem_cons_of_mem _ e)
    · have h3 := h2 (min a x) (by simp)
      rcases List.mem_cons.1 hy with rfl | hy
      · exact h3.trans (min_le_left _ _)
      · rcases List.mem_cons.1 hy with rfl | hy
        · exact h3.trans (min_le_right _ _)
        · exact h2 y (List.mem_cons_of_mem _ hy)

theorem foldl_max_greatest [LinearOrder α] (l : List α) : ∀ a, Greatest (l.foldl max a) (a :: l) := by
  induction l with
  | nil => intro a; simp [Greatest]
  | cons x l ih =>
    intro a
    obtain ⟨h1, h2⟩ := ih (max a x)
    rw [List.foldl_cons]
    refine ⟨?_, fun y hy => ?_⟩
    · rcases List.mem_cons.1 h1 with e | e
      · rw [e]
        rcases max_choice a x with e' | e' <;> rw [e'] <;> simp
      · exact List.mem_cons_of_mem _ (List.mem_cons_of_mem _ e)
    · have h3 := h2 (max a x) (by simp)
      rcases List.mem_cons.1 hy with rfl | hy
      · exact (le_max_left _ _).trans h3
      · rcases List.mem_cons.1 hy with rfl | hy
        · exact (le_max_right _ _).trans h3
        · exact h2 y (List.mem_cons_of_mem _ hy)

theorem least_of_bound [LinearOrder α] {l : List α} {a : α} (hne : l ≠ []) (h : ∀ x ∈ l, x ≤ a) :
    Least (l.foldl min a) l := by
  obtain ⟨h1, h2⟩ := foldl_min_least l a
  refine ⟨?_, fun y hy => h2 y (List.mem_cons_of_mem _ hy)⟩
  rcases List.mem_cons.1 h1 with e | e
  · obtain ⟨x, l', rfl⟩ := List.exists_cons_of_ne_nil hne
    have h3 := h x (by simp)
    have h4 := h2 x (by simp)
    rw [e] at h4
    rw [e, le_antisymm h4 h3]
    simp
  · exact e

theorem greatest_of_bound [LinearOrder α] {l : List α} {a : α} (hne : l ≠ []) (h : ∀ x ∈ l, a ≤ x) :
    Greatest (l.foldl max a) l := by
  obtain ⟨h1, h2⟩ := foldl_max_greatest l a
  refine ⟨?_, fun y hy => h2 y (List.mem_cons_of_mem _ hy)⟩
  rcases List.mem_cons.1 h1 with e | e
  · obtain ⟨x, l', rfl⟩ := List.exists_cons_of_ne_nil hne
    have h3 := h x (by simp)
    have h4 := h2 x (by simp)
    rw [e] at h4
    rw [e, le_antisymm h3 h4]
    simp
  · exact e

/-! ## Arithmetic -/

namespace Ext

theorem fin_add [Add α] (x y : α) : (fin x + fin y : Ext α) = fin (x + y) := rfl
theorem fin_sub [Sub α] (x y : α) : (fin x - fin y : Ext α) = fin (x - y) := rfl
theorem nan_add [Add α] (x : Ext α) : (nan + x : Ext α) = nan := by cases x <;> rfl
theorem add_nan [Add α] (x : Ext α) : (x + nan : Ext α) = nan := by cases x <;> rfl
theorem nan_sub [Sub α] (x : Ext α) : (nan - x : Ext α) = nan := by cases x <;> rfl
theorem sub_nan [Sub α] (x : Ext α) : (x - nan : Ext α) = nan := by cases x <;> rfl
theorem zero_def [Zero α] : (0 : Ext α) = fin 0 := rfl
theorem one_def [One α] : (1 : Ext α) = fin 1 := rfl
theorem cast_def [NatCast α] (n : Nat) : ((n : Nat) : Ext α) = fin (n : α) := rfl

section
variable [Zero α] [LT α] [DecidableLT α]
theorem fin_mul [Mul α] (x y : α) : (fin x * fin y : Ext α) = fin (x * y) := rfl
theorem nan_mul [Mul α] (x : Ext α) : (nan * x : Ext α) = nan := by cases x <;> rfl
theorem mul_nan [Mul α] (x : Ext α) : (x * nan : Ext α) = nan := by cases x <;> rfl
theorem nan_div [DecidableEq α] [Div α] (x : Ext α) : (nan / x : Ext α) = nan := by cases x <;> rfl
theorem div_nan [DecidableEq α] [Div α] (x : Ext α) : (x / nan : Ext α) = nan := by cases x <;> rfl
theorem fin_div [DecidableEq α] [Div α] {x y : α} (h : y ≠ 0) : (fin x / fin y : Ext α) = fin (x / y) := if_neg h
theorem fin_div_zero [DecidableEq α] [Div α] (x : α) : (fin x / fin 0 : Ext α) = infTimes x := if_pos rfl
end

theorem notInf_fin (x : α) : NotInf (fin x) := ⟨by simp, by simp⟩

theorem finite_or_nan {x : Ext α} (h : NotInf x) : IsFinite x ∨ x = nan := by
  cases x with
  | fin y => exact Or.inl ⟨y, rfl⟩
  | nan => exact Or.inr rfl
  | pinf => exact absurd rfl h.1
  | ninf => exact absurd rfl h.2

/-- Sums of numbers and NaN. -/
theorem foldl_add [Add α] (l : List (Ext α)) (h : ∀ x ∈ l, NotInf x) : ∀ a : α,
    (nan ∈ l → l.foldl (· + ·) (fin a) = nan) ∧
    (nan ∉ l → l.foldl (· + ·) (fin a) = fin ((finites l).foldl (· + ·) a)) := by
  have hnan : ∀ l : List (Ext α), l.foldl (· + ·) nan = nan := fun l => by
    induction l with
    | nil => rfl
    | cons x l ih => rw [List.foldl_cons, nan_add, ih]
  induction l with
  | nil => intro a; exact ⟨fun h => absurd h (by simp), fun _ => rfl⟩
  | cons x l ih =>
    intro a
    have hl : ∀ x ∈ l, NotInf x := fun y hy => h y (List.mem_cons_of_mem _ hy)
    rcases finite_or_nan (h x (by simp)) with ⟨y, rfl⟩ | rfl
    · obtain ⟨h1, h2⟩ := ih hl (a + y)
      rw [List.foldl_cons, fin_add]
      refine ⟨fun hm => h1 (by simpa using hm), fun hm => ?_⟩
      rw [h2 (by simpa using hm)]
      rfl
    · rw [List.foldl_cons, add_nan, hnan]
      exact ⟨fun _ => rfl, fun hm => absurd hm (by simp)⟩

end Ext

end DF
