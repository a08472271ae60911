import Verif.Spec.Serie
import Verif.Lemmas.Loops

/-! # Lemmas on `Serie` -/

namespace DF

open Spec

variable {α : Type}

namespace Spec

theorem chunk_length {k : Nat} {l : List α} {i : Nat} (h : i * k + k ≤ l.length) :
    (chunk k l i).length = k := by
  simp [chunk]; omega

theorem mul_succ_le {i c k n : Nat} (hi : i < c) (h : c * k ≤ n) : i * k + k ≤ n := by
  have : (i + 1) * k ≤ c * k := Nat.mul_le_mul_right k hi
  rw [Nat.succ_mul] at this; omega

@[simp] theorem items_length (s : Serie α) : (items s).length = s.count := by simp [items]

theorem items_getElem (s : Serie α) (i : Nat) (h : i < (items s).length) :
    (items s)[i] = chunk s.itemSize s.data i := by simp [items]

theorem chunk_getElem {k : Nat} {l : List α} {i j : Nat} (hj : j < k) (h : i * k + k ≤ l.length) :
    (chunk k l i)[j]'(by rw [chunk_length h]; exact hj) = l[i * k + j]'(by omega) := by
  simp [chunk]

namespace WF

variable {s : Serie α}

theorem item_fits (h : WF s) {i : Nat} (hi : i < s.count) :
    i * s.itemSize + s.itemSize ≤ s.data.length := mul_succ_le hi h.fits

theorem count_le (h : WF s) : s.count ≤ s.data.length :=
  Nat.le_trans (Nat.le_mul_of_pos_right _ h.pos) h.fits

theorem count_lt (h : WF s) : s.count < 2 ^ 32 := Nat.lt_of_le_of_lt h.count_le h.small

theorem size_eq (h : WF s) : s.size = s.count * s.itemSize :=
  u32_of_lt (Nat.lt_of_le_of_lt h.fits h.small)

theorem sizeT_eq (h : WF s) : sizeT s.itemSize = s.itemSize := sizeT_of_lt h.int

theorem valid (h : WF s) : s.isValid = true := by
  have := h.pos
  have := h.int
  simp only [Serie.isValid, Bool.and_eq_true, decide_eq_true_eq]
  omega

theorem item_length (h : WF s) {v : List α} (hv : v ∈ items s) : v.length = s.itemSize := by
  simp only [items, List.mem_map, List.mem_range] at hv
  obtain ⟨i, hi, rfl⟩ := hv
  exact chunk_length (h.item_fits hi)

end WF

end Spec

namespace Serie

/-- Reading `k` numbers one after the other from position `p`. -/
theorem readLoop {l : List α} {p k : Nat} (h : p + k ≤ l.length) (hs : l.length < 2 ^ 32) :
    forLoop (fun j r => do
      let x ← rd l (u32 (p + j))
      pure (r ++ [x])) 0 k [] = (.ok ((l.drop p).take k) : Res (List α)) := by
  by_cases hk : k = 0
  · subst hk; simp
  have hne : 0 < l.length := by omega
  rw [forLoop_push (fun j => l[p + j]?.getD (l[0]'hne)) k 0 []]
  · congr 1
    simp only [List.nil_append]
    apply List.ext_getElem
    · simp; omega
    · intro j h1 h2
      simp at h1
      simp only [List.getElem_map, List.getElem_range', List.getElem_take, List.getElem_drop]
      rw [List.getElem?_eq_getElem (by omega)]
      simp
  · intro i _ hi
    rw [u32_of_lt (by omega), rd_of_lt (by omega), List.getElem?_eq_getElem (by omega)]
    rfl

theorem getA_eq {s : Serie α} (h : WF s) {i : Nat} (hi : i < s.count) :
    s.getA i = .ok (chunk s.itemSize s.data i) := by
  have hf := h.item_fits hi
  unfold getA
  split
  · rename_i h1
    rw [h1] at hf ⊢
    rw [rd_of_lt (by omega)]
    simp only [chunk, Res.ok_bind, Res.pure_eq, Nat.mul_one]
    rw [List.drop_eq_getElem_cons (by omega)]; rfl
  · rw [checkAlloc, if_pos h.int]
    simp only [Res.ok_bind]
    exact readLoop hf h.small

theorem value_eq {s : Serie α} (h : WF s) {i : Nat} (hi : i < s.count) :
    s.value i = .ok (chunk s.itemSize s.data i) := by
  have hf := h.item_fits hi
  have := h.small
  unfold value
  rw [checkAlloc, if_pos h.int]
  simp only [Res.ok_bind]
  rw [u32_of_lt (n := i * s.itemSize) (by omega)]
  exact readLoop hf h.small

theorem getA_items {s : Serie α} (h : WF s) {i : Nat} (hi : i < (items s).length) :
    s.getA i = .ok (items s)[i] := by
  rw [items_getElem]; exact getA_eq h (by simpa using hi)

theorem getD_eq {s : Serie α} {i : Nat} (hi : i < s.data.length) : s.getD i = .ok s.data[i] := by
  unfold getD; rw [if_neg (by omega), rd_of_lt hi]

theorem getD_scalars {s : Serie α} (_h : s.count ≤ s.data.length) {i : Nat} (hi : i < (scalars s).length) :
    s.getD i = .ok (scalars s)[i] := by
  simp only [scalars, List.length_take] at hi
  rw [getD_eq (by omega)]; simp [scalars]

theorem write_eq {s : Serie α} {p : Nat} {x : α} (h : p < s.data.length) :
    write p x s = (.ok (), { s with data := s.data.set p x }) := by
  simp [write, wr_of_lt h]

/-- Writing the numbers of `v` one after the other at position `p`. -/
theorem writeLoop {v : List α} {p : Nat} (n : Nat) : ∀ (lo : Nat) (s : Serie α), lo + n = v.length →
    p + v.length ≤ s.data.length → s.data.length < 2 ^ 32 →
    forLoop (m := Eff (Serie α)) (fun j _ => do
      let x ← Eff.lift (rd v j)
      write (u32 (p + j)) x) lo n () s =
    (.ok (), { s with data := s.data.take (p + lo) ++ v.drop lo ++ s.data.drop (p + v.length) }) := by
  induction n with
  | zero =>
    intro lo s hlo hp hs
    have : lo = v.length := by omega
    subst this
    simp only [forLoop_zero, List.drop_length, List.append_nil, List.take_append_drop]
    rfl
  | succ n ih =>
    intro lo s hlo hp hs
    rw [forLoop_succ, rd_of_lt (show lo < v.length by omega)]
    simp only [Eff.lift_ok, pure_bind]
    rw [u32_of_lt (show p + lo < 2 ^ 32 by omega), Eff.bind_ok (write_eq (by omega)), ih (lo + 1) _ (by omega) (by simpa using hp) (by simpa using hs)]
    simp only [List.append_assoc, Prod.mk.injEq, true_and, Serie.mk.injEq, and_true]
    rw [List.drop_set_of_lt (by omega), List.take_set, show p + (lo + 1) = p + lo + 1 by omega, List.take_add_one]
    rw [List.getElem?_eq_getElem (by omega)]
    rw [List.set_append_right _ _ (by rw [List.length_take]; omega)]
    simp only [List.length_take]
    rw [show min (p + lo) s.data.length = p + lo by omega]
    simp
    rw [List.drop_eq_getElem_cons (show lo < v.length by omega)]; rfl

theorem setA_eq {s : Serie α} (h : WF s) {i : Nat} {v : List α} (hi : i < s.count)
    (hv : v.length = s.itemSize) :
    setA i v s = (.ok (), { s with data := splice s.data (i * s.itemSize) v }) := by
  have hf := h.item_fits hi
  unfold setA
  rw [if_neg (by omega), if_neg (by rw [h.sizeT_eq]; simpa using hv), ← hv]
  rw [writeLoop v.length 0 s (by omega) (by rw [hv]; exact hf) h.small]
  simp [splice, hv]

theorem setValue_eq {s : Serie α} (h : WF s) {i : Nat} {v : List α} (hi : i < s.count)
    (hv : v.length = s.itemSize) :
    setValue i v s = (.ok (), { s with data := splice s.data (i * s.itemSize) v }) := by
  have hf := h.item_fits hi
  unfold setValue
  rw [if_neg (by omega), if_neg (by rw [h.sizeT_eq]; simpa using hv), if_pos h.int, ← hv]
  rw [writeLoop v.length 0 s (by omega) (by rw [hv]; exact hf) h.small]
  simp [splice, hv]

theorem putA_eq {s : Serie α} (h : WF s) {i : Nat} {v : List α} (hi : i < s.count)
    (hv : v.length = s.itemSize) :
    putA s i v = .ok { s with data := splice s.data (i * s.itemSize) v } := by
  simp [putA, Eff.exec, setA_eq h hi hv]

theorem setD_eq {s : Serie α} {i : Nat} {x : α} (hi : i < s.data.length) :
    setD i x s = (.ok (), { s with data := s.data.set i x }) := by
  unfold setD; rw [if_neg (by omega), write_eq hi]

theorem setScalar_eq {s : Serie α} {i : Nat} {x : α} (hi : i < s.data.length) :
    setScalar i x s = (.ok (), { s with data := s.data.set i x }) := by
  unfold setScalar; rw [if_neg (by omega), write_eq hi]

theorem putD_eq {s : Serie α} {i : Nat} {x : α} (hi : i < s.data.length) :
    putD s i x = .ok { s with data := s.data.set i x } := by
  simp [putD, Eff.exec, setD_eq hi]

theorem ofArray_eq {k : Nat} {l : List α} {d : Nat} (h0 : 0 < k) (h1 : k < 2 ^ 31)
    (hl : l.length < 2 ^ 32) :
    ofArray k l d = .ok { data := l, count := l.length / k, itemSize := k, dimension := d } := by
  unfold ofArray divCount
  rw [if_neg (by omega), sizeT_of_lt h1, u32_of_lt]
  · rfl
  · exact Nat.lt_of_le_of_lt (Nat.div_le_self _ _) hl

end Serie

end DF
