import Verif.Lemmas.Decide
import Verif.Lemmas.Build

/-!
# Properties of class `Serie` (C01-C07)
-/

namespace DF

open Spec

variable {α : Type}

/-! ## Concrete Series used to show that hypotheses can be met -/

/-- Two items of three numbers. -/
def ex23 : Serie Int := ⟨[1, 2, 3, 4, 5, 6], 2, 3, 3⟩
/-- Four numbers. -/
def ex41 : Serie Int := ⟨[5, 7, 9, 11], 4, 1, 3⟩
/-- Two items of three numbers and one number left over, in dimension 2. -/
def exTail : Serie Int := ⟨[1, 2, 3, 4, 5, 6, 7], 2, 3, 2⟩

theorem ex23_WF : WF ex23 := ⟨by decide, by decide, by decide, by decide⟩
theorem ex41_WF : WF ex41 := ⟨by decide, by decide, by decide, by decide⟩
theorem exTail_WF : WF exTail := ⟨by decide, by decide, by decide, by decide⟩

/-! ## C01 -/

/-- C01: constructing from a positive item size and fewer than `2^32` numbers. -/
theorem C01_construct (k : Nat) (l : List α) (d : Nat) (hk : 0 < k) (hk' : k < 2 ^ 31)
    (hl : l.length < 2 ^ 32) :
    ∃ s, Serie.ofArray k l d = .ok s ∧ s.data = l ∧ s.count = l.length / k ∧ s.itemSize = k ∧
      s.dimension = d ∧ WF s ∧
      ∀ i, i < s.count → ∃ v, s.getA i = .ok v ∧ s.value i = .ok v ∧ v.length = k ∧
        ∀ j, j < k → i * k + j < l.length ∧ v[j]? = l[i * k + j]? := by
  refine ⟨_, Serie.ofArray_eq hk hk' hl, rfl, rfl, rfl, rfl, ?_, ?_⟩
  · exact ⟨hk, hk', Nat.div_mul_le_self _ _, hl⟩
  · have hwf : WF (⟨l, l.length / k, k, d⟩ : Serie α) := ⟨hk, hk', Nat.div_mul_le_self _ _, hl⟩
    intro i hi
    have hf := hwf.item_fits hi
    simp only at hf
    refine ⟨_, Serie.getA_eq hwf hi, Serie.value_eq hwf hi, chunk_length hf, ?_⟩
    intro j hj
    refine ⟨by omega, ?_⟩
    rw [chunk_getElem?, if_pos hj]

example := C01_construct 3 [1, 2, 3, 4, 5, 6, (7 : Int)] 2 (by decide) (by decide) (by decide)

example : ∃ s : Serie Int, Serie.ofArray 3 [1, 2, 3, 4, 5, 6, 7] 2 = Res.ok s ∧ s.count = 2 ∧ s.getA 1 = .ok [4, 5, 6] :=
  ⟨exTail, rfl, rfl, rfl⟩

/-- C01: item size 0 divides by zero. -/
theorem C01_itemSize_zero (l : List α) (d : Nat) : Serie.ofArray 0 l d = .ub := rfl

/-- C01 (shape constructor): `c` items of `k` zeros, provided `c * k` fits in 32 bits. -/
theorem C01_zeros [Zero α] (k c d : Nat) (hk : 0 < k) (hk' : k < 2 ^ 31) (h : c * k < 2 ^ 32) :
    WF (Serie.zeros k c d : Serie α) ∧ (Serie.zeros k c d : Serie α).count = c ∧
      (Serie.zeros k c d : Serie α).itemSize = k ∧ (Serie.zeros k c d : Serie α).dimension = d ∧
      (Serie.zeros k c d : Serie α).data.length = c * k ∧
      ∀ i, i < c → (Serie.zeros k c d : Serie α).getA i = .ok (List.replicate k 0) := by
  have hwf : WF (Serie.zeros k c d : Serie α) := by
    rw [zeros_eq_partialS h]; exact WF_partialS hk hk' (by simp) (by simp) h
  refine ⟨hwf, rfl, rfl, rfl, by simp [Serie.zeros, u32_of_lt h], ?_⟩
  intro i hi
  have hf := hwf.item_fits hi
  rw [Serie.getA_eq hwf hi]
  simp only [Serie.zeros, u32_of_lt h, chunk, List.drop_replicate, List.take_replicate,
    List.length_replicate] at hf ⊢
  rw [show min k (c * k - i * k) = k by omega]

example := C01_zeros (α := Int) 3 2 2 (by decide) (by decide) (by decide)

example : (2 * 3 < 2 ^ 32) ∧ (Serie.zeros 3 2 3 : Serie Int).getA 1 = .ok [0, 0, 0] := ⟨by decide, rfl⟩

/-- C01: the shape constructor wraps: asking for `2^31` items of 2 numbers allocates nothing, so reading an
item that `count()` announces is undefined behaviour. -/
theorem C01_zeros_overflow [Zero α] :
    (Serie.zeros 2 (2 ^ 31) : Serie α).count = 2 ^ 31 ∧ (Serie.zeros 2 (2 ^ 31) : Serie α).data = [] ∧
      (Serie.zeros 2 (2 ^ 31) : Serie α).getA 0 = .ub := by
  have h : (Serie.zeros 2 (2 ^ 31) : Serie α) = ⟨[], 2 ^ 31, 2, 3⟩ := by
    simp [Serie.zeros, u32]
  rw [h]; exact ⟨rfl, rfl, rfl⟩

/-! ## C112 -/

/-- C112 for the dimension 3: `toSerie` is the constructor. For any dimension it has the values, the count and the items that
the constructor gives. Missing: the dimension asked for. -/
theorem C112_toSerie_partial (k : Nat) (l : List α) (d : Nat) (hk : 0 < k) (hk' : k < 2 ^ 31) (hl : l.length < 2 ^ 32) :
    Serie.toSerie k l 3 = Serie.ofArray k l 3 ∧
    ∃ s r, Serie.ofArray k l d = .ok s ∧ Serie.toSerie k l d = .ok r ∧ WF r ∧ r.data = s.data ∧ r.count = s.count ∧
      r.itemSize = s.itemSize ∧ items r = items s := by
  refine ⟨rfl, _, _, Serie.ofArray_eq hk hk' hl, Serie.ofArray_eq hk hk' hl, ?_, rfl, rfl, rfl, rfl⟩
  exact ⟨hk, hk', Nat.div_mul_le_self _ _, hl⟩

example := C112_toSerie_partial 2 [(1 : Int), 2, 3, 4, 5] 2 (by decide) (by decide) (by decide)

/-- C112 is violated: for every other dimension the result differs from what the constructor gives, its dimension is 3. -/
theorem C112_toSerie_violated (k : Nat) (l : List α) (d : Nat) (hk : 0 < k) (hk' : k < 2 ^ 31) (hl : l.length < 2 ^ 32)
    (hd : d ≠ 3) : ∃ s r, Serie.ofArray k l d = .ok s ∧ Serie.toSerie k l d = .ok r ∧ s.dimension = d ∧ r.dimension = 3 ∧
      r ≠ s := by
  refine ⟨_, _, Serie.ofArray_eq hk hk' hl, Serie.ofArray_eq hk hk' hl, rfl, rfl, fun h => hd ?_⟩
  exact (congrArg Serie.dimension h).symm

example := C112_toSerie_violated 2 [(1 : Int), 2, 3, 4, 5] 2 (by decide) (by decide) (by decide) (by decide)

/-! ## C02 -/

/-- What a successful write of item `i` must establish. -/
def WroteItem (s s' : Serie α) (i : Nat) (v : List α) : Prop :=
  WF s' ∧ s'.count = s.count ∧ s'.itemSize = s.itemSize ∧ s'.dimension = s.dimension ∧
  s'.data.length = s.data.length ∧ s'.getA i = .ok v ∧
  (∀ j, j < s.count → j ≠ i → s'.getA j = s.getA j) ∧
  (∀ n, n < i * s.itemSize ∨ i * s.itemSize + s.itemSize ≤ n → s'.data[n]? = s.data[n]?)

theorem wroteItem_splice {s : Serie α} (h : WF s) {i : Nat} {v : List α} (hi : i < s.count)
    (hv : v.length = s.itemSize) :
    WroteItem s { s with data := splice s.data (i * s.itemSize) v } i v := by
  have hf := h.item_fits hi
  have hlen : (splice s.data (i * s.itemSize) v).length = s.data.length := splice_length (by omega)
  have hwf := h.of_data hlen
  refine ⟨hwf, rfl, rfl, rfl, hlen, ?_, ?_, ?_⟩
  · rw [Serie.getA_eq hwf hi]; exact congrArg _ (chunk_splice_self hv hf)
  · intro j hj hne
    rw [Serie.getA_eq hwf hj, Serie.getA_eq h hj]
    exact congrArg _ (chunk_splice_ne hv hf hne)
  · intro n hn
    simp only
    rw [splice_getElem? (by omega)]
    split
    · rfl
    · rw [if_neg (by omega)]

/-- C02: `set(i, Array)` then reading. -/
theorem C02_set_array {s : Serie α} (h : WF s) {i : Nat} {v : List α} (hi : i < s.count)
    (hv : v.length = s.itemSize) :
    ∃ s', Serie.setA i v s = (.ok (), s') ∧ WroteItem s s' i v :=
  ⟨_, Serie.setA_eq h hi hv, wroteItem_splice h hi hv⟩

example := C02_set_array exTail_WF (i := 1) (v := [7, 8, 9]) (by decide) rfl

/-- C02: `setValue(i, v)` then reading. -/
theorem C02_setValue {s : Serie α} (h : WF s) {i : Nat} {v : List α} (hi : i < s.count)
    (hv : v.length = s.itemSize) :
    ∃ s', Serie.setValue i v s = (.ok (), s') ∧ WroteItem s s' i v :=
  ⟨_, Serie.setValue_eq h hi hv, wroteItem_splice h hi hv⟩

example := C02_setValue exTail_WF (i := 1) (v := [7, 8, 9]) (by decide) rfl

example : (Serie.setA 1 [7, 8, 9] exTail).2.data = [1, 2, 3, 7, 8, 9, 7] := by decide

/-- What a successful write of the number at raw position `i` must establish. -/
def WroteNumber (s s' : Serie α) (i : Nat) (x : α) : Prop :=
  s'.count = s.count ∧ s'.itemSize = s.itemSize ∧ s'.dimension = s.dimension ∧
  s'.data.length = s.data.length ∧ (WF s → WF s') ∧ s'.getD i = .ok x ∧
  ∀ j, j ≠ i → s'.getD j = s.getD j

theorem wroteNumber_set {s : Serie α} {i : Nat} {x : α} (hi : i < s.data.length) :
    WroteNumber s { s with data := s.data.set i x } i x := by
  refine ⟨rfl, rfl, rfl, by simp, fun h => h.of_data (by simp), ?_, ?_⟩
  · rw [Serie.getD_eq (by simpa using hi)]; simp
  · intro j hj
    simp only [Serie.getD, List.length_set, rd]
    rw [List.getElem?_set_ne (Ne.symm hj)]

/-- C02: `set(i, double)` then reading. -/
theorem C02_set_double {s : Serie α} {i : Nat} {x : α} (hi : i < s.data.length) :
    ∃ s', Serie.setD i x s = (.ok (), s') ∧ WroteNumber s s' i x :=
  ⟨_, Serie.setD_eq hi, wroteNumber_set hi⟩

example := C02_set_double (s := exTail) (i := 6) (x := 0) (by decide)

/-- C02: `setScalar(i, x)` then reading. -/
theorem C02_setScalar {s : Serie α} {i : Nat} {x : α} (hi : i < s.data.length) :
    ∃ s', Serie.setScalar i x s = (.ok (), s') ∧ WroteNumber s s' i x :=
  ⟨_, Serie.setScalar_eq hi, wroteNumber_set hi⟩

example := C02_setScalar (s := ex41) (i := 3) (x := 0) (by decide)

example : (Serie.setD 2 0 ex41).2.data = [5, 7, 0, 11] := by decide

/-! ## C03 -/

/-- C03: `set(i, Array)` succeeds exactly when the index and the size fit; otherwise it throws and changes
nothing. It is never undefined. -/
theorem C03_set_array {s : Serie α} (h : WF s) (i : Nat) (v : List α) :
    ((i < s.count ∧ v.length = s.itemSize) → ∃ s', Serie.setA i v s = (.ok (), s')) ∧
    (¬ (i < s.count ∧ v.length = s.itemSize) → Serie.setA i v s = (.throw .invalidArgument, s)) := by
  refine ⟨fun hc => ⟨_, Serie.setA_eq h hc.1 hc.2⟩, fun hc => ?_⟩
  unfold Serie.setA
  by_cases hi : i ≥ s.count
  · rw [if_pos hi]
  · rw [if_neg hi, if_pos]
    rw [h.sizeT_eq]; intro hv; exact hc ⟨by omega, hv⟩

example := (C03_set_array exTail_WF 1 [7, 8, 9]).1 (by decide)
example := (C03_set_array exTail_WF 2 [7, 8, 9]).2 (by decide)

/-- C03: `setValue`. -/
theorem C03_setValue {s : Serie α} (h : WF s) (i : Nat) (v : List α) :
    ((i < s.count ∧ v.length = s.itemSize) → ∃ s', Serie.setValue i v s = (.ok (), s')) ∧
    (¬ (i < s.count ∧ v.length = s.itemSize) → Serie.setValue i v s = (.throw .invalidArgument, s)) := by
  refine ⟨fun hc => ⟨_, Serie.setValue_eq h hc.1 hc.2⟩, fun hc => ?_⟩
  unfold Serie.setValue
  by_cases hi : i ≥ s.count
  · rw [if_pos hi]
  · rw [if_neg hi, if_pos]
    rw [h.sizeT_eq]; intro hv; exact hc ⟨by omega, hv⟩

example := (C03_setValue exTail_WF 1 [7, 8, 9]).1 (by decide)
example := (C03_setValue exTail_WF 1 [7, 8]).2 (by decide)

/-- C03: `set(i, double)`, for every Serie. -/
theorem C03_set_double (s : Serie α) (i : Nat) (x : α) :
    (i < s.data.length → ∃ s', Serie.setD i x s = (.ok (), s')) ∧
    (¬ i < s.data.length → Serie.setD i x s = (.throw .invalidArgument, s)) :=
  ⟨fun hi => ⟨_, Serie.setD_eq hi⟩, fun hi => by unfold Serie.setD; rw [if_pos (by omega)]⟩

/-- C03: `setScalar`, for every Serie. -/
theorem C03_setScalar (s : Serie α) (i : Nat) (x : α) :
    (i < s.data.length → ∃ s', Serie.setScalar i x s = (.ok (), s')) ∧
    (¬ i < s.data.length → Serie.setScalar i x s = (.throw .invalidArgument, s)) :=
  ⟨fun hi => ⟨_, Serie.setScalar_eq hi⟩, fun hi => by unfold Serie.setScalar; rw [if_pos (by omega)]⟩

example : Serie.setA 2 [7, 8, 9] ex23 = (.throw .invalidArgument, ex23) := by decide
example : Serie.setA 1 [7, 8] ex23 = (.throw .invalidArgument, ex23) := by decide

/-! ## C04 -/

/-- C04 (violated): there are well-formed Series and indices for which `scalar`, `get<Array>` and `value` read
outside the array. -/
theorem C04_violated :
    (∃ (s : Serie Int) (i : Nat), WF s ∧ s.scalar i = .ub) ∧
    (∃ (s : Serie Int) (i : Nat), WF s ∧ s.getA i = .ub) ∧
    (∃ (s : Serie Int) (i : Nat), WF s ∧ s.value i = .ub) :=
  ⟨⟨ex41, 4, ex41_WF, rfl⟩, ⟨ex23, 2, ex23_WF, rfl⟩, ⟨ex23, 2, ex23_WF, rfl⟩⟩

/-- C04, the part that holds: `get<double>` is always defined, and the item readers are defined on announced
items. Missing: `scalar(size())`, and `get<Array>`/`value` beyond `count()`. -/
theorem C04_partial (s : Serie α) (i : Nat) :
    (s.getD i = if i < s.data.length then rd s.data i else .throw .invalidArgument) ∧ (s.getD i).Defined ∧
    (WF s → i < s.count → ∃ v, s.getA i = .ok v ∧ s.value i = .ok v) ∧
    (WF s → i ≠ s.count * s.itemSize → (s.scalar i).Defined) := by
  refine ⟨?_, ?_, ?_, ?_⟩
  · unfold Serie.getD
    by_cases h : i < s.data.length
    · rw [if_neg (by omega), if_pos h]
    · rw [if_pos (by omega), if_neg h]
  · unfold Serie.getD
    by_cases h : i < s.data.length
    · rw [if_neg (by omega), rd_of_lt h]; trivial
    · rw [if_pos (by omega)]; trivial
  · intro h hi; exact ⟨_, Serie.getA_eq h hi, Serie.value_eq h hi⟩
  · intro h hne
    unfold Serie.scalar
    rw [h.size_eq]
    by_cases hi : i > s.count * s.itemSize
    · rw [if_pos hi]; trivial
    · have := h.fits
      rw [if_neg hi, rd_of_lt (by omega)]; trivial

/-- C04: for a Serie without left-over numbers, `scalar(size())` is always undefined behaviour. -/
theorem C04_scalar_at_size {s : Serie α} (h : WF s) (hex : s.data.length = s.count * s.itemSize) :
    s.scalar s.size = .ub := by
  unfold Serie.scalar
  rw [if_neg (by omega), rd_of_ge]
  rw [h.size_eq]; omega

example := C04_scalar_at_size ex23_WF rfl

theorem forLoop_ub_of_first {β : Type} {f : Nat → β → Res β} {n : Nat} (hn : 0 < n) {lo : Nat} {b : β}
    (h : f lo b = .ub) : forLoop f lo n b = .ub := by
  cases n with
  | zero => omega
  | succ n => rw [forLoop_succ, h]; rfl

/-- C04: for a Serie without left-over numbers, `get<Array>` past the end is undefined behaviour (as long as
the index computation does not wrap). -/
theorem C04_get_past_end {s : Serie α} (h : WF s) (hex : s.data.length = s.count * s.itemSize) {i : Nat}
    (hi : s.count ≤ i) (hw : i * s.itemSize < 2 ^ 32) : s.getA i = .ub := by
  have hle : s.count * s.itemSize ≤ i * s.itemSize := Nat.mul_le_mul_right _ hi
  unfold Serie.getA
  split
  · rename_i h1
    rw [rd_of_ge (by rw [h1] at hle hex; omega)]; rfl
  · rw [Serie.checkAlloc, if_pos h.int]
    simp only [Res.ok_bind]
    apply forLoop_ub_of_first h.pos
    rw [Nat.add_zero, u32_of_lt hw, rd_of_ge (by omega)]; rfl

example := C04_get_past_end ex23_WF rfl (i := 2) (by decide) (by decide)

/-- C04: when the index computation wraps, `get<Array>` silently returns another item: with item size `k` dividing
`2^32 = k * m`, index `i + m` gives item `i`. -/
theorem C04_get_wraps {s : Serie α} (h1 : s.itemSize ≠ 1) {m : Nat} (hm : m * s.itemSize = 2 ^ 32)
    (i : Nat) : s.getA (i + m) = s.getA i := by
  unfold Serie.getA
  rw [if_neg h1, if_neg h1]
  congr 1; funext _
  apply forLoop_congr
  intro j b _ _
  have : u32 ((i + m) * s.itemSize + j) = u32 (i * s.itemSize + j) := by
    unfold u32
    rw [Nat.add_mul, hm, Nat.add_right_comm, Nat.add_mod_right]
  rw [this]

example := C04_get_wraps (s := (⟨[1, 2, 3, 4], 2, 2, 3⟩ : Serie Int)) (by decide) (m := 2 ^ 31) (by decide) 1

example : (⟨[1, 2, 3, 4], 2, 2, 3⟩ : Serie Int).getA (1 + 2 ^ 31) = .ok [3, 4] := by decide

/-! ## C05 -/

/-- C05: copy construction is faithful. -/
theorem C05_copy (s : Serie α) : s.copy = s := rfl

/-- C05 (violated): assignment and `clone()` do not keep the dimension. -/
theorem C05_violated :
    (∃ (s t : Serie Int), WF s ∧ WF t ∧ (Serie.assign s t).1 = .ok () ∧
      (Serie.assign s t).2.dimension ≠ s.dimension) ∧
    (∃ (s c : Serie Int), WF s ∧ s.clone = .ok c ∧ c.dimension ≠ s.dimension) :=
  ⟨⟨exTail, ex23, exTail_WF, ex23_WF, rfl, by decide⟩, ⟨exTail, { exTail with dimension := 3 }, exTail_WF, rfl, by decide⟩⟩

/-- C05, the part that holds: assignment copies everything but the dimension, which keeps the target's previous
value; `clone()` copies everything but the dimension, which becomes 3. Missing: the dimension. -/
theorem C05_partial (s t : Serie α) :
    (Serie.assign s t = (.ok (), { s with dimension := t.dimension })) ∧
    (WF s → s.count = s.data.length / s.itemSize → s.clone = .ok { s with dimension := 3 }) := by
  refine ⟨rfl, fun h hc => ?_⟩
  unfold Serie.clone
  rw [Serie.ofArray_eq h.pos h.int h.small, ← hc]

/-- C05: cloning the default-constructed (invalid) Serie divides by zero. -/
theorem C05_clone_invalid [Zero α] : (Serie.empty : Serie α).clone = .ub := rfl

example : exTail.clone = .ok { exTail with dimension := 3 } := rfl

/-! ## C06 -/

/-- Series that a program can build: any constructor with a positive item size (fewer than `2^32` numbers), any
copy, any mutating call with any arguments – whether it returns or throws – in any order. -/
inductive Reachable [Zero α] : Serie α → Prop
  | zeros (k c d : Nat) : 0 < k → k < 2 ^ 31 → c * k < 2 ^ 32 → Reachable (Serie.zeros k c d)
  | ofArray (k : Nat) (l : List α) (d : Nat) (s : Serie α) : 0 < k → k < 2 ^ 31 → l.length < 2 ^ 32 →
      Serie.ofArray k l d = .ok s → Reachable s
  | toSerie (k : Nat) (l : List α) (d : Nat) (s : Serie α) : 0 < k → k < 2 ^ 31 → l.length < 2 ^ 32 →
      Serie.toSerie k l d = .ok s → Reachable s
  | copy (s : Serie α) : Reachable s → Reachable s.copy
  | clone (s c : Serie α) : Reachable s → s.clone = .ok c → Reachable c
  | setA (i : Nat) (v : List α) (s : Serie α) : Reachable s → Reachable (Serie.setA i v s).2
  | setValue (i : Nat) (v : List α) (s : Serie α) : Reachable s → Reachable (Serie.setValue i v s).2
  | setD (i : Nat) (x : α) (s : Serie α) : Reachable s → Reachable (Serie.setD i x s).2
  | setScalar (i : Nat) (x : α) (s : Serie α) : Reachable s → Reachable (Serie.setScalar i x s).2
  | reCount (c : Nat) (s : Serie α) : Reachable s → c * s.itemSize < 2 ^ 32 → Reachable (Serie.reCount c s).2
  | assign (src s : Serie α) : Reachable src → Reachable s → Reachable (Serie.assign src s).2

/-- The invariant: well-formed, and the count is what the array length says. -/
def Inv (s : Serie α) : Prop := WF s ∧ s.count = s.data.length / s.itemSize

theorem inv_setA {s : Serie α} (h : Inv s) (i : Nat) (v : List α) : Inv (Serie.setA i v s).2 := by
  by_cases hc : i < s.count ∧ v.length = s.itemSize
  · obtain ⟨s', hs, hw⟩ := C02_set_array h.1 hc.1 hc.2
    rw [hs]
    obtain ⟨w1, w2, w3, _, w5, _⟩ := hw
    exact ⟨w1, by rw [w2, w3, w5]; exact h.2⟩
  · rw [(C03_set_array h.1 i v).2 hc]; exact h

theorem inv_setValue {s : Serie α} (h : Inv s) (i : Nat) (v : List α) : Inv (Serie.setValue i v s).2 := by
  by_cases hc : i < s.count ∧ v.length = s.itemSize
  · obtain ⟨s', hs, hw⟩ := C02_setValue h.1 hc.1 hc.2
    rw [hs]
    obtain ⟨w1, w2, w3, _, w5, _⟩ := hw
    exact ⟨w1, by rw [w2, w3, w5]; exact h.2⟩
  · rw [(C03_setValue h.1 i v).2 hc]; exact h

theorem inv_setD {s : Serie α} (h : Inv s) (i : Nat) (x : α) : Inv (Serie.setD i x s).2 := by
  by_cases hc : i < s.data.length
  · obtain ⟨s', hs, w1, w2, _, w4, w5, _⟩ := C02_set_double (x := x) hc
    rw [hs]; exact ⟨w5 h.1, by rw [w1, w2, w4]; exact h.2⟩
  · rw [(C03_set_double s i x).2 hc]; exact h

theorem inv_setScalar {s : Serie α} (h : Inv s) (i : Nat) (x : α) : Inv (Serie.setScalar i x s).2 := by
  by_cases hc : i < s.data.length
  · obtain ⟨s', hs, w1, w2, _, w4, w5, _⟩ := C02_setScalar (x := x) hc
    rw [hs]; exact ⟨w5 h.1, by rw [w1, w2, w4]; exact h.2⟩
  · rw [(C03_setScalar s i x).2 hc]; exact h

/-- C06: the invariant holds after every history. -/
theorem C06_reachable_wellformed [Zero α] {s : Serie α} (h : Reachable s) :
    WF s ∧ s.count = s.data.length / s.itemSize := by
  induction h with
  | zeros k c d hk hk' h =>
    obtain ⟨h1, _, _, _, h5, _⟩ := C01_zeros (α := α) k c d hk hk' h
    exact ⟨h1, by rw [h5]; simp [Serie.zeros, Nat.mul_div_cancel _ hk]⟩
  | ofArray k l d s hk hk' hl hs =>
    obtain ⟨s', hs', h2, h3, h4, _, h6, _⟩ := C01_construct k l d hk hk' hl
    rw [hs] at hs'; cases hs'
    exact ⟨h6, by rw [h3, h2, h4]⟩
  | toSerie k l d s hk hk' hl hs =>
    obtain ⟨s', hs', h2, h3, h4, _, h6, _⟩ := C01_construct k l 3 hk hk' hl
    rw [Serie.toSerie] at hs; rw [hs] at hs'; cases hs'
    exact ⟨h6, by rw [h3, h2, h4]⟩
  | copy s _ ih => exact ih
  | clone s c _ hc ih =>
    rw [(C05_partial s s).2 ih.1 ih.2] at hc
    cases hc
    exact ⟨⟨ih.1.pos, ih.1.int, ih.1.fits, ih.1.small⟩, ih.2⟩
  | setA i v s _ ih => exact inv_setA ih i v
  | setValue i v s _ ih => exact inv_setValue ih i v
  | setD i x s _ ih => exact inv_setD ih i x
  | setScalar i x s _ ih => exact inv_setScalar ih i x
  | reCount c s _ hc ih =>
    simp only [Serie.reCount]
    refine ⟨⟨ih.1.pos, ih.1.int, ?_, ?_⟩, ?_⟩
    · simp [u32_of_lt hc]
    · simpa [u32_of_lt hc] using hc
    · simp [u32_of_lt hc, Nat.mul_div_cancel _ ih.1.pos]
  | assign src s _ _ ih1 _ =>
    exact ⟨⟨ih1.1.pos, ih1.1.int, ih1.1.fits, ih1.1.small⟩, ih1.2⟩

example := C06_reachable_wellformed (.setA 1 [7, 8, 9] _
  (.ofArray 3 [1, 2, 3, 4, 5, (6 : Int)] 3 ex23 (by decide) (by decide) (by decide) rfl))

/-- C06: hence after every history each announced item can be read. -/
theorem C06_reachable_reads [Zero α] {s : Serie α} (h : Reachable s) {i : Nat} (hi : i < s.count) :
    ∃ v, s.getA i = .ok v ∧ s.value i = .ok v ∧ v.length = s.itemSize := by
  have hw := (C06_reachable_wellformed h).1
  exact ⟨_, Serie.getA_eq hw hi, Serie.value_eq hw hi, chunk_length (hw.item_fits hi)⟩

example := C06_reachable_reads (.ofArray 3 [1, 2, 3, 4, 5, (6 : Int)] 3 ex23 (by decide) (by decide) (by decide) rfl)
  (i := 1) (by decide)

/-- A history: build, write, fail to write, assign from another Serie, resize. -/
example : Reachable (Serie.reCount 5 (Serie.assign ex41 (Serie.setA 9 [1] (Serie.setA 1 [7, 8, 9] ex23).2).2).2).2 :=
  .reCount _ _ (.assign _ _ (.ofArray 1 [5, 7, 9, 11] 3 _ (by decide) (by decide) (by decide) rfl)
    (.setA _ _ _ (.setA _ _ _ (.ofArray 3 [1, 2, 3, 4, 5, 6] 3 _ (by decide) (by decide) (by decide) rfl))))
    (by decide)

/-! ## C07 -/

/-- C07: `reCount(c)` leaves `c` zero items of the same item size and the same dimension. -/
theorem C07_reCount [Zero α] {s : Serie α} (h0 : 0 < s.itemSize) (h1 : s.itemSize < 2 ^ 31) (c : Nat)
    (hc : c * s.itemSize < 2 ^ 32) :
    ∃ s', Serie.reCount c s = (.ok (), s') ∧ WF s' ∧ s'.count = c ∧ s'.itemSize = s.itemSize ∧
      s'.dimension = s.dimension ∧ s'.data.length = c * s.itemSize ∧
      ∀ i, i < c → s'.getA i = .ok (List.replicate s.itemSize 0) := by
  obtain ⟨w1, _, _, _, w5, w6⟩ := C01_zeros (α := α) s.itemSize c s.dimension h0 h1 hc
  exact ⟨_, rfl, w1, rfl, rfl, rfl, w5, w6⟩

example := C07_reCount (s := exTail) (by decide) (by decide) 5 (by decide)

example : (Serie.reCount 3 ex23).2.data = List.replicate 9 0 := by decide

end DF
