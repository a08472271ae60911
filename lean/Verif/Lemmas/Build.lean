import Verif.Lemmas.Serie

/-! # Lemmas on building and updating Series item by item -/

namespace DF

open Spec

variable {α : Type}

namespace Spec

theorem splice_length {l v : List α} {p : Nat} (h : p + v.length ≤ l.length) :
    (splice l p v).length = l.length := by
  simp [splice]; omega

theorem splice_getElem? {l v : List α} {p : Nat} (h : p + v.length ≤ l.length) (n : Nat) :
    (splice l p v)[n]? =
      if n < p then l[n]? else if n < p + v.length then v[n - p]? else l[n]? := by
  unfold splice
  by_cases h1 : n < p
  · rw [if_pos h1, List.append_assoc, List.getElem?_append_left (by simp; omega),
      List.getElem?_take, if_pos h1]
  · rw [if_neg h1, List.append_assoc, List.getElem?_append_right (by simp; omega)]
    simp only [List.length_take, show min p l.length = p by omega]
    by_cases h2 : n < p + v.length
    · rw [if_pos h2, List.getElem?_append_left (by omega)]
    · rw [if_neg h2, List.getElem?_append_right (by omega), List.getElem?_drop]
      congr 1; omega

theorem chunk_getElem? (k : Nat) (l : List α) (i j : Nat) :
    (chunk k l i)[j]? = if j < k then l[i * k + j]? else none := by
  unfold chunk
  rw [List.getElem?_take]
  simp

theorem chunk_splice_self {k : Nat} {l v : List α} {i : Nat} (hv : v.length = k)
    (h : i * k + k ≤ l.length) : chunk k (splice l (i * k) v) i = v := by
  apply List.ext_getElem?
  intro j
  rw [chunk_getElem?, splice_getElem? (by omega)]
  by_cases hj : j < k
  · rw [if_pos hj, if_neg (by omega), if_pos (by omega)]; congr 1; omega
  · rw [if_neg hj, List.getElem?_eq_none (by omega)]

theorem lt_mul_of_lt {i j k m : Nat} (h : j < i) (hm : m < k) : j * k + m < i * k := by
  have : (j + 1) * k ≤ i * k := Nat.mul_le_mul_right k h
  rw [Nat.succ_mul] at this; omega

theorem chunk_splice_ne {k : Nat} {l v : List α} {i j : Nat} (hv : v.length = k)
    (h : i * k + k ≤ l.length) (hij : j ≠ i) : chunk k (splice l (i * k) v) j = chunk k l j := by
  apply List.ext_getElem?
  intro m
  rw [chunk_getElem?, chunk_getElem?, splice_getElem? (by omega)]
  by_cases hm : m < k
  · rw [if_pos hm, if_pos hm]
    rcases Nat.lt_or_gt_of_ne hij with hlt | hgt
    · rw [if_pos (lt_mul_of_lt hlt hm)]
    · have := lt_mul_of_lt (k := k) hgt (m := 0) (by omega)
      have h2 : (i + 1) * k ≤ j * k := Nat.mul_le_mul_right k hgt
      rw [Nat.succ_mul] at h2
      rw [if_neg (by omega), if_neg (by omega)]
  · rw [if_neg hm, if_neg hm]

theorem WF.of_data {s : Serie α} (h : WF s) {d : List α} (hd : d.length = s.data.length) :
    WF { s with data := d } := ⟨h.pos, h.int, by simpa [hd] using h.fits, by simpa [hd] using h.small⟩

theorem flatten_length {k : Nat} {its : List (List α)} (h : ∀ v ∈ its, v.length = k) :
    its.flatten.length = its.length * k := by
  induction its with
  | nil => simp
  | cons a l ih =>
    simp only [List.flatten_cons, List.length_append, List.length_cons]
    rw [ih (fun v hv => h v (by simp [hv])), h a (by simp), Nat.succ_mul]; omega

theorem chunk_flatten {k : Nat} {its : List (List α)} (h : ∀ v ∈ its, v.length = k) {i : Nat}
    (hi : i < its.length) (rest : List α) : chunk k (its.flatten ++ rest) i = its[i] := by
  induction its generalizing i with
  | nil => simp at hi
  | cons a l ih =>
    have ha : a.length = k := h a (by simp)
    cases i with
    | zero => simp [chunk, ha]
    | succ i =>
      have := ih (fun v hv => h v (by simp [hv])) (i := i) (by simpa using hi)
      simp only [List.getElem_cons_succ]
      rw [← this]
      unfold chunk
      rw [Nat.succ_mul, Nat.add_comm, ← List.drop_drop]
      simp only [List.flatten_cons, List.append_assoc]
      rw [List.drop_append_of_le_length (l₁ := a) (by omega), List.drop_of_length_le (l := a) (by omega)]
      simp

theorem items_ofItems {k d : Nat} {its : List (List α)} (h : ∀ v ∈ its, v.length = k) :
    items (ofItems k its d) = its := by
  apply List.ext_getElem
  · simp [ofItems]
  · intro i h1 h2
    rw [items_getElem]
    have := chunk_flatten h h2 []
    simpa [ofItems] using this

theorem WF_ofItems {k d : Nat} {its : List (List α)} (hk : 0 < k) (hk' : k < 2 ^ 31)
    (h : ∀ v ∈ its, v.length = k) (hn : its.length * k < 2 ^ 32) : WF (ofItems k its d) := by
  have := flatten_length h
  exact ⟨hk, hk', by simp [ofItems] at *; omega, by simp [ofItems] at *; omega⟩

theorem WF_ofScalars {xs : List α} {d : Nat} (hn : xs.length < 2 ^ 32) : WF (ofScalars xs d) :=
  ⟨by simp [ofScalars], by simp [ofScalars], by simp [ofScalars], by simpa [ofScalars] using hn⟩

@[simp] theorem scalars_ofScalars (xs : List α) (d : Nat) : scalars (ofScalars xs d) = xs := by
  simp [scalars, ofScalars]

theorem chunk_one {l : List α} {i : Nat} (h : i < l.length) : chunk 1 l i = [l[i]] := by
  unfold chunk
  rw [Nat.mul_one, List.drop_eq_getElem_cons h]; rfl

/-- The items of a scalar Serie are its numbers, each in a list of its own. -/
theorem items_scalar {s : Serie α} (h1 : s.itemSize = 1) (h : s.count ≤ s.data.length) :
    items s = (scalars s).map (fun x => [x]) := by
  apply List.ext_getElem
  · simp [scalars]; omega
  · intro i hi hi'
    simp [scalars] at hi'
    rw [items_getElem, h1, chunk_one (by omega)]
    simp [scalars]

theorem WF.scalars_length {s : Serie α} (h : WF s) : (scalars s).length = s.count := by
  have := h.count_le
  simp [scalars]; omega

theorem chunks_flatten (k : Nat) (l : List α) (n : Nat) :
    ((List.range n).map (chunk k l)).flatten = l.take (n * k) := by
  induction n with
  | zero => simp
  | succ n ih =>
    rw [List.range_succ, List.map_append, List.flatten_append, ih]
    simp [chunk, Nat.succ_mul, List.take_add]

/-- The numbers in the items of a Serie, in order. -/
theorem items_flatten (s : Serie α) : (items s).flatten = s.data.take (s.count * s.itemSize) :=
  chunks_flatten _ _ _

/-- A well-formed Serie without trailing numbers is determined by its items. -/
theorem ofItems_items {s : Serie α} (h : s.data.length = s.count * s.itemSize) :
    ofItems s.itemSize (items s) s.dimension = s := by
  cases s with
  | mk d c k dim =>
    simp only [ofItems, items_length, Serie.mk.injEq, and_true]
    rw [items_flatten]
    exact List.take_of_length_le (Nat.le_of_eq h)

end Spec

/-- A Serie of `n` items of which the first ones are `done` and the others still zero. -/
def partialS [Zero α] (k n d : Nat) (done : List (List α)) : Serie α :=
  { data := done.flatten ++ List.replicate ((n - done.length) * k) 0, count := n, itemSize := k,
    dimension := d }

/-- A scalar Serie of `n` numbers of which the first ones are `done` and the others still zero. -/
def partialD [Zero α] (n d : Nat) (done : List α) : Serie α :=
  { data := done ++ List.replicate (n - done.length) 0, count := n, itemSize := 1, dimension := d }

section

variable [Zero α]

theorem zeros_eq_partialS {k n d : Nat} (h : n * k < 2 ^ 32) :
    (Serie.zeros k n d : Serie α) = partialS k n d [] := by
  simp [Serie.zeros, partialS, u32_of_lt h]

theorem zeros_eq_partialD {n d : Nat} (h : n < 2 ^ 32) :
    (Serie.zeros 1 n d : Serie α) = partialD n d [] := by
  simp [Serie.zeros, partialD, u32_of_lt h]

theorem partialS_done {k d : Nat} (its : List (List α)) :
    partialS k its.length d its = ofItems k its d := by
  simp [partialS, ofItems]

theorem partialD_done {d : Nat} (xs : List α) : partialD xs.length d xs = ofScalars xs d := by
  simp [partialD, ofScalars]

theorem partialS_data_length {k n d : Nat} {done : List (List α)} (hd : ∀ v ∈ done, v.length = k)
    (hn : done.length ≤ n) : (partialS k n d done).data.length = n * k := by
  simp only [partialS, List.length_append, List.length_replicate]
  rw [flatten_length hd, ← Nat.add_mul]; congr 1; omega

theorem WF_partialS {k n d : Nat} {done : List (List α)} (hk : 0 < k) (hk' : k < 2 ^ 31)
    (hd : ∀ v ∈ done, v.length = k) (hn : done.length ≤ n) (hs : n * k < 2 ^ 32) :
    WF (partialS k n d done) := by
  have := partialS_data_length (d := d) hd hn
  exact ⟨hk, hk', by rw [this]; simp [partialS], by rw [this]; exact hs⟩

theorem putA_partialS {k n d : Nat} {done : List (List α)} {v : List α} (hk : 0 < k) (hk' : k < 2 ^ 31)
    (hd : ∀ v ∈ done, v.length = k) (hn : done.length < n) (hs : n * k < 2 ^ 32) (hv : v.length = k) :
    (partialS k n d done).putA done.length v = .ok (partialS k n d (done ++ [v])) := by
  rw [Serie.putA_eq (WF_partialS hk hk' hd (by omega) hs) hn hv]
  congr 1
  have hlen := flatten_length hd
  simp only [partialS, splice, hv, List.flatten_append, List.length_append, List.flatten_cons,
    List.flatten_nil, List.append_nil, List.length_cons, List.length_nil, Serie.mk.injEq, and_true]
  rw [List.take_append_of_le_length (by omega), List.take_of_length_le (by omega),
    List.append_assoc, List.append_assoc]
  congr 2
  rw [List.drop_append, List.drop_of_length_le (by omega), List.nil_append, List.drop_replicate]
  congr 1
  rw [hlen, show n - done.length = (n - (done.length + (0 + 1))) + 1 by omega, Nat.succ_mul]
  omega

theorem putD_partialD {n d : Nat} {done : List α} {x : α} (hn : done.length < n) :
    (partialD n d done).putD done.length x = .ok (partialD n d (done ++ [x])) := by
  rw [Serie.putD_eq (by simp [partialD]; omega)]
  congr 1
  simp only [partialD, Serie.mk.injEq, and_true]
  rw [List.set_append_right _ _ (Nat.le_refl _), Nat.sub_self,
    show n - done.length = (n - (done ++ [x]).length) + 1 by simp; omega, List.replicate_succ]
  simp

/-- Filling a fresh Serie item after item. -/
theorem forLoop_putA {k d : Nat} {g : Nat → Res (List α)} (hk : 0 < k) (hk' : k < 2 ^ 31)
    (its : List (List α)) (hd : ∀ v ∈ its, v.length = k) (hs : its.length * k < 2 ^ 32)
    (hg : ∀ i (hi : i < its.length), g i = .ok its[i]) :
    forLoop (fun i (r : Serie α) => g i >>= fun v => r.putA i v) 0 its.length
      (Serie.zeros k its.length d) = .ok (ofItems k its d) := by
  rw [zeros_eq_partialS hs]
  have := forLoop_exact (m := Res) (f := fun i (r : Serie α) => g i >>= fun v => r.putA i v)
    (fun i => partialS k its.length d (its.take i)) its.length 0 ?_
  · rw [show partialS k its.length d (its.take 0) = partialS k its.length d [] by simp] at this
    rw [this]
    simp [partialS_done]
  · intro i _ hi
    have hi' : i < its.length := by omega
    have hl : (its.take i).length = i := by simp; omega
    rw [hg i hi', Res.ok_bind]
    have := putA_partialS (d := d) (n := its.length) (done := its.take i) (v := its[i]) hk hk'
      (fun v hv => hd v (List.mem_of_mem_take hv)) (by omega) hs (hd _ (List.getElem_mem _))
    rw [hl] at this
    rw [this, List.take_add_one, List.getElem?_eq_getElem hi']
    rfl

/-- Filling a fresh scalar Serie number after number. -/
theorem forLoop_putD {d : Nat} {g : Nat → Res α} (xs : List α) (hs : xs.length < 2 ^ 32)
    (hg : ∀ i (hi : i < xs.length), g i = .ok xs[i]) :
    forLoop (fun i (r : Serie α) => g i >>= fun v => r.putD i v) 0 xs.length
      (Serie.zeros 1 xs.length d) = .ok (ofScalars xs d) := by
  rw [zeros_eq_partialD hs]
  have := forLoop_exact (m := Res) (f := fun i (r : Serie α) => g i >>= fun v => r.putD i v)
    (fun i => partialD xs.length d (xs.take i)) xs.length 0 ?_
  · rw [show partialD xs.length d (xs.take 0) = partialD xs.length d [] by simp] at this
    rw [this]
    simp [partialD_done]
  · intro i _ hi
    have hi' : i < xs.length := by omega
    have hl : (xs.take i).length = i := by simp; omega
    rw [hg i hi', Res.ok_bind]
    have := putD_partialD (d := d) (n := xs.length) (done := xs.take i) (x := xs[i]) (by omega)
    rw [hl] at this
    rw [this, List.take_add_one, List.getElem?_eq_getElem hi']
    rfl

end

end DF
