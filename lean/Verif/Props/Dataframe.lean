import Verif.Lemmas.Dataframe
import Verif.Props.Serie

/-!
# Properties of Dataframe (C30-C33, C74)
-/

namespace DF

open Spec

variable {α : Type}

/-! ## C30 -/

/-- C30: after any sequence of operations the Dataframe answers as the abstract map after the same sequence:
`contains`, `get` through the const interface (an invalid Serie for a missing name), and iteration, which visits each
name of the map once, in increasing order, with its Serie. -/
theorem C30_refines_map [Zero α] (count : Nat) (ops : List (DOp α)) :
    let d := Dataframe.history count ops
    let m := (AbsFrame.history count ops).map
    (∀ n, d.contains n = (m n).isSome) ∧
    (∀ n s, m n = some s → d.get n = s) ∧
    (∀ n, m n = none → (d.get n).isValid = false ∧ (d.get n).count = 0 ∧ (d.get n).data = []) ∧
    (d.series.map (·.1)).Pairwise (· < ·) ∧
    (∀ n s, (n, s) ∈ d.series ↔ m n = some s) := by
  have h := Represents.history count ops
  refine ⟨fun n => ?_, fun n s e => ?_, fun n e => ?_, h.sorted, fun n s => ?_⟩
  · simp only [Dataframe.contains, h.find]
  · simp only [Dataframe.get, h.find, e]; rfl
  · have : (Dataframe.history count ops).get n = Serie.empty := by
      simp only [Dataframe.get, h.find, e]; rfl
    rw [this]
    exact ⟨rfl, rfl, rfl⟩
  · rw [← h.find]
    have hs := h.sorted
    generalize (Dataframe.history count ops).series = l at hs
    induction l with
    | nil => simp [mapFind]
    | cons p l ih =>
      obtain ⟨k, b⟩ := p
      unfold Sorted at hs
      rw [List.map_cons, List.pairwise_cons] at hs
      have ih := ih hs.2
      rw [List.mem_cons, mapFind]
      by_cases e : k = n
      · subst e
        rw [if_pos rfl]
        constructor
        · rintro (h | h)
          · simp at h; rw [h]
          · exact absurd (hs.1 k (List.mem_map_of_mem (f := (·.1)) h)) (lt_irrefl _)
        · intro h; simp at h; left; rw [h]
      · rw [if_neg e]
        constructor
        · rintro (h | h)
          · simp at h; exact absurd h.1.symm e
          · exact ih.1 h
        · exact fun h => .inr (ih.2 h)

/-- C30: operations on one name do not affect the others, `add` replaces and `del` removes. -/
theorem C30_frame [Zero α] (count : Nat) (ops : List (DOp α)) (n : String) :
    let d := Dataframe.history count ops
    (∀ s x, x ≠ n → (d.add n s).contains x = d.contains x ∧ (d.add n s).get x = d.get x) ∧
    (∀ s, (d.add n s).contains n = true ∧ (d.add n s).get n = { s with dimension := 3 }) ∧
    (∀ x, x ≠ n → (d.del n).contains x = d.contains x ∧ (d.del n).get x = d.get x) ∧
    (d.del n).contains n = false := by
  have h := Represents.history count ops
  intro d
  refine ⟨fun s x hx => ?_, fun s => ?_, fun x hx => ?_, ?_⟩
  · have h2 := h.add n s
    have e := h2.find x
    simp only [put, if_neg hx] at e
    have := h.find x
    simp only [Dataframe.contains, Dataframe.get, d, e, this]; trivial
  · have h2 := h.add n s
    have e := h2.find n
    simp only [put, if_true] at e
    simp only [Dataframe.contains, Dataframe.get, d, e]; exact ⟨rfl, rfl⟩
  · have h2 := h.step (.del n)
    have e := h2.find x
    simp only [DOp.run, AbsFrame.step, put, if_neg hx] at e
    have := h.find x
    simp only [Dataframe.contains, Dataframe.get, d, e, this]; trivial
  · have h2 := h.step (.del n)
    have e := h2.find n
    simp only [DOp.run, AbsFrame.step, put, if_true] at e
    simp only [Dataframe.contains, d, e]; rfl

/-- A concrete history. -/
example : (Dataframe.history 0 [.add "b" ex23, .add "a" ex41, .create "c" 2 1, .del "b", .add "b" ex41, .del "c"]).series
    = [("a", ex41), ("b", ex41)] := by decide +kernel

/-! ## C31 -/

/-- C31 is violated: reading a missing name through the non-const interface makes the Dataframe contain it. -/
theorem C31_lookup_violated (count : Nat) (n : String) :
    let d : Dataframe Int := Dataframe.history count []
    d.contains n = false ∧ (d.access n).2.contains n = true := by
  refine ⟨rfl, ?_⟩
  simp [Dataframe.history, Dataframe.make, Dataframe.access, Dataframe.contains, mapTouch, mapFind]

/-- C31, what holds: reading a name that is present, const or not, gives the same Serie and changes nothing; reading a
missing name through the non-const interface adds an invalid Serie under that name and changes nothing else. (The const
functions have no way to change the Dataframe.) -/
theorem C31_lookup_partial [Zero α] (count : Nat) (ops : List (DOp α)) (n : String) :
    let d := Dataframe.history count ops
    (d.access n).1 = d.get n ∧
    (d.contains n = true → (d.access n).2 = d) ∧
    (d.contains n = false → (d.access n).1.isValid = false ∧ (d.access n).2.contains n = true ∧
      (d.access n).2.count = d.count) ∧
    (∀ x, x ≠ n → (d.access n).2.contains x = d.contains x) ∧ (∀ x, (d.access n).2.get x = d.get x) := by
  have h := Represents.history count ops
  intro d
  have hf : ∀ x, mapFind x (d.access n).2.series =
      if x = n then some ((mapFind n d.series).getD Serie.empty) else mapFind x d.series :=
    fun x => mapFind_touch h.sorted
  have h1 : (d.access n).1 = d.get n := by
    show (mapFind n (d.access n).2.series).getD Serie.empty = _
    rw [hf, if_pos rfl]; rfl
  refine ⟨h1, fun hc => ?_, fun hc => ⟨?_, ?_, rfl⟩, fun x hx => ?_, fun x => ?_⟩
  · show (⟨d.count, mapTouch Serie.empty n d.series⟩ : Dataframe α) = d
    have : ∀ l : List (String × Serie α), Sorted l → (mapFind n l).isSome → mapTouch Serie.empty n l = l := by
      intro l hl hm
      induction l with
      | nil => simp [mapFind] at hm
      | cons p l ih =>
        obtain ⟨k, b⟩ := p
        unfold Sorted at hl
        rw [List.map_cons, List.pairwise_cons] at hl
        rw [mapFind_isSome, List.map_cons, List.mem_cons] at hm
        rw [mapTouch]
        rcases hm with e | hm
        · rw [if_neg (by rw [e]; exact lt_irrefl _), if_pos e]
        · have := hl.1 n hm
          rw [if_neg (lt_asymm this), if_neg (fun e => by rw [e] at this; exact lt_irrefl _ this),
            ih hl.2 (mapFind_isSome.2 hm)]
    rw [this _ h.sorted hc]
  · have : mapFind n d.series = none := by simpa [Dataframe.contains] using hc
    rw [h1, Dataframe.get, this]; rfl
  · rw [Dataframe.contains, hf, if_pos rfl]; rfl
  · rw [Dataframe.contains, hf, if_neg hx]; rfl
  · rw [Dataframe.get, hf]
    split
    · rename_i e; subst e; rfl
    · rfl

/-! ## C32 -/

/-- C32 is violated: the dimension is not stored. -/
theorem C32_dimension_violated (count : Nat) (ops : List (DOp Int)) (n : String) :
    WF exTail ∧ exTail.dimension = 2 ∧
    (((Dataframe.history count ops).add n exTail).get n).dimension = 3 := by
  refine ⟨exTail_WF, rfl, ?_⟩
  have := ((C30_frame count ops n).2.1 exTail).2
  rw [this]

/-- C32, what holds: `get(name)` after `add(name, s)` has the numbers, count and item size of `s`; it equals `s` exactly
when the dimension of `s` is 3. -/
theorem C32_stores_partial [Zero α] (count : Nat) (ops : List (DOp α)) (n : String) (s : Serie α) :
    let r := ((Dataframe.history count ops).add n s).get n
    r.data = s.data ∧ r.count = s.count ∧ r.itemSize = s.itemSize ∧ (r = s ↔ s.dimension = 3) := by
  have := ((C30_frame count ops n).2.1 s).2
  intro r
  have e : r = { s with dimension := 3 } := this
  rw [e]
  refine ⟨rfl, rfl, rfl, ?_⟩
  constructor
  · intro h; rw [← h]
  · intro h; cases s; simp_all

example : ex23.dimension = 3 ∧ ((Dataframe.history 7 [.add "x" ex41]).add "x" ex23).get "x" = ex23 := by decide +kernel

/-! ## C33 -/

/-- C33: `setCount(c)`, with `c > 0` other than the current count, keeps the names and makes every stored Serie hold
`c` items of zeros of its item size; otherwise it changes nothing. The current count is the one given at construction or
by the last effective `setCount`, or the count of the first Serie added while it was 0 (`AbsFrame.step`). -/
theorem C33_setCount [Zero α] (count : Nat) (ops : List (DOp α)) (c : Nat) :
    let d := Dataframe.history count ops
    let cur := (AbsFrame.history count ops).count
    (0 < c → c ≠ cur →
      (∀ n, (d.setCount c).contains n = d.contains n) ∧
      (∀ n, d.contains n = true → ((d.setCount c).get n).itemSize = (d.get n).itemSize ∧
        ((d.setCount c).get n).count = c ∧
        ((d.get n).itemSize * c < 2 ^ 32 →
          ((d.setCount c).get n).data = List.replicate (c * (d.get n).itemSize) 0))) ∧
    (c = 0 ∨ c = cur → d.setCount c = d) := by
  have h := Represents.history count ops
  intro d cur
  refine ⟨fun h0 hne => ?_, fun hh => ?_⟩
  · have h2 := h.step (.setCount c)
    rw [AbsFrame.step, if_pos ⟨h0, hne⟩] at h2
    have hf : ∀ n, mapFind n (d.setCount c).series =
        ((AbsFrame.history count ops).map n).map (fun s => zeroSerie s.itemSize c) := h2.find
    refine ⟨fun n => ?_, fun n hc => ?_⟩
    · simp only [Dataframe.contains, hf]
      have := h.find n
      simp only [d, this, Option.isSome_map]
    · have e := h.find n
      simp only [Dataframe.contains, d, e] at hc
      obtain ⟨s, hs⟩ := Option.isSome_iff_exists.1 hc
      have e1 : d.get n = s := by simp only [Dataframe.get, d, e, hs]; rfl
      have e2 : (d.setCount c).get n = zeroSerie s.itemSize c := by simp only [Dataframe.get, hf, hs]; rfl
      rw [e1, e2]
      refine ⟨rfl, rfl, fun hlt => ?_⟩
      simp only [zeroSerie]
      rw [Nat.mod_eq_of_lt (by rw [Nat.mul_comm]; exact hlt)]
  · simp only [Dataframe.setCount, d]
    rw [if_neg]
    rw [h.count]
    rintro ⟨h1, h2⟩
    rcases hh with rfl | rfl
    · omega
    · exact h1 rfl

/-- The count is fixed by the first Serie added to an empty Dataframe. -/
example : (AbsFrame.history 0 [.add "a" ex23, .add "b" ex41]).count = 2 ∧
    ((Dataframe.history 0 [.add "a" ex23, .add "b" ex41]).setCount 5).series =
      [("a", zeroSerie 3 5), ("b", zeroSerie 1 5)] := by decide +kernel

/-! ## C74 -/

/-- C74 is violated for the empty name: a Serie stored under `""` is reported as absent. -/
theorem C74_empty_name_violated :
    ∃ d : Dataframe Int, d = Dataframe.history 0 [.add "" ex23] ∧ d.contains "" = true ∧
      d.containsSerie (.stored "") = false := ⟨_, rfl, by decide +kernel, by decide +kernel⟩

/-- C74, what holds: for every history, `contains(serie)` of a Serie stored under a non-empty name is true and
`nameOfSerie` gives that name; of a Serie that is not stored it is false and the name is empty. -/
theorem C74_contains_serie_partial [Zero α] (count : Nat) (ops : List (DOp α)) :
    let d := Dataframe.history count ops
    (∀ n, d.contains n = true → d.nameOfSerie (.stored n) = n ∧ (n ≠ "" → d.containsSerie (.stored n) = true)) ∧
    d.nameOfSerie .elsewhere = "" ∧ d.containsSerie .elsewhere = false := by
  intro d
  have he : d.nameOfSerie .elsewhere = "" := by
    unfold Dataframe.nameOfSerie
    rw [List.find?_eq_none.2 (by intro x _; simp)]
  refine ⟨fun n hn => ?_, he, by simp [Dataframe.containsSerie, he]⟩
  have hname : d.nameOfSerie (.stored n) = n := by
    unfold Dataframe.nameOfSerie
    rw [Dataframe.contains, mapFind_isSome, List.mem_map] at hn
    obtain ⟨p, hp, rfl⟩ := hn
    split
    · rename_i q e
      have := List.find?_some e
      simpa using this
    · rename_i e
      rw [List.find?_eq_none] at e
      exact absurd (by simp) (e p hp)
  refine ⟨hname, fun hne => ?_⟩
  rw [Dataframe.containsSerie, hname, if_neg]
  intro h
  exact hne (String.length_eq_zero_iff.1 h)

end DF
