import Verif.Spec.Dataframe
import Verif.Lemmas.Serie
import Mathlib.Tactic.Tauto

/-! # Lemmas on Dataframe -/

namespace DF

open Spec

variable {α β : Type}

theorem mapFind_modify (name x : String) (f : β → β) (l : List (String × β)) :
    mapFind x (mapModify name f l) = if x = name then (mapFind x l).map f else mapFind x l := by
  induction l with
  | nil => simp [mapModify, mapFind]
  | cons p l ih =>
    obtain ⟨n, b⟩ := p
    simp only [mapModify, List.map_cons] at ih ⊢
    by_cases h : n = name
    · subst h
      simp only [if_true, mapFind]
      by_cases hx : n = x
      · simp [hx]
      · rw [if_neg hx, if_neg hx, ih]
    · rw [if_neg h]
      simp only [mapFind]
      by_cases hx : n = x
      · subst hx; simp [h]
      · rw [if_neg hx, if_neg hx, ih]

theorem mapModify_keys (name : String) (f : β → β) (l : List (String × β)) :
    (mapModify name f l).map (·.1) = l.map (·.1) := by
  simp only [mapModify, List.map_map]
  apply List.map_congr_left
  intro p _
  simp only [Function.comp]
  split <;> rfl

/-- Names in strictly increasing order. -/
def Sorted (l : List (String × β)) : Prop := (l.map (·.1)).Pairwise (· < ·)

theorem mapTouch_mem {d : β} {name : String} {l : List (String × β)} {x : String} :
    x ∈ (mapTouch d name l).map (·.1) ↔ x = name ∨ x ∈ l.map (·.1) := by
  induction l with
  | nil => simp [mapTouch]
  | cons p l ih =>
    obtain ⟨n, b⟩ := p
    simp only [mapTouch]
    split
    · simp
    · split
      · rename_i h; subst h; simp
      · rw [List.map_cons, List.mem_cons, ih]
        simp only [List.map_cons, List.mem_cons]
        tauto

theorem Sorted.touch {d : β} {name : String} {l : List (String × β)} (h : Sorted l) :
    Sorted (mapTouch d name l) := by
  induction l with
  | nil => simp [Sorted, mapTouch]
  | cons p l ih =>
    obtain ⟨n, b⟩ := p
    simp only [mapTouch]
    have h' := h
    unfold Sorted at h
    rw [List.map_cons, List.pairwise_cons] at h
    split
    · rename_i hlt
      unfold Sorted
      rw [List.map_cons, List.map_cons, List.pairwise_cons, List.pairwise_cons]
      refine ⟨?_, h⟩
      intro x hx
      rcases List.mem_cons.1 hx with rfl | hx
      · exact hlt
      · exact lt_trans hlt (h.1 x hx)
    · split
      · exact h'
      · rename_i h1 h2
        unfold Sorted
        rw [List.map_cons, List.pairwise_cons]
        refine ⟨?_, ih h.2⟩
        intro x hx
        rcases mapTouch_mem.1 hx with rfl | hx
        · exact lt_of_le_of_ne (not_lt.1 h1) (fun e => h2 e.symm)
        · exact h.1 x hx

theorem mapFind_isSome {x : String} {l : List (String × β)} :
    (mapFind x l).isSome ↔ x ∈ l.map (·.1) := by
  induction l with
  | nil => simp [mapFind]
  | cons p l ih =>
    obtain ⟨n, b⟩ := p
    simp only [mapFind, List.map_cons, List.mem_cons]
    split
    · rename_i h; simp [h]
    · rename_i h
      rw [ih]
      constructor
      · exact .inr
      · rintro (h' | h')
        · exact absurd h'.symm h
        · exact h'

theorem mapFind_none {x : String} {l : List (String × β)} (h : x ∉ l.map (·.1)) : mapFind x l = none := by
  rw [← mapFind_isSome] at h
  simpa using h

theorem mapFind_touch {d : β} {name x : String} {l : List (String × β)} (h : Sorted l) :
    mapFind x (mapTouch d name l) = if x = name then some ((mapFind name l).getD d) else mapFind x l := by
  induction l with
  | nil =>
    simp only [mapTouch, mapFind]
    by_cases e : name = x
    · simp [e]
    · rw [if_neg e, if_neg (fun h => e h.symm)]
  | cons p l ih =>
    obtain ⟨n, b⟩ := p
    unfold Sorted at h
    rw [List.map_cons, List.pairwise_cons] at h
    simp only [mapTouch]
    split
    · rename_i hlt
      have hn : mapFind name ((n, b) :: l) = none := by
        apply mapFind_none
        rw [List.map_cons, List.mem_cons]
        rintro (e | e)
        · rw [e] at hlt; exact lt_irrefl _ hlt
        · exact lt_irrefl _ (lt_trans hlt (h.1 _ e))
      by_cases e : x = name
      · subst e; rw [if_pos rfl, hn]; simp [mapFind]
      · rw [if_neg e, mapFind, if_neg (fun h => e h.symm)]
    · split
      · rename_i h1 h2
        subst h2
        by_cases e : x = name
        · subst e; simp [mapFind]
        · rw [if_neg e]
      · rename_i h1 h2
        by_cases e : x = name
        · subst e
          simp only [if_true]
          rw [mapFind, if_neg (fun h => h2 h.symm), ih h.2, if_pos rfl, mapFind, if_neg (fun h => h2 h.symm)]
        · rw [if_neg e, mapFind, mapFind, ih h.2, if_neg e]

theorem mapFind_filter {name x : String} (l : List (String × β)) :
    mapFind x (l.filter (fun p => p.1 ≠ name)) = if x = name then none else mapFind x l := by
  induction l with
  | nil => simp [mapFind]
  | cons p l ih =>
    obtain ⟨n, b⟩ := p
    rw [List.filter_cons]
    by_cases h : n = name
    · subst h
      simp only [ne_eq, not_true_eq_false, decide_false, Bool.false_eq_true, if_false]
      simp only [ne_eq] at ih
      rw [ih]
      by_cases e : x = n
      · simp [e]
      · rw [if_neg e, if_neg e, mapFind, if_neg (fun h => e h.symm)]
    · simp only [ne_eq, h, not_false_eq_true, decide_true, if_true]
      simp only [ne_eq] at ih
      rw [mapFind, mapFind, ih]
      by_cases e : n = x
      · subst e; simp [h]
      · rw [if_neg e, if_neg e]

theorem mapFind_mapVal {γ : Type} (f : β → γ) (x : String) (l : List (String × β)) :
    mapFind x (l.map (fun p => (p.1, f p.2))) = (mapFind x l).map f := by
  induction l with
  | nil => rfl
  | cons p l ih =>
    simp only [List.map_cons, mapFind]
    split
    · rfl
    · exact ih

/-- The Dataframe represents the abstract one. -/
structure Represents (d : Dataframe α) (a : AbsFrame α) : Prop where
  count : d.count = a.count
  sorted : Sorted d.series
  find : ∀ n, mapFind n d.series = a.map n
  dim : ∀ n s, a.map n = some s → s.dimension = 3

theorem assign_snd [Zero α] (s old : Serie α) (h : old.dimension = 3) : (Serie.assign s old).2 = kept s := by
  simp [Serie.assign, kept, h]

theorem Represents.add [Zero α] {d : Dataframe α} {a : AbsFrame α} (h : Represents d a) (n : String) (s : Serie α) :
    Represents (d.add n s) ⟨if a.count = 0 then s.count else a.count, put a.map n (some (kept s))⟩ := by
  have hdim : ((a.map n).getD Serie.empty).dimension = 3 := by
    rcases e : a.map n with _ | t
    · rfl
    · exact h.dim n t e
  refine ⟨by simp only [Dataframe.add, h.count], ?_, ?_, ?_⟩
  · simp only [Dataframe.add, Sorted, mapModify_keys]
    exact h.sorted.touch
  · intro x
    simp only [Dataframe.add]
    rw [mapFind_modify, mapFind_touch h.sorted]
    simp only [put]
    by_cases e : x = n
    · subst e
      simp only [if_true, Option.map_some, h.find]
      rw [assign_snd _ _ hdim]
    · simp only [if_neg e, h.find]
  · intro x t ht
    simp only [put] at ht
    split at ht
    · simp at ht; subst ht; rfl
    · exact h.dim x t ht

theorem Represents.touch [Zero α] {d : Dataframe α} {a : AbsFrame α} (h : Represents d a) (n : String) :
    Represents (d.access n).2 (a.step (.access n)) := by
  have hs : Sorted (mapTouch (Serie.empty : Serie α) n d.series) := h.sorted.touch
  rcases e : a.map n with _ | t
  · simp only [AbsFrame.step, e]
    refine ⟨h.count, hs, ?_, ?_⟩
    · intro x
      simp only [Dataframe.access]
      rw [mapFind_touch h.sorted, h.find, h.find, e]
      rfl
    · intro x t ht
      simp only [put] at ht
      split at ht
      · simp at ht; subst ht; rfl
      · exact h.dim x t ht
  · simp only [AbsFrame.step, e]
    refine ⟨h.count, hs, ?_, h.dim⟩
    intro x
    simp only [Dataframe.access]
    rw [mapFind_touch h.sorted, h.find, h.find, e]
    split
    · rename_i hx; subst hx; rw [e]; rfl
    · rfl

theorem Represents.step [Zero α] {d : Dataframe α} {a : AbsFrame α} (h : Represents d a) (op : DOp α) :
    Represents (op.run d) (a.step op) := by
  cases op with
  | add n s => exact h.add n s
  | set n s => exact h.add n s
  | create n k c => exact h.add n (Serie.zeros k c)
  | del n =>
    simp only [DOp.run, Dataframe.del, AbsFrame.step]
    have hfind : ∀ x, mapFind x (d.series.filter (fun p => p.1 ≠ n)) = put a.map n none x := by
      intro x; rw [mapFind_filter, h.find]; rfl
    have hdim : ∀ x s, put a.map n none x = some s → s.dimension = 3 := by
      intro x s hs
      simp only [put] at hs
      split at hs
      · simp at hs
      · exact h.dim x s hs
    rcases e : mapFind n d.series with _ | t
    · refine ⟨h.count, h.sorted, ?_, hdim⟩
      intro x
      simp only [put]
      split
      · rename_i hx; rw [hx, e]
      · exact h.find x
    · refine ⟨h.count, ?_, hfind, hdim⟩
      exact List.Pairwise.sublist (List.Sublist.map _ List.filter_sublist) h.sorted
  | clear => exact ⟨h.count, by simp [Sorted, DOp.run, Dataframe.clear], fun _ => rfl, fun _ _ hs => by simp [AbsFrame.step] at hs⟩
  | setCount c =>
    simp only [DOp.run, Dataframe.setCount, AbsFrame.step, h.count]
    by_cases hc : 0 < c ∧ c ≠ a.count
    · rw [if_pos hc, if_pos ⟨fun e => hc.2 e.symm, hc.1⟩]
      refine ⟨rfl, ?_, ?_, ?_⟩
      · have := h.sorted
        simp only [Sorted, List.map_map] at this ⊢
        exact this
      · intro x
        refine (mapFind_mapVal (fun s : Serie α => (Serie.reCount c s).2) x d.series).trans ?_
        rw [h.find]
        show _ = Option.map (fun s => zeroSerie s.itemSize c) (a.map x)
        rcases e : a.map x with _ | s
        · rfl
        · simp [Serie.reCount, zeroSerie, u32, h.dim x s e]
      · intro x s hs
        simp only [Option.map_eq_some_iff] at hs
        obtain ⟨t, _, rfl⟩ := hs
        rfl
    · rw [if_neg hc, if_neg (fun hh => hc ⟨hh.2, fun e => hh.1 e.symm⟩)]
      exact h
  | access n => exact h.touch n
  | modify n f =>
    have ht := h.sorted.touch (d := (Serie.empty : Serie α)) (name := n)
    have key : ∀ s, (s.dimension = 3) → ∀ t, t = kept (f s) →
        (mapFind n (mapTouch Serie.empty n d.series) = some s) →
        Represents (d.modify n f) ⟨a.count, put a.map n (some t)⟩ := by
      rintro s hs t rfl hf
      refine ⟨h.count, ?_, ?_, ?_⟩
      · simp only [Dataframe.modify, Sorted, mapModify_keys]; exact ht
      · intro x
        simp only [Dataframe.modify]
        rw [mapFind_modify]
        simp only [put]
        by_cases e : x = n
        · subst e; simp only [if_true, hf, Option.map_some, kept, hs]
        · rw [if_neg e, if_neg e, mapFind_touch h.sorted, if_neg e, h.find]
      · intro x t ht
        simp only [put] at ht
        split at ht
        · simp at ht; subst ht; rfl
        · exact h.dim x t ht
    simp only [DOp.run, AbsFrame.step]
    rcases e : a.map n with _ | s
    · refine key (zeroSerie 0 0) rfl _ rfl ?_
      rw [mapFind_touch h.sorted, if_pos rfl, h.find, e]; rfl
    · refine key s (h.dim n s e) _ rfl ?_
      rw [mapFind_touch h.sorted, if_pos rfl, h.find, e]; rfl

theorem Represents.history [Zero α] (count : Nat) (ops : List (DOp α)) :
    Represents (Dataframe.history count ops) (AbsFrame.history count ops) := by
  unfold Dataframe.history AbsFrame.history
  have h0 : Represents (Dataframe.make count : Dataframe α) ⟨count, fun _ => none⟩ :=
    ⟨rfl, by simp [Sorted, Dataframe.make], fun _ => rfl, fun _ _ h => by simp at h⟩
  generalize (Dataframe.make count : Dataframe α) = d at h0
  generalize (⟨count, fun _ => none⟩ : AbsFrame α) = a at h0
  induction ops generalizing d a with
  | nil => exact h0
  | cons op ops ih => exact ih _ _ (h0.step op)

end DF
