import Verif.Spec.Flow
import Verif.Lemmas.Dataframe

/-!
# Computations on the Series of a Dataframe
-/

namespace DF

open Spec

variable {α β : Type}

theorem Sorted.ext : ∀ {l l' : List (String × β)}, Sorted l → Sorted l' → (∀ n, mapFind n l = mapFind n l') → l = l'
  | [], [], _, _, _ => rfl
  | [], (m, b) :: l', _, _, h => by
    have := h m
    simp [mapFind] at this
  | (m, b) :: l, [], _, _, h => by
    have := h m
    simp [mapFind] at this
  | (m, b) :: l, (m', b') :: l', hs, hs', h => by
    have h1 := List.pairwise_cons.1 hs
    have h2 := List.pairwise_cons.1 hs'
    have e : m = m' := by
      rcases lt_trichotomy m m' with hlt | e | hlt
      · have := h m
        rw [mapFind, if_pos rfl, mapFind, if_neg hlt.ne', mapFind_none fun hm => lt_asymm hlt (h2.1 m hm)] at this
        cases this
      · exact e
      · have := h m'
        rw [mapFind, if_neg hlt.ne', mapFind, if_pos rfl, mapFind_none fun hm => lt_asymm hlt (h1.1 m' hm)] at this
        cases this
    subst e
    have e : b = b' := by
      have := h m
      rw [mapFind, if_pos rfl, mapFind, if_pos rfl] at this
      exact Option.some.inj this
    subst e
    rw [Sorted.ext h1.2 h2.2 fun n => ?_]
    have := h n
    rw [mapFind, mapFind] at this
    split at this
    · rename_i hn
      subst hn
      rw [mapFind_none fun hm => lt_irrefl _ (h1.1 m hm), mapFind_none fun hm => lt_irrefl _ (h2.1 m hm)]
    · exact this

theorem Represents.unique {d d' : Dataframe α} {a : AbsFrame α} (h : Represents d a) (h' : Represents d' a) : d = d' := by
  cases d
  cases d'
  congr 1
  · exact h.count.trans h'.count.symm
  · exact Sorted.ext h.sorted h'.sorted fun n => (h.find n).trans (h'.find n).symm

variable [Zero α]

/-- What a name gives. -/
def valueAt (a : AbsFrame α) (n : String) : Serie α := (a.map n).getD Serie.empty

/-- The Dataframe after the names have been looked up. -/
def touched (inserts : Bool) (ns : List String) (a : AbsFrame α) : AbsFrame α :=
  ⟨a.count, fun n => if inserts = true ∧ n ∈ ns then some (valueAt a n) else a.map n⟩

/-- The Dataframe after a step with result `t`. -/
def after (c : Calc α) (a : AbsFrame α) (t : Serie α) : AbsFrame α :=
  ⟨if a.count = 0 then t.count else a.count, put (touched c.inserts c.ins a).map c.out (some (kept t))⟩

theorem valueAt_touched (b : Bool) (ns : List String) (a : AbsFrame α) (n : String) : valueAt (touched b ns a) n = valueAt a n := by
  unfold touched
  show (if b = true ∧ n ∈ ns then some (valueAt a n) else a.map n).getD _ = _
  split <;> rfl

theorem valueAt_after (c : Calc α) (a : AbsFrame α) (t : Serie α) (n : String) :
    valueAt (after c a t) n = if n = c.out then kept t else valueAt a n := by
  show (if n = c.out then some (kept t) else (touched c.inserts c.ins a).map n).getD _ = _
  split
  · rfl
  · exact valueAt_touched _ _ _ _

theorem get_valueAt {d : Dataframe α} {a : AbsFrame α} (h : Represents d a) (n : String) : d.get n = valueAt a n := by
  unfold Dataframe.get valueAt
  rw [h.find]

theorem access_value {d : Dataframe α} {a : AbsFrame α} (h : Represents d a) (n : String) :
    (d.access n).1 = valueAt a n ∧ Represents (d.access n).2 (touched true [n] a) := by
  have ht := h.touch n
  have e : a.step (.access n) = touched true [n] a := by
    obtain ⟨c, m⟩ := a
    show (match m n with | none => AbsFrame.mk c (put m n (some (zeroSerie 0 0))) | some _ => ⟨c, m⟩) = ⟨c, fun x => if true = true ∧ x ∈ [n] then
      some ((m x).getD Serie.empty) else m x⟩
    have key : ∀ x, x ≠ n → (if true = true ∧ x ∈ [n] then some ((m x).getD Serie.empty) else m x) = m x := fun x hx => if_neg (by simp [hx])
    have key' : (if true = true ∧ n ∈ [n] then some ((m n).getD Serie.empty) else m n) = some ((m n).getD Serie.empty) := if_pos ⟨rfl, by simp⟩
    rcases hn : m n with _ | s
    · show AbsFrame.mk _ _ = _
      congr 1
      funext x
      by_cases hx : x = n
      · subst hx
        rw [key', hn, put, if_pos rfl]
        rfl
      · rw [key x hx, put, if_neg hx]
    · show AbsFrame.mk _ _ = _
      congr 1
      funext x
      by_cases hx : x = n
      · subst hx
        rw [key', hn]
        rfl
      · rw [key x hx]
  rw [e] at ht
  refine ⟨?_, ht⟩
  show (mapFind n (mapTouch Serie.empty n d.series)).getD _ = _
  rw [mapFind_touch h.sorted, if_pos rfl, h.find]
  rfl

theorem touched_cons (n : String) (ns : List String) (a : AbsFrame α) : touched true ns (touched true [n] a) = touched true (n :: ns) a := by
  show AbsFrame.mk _ _ = AbsFrame.mk _ _
  congr 1
  funext x
  rw [valueAt_touched]
  show (if _ then _ else if _ then _ else _) = _
  by_cases h1 : x ∈ ns
  · rw [if_pos ⟨rfl, h1⟩, if_pos ⟨rfl, List.mem_cons_of_mem _ h1⟩]
  · rw [if_neg (by simp [h1])]
    by_cases h2 : x = n
    · rw [if_pos ⟨rfl, by simp [h2]⟩, if_pos ⟨rfl, by simp [h2]⟩]
    · rw [if_neg (by simp [h2]), if_neg (by simp [h1, h2])]

theorem readAll_eq (b : Bool) : ∀ (ns : List String) {d : Dataframe α} {a : AbsFrame α}, Represents d a →
    (readAll b ns d).1 = ns.map (valueAt a) ∧ Represents (readAll b ns d).2 (touched b ns a)
  | [], d, a, h => by
    refine ⟨rfl, ?_⟩
    have : touched b [] a = a := by
      unfold touched
      cases a with
      | mk c m =>
        congr 1
        funext x
        rw [if_neg (by simp)]
    rw [this]
    exact h
  | n :: ns, d, a, h => by
    cases b with
    | true =>
      obtain ⟨h1, h2⟩ := access_value h n
      obtain ⟨h3, h4⟩ := readAll_eq true ns h2
      refine ⟨?_, ?_⟩
      · show (d.access n).1 :: (readAll true ns (d.access n).2).1 = _
        rw [h1, h3]
        congr 1
        exact List.map_congr_left fun x _ => valueAt_touched _ _ _ _
      · rw [← touched_cons]
        exact h4
    | false =>
      obtain ⟨h3, h4⟩ := readAll_eq false ns h
      refine ⟨?_, ?_⟩
      · show d.get n :: (readAll false ns d).1 = _
        rw [get_valueAt h, h3]
        rfl
      · have : touched false (n :: ns) a = touched false ns a := by
          unfold touched
          congr 1
        rw [this]
        exact h4

/-- What a step does. -/
theorem run_eq (c : Calc α) {d : Dataframe α} {a : AbsFrame α} (h : Represents d a) :
    (∀ t, c.F (c.ins.map (valueAt a)) = .ok t → ∃ d', c.run d = .ok d' ∧ Represents d' (after c a t)) ∧
    ∀ d', c.run d = .ok d' → ∃ t, c.F (c.ins.map (valueAt a)) = .ok t ∧ Represents d' (after c a t) := by
  obtain ⟨h1, h2⟩ := readAll_eq c.inserts c.ins h
  have hrun : c.run d = c.F (c.ins.map (valueAt a)) >>= fun t => .ok ((readAll c.inserts c.ins d).2.add c.out t) := by
    rw [← h1]; rfl
  rw [hrun]
  refine ⟨fun t ht => ⟨_, by rw [ht]; rfl, h2.add c.out t⟩, fun d' hd => ?_⟩
  cases ht : c.F (c.ins.map (valueAt a)) with
  | ok t =>
    rw [ht] at hd
    cases hd
    exact ⟨t, rfl, h2.add c.out t⟩
  | throw e => rw [ht] at hd; cases hd
  | ub => rw [ht] at hd; cases hd

theorem read_after {c c' : Calc α} (h : c.out ∉ c'.ins) (a : AbsFrame α) (t : Serie α) :
    c'.ins.map (valueAt (after c a t)) = c'.ins.map (valueAt a) :=
  List.map_congr_left fun n hn => by rw [valueAt_after, if_neg (show ¬ n = c.out from fun he => h (he ▸ hn))]

theorem after_count {c : Calc α} {a : AbsFrame α} (h : a.count ≠ 0) (t : Serie α) : (after c a t).count = a.count := if_neg h

/-- Independent steps commute. -/
theorem after_comm {c c' : Calc α} (h1 : c.out ∉ c'.ins) (h2 : c'.out ∉ c.ins) (h3 : c.out ≠ c'.out) {a : AbsFrame α} {t t' : Serie α}
    (h0 : (after c' (after c a t) t').count = (after c (after c' a t') t).count) :
    after c' (after c a t) t' = after c (after c' a t') t := by
  show AbsFrame.mk _ _ = AbsFrame.mk _ _
  congr 1
  funext x
  show (if _ then _ else if _ then _ else _) = (if _ then _ else if _ then _ else _)
  rw [valueAt_after, valueAt_after]
  show (if _ then _ else if _ then _ else (if _ then _ else if _ then _ else _)) = (if _ then _ else if _ then _ else (if _ then _ else if _ then _ else _))
  by_cases e1 : x = c.out
  · subst e1
    rw [if_neg h3, if_neg (by simp [h1]), if_pos rfl, if_pos rfl]
  · by_cases e2 : x = c'.out
    · subst e2
      rw [if_pos rfl, if_neg e1, if_neg (by simp [h2]), if_pos rfl]
    · simp only [e1, e2, if_false]
      by_cases e3 : c.inserts = true ∧ x ∈ c.ins <;> by_cases e4 : c'.inserts = true ∧ x ∈ c'.ins <;> simp [e3, e4]

end DF
