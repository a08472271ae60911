import Verif.Lemmas.Ownership

/-!
# Lifetimes of decomposers and managers (C124, C125)
-/

namespace DF

open Spec World

/-! ## C124: each decomposer is deleted once -/

/-- Two decomposers, two managers, everything destroyed at the end. -/
def exProgram : List Op :=
  [.dataframe, .new true, .new true, .new true, .make 0 [0, 2], .use 0 2, .make 0 [], .add 1 1, .destroy 0, .use 1 9, .destroy 1, .drop 0]

/-- C124: a program that uses everything between its creation and its end, hands over each decomposer once, copies no manager
and whose decomposers are of the class `Decomposer` itself is defined; only decomposers handed over are deleted. If it never
calls `clear` and its managers are all destroyed at the end, every decomposer handed over has been deleted. -/
theorem C124_once_partial {ops : List Op} (hs : Scoped 0 [] [] ops) (hp : ∀ b, Op.new b ∈ ops → b = true)
    (hc : ∀ k, Op.copy k ∉ ops) (hn : (handedBy ops).Nodup) :
    ∃ w, run ops start = .ok w ∧ (∀ p, Deleted w p → p ∈ handedBy ops) ∧
      ((∀ k, Op.clear k ∉ ops) → (∀ k ds, ¬ Has w k ds) → ∀ p ∈ handedBy ops, Deleted w p) := by
  obtain ⟨w, h1, h2, h3⟩ := good_run ops start [] ⟨by simp [start, ownedOf], by simpa [start, ownedOf] using hn,
    by simp [start], by simp [start], by simp [start]⟩ hs hp hc
  rw [List.nil_append] at h2 h3
  refine ⟨w, h1, ?_, ?_⟩
  · rintro p ⟨b, hb⟩
    have := h2.plain p _ hb
    cases b with
    | true => exact h2.dead p hb
    | false => cases this
  · intro hcl hm p hp
    rcases h3 hcl (by simp [Kept]) p hp with h | h
    · exfalso
      unfold ownedOf at h
      obtain ⟨o, ho, hpo⟩ := List.mem_flatMap.1 h
      cases o with
      | none => simp at hpo
      | some o =>
        obtain ⟨k, hk, e⟩ := List.mem_iff_getElem.1 ho
        exact hm k o.ds ⟨o.df, by rw [List.getElem?_eq_getElem hk, e]⟩
    · exact ⟨true, h⟩

example := C124_once_partial (ops := exProgram) (by simp [exProgram, Scoped]) (by simp [exProgram]) (by simp [exProgram])
  (by decide)

/-- The managers of this program are destroyed at its end. -/
example : ∃ w, run exProgram start = .ok w ∧ (∀ k ds, ¬ Has w k ds) ∧ Deleted w 0 ∧ Deleted w 1 ∧ Deleted w 2 := by
  refine ⟨⟨[⟨true, false⟩, ⟨true, false⟩, ⟨true, false⟩], [false], [none, none]⟩, by decide, ?_, ⟨true, rfl⟩, ⟨true, rfl⟩, ⟨true, rfl⟩⟩
  rintro k ds ⟨d, h⟩
  match k with
  | 0 => cases h
  | 1 => cases h
  | k + 2 => cases h

/-- C124: destroying a manager that has a decomposer of a derived class, that is any of the decomposers of the library, is
undefined behaviour. -/
theorem C124_derived_violated {w : World} {k p : Nat} {ds : List Nat} {b : Bool} (h : Has w k ds) (hp : p ∈ ds)
    (hd : w.objs[p]? = some ⟨false, b⟩) : step (.destroy k) w = .ub := by
  obtain ⟨d, h⟩ := h
  simp only [step]
  rw [owner_ok h, Res.ok_bind]
  rcases deleteAll_res ds w with ⟨w', e⟩ | e
  · have := ((deleteAll_ok e).2.1 p hp).1
    rw [hd] at this; cases this
  · rw [e]; rfl

example := C124_derived_violated (w := ⟨[⟨true, true⟩, ⟨false, true⟩], [true], [some ⟨0, [0, 1]⟩]⟩) (k := 0) (p := 1) (ds := [0, 1])
  ⟨0, rfl⟩ (by simp) rfl

/-- The example of the documentation: a manager is made with a new `Components` and destroyed. -/
example : run [.dataframe, .new false, .make 0 [0], .use 0 2, .destroy 0] start = .ub := by decide

/-- C124: when both a manager that has a decomposer and its copy are destroyed, a decomposer is deleted twice: undefined
behaviour. -/
theorem C124_copy_violated {w : World} {k : Nat} {ds : List Nat} (h : Has w k ds) (hne : ds ≠ []) :
    run [.copy k, .destroy k, .destroy w.mgrs.length] w = .ub := by
  obtain ⟨d, h⟩ := h
  obtain ⟨p, l, rfl⟩ := List.exists_cons_of_ne_nil hne
  have hk : k < w.mgrs.length := (List.getElem?_eq_some_iff.1 h).1
  simp only [run, step]
  rw [owner_ok h, Res.ok_bind]
  show (Res.ok _ >>= _) = _
  rw [Res.ok_bind, owner_ok (o := ⟨d, p :: l⟩) (by rw [List.getElem?_append_left hk]; exact h), Res.ok_bind]
  rcases deleteAll_res (p :: l) { w with mgrs := w.mgrs ++ [some ⟨d, p :: l⟩] } with ⟨w1, e⟩ | e
  · rw [e, Res.ok_bind]
    obtain ⟨_, d2, _, _, _, d6⟩ := deleteAll_ok e
    show (Res.ok _ >>= _) = _
    rw [Res.ok_bind, owner_ok (o := ⟨d, p :: l⟩), Res.ok_bind]
    · rcases deleteAll_res (p :: l) { w1 with mgrs := w1.mgrs.set k none } with ⟨w2, e2⟩ | e2
      · have h1 := ((deleteAll_ok e2).2.1 p (by simp)).1
        have h2 := (d2 p (by simp)).2
        change w1.objs[p]? = _ at h1
        rw [h1] at h2; cases h2
      · rw [e2]; rfl
    · show (w1.mgrs.set k none)[w.mgrs.length]? = _
      rw [d6, List.getElem?_set_ne (by omega)]
      simp
  · rw [e]; rfl

example := C124_copy_violated (w := ⟨[⟨true, true⟩], [true], [some ⟨0, [0]⟩]⟩) (k := 0) (ds := [0]) ⟨0, rfl⟩ (by simp)

/-- C124: destroying a manager that was given the same decomposer twice is undefined behaviour. -/
theorem C124_twice_violated {w : World} {k : Nat} {ds : List Nat} (h : Has w k ds) (hn : ¬ ds.Nodup) :
    step (.destroy k) w = .ub := by
  obtain ⟨d, h⟩ := h
  simp only [step]
  rw [owner_ok h, Res.ok_bind]
  rcases deleteAll_res ds w with ⟨w', e⟩ | e
  · exact absurd (deleteAll_ok e).1 hn
  · rw [e]; rfl

example := C124_twice_violated (w := ⟨[⟨true, true⟩], [true], [some ⟨0, [0, 0]⟩]⟩) (k := 0) (ds := [0, 0]) ⟨0, rfl⟩ (by decide)

theorem owned_iff {w : World} {p : Nat} : p ∈ ownedOf w.mgrs ↔ ∃ k ds, Has w k ds ∧ p ∈ ds := by
  unfold ownedOf
  rw [List.mem_flatMap]
  constructor
  · rintro ⟨o, ho, hp⟩
    cases o with
    | none => simp at hp
    | some o =>
      obtain ⟨k, hk, e⟩ := List.mem_iff_getElem.1 ho
      exact ⟨k, o.ds, ⟨o.df, by rw [List.getElem?_eq_getElem hk, e]⟩, hp⟩
  · rintro ⟨k, ds, ⟨d, h⟩, hp⟩
    exact ⟨_, List.mem_of_getElem? h, hp⟩

/-- A decomposer that no manager has and that is not handed over stays as it is. -/
theorem untouched : ∀ (l : List Op) (w w' : World) (p : Nat), run l w = .ok w' → Live w p → p ∉ ownedOf w.mgrs → p ∉ handedBy l →
    Live w' p
  | [], w, w', p, h, hl, _, _ => by cases h; exact hl
  | op :: l, w, w', p, h, hl, ho, hh => by
    rw [handedBy_cons, List.mem_append, not_or] at hh
    unfold run at h
    have next : ∀ w1, step op w = .ok w1 → Live w1 p → p ∉ ownedOf w1.mgrs → Live w' p := by
      intro w1 e l1 o1
      rw [e, Res.ok_bind] at h
      exact untouched l w1 w' p h l1 o1 hh.2
    obtain ⟨b, hb⟩ := hl
    have hlt := (List.getElem?_eq_some_iff.1 hb).1
    have fail : ∀ (k : Nat) (r : Owner → Res World), (∀ o, w.mgrs[k]? ≠ some (some o)) → step op w = (owner k w >>= r) → Live w' p := by
      intro k r hk e
      rw [e] at h
      unfold owner at h
      split at h
      · rename_i o eo; exact absurd eo (hk o)
      · cases h
    have own : ∀ k : Nat, (∃ o, w.mgrs[k]? = some (some o)) ∨ ∀ o, w.mgrs[k]? ≠ some (some o) := fun k => by
      by_cases hk : ∃ o, w.mgrs[k]? = some (some o)
      · exact .inl hk
      · exact .inr fun o e => hk ⟨o, e⟩
    cases op with
    | new c => exact next _ rfl ⟨b, by rw [List.getElem?_append_left hlt]; exact hb⟩ ho
    | dataframe => exact next _ rfl ⟨b, hb⟩ ho
    | drop d => exact next _ rfl ⟨b, hb⟩ ho
    | make d ds =>
      refine next _ rfl ⟨b, hb⟩ ?_
      show p ∉ ownedOf (w.mgrs ++ [some ⟨d, ds⟩])
      rw [ownedOf_append, List.mem_append, not_or]
      exact ⟨ho, by simpa [ownedOf, handed] using hh.1⟩
    | copy k =>
      rcases own k with ⟨o, hm⟩ | hm
      · refine next { w with mgrs := w.mgrs ++ [some o] } (by simp only [step]; rw [owner_ok hm]; rfl) ⟨b, hb⟩ ?_
        show p ∉ ownedOf (w.mgrs ++ [some o])
        rw [ownedOf_append, List.mem_append, not_or]
        refine ⟨ho, fun hp => ho (owned_iff.2 ⟨k, o.ds, ⟨o.df, hm⟩, ?_⟩)⟩
        simpa [ownedOf] using hp
      · exact fail k _ hm rfl
    | add k q =>
      rcases own k with ⟨o, hm⟩ | hm
      · refine next { w with mgrs := w.mgrs.set k (some { o with ds := o.ds ++ [q] }) } (by simp only [step]; rw [owner_ok hm]; rfl)
          ⟨b, hb⟩ ?_
        obtain ⟨x, y, e1, e2⟩ := ownedOf_set hm
        show p ∉ ownedOf (w.mgrs.set k _)
        rw [e2]
        rw [e1] at ho
        have hq : p ≠ q := by simpa [handed] using hh.1
        simp [ownedOf] at ho ⊢
        tauto
      · exact fail k _ hm rfl
    | clear k =>
      rcases own k with ⟨o, hm⟩ | hm
      · refine next { w with mgrs := w.mgrs.set k (some { o with ds := [] }) } (by simp only [step]; rw [owner_ok hm]; rfl)
          ⟨b, hb⟩ ?_
        obtain ⟨x, y, e1, e2⟩ := ownedOf_set hm
        show p ∉ ownedOf (w.mgrs.set k _)
        rw [e2]
        rw [e1] at ho
        simp [ownedOf] at ho ⊢
        tauto
      · exact fail k _ hm rfl
    | use k n =>
      rcases own k with ⟨o, hm⟩ | hm
      · by_cases hu : w.dfs[o.df]? = some true ∧ allLive (o.ds.take n) w = true
        · exact next w (by simp only [step]; rw [owner_ok hm, Res.ok_bind, if_pos hu]; rfl) ⟨b, hb⟩ ho
        · simp only [step] at h
          rw [owner_ok hm, Res.ok_bind, if_neg hu] at h
          cases h
      · exact fail k _ hm rfl
    | destroy k =>
      rcases own k with ⟨o, hm⟩ | hm
      · rcases deleteAll_res o.ds w with ⟨w1, e⟩ | e
        · obtain ⟨_, _, d3, _, _, d6⟩ := deleteAll_ok e
          have hpo : p ∉ o.ds := fun hp => ho (owned_iff.2 ⟨k, o.ds, ⟨o.df, hm⟩, hp⟩)
          refine next { w1 with mgrs := w1.mgrs.set k none } (by simp only [step]; rw [owner_ok hm, Res.ok_bind, e]; rfl)
            ⟨b, by show w1.objs[p]? = _; rw [d3 p hpo]; exact hb⟩ ?_
          obtain ⟨x, y, e1, e2⟩ := ownedOf_set hm
          show p ∉ ownedOf (w1.mgrs.set k none)
          rw [d6, e2]
          rw [e1] at ho
          simp [ownedOf] at ho ⊢
          tauto
        · simp only [step] at h
          rw [owner_ok hm, Res.ok_bind, e] at h
          cases h
      · exact fail k _ hm rfl

/-- C124: after `clear`, the decomposers that no other manager has are never deleted, whatever the program does, unless it hands
them over again. -/
theorem C124_clear_violated {w w' : World} {k p : Nat} {ds : List Nat} {l : List Op} (h : Has w k ds) (hl : Live w p)
    (ho : ∀ k' ds', k' ≠ k → Has w k' ds' → p ∉ ds') (hh : p ∉ handedBy l) (hr : run (.clear k :: l) w = .ok w') : Live w' p := by
  obtain ⟨d, h⟩ := h
  unfold run at hr
  have e : step (.clear k) w = .ok { w with mgrs := w.mgrs.set k (some ⟨d, []⟩) } := by
    simp only [step]; rw [owner_ok h]; rfl
  rw [e, Res.ok_bind] at hr
  refine untouched l _ w' p hr hl ?_ hh
  intro hm
  obtain ⟨k', ds', ⟨d', h'⟩, hp⟩ := owned_iff.1 hm
  change (w.mgrs.set k (some ⟨d, []⟩))[k']? = _ at h'
  by_cases hk : k' = k
  · subst hk
    have hlt := (List.getElem?_eq_some_iff.1 h).1
    rw [List.getElem?_set_self hlt] at h'
    cases h'
    cases hp
  · rw [List.getElem?_set_ne (Ne.symm hk)] at h'
    exact ho k' ds' hk ⟨d', h'⟩ hp

example := C124_clear_violated (w := ⟨[⟨true, true⟩], [true], [some ⟨0, [0]⟩]⟩) (k := 0) (p := 0) (ds := [0])
  (l := [.destroy 0, .drop 0]) (w' := ⟨[⟨true, true⟩], [false], [none]⟩) ⟨0, rfl⟩ ⟨true, rfl⟩
  (by
    rintro k' ds' hk ⟨d, h⟩
    match k' with
    | 0 => exact absurd rfl hk
    | k' + 1 => cases h) (by decide) (by decide)

/-! ## C125: what a manager refers to -/

/-- C125: nothing can be done with a manager that has been destroyed, or that has not been made: to copy it, ask it, add to it,
clear it or destroy it again is undefined. -/
theorem C125_destroyed {w : World} {k : Nat} (h : ∀ ds, ¬ Has w k ds) (p n : Nat) :
    step (.copy k) w = .ub ∧ step (.add k p) w = .ub ∧ step (.clear k) w = .ub ∧ step (.use k n) w = .ub ∧
      step (.destroy k) w = .ub := by
  have e : owner k w = .ub := by
    unfold owner
    split
    · rename_i o ho
      exact absurd ⟨o.df, ho⟩ (h o.ds)
    · rfl
  simp only [step]
  rw [e]
  exact ⟨rfl, rfl, rfl, rfl, rfl⟩

example := C125_destroyed (w := ⟨[⟨true, false⟩], [true], [none]⟩) (k := 0) (fun ds h => by obtain ⟨d, h⟩ := h; cases h) 0 1

/-- C125: a manager that has been destroyed stays destroyed whatever the program does next. -/
theorem C125_never_again {w w' : World} {k : Nat} {l : List Op} (hk : k < w.mgrs.length) (h : ∀ ds, ¬ Has w k ds)
    (hr : run l w = .ok w') : ∀ ds, ¬ Has w' k ds := by
  have key : ∀ (l : List Op) (w : World), w.mgrs[k]? = some none → run l w = .ok w' → w'.mgrs[k]? = some none := by
    intro l
    induction l with
    | nil => intro w h hr; cases hr; exact h
    | cons op l ih =>
      intro w h hr
      have hk : k < w.mgrs.length := (List.getElem?_eq_some_iff.1 h).1
      have hset : ∀ k' o, owner k' w = .ok o → k' ≠ k := by
        rintro k' o ho rfl
        unfold owner at ho
        rw [h] at ho
        cases ho
      unfold run at hr
      cases op with
      | new b => exact ih { w with objs := w.objs ++ [⟨b, true⟩] } h hr
      | dataframe => exact ih { w with dfs := w.dfs ++ [true] } h hr
      | drop d => exact ih { w with dfs := w.dfs.set d false } h hr
      | make d ds => exact ih _ (by show (w.mgrs ++ _)[k]? = _; rw [List.getElem?_append_left hk]; exact h) hr
      | copy k' =>
        simp only [step] at hr
        rcases ho : owner k' w with o | _ | _
        · rw [ho] at hr
          exact ih _ (by show (w.mgrs ++ _)[k]? = _; rw [List.getElem?_append_left hk]; exact h) hr
        · rw [ho] at hr; cases hr
        · rw [ho] at hr; cases hr
      | add k' p =>
        simp only [step] at hr
        rcases ho : owner k' w with o | _ | _
        · rw [ho] at hr
          exact ih _ (by show (w.mgrs.set _ _)[k]? = _; rw [List.getElem?_set_ne (hset _ _ ho)]; exact h) hr
        · rw [ho] at hr; cases hr
        · rw [ho] at hr; cases hr
      | clear k' =>
        simp only [step] at hr
        rcases ho : owner k' w with o | _ | _
        · rw [ho] at hr
          exact ih _ (by show (w.mgrs.set _ _)[k]? = _; rw [List.getElem?_set_ne (hset _ _ ho)]; exact h) hr
        · rw [ho] at hr; cases hr
        · rw [ho] at hr; cases hr
      | use k' n =>
        simp only [step] at hr
        rcases ho : owner k' w with o | _ | _
        · rw [ho, Res.ok_bind] at hr
          split at hr
          · exact ih _ h hr
          · cases hr
        · rw [ho] at hr; cases hr
        · rw [ho] at hr; cases hr
      | destroy k' =>
        simp only [step] at hr
        rcases ho : owner k' w with o | _ | _
        · rw [ho, Res.ok_bind] at hr
          rcases deleteAll_res o.ds w with ⟨w1, e⟩ | e
          · rw [e] at hr
            refine ih _ ?_ hr
            show (w1.mgrs.set _ _)[k]? = _
            rw [List.getElem?_set_ne (hset _ _ ho), (deleteAll_ok e).2.2.2.2.2]
            exact h
          · rw [e] at hr; cases hr
        · rw [ho] at hr; cases hr
        · rw [ho] at hr; cases hr
  have h0 : w.mgrs[k]? = some none := by
    rw [List.getElem?_eq_getElem hk]
    rcases e : w.mgrs[k] with _ | o
    · rfl
    · exact absurd ⟨o.df, by rw [List.getElem?_eq_getElem hk, e]⟩ (h o.ds)
  rintro ds ⟨d, hd⟩
  rw [key l w h0 hr] at hd
  cases hd

example := C125_never_again (w := ⟨[⟨true, false⟩], [true], [none]⟩) (k := 0) (l := [.make 0 []]) (by decide)
  (fun ds h => by obtain ⟨d, h⟩ := h; cases h) rfl

/-- C125: asking a manager is defined, and changes nothing, exactly as long as its dataframe and the decomposers that have to
answer exist. -/
theorem C125_use_partial {w : World} {k d : Nat} {ds : List Nat} (n : Nat) (h : w.mgrs[k]? = some (some ⟨d, ds⟩)) :
    (w.dfs[d]? = some true ∧ (∀ p ∈ ds.take n, Live w p) → step (.use k n) w = .ok w) ∧
    (¬ (w.dfs[d]? = some true ∧ ∀ p ∈ ds.take n, Live w p) → step (.use k n) w = .ub) := by
  have key : allLive (ds.take n) w = true ↔ ∀ p ∈ ds.take n, Live w p := by
    unfold allLive Live
    rw [List.all_eq_true]
    refine forall_congr' fun p => forall_congr' fun _ => ?_
    cases w.objs[p]? with
    | none => simp
    | some o => obtain ⟨a, b⟩ := o; cases b <;> simp
  simp only [step]
  rw [owner_ok h, Res.ok_bind]
  refine ⟨fun hu => ?_, fun hu => ?_⟩
  · rw [if_pos ⟨hu.1, key.2 hu.2⟩]; rfl
  · rw [if_neg (fun hc => hu ⟨hc.1, key.1 hc.2⟩)]

example := (C125_use_partial (w := ⟨[⟨true, true⟩], [true], [some ⟨0, [0]⟩]⟩) (k := 0) (d := 0) (ds := [0]) 1 rfl).1
  ⟨rfl, by simp [Live]⟩

/-- C125: a manager keeps no copy of its dataframe: it cannot be asked after the end of the dataframe. -/
theorem C125_dataframe_violated {w : World} {k d : Nat} {ds : List Nat} (n : Nat) (h : w.mgrs[k]? = some (some ⟨d, ds⟩)) :
    run [.drop d, .use k n] w = .ub := by
  simp only [run, step, Res.ok_bind]
  rw [owner_ok (w := { w with dfs := w.dfs.set d false }) (o := ⟨d, ds⟩) h, Res.ok_bind, if_neg]
  · rfl
  · rintro ⟨h1, _⟩
    change (w.dfs.set d false)[d]? = some true at h1
    by_cases hd : d < w.dfs.length
    · rw [List.getElem?_set_self hd] at h1; cases h1
    · rw [List.getElem?_eq_none (by simpa using hd)] at h1; cases h1

example := C125_dataframe_violated (w := ⟨[], [true], [some ⟨0, []⟩]⟩) (k := 0) (d := 0) (ds := []) 0 rfl

/-- C125: a manager goes with the dataframe it was made with: it works as long as that one exists, whatever happens to the
others, and not after. -/
theorem C125_made {w : World} {d : Nat} {ds : List Nat} (n d' : Nat) (hd : w.dfs[d]? = some true) (hl : ∀ p ∈ ds, Live w p) :
    (d' ≠ d → ∃ w', run [.make d ds, .drop d', .use w.mgrs.length n] w = .ok w') ∧
    (d' = d → run [.make d ds, .drop d', .use w.mgrs.length n] w = .ub) := by
  have hm : ∀ b : List Bool, ({ w with dfs := b, mgrs := w.mgrs ++ [some ⟨d, ds⟩] } : World).mgrs[w.mgrs.length]? =
      some (some ⟨d, ds⟩) := by
    intro b
    simp
  constructor
  · intro h
    have hu := (C125_use_partial n (hm (w.dfs.set d' false))).1
      ⟨by rw [show _ = (w.dfs.set d' false)[d]? from rfl, List.getElem?_set_ne h]; exact hd,
        fun p hp => hl p (List.mem_of_mem_take hp)⟩
    refine ⟨{ w with dfs := w.dfs.set d' false, mgrs := w.mgrs ++ [some ⟨d, ds⟩] }, ?_⟩
    simp only [run, step, Res.ok_bind] at hu ⊢
    rw [hu]
    rfl
  · rintro rfl
    exact C125_dataframe_violated n (hm w.dfs)

example := C125_made (w := ⟨[⟨true, true⟩], [true, true], []⟩) (d := 1) (ds := [0]) 1 0 rfl
  (fun p hp => by rw [List.mem_singleton.1 hp]; exact ⟨true, rfl⟩)

/-- C125: two managers may not share a decomposer: once one of them is destroyed, the other cannot ask it. -/
theorem C125_shared_violated {w : World} {k k' p n : Nat} {ds ds' : List Nat} (h : Has w k ds) (h' : Has w k' ds') (hk : k ≠ k')
    (hp : p ∈ ds) (hp' : p ∈ ds'.take n) : run [.destroy k, .use k' n] w = .ub := by
  obtain ⟨d, h⟩ := h
  obtain ⟨d', h'⟩ := h'
  simp only [run, step]
  rw [owner_ok h, Res.ok_bind]
  rcases deleteAll_res ds w with ⟨w1, e⟩ | e
  · rw [e, Res.ok_bind]
    obtain ⟨_, d2, _, _, _, d6⟩ := deleteAll_ok e
    show (Res.ok _ >>= _) = _
    rw [Res.ok_bind, owner_ok (o := ⟨d', ds'⟩), Res.ok_bind, if_neg]
    · rfl
    · rintro ⟨_, ha⟩
      unfold allLive at ha
      have := List.all_eq_true.1 ha p hp'
      change (match w1.objs[p]? with | some o => o.live | none => false) = true at this
      rw [(d2 p hp).2] at this
      cases this
    · show (w1.mgrs.set k none)[k']? = _
      rw [d6, List.getElem?_set_ne hk]; exact h'
  · rw [e]; rfl

example := C125_shared_violated (w := ⟨[⟨true, true⟩], [true], [some ⟨0, [0]⟩, some ⟨0, [0]⟩]⟩) (k := 0) (k' := 1) (p := 0) (n := 1)
  (ds := [0]) (ds' := [0]) ⟨0, rfl⟩ ⟨0, rfl⟩ (by decide) (by simp) (by simp)

end DF
