import Verif.Spec.Ownership
import Verif.Lemmas.Loops
import Mathlib.Tactic.Tauto

/-!
# Lemmas on the lifetimes of decomposers
-/

namespace DF

open Spec World

/-- The decomposers of the managers that exist. -/
def ownedOf (ms : List (Option Owner)) : List Nat := ms.flatMap fun
  | some o => o.ds
  | none => []

theorem split_at {γ : Type} {l : List γ} {k : Nat} {x : γ} (h : l[k]? = some x) :
    ∃ a b, l = a ++ x :: b ∧ ∀ y, l.set k y = a ++ y :: b := by
  obtain ⟨hk, rfl⟩ := List.getElem?_eq_some_iff.1 h
  refine ⟨l.take k, l.drop (k + 1), by simp, fun y => ?_⟩
  rw [List.set_eq_take_append_cons_drop, if_pos hk]

theorem ownedOf_set {ms : List (Option Owner)} {k : Nat} {o : Option Owner} (h : ms[k]? = some o) :
    ∃ a b, ownedOf ms = a ++ ownedOf [o] ++ b ∧ ∀ y, ownedOf (ms.set k y) = a ++ ownedOf [y] ++ b := by
  obtain ⟨a, b, h1, h2⟩ := split_at h
  refine ⟨ownedOf a, ownedOf b, ?_, fun y => ?_⟩
  · rw [h1]; simp [ownedOf]
  · rw [h2]; simp [ownedOf]

theorem owner_ok {w : World} {k : Nat} {o : Owner} (h : w.mgrs[k]? = some (some o)) : owner k w = .ok o := by
  unfold owner; rw [h]

theorem owner_of_ok {w : World} {k : Nat} {o : Owner} (h : owner k w = .ok o) : w.mgrs[k]? = some (some o) := by
  unfold owner at h
  split at h
  · rename_i o' e; cases h; exact e
  · cases h

theorem delete_ok {w w' : World} {p : Nat} (h : delete p w = .ok w') :
    w.objs[p]? = some ⟨true, true⟩ ∧ w' = { w with objs := w.objs.set p ⟨true, false⟩ } := by
  unfold delete at h
  split at h
  · rename_i e; cases h; exact ⟨e, rfl⟩
  · cases h

theorem delete_res (p : Nat) (w : World) : (∃ w', delete p w = .ok w') ∨ delete p w = .ub := by
  unfold delete
  split
  · exact .inl ⟨_, rfl⟩
  · exact .inr rfl

theorem deleteAll_res : ∀ (l : List Nat) (w : World), (∃ w', deleteAll l w = .ok w') ∨ deleteAll l w = .ub
  | [], w => .inl ⟨w, rfl⟩
  | p :: l, w => by
    unfold deleteAll
    rcases delete_res p w with ⟨w', h⟩ | h
    · rw [h]; exact deleteAll_res l w'
    · rw [h]; exact .inr rfl

/-- What `deleteAll` does when it returns. -/
theorem deleteAll_ok : ∀ {l : List Nat} {w w' : World}, deleteAll l w = .ok w' →
    l.Nodup ∧ (∀ p ∈ l, w.objs[p]? = some ⟨true, true⟩ ∧ w'.objs[p]? = some ⟨true, false⟩) ∧
      (∀ p, p ∉ l → w'.objs[p]? = w.objs[p]?) ∧ w'.objs.length = w.objs.length ∧ w'.dfs = w.dfs ∧ w'.mgrs = w.mgrs
  | [], w, w', h => by cases h; simp
  | p :: l, w, w', h => by
    unfold deleteAll at h
    rcases delete_res p w with ⟨w1, h1⟩ | h1
    · rw [h1, Res.ok_bind] at h
      obtain ⟨e1, e2⟩ := delete_ok h1
      obtain ⟨i1, i2, i3, i4, i5, i6⟩ := deleteAll_ok h
      obtain ⟨hp, _⟩ := List.getElem?_eq_some_iff.1 e1
      have e3 : w1.objs[p]? = some ⟨true, false⟩ := by rw [e2]; simp [hp]
      have e4 : ∀ q, q ≠ p → w1.objs[q]? = w.objs[q]? := fun q hq => by
        rw [e2]; exact List.getElem?_set_ne (Ne.symm hq)
      have hpl : p ∉ l := fun hm => by
        rw [(i2 p hm).1] at e3; cases e3
      refine ⟨List.nodup_cons.2 ⟨hpl, i1⟩, fun q hq => ?_, fun q hq => ?_, ?_, ?_, ?_⟩
      · rcases List.mem_cons.1 hq with rfl | hq
        · exact ⟨e1, by rw [i3 _ hpl, e3]⟩
        · have hne : q ≠ p := fun e => hpl (e ▸ hq)
          exact ⟨by rw [← e4 q hne]; exact (i2 q hq).1, (i2 q hq).2⟩
      · rw [List.mem_cons, not_or] at hq
        rw [i3 q hq.2, e4 q hq.1]
      · rw [i4, e2]; simp
      · rw [i5, e2]
      · rw [i6, e2]
    · rw [h1] at h; cases h

/-- When `deleteAll` returns. -/
theorem deleteAll_returns : ∀ {l : List Nat} {w : World}, l.Nodup → (∀ p ∈ l, w.objs[p]? = some ⟨true, true⟩) →
    ∃ w', deleteAll l w = .ok w'
  | [], w, _, _ => ⟨w, rfl⟩
  | p :: l, w, hn, h => by
    have e := h p (by simp)
    unfold deleteAll
    have hd : delete p w = .ok { w with objs := w.objs.set p ⟨true, false⟩ } := by
      unfold delete; rw [e]
    rw [hd, Res.ok_bind]
    refine deleteAll_returns (List.nodup_cons.1 hn).2 (fun q hq => ?_)
    have hne : p ≠ q := fun e => (List.nodup_cons.1 hn).1 (e ▸ hq)
    show (w.objs.set p ⟨true, false⟩)[q]? = _
    rw [List.getElem?_set_ne hne]
    exact h q (by simp [hq])

/-- The state of a program that hands over each decomposer once. `G` has those handed over already, `l` is the rest of the
program. -/
structure Good (w : World) (G : List Nat) (l : List Op) : Prop where
  owned : ∀ p ∈ ownedOf w.mgrs, w.objs[p]? = some ⟨true, true⟩ ∧ p ∈ G
  once : (ownedOf w.mgrs ++ handedBy l).Nodup
  fresh : ∀ p ∈ handedBy l, ∀ o : Obj, w.objs[p]? = some o → o.live = true
  plain : ∀ (p : Nat) (o : Obj), w.objs[p]? = some o → o.plain = true
  dead : ∀ p : Nat, w.objs[p]? = some ⟨true, false⟩ → p ∈ G

/-- Nothing is lost: what was handed over is still with a manager, or deleted. -/
def Kept (w : World) (G : List Nat) : Prop := ∀ p ∈ G, p ∈ ownedOf w.mgrs ∨ w.objs[p]? = some ⟨true, false⟩

/-- The dataframes of the managers, as in `Scoped`. -/
def dfsOf (w : World) : List (Option Nat) := w.mgrs.map fun o => o.map Owner.df

theorem dfsOf_get {w : World} {k d : Nat} (h : (dfsOf w)[k]? = some (some d)) :
    ∃ ds, w.mgrs[k]? = some (some ⟨d, ds⟩) := by
  unfold dfsOf at h
  rw [List.getElem?_map] at h
  cases e : w.mgrs[k]? with
  | none => rw [e] at h; cases h
  | some o =>
    rw [e] at h
    cases o with
    | none => cases h
    | some o =>
      obtain ⟨d', ds⟩ := o
      cases h
      exact ⟨ds, rfl⟩

theorem set_same {γ : Type} {l : List γ} {k : Nat} {x : γ} (h : l[k]? = some x) : l.set k x = l := by
  obtain ⟨a, b, h1, h2⟩ := split_at h
  rw [h2, ← h1]

theorem handedBy_cons (o : Op) (l : List Op) : handedBy (o :: l) = handed o ++ handedBy l := rfl

theorem ownedOf_append (a b : List (Option Owner)) : ownedOf (a ++ b) = ownedOf a ++ ownedOf b := by simp [ownedOf]

theorem live_plain {o : Obj} (h : o.live = true) (h' : o.plain = true) : o = ⟨true, true⟩ := by
  obtain ⟨a, b⟩ := o
  cases h; cases h'; rfl

/-- A program that hands over each decomposer once, to one manager, and copies no manager is defined. -/
theorem good_run : ∀ (l : List Op) (w : World) (G : List Nat), Good w G l → Scoped w.objs.length w.dfs (dfsOf w) l →
    (∀ b, Op.new b ∈ l → b = true) → (∀ k, Op.copy k ∉ l) →
    ∃ w', run l w = .ok w' ∧ Good w' (G ++ handedBy l) [] ∧ ((∀ k, Op.clear k ∉ l) → Kept w G → Kept w' (G ++ handedBy l))
  | [], w, G, g, _, _, _ => ⟨w, rfl, by simpa [handedBy] using g, by simp [handedBy]⟩
  | op :: l, w, G, g, hs, hp, hc => by
    have hp' : ∀ b, Op.new b ∈ l → b = true := fun b hb => hp b (List.mem_cons_of_mem _ hb)
    have hc' : ∀ k, Op.copy k ∉ l := fun k hk => hc k (List.mem_cons_of_mem _ hk)
    have next : ∀ w1, step op w = .ok w1 → Good w1 (G ++ handed op) l → Scoped w1.objs.length w1.dfs (dfsOf w1) l →
        ((∀ k, op ≠ Op.clear k) → Kept w G → Kept w1 (G ++ handed op)) →
        ∃ w', run (op :: l) w = .ok w' ∧ Good w' (G ++ handedBy (op :: l)) [] ∧
          ((∀ k, Op.clear k ∉ op :: l) → Kept w G → Kept w' (G ++ handedBy (op :: l))) := by
      intro w1 e g1 s1 k1
      obtain ⟨w', r, g', k'⟩ := good_run l w1 (G ++ handed op) g1 s1 hp' hc'
      refine ⟨w', ?_, ?_, ?_⟩
      · unfold run; rw [e]; exact r
      · rw [handedBy_cons, ← List.append_assoc]; exact g'
      · intro hcl hk
        rw [handedBy_cons, ← List.append_assoc]
        refine k' (fun k hm => hcl k (List.mem_cons_of_mem _ hm)) (k1 (fun k e => hcl k ?_) hk)
        rw [e]; exact List.mem_cons_self
    obtain ⟨g1, g2, g3, g4, g5⟩ := g
    cases op with
    | new b =>
      obtain rfl := hp b (by simp)
      have hget : ∀ (q : Nat) (o : Obj), (w.objs ++ [⟨true, true⟩])[q]? = some o → w.objs[q]? = some o ∨ o = ⟨true, true⟩ := by
        intro q o h
        by_cases hq : q < w.objs.length
        · rw [List.getElem?_append_left hq] at h; exact .inl h
        · rw [List.getElem?_append_right (by omega)] at h
          refine .inr ?_
          have := List.mem_of_getElem? h
          simpa using this
      have hold : ∀ (q : Nat) (o : Obj), w.objs[q]? = some o → (w.objs ++ [⟨true, true⟩])[q]? = some o := by
        intro q o h
        obtain ⟨hq, _⟩ := List.getElem?_eq_some_iff.1 h
        rw [List.getElem?_append_left hq, h]
      refine next _ rfl ⟨fun p hpm => ?_, g2, fun p hpm o ho => ?_, fun p o ho => ?_, fun p ho => ?_⟩ ?_ ?_
      · exact ⟨hold _ _ (g1 p hpm).1, by simpa [handed] using (g1 p hpm).2⟩
      · rcases hget p o ho with h | rfl
        · exact g3 p hpm o h
        · rfl
      · rcases hget p o ho with h | rfl
        · exact g4 p o h
        · rfl
      · rcases hget p _ ho with h | h
        · simpa [handed] using g5 p h
        · cases h
      · have : Scoped (w.objs.length + 1) w.dfs (dfsOf w) l := hs
        simpa [dfsOf] using this
      · intro _ hk p hpm
        rcases hk p (by simpa [handed] using hpm) with h | h
        · exact .inl h
        · exact .inr (hold _ _ h)
    | dataframe =>
      refine next _ rfl ⟨by simpa [handed] using g1, g2, g3, g4, by simpa [handed] using g5⟩ hs ?_
      intro _ hk; simpa [handed, Kept] using hk
    | drop d =>
      refine next _ rfl ⟨by simpa [handed] using g1, g2, g3, g4, by simpa [handed] using g5⟩ hs.2 ?_
      intro _ hk; simpa [handed, Kept] using hk
    | make d ds =>
      obtain ⟨s1, s2, s3⟩ := hs
      have ho : ownedOf (w.mgrs ++ [some ⟨d, ds⟩]) = ownedOf w.mgrs ++ ds := by rw [ownedOf_append]; simp [ownedOf]
      rw [handedBy_cons, ← List.append_assoc] at g2
      refine next _ rfl ⟨fun p hpm => ?_, ?_, fun p hpm => g3 p ?_, g4, fun p h => ?_⟩ ?_ ?_
      · change p ∈ ownedOf (w.mgrs ++ [some ⟨d, ds⟩]) at hpm
        rw [ho, List.mem_append] at hpm
        rcases hpm with h | h
        · exact ⟨(g1 p h).1, List.mem_append_left _ (g1 p h).2⟩
        · refine ⟨?_, List.mem_append_right _ h⟩
          have hlt := s2 p h
          have e := List.getElem?_eq_getElem hlt
          show w.objs[p]? = _
          rw [e, live_plain (g3 p (List.mem_append_left _ h) _ e) (g4 p _ e)]
      · show (ownedOf (w.mgrs ++ [some ⟨d, ds⟩]) ++ handedBy l).Nodup
        rw [ho]; exact g2
      · exact List.mem_append_right _ hpm
      · exact List.mem_append_left _ (g5 p h)
      · simpa [dfsOf] using s3
      · intro _ hk p hpm
        show p ∈ ownedOf (w.mgrs ++ [some ⟨d, ds⟩]) ∨ _
        rw [ho, List.mem_append]
        rcases List.mem_append.1 hpm with h | h
        · rcases hk p h with h | h
          · exact .inl (.inl h)
          · exact .inr h
        · exact .inl (.inr h)
    | copy k => exact absurd List.mem_cons_self (hc k)
    | add k p =>
      obtain ⟨⟨d, s1⟩, s2, s3⟩ := hs
      obtain ⟨ds, hm⟩ := dfsOf_get s1
      obtain ⟨a, b, ho, ho'⟩ := ownedOf_set hm
      have ho'' := ho' (some ⟨d, ds ++ [p]⟩)
      have e1 : ownedOf [some ⟨d, ds⟩] = ds := by simp [ownedOf]
      have e2 : ownedOf [some ⟨d, ds ++ [p]⟩] = ds ++ [p] := by simp [ownedOf]
      rw [e1] at ho
      rw [e2] at ho''
      have hmem : ∀ q, q ∈ ownedOf (w.mgrs.set k (some ⟨d, ds ++ [p]⟩)) ↔ q ∈ ownedOf w.mgrs ∨ q = p := by
        intro q; rw [ho'', ho]; simp; tauto
      refine next { w with mgrs := w.mgrs.set k (some ⟨d, ds ++ [p]⟩) } ?_ ⟨fun q hq => ?_, ?_, fun q hq => g3 q ?_, g4, fun q h => ?_⟩ ?_ ?_
      · simp only [step]; rw [owner_ok hm]; rfl
      · rcases (hmem q).1 hq with h | rfl
        · exact ⟨(g1 q h).1, List.mem_append_left _ (g1 q h).2⟩
        · refine ⟨?_, by simp [handed]⟩
          have e := List.getElem?_eq_getElem s2
          show w.objs[q]? = _
          rw [e, live_plain (g3 q (by simp [handedBy_cons, handed]) _ e) (g4 q _ e)]
      · show (ownedOf (w.mgrs.set k (some ⟨d, ds ++ [p]⟩)) ++ handedBy l).Nodup
        rw [handedBy_cons] at g2
        refine g2.perm ?_
        rw [ho'', ho]
        simp only [handed, List.append_assoc]
        refine List.Perm.append_left _ (List.Perm.append_left _ ?_)
        rw [← List.append_assoc, ← List.append_assoc]
        exact List.Perm.append_right _ List.perm_append_comm
      · exact List.mem_append_right _ hq
      · exact List.mem_append_left _ (g5 q h)
      · have : dfsOf { w with mgrs := w.mgrs.set k (some ⟨d, ds ++ [p]⟩) } = dfsOf w := by
          unfold dfsOf; rw [List.map_set]; exact set_same (by rw [List.getElem?_map, hm]; rfl)
        rw [this]; exact s3
      · intro _ hk q hq
        show q ∈ ownedOf (w.mgrs.set k (some ⟨d, ds ++ [p]⟩)) ∨ _
        rw [hmem]
        rcases List.mem_append.1 hq with h | h
        · rcases hk q h with h | h
          · exact .inl (.inl h)
          · exact .inr h
        · exact .inl (.inr (by simpa [handed] using h))
    | clear k =>
      obtain ⟨⟨d, s1⟩, s3⟩ := hs
      obtain ⟨ds, hm⟩ := dfsOf_get s1
      obtain ⟨a, b, ho, ho'⟩ := ownedOf_set hm
      have ho'' := ho' (some ⟨d, []⟩)
      have e2 : ownedOf [some ⟨d, []⟩] = [] := by simp [ownedOf]
      rw [e2, List.append_nil] at ho''
      have hsub : (ownedOf (w.mgrs.set k (some ⟨d, []⟩))).Sublist (ownedOf w.mgrs) := by
        rw [ho'', ho]; exact List.Sublist.append (List.sublist_append_left _ _) (List.Sublist.refl _)
      refine next { w with mgrs := w.mgrs.set k (some ⟨d, []⟩) } ?_ ⟨fun q hq => ?_, ?_, g3, g4, by simpa [handed] using g5⟩ ?_ ?_
      · simp only [step]; rw [owner_ok hm]; rfl
      · have := g1 q (hsub.subset hq)
        simpa [handed] using this
      · exact g2.sublist (List.Sublist.append hsub (List.Sublist.refl _))
      · have : dfsOf { w with mgrs := w.mgrs.set k (some ⟨d, []⟩) } = dfsOf w := by
          unfold dfsOf; rw [List.map_set]; exact set_same (by rw [List.getElem?_map, hm]; rfl)
        rw [this]; exact s3
      · intro h; exact absurd rfl (h k)
    | use k n =>
      obtain ⟨⟨d, s1, s2⟩, s3⟩ := hs
      obtain ⟨ds, hm⟩ := dfsOf_get s1
      have hsub : ∀ p ∈ ds, p ∈ ownedOf w.mgrs := by
        obtain ⟨a, b, ho, _⟩ := ownedOf_set hm
        intro p hp; rw [ho]; simp [ownedOf, hp]
      refine next w ?_ ⟨by simpa [handed] using g1, g2, g3, g4, by simpa [handed] using g5⟩ s3 ?_
      · simp only [step]
        rw [owner_ok hm, Res.ok_bind, if_pos]
        · rfl
        · refine ⟨s2, ?_⟩
          unfold allLive
          rw [List.all_eq_true]
          intro p hp
          rw [(g1 p (hsub p (List.mem_of_mem_take hp))).1]
      · intro _ hk; simpa [handed, Kept] using hk
    | destroy k =>
      obtain ⟨⟨d, s1⟩, s3⟩ := hs
      obtain ⟨ds, hm⟩ := dfsOf_get s1
      obtain ⟨a, b, ho, ho'⟩ := ownedOf_set hm
      have ho'' := ho' none
      have e1 : ownedOf [some ⟨d, ds⟩] = ds := by simp [ownedOf]
      have e2 : ownedOf [none] = [] := rfl
      rw [e1] at ho
      rw [e2, List.append_nil] at ho''
      have hsub : (ownedOf (w.mgrs.set k none)).Sublist (ownedOf w.mgrs) := by
        rw [ho'', ho]; exact List.Sublist.append (List.sublist_append_left _ _) (List.Sublist.refl _)
      have hds : ∀ p ∈ ds, p ∈ ownedOf w.mgrs := fun p hp => by rw [ho]; simp [hp]
      have hno : (ownedOf w.mgrs).Nodup := (List.nodup_append.1 g2).1
      have hdn : ds.Nodup := by
        rw [ho] at hno
        exact (List.nodup_append.1 (List.nodup_append.1 hno).1).2.1
      obtain ⟨w1, hw1⟩ := deleteAll_returns (w := w) hdn (fun p hp => (g1 p (hds p hp)).1)
      obtain ⟨_, d2, d3, d4, d5, d6⟩ := deleteAll_ok hw1
      have hout : ∀ p ∈ ownedOf (w.mgrs.set k none), p ∉ ds := by
        intro p hp hpd
        rw [ho''] at hp
        rw [ho] at hno
        obtain ⟨n1, n2, n3⟩ := List.nodup_append.1 hno
        obtain ⟨m1, m2, m3⟩ := List.nodup_append.1 n1
        rcases List.mem_append.1 hp with h | h
        · exact m3 p h p hpd rfl
        · exact n3 p (List.mem_append_right _ hpd) p h rfl
      refine next { w1 with mgrs := w1.mgrs.set k none } ?_ ⟨fun q hq => ?_, ?_, fun q hq o h => ?_, fun q o h => ?_, fun q h => ?_⟩ ?_ ?_
      · simp only [step]; rw [owner_ok hm, Res.ok_bind, hw1]; rfl
      · change q ∈ ownedOf (w1.mgrs.set k none) at hq
        rw [d6] at hq
        refine ⟨?_, by simpa [handed] using (g1 q (hsub.subset hq)).2⟩
        show w1.objs[q]? = _
        rw [d3 q (hout q hq)]
        exact (g1 q (hsub.subset hq)).1
      · show (ownedOf (w1.mgrs.set k none) ++ handedBy l).Nodup
        rw [d6]
        exact g2.sublist (List.Sublist.append hsub (List.Sublist.refl _))
      · change w1.objs[q]? = some o at h
        by_cases hqd : q ∈ ds
        · exact absurd rfl ((List.nodup_append.1 g2).2.2 q (hds q hqd) q hq)
        · rw [d3 q hqd] at h; exact g3 q hq o h
      · change w1.objs[q]? = some o at h
        by_cases hqd : q ∈ ds
        · rw [(d2 q hqd).2] at h; cases h; rfl
        · rw [d3 q hqd] at h; exact g4 q o h
      · change w1.objs[q]? = _ at h
        by_cases hqd : q ∈ ds
        · simpa [handed] using (g1 q (hds q hqd)).2
        · rw [d3 q hqd] at h; simpa [handed] using g5 q h
      · have : dfsOf { w1 with mgrs := w1.mgrs.set k none } = (dfsOf w).set k none := by
          unfold dfsOf; rw [d6, List.map_set]; rfl
        rw [this]
        show Scoped w1.objs.length w1.dfs _ l
        rw [d4, d5]; exact s3
      · intro _ hk q hq
        rcases hk q (by simpa [handed] using hq) with h | h
        · by_cases hqd : q ∈ ds
          · exact .inr (d2 q hqd).2
          · refine .inl ?_
            show q ∈ ownedOf (w1.mgrs.set k none)
            rw [d6, ho'']
            rw [ho] at h
            simp only [List.mem_append] at h ⊢
            tauto
        · refine .inr ?_
          show w1.objs[q]? = _
          by_cases hqd : q ∈ ds
          · exact (d2 q hqd).2
          · rw [d3 q hqd]; exact h

end DF
