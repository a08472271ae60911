import Verif.Lemmas.Flow
import Verif.Props.Dataframe

/-!
# C155: the order of computations on a Dataframe
-/

namespace DF

open Spec

variable {α : Type} [Zero α]

/-- The number of rows of the Dataframe is known, or all the computations give as many items. -/
def KnownCount (n : Nat) (cs : List (Calc α)) : Prop := n ≠ 0 ∨ ∃ m, ∀ c ∈ cs, ∀ ss t, c.F ss = .ok t → t.count = m

omit [Zero α] in
theorem KnownCount.sub {n : Nat} {cs cs' : List (Calc α)} (h : KnownCount n cs) (hs : ∀ c ∈ cs', c ∈ cs) : KnownCount n cs' :=
  h.imp id fun ⟨m, hm⟩ => ⟨m, fun c hc => hm c (hs c hc)⟩

theorem KnownCount.after {a : AbsFrame α} {cs : List (Calc α)} (h : KnownCount a.count cs) (c : Calc α) (t : Serie α) :
    KnownCount (after c a t).count cs := by
  rcases h with h | h
  · exact .inl (by rw [after_count h]; exact h)
  · exact .inr h

theorem runAll_swap {c c' : Calc α} (h1 : c.out ∉ c'.ins) (h2 : c'.out ∉ c.ins) (h3 : c.out ≠ c'.out) {s : List (Calc α)} {d r : Dataframe α}
    {a : AbsFrame α} (hd : Represents d a) (hk : KnownCount a.count [c, c']) (hr : runAll (c :: c' :: s) d = .ok r) :
    runAll (c' :: c :: s) d = .ok r := by
  cases e1 : c.run d with
  | ok d1 =>
    cases e2 : c'.run d1 with
    | ok d2 =>
      have hr : runAll s d2 = .ok r := by simpa only [runAll, e1, e2, Res.ok_bind] using hr
      obtain ⟨t, ht, hd1⟩ := (run_eq c hd).2 d1 e1
      obtain ⟨t', ht', hd2⟩ := (run_eq c' hd1).2 d2 e2
      rw [read_after h1] at ht'
      obtain ⟨d1', e1', hd1'⟩ := (run_eq c' hd).1 t' ht'
      obtain ⟨d2', e2', hd2'⟩ := (run_eq c hd1').1 t (by rw [read_after h2]; exact ht)
      have hc : (after c' (after c a t) t').count = (after c (after c' a t') t).count := by
        rcases hk with h0 | ⟨m, hm⟩
        · rw [after_count (by rw [after_count h0]; exact h0), after_count h0, after_count (by rw [after_count h0]; exact h0), after_count h0]
        · have q1 := hm c (by simp) _ t ht
          have q2 := hm c' (by simp) _ t' ht'
          show (if (if _ then _ else _) = 0 then _ else (if _ then _ else _)) = (if (if _ then _ else _) = 0 then _ else (if _ then _ else _))
          rw [q1, q2]
      rw [after_comm h1 h2 h3 hc] at hd2
      rw [hd2.unique hd2'] at hr
      simp only [runAll, e1', e2', Res.ok_bind]
      exact hr
    | throw e => simp only [runAll, e1, e2, Res.ok_bind] at hr; cases hr
    | ub => simp only [runAll, e1, e2, Res.ok_bind] at hr; cases hr
  | throw e => simp only [runAll, e1] at hr; cases hr
  | ub => simp only [runAll, e1] at hr; cases hr

theorem runAll_bubble {c : Calc α} {s : List (Calc α)} {r : Dataframe α} : ∀ {p : List (Calc α)},
    (∀ x ∈ p, c.out ∉ x.ins ∧ x.out ∉ c.ins ∧ c.out ≠ x.out) → ∀ {d : Dataframe α} {a : AbsFrame α}, Represents d a →
    KnownCount a.count (c :: p) → runAll (p ++ c :: s) d = .ok r → runAll (c :: (p ++ s)) d = .ok r
  | [], _, _, _, _, _, hr => hr
  | x :: p, h, d, a, hd, hk, hr => by
    obtain ⟨i1, i2, i3⟩ := h x List.mem_cons_self
    refine runAll_swap (c := x) (c' := c) i2 i1 i3.symm hd (hk.sub (by simp +contextual)) ?_
    cases e1 : x.run d with
    | ok d1 =>
      obtain ⟨t, _, hd1⟩ := (run_eq x hd).2 d1 e1
      have hr : runAll (p ++ c :: s) d1 = .ok r := by simpa only [List.cons_append, runAll, e1, Res.ok_bind] using hr
      have := runAll_bubble (fun y hy => h y (List.mem_cons_of_mem _ hy)) hd1
        ((hk.after x t).sub fun y hy => by
          rcases List.mem_cons.1 hy with rfl | hy
          · exact List.mem_cons_self
          · exact List.mem_cons_of_mem _ (List.mem_cons_of_mem _ hy)) hr
      show (x.run d >>= fun d' => runAll (c :: (p ++ s)) d') = _
      rw [e1]
      exact this
    | throw e => simp only [List.cons_append, runAll, e1] at hr; cases hr
    | ub => simp only [List.cons_append, runAll, e1] at hr; cases hr

theorem runAll_perm {r : Dataframe α} : ∀ {l l' : List (Calc α)}, l.Perm l' → InOrder l → InOrder l' → ∀ {d : Dataframe α} {a : AbsFrame α},
    Represents d a → KnownCount a.count l → runAll l' d = .ok r → runAll l d = .ok r
  | [], l', hp, _, _, d, a, hd, hk, hr => by rw [List.nil_perm.1 hp] at hr; exact hr
  | c :: l, l', hp, ho, ho', d, a, hd, hk, hr => by
    obtain ⟨p, s, rfl⟩ := List.append_of_mem (hp.subset List.mem_cons_self)
    have hp' : l.Perm (p ++ s) := (hp.trans List.perm_middle).cons_inv
    have hps : ∀ x ∈ p, x ∈ l := fun x hx => hp'.symm.subset (List.mem_append_left _ hx)
    have q1 := List.pairwise_cons.1 ho
    have q2 := List.pairwise_append.1 ho'
    have q3 := List.pairwise_cons.1 q2.2.1
    have hb := runAll_bubble (fun x hx => ⟨(q2.2.2 x hx c List.mem_cons_self).1, (q1.1 x (hps x hx)).1, (q2.2.2 x hx c List.mem_cons_self).2⟩) hd
      (hk.sub fun y hy => by
        rcases List.mem_cons.1 hy with rfl | hy
        · exact List.mem_cons_self
        · exact List.mem_cons_of_mem _ (hps y hy)) hr
    cases e1 : c.run d with
    | ok d1 =>
      obtain ⟨t, _, hd1⟩ := (run_eq c hd).2 d1 e1
      have hb : runAll (p ++ s) d1 = .ok r := by simpa only [runAll, e1, Res.ok_bind] using hb
      have := runAll_perm hp' q1.2 (List.pairwise_append.2 ⟨q2.1, q3.2, fun x hx y hy => q2.2.2 x hx y (List.mem_cons_of_mem _ hy)⟩) hd1
        ((hk.after c t).sub fun y hy => List.mem_cons_of_mem _ hy) hb
      simp only [runAll, e1, Res.ok_bind]
      exact this
    | throw e => simp only [runAll, e1] at hb; cases hb
    | ub => simp only [runAll, e1] at hb; cases hb

/-- C155, what holds: the same steps in two orders, both such that no step writes what an earlier one has read or written, give the
same Dataframe: one order returns if and only if the other one does. The Dataframe must have a non-zero count, or all the steps must compute as
many items. -/
theorem C155_order_partial (count : Nat) (ops : List (DOp α)) {cs cs' : List (Calc α)} (hp : cs.Perm cs') (ho : InOrder cs) (ho' : InOrder cs')
    (hk : (Dataframe.history count ops).count ≠ 0 ∨ ∃ m, ∀ c ∈ cs, ∀ ss t, c.F ss = .ok t → t.count = m) (r : Dataframe α) :
    runAll cs (Dataframe.history count ops) = .ok r ↔ runAll cs' (Dataframe.history count ops) = .ok r := by
  have hd := Represents.history (α := α) count ops
  rw [hd.count] at hk
  have hk : KnownCount _ cs := hk
  exact ⟨fun h => runAll_perm hp.symm ho' ho hd (hk.sub fun c hc => hp.symm.subset hc) h, fun h => runAll_perm hp ho ho' hd hk h⟩

/-- A step storing a copy of its first input. -/
def copyCalc (out inp : String) : Calc Int := ⟨out, [inp], fun ss => rd ss 0, true⟩

/-- A frame with two Series. -/
def flowFrame : List (DOp Int) := [.add "A" ⟨[1, 2], 2, 1, 3⟩, .add "B" ⟨[3, 4, 5], 3, 1, 3⟩]

example := C155_order_partial 2 flowFrame (cs := [copyCalc "X" "A", copyCalc "Y" "B", copyCalc "Z" "X"])
  (cs' := [copyCalc "Y" "B", copyCalc "X" "A", copyCalc "Z" "X"]) (.swap _ _ _) (by simp [InOrder, copyCalc]) (by simp [InOrder, copyCalc]) (.inl (by decide +kernel))

/-- C155: on a Dataframe whose count is 0 (an empty one), the order of two steps that read and write different names changes the count. -/
theorem C155_count_violated :
    ∃ (c c' : Calc Int) (r r' : Dataframe Int), InOrder [c, c'] ∧ InOrder [c', c] ∧ runAll [c, c'] (Dataframe.history 0 []) = .ok r ∧
      runAll [c', c] (Dataframe.history 0 []) = .ok r' ∧ r.count ≠ r'.count :=
  ⟨⟨"X", [], fun _ => .ok ⟨[1, 2], 2, 1, 3⟩, false⟩, ⟨"Y", [], fun _ => .ok ⟨[1, 2, 3], 3, 1, 3⟩, false⟩, _, _, by simp [InOrder], by simp [InOrder],
    rfl, rfl, by decide⟩

/-- The Dataframe already holds the result of the step. -/
def Settled (c : Calc α) (a : AbsFrame α) : Prop :=
  ∃ t, c.F (c.ins.map (valueAt a)) = .ok t ∧ a.map c.out = some (kept t) ∧ (c.inserts = true → ∀ n ∈ c.ins, (a.map n).isSome) ∧
    (a.count = 0 → t.count = 0)

theorem Settled.run {c : Calc α} {d : Dataframe α} {a : AbsFrame α} (hd : Represents d a) (h : Settled c a) : c.run d = .ok d := by
  obtain ⟨t, h1, h2, h3, h4⟩ := h
  obtain ⟨d', e, hd'⟩ := (run_eq c hd).1 t h1
  have : after c a t = a := by
    obtain ⟨n, m⟩ := a
    show AbsFrame.mk _ _ = _
    congr 1
    · show (if n = 0 then t.count else n) = n
      by_cases h0 : n = 0
      · rw [if_pos h0, h4 h0, h0]
      · rw [if_neg h0]
    · funext x
      show (if _ then _ else if _ then _ else _) = _
      by_cases e1 : x = c.out
      · rw [if_pos e1, e1]; exact h2.symm
      · rw [if_neg e1]
        by_cases e2 : c.inserts = true ∧ x ∈ c.ins
        · rw [if_pos e2]
          obtain ⟨s, hs⟩ := Option.isSome_iff_exists.1 (h3 e2.1 x e2.2)
          change m x = some s at hs
          show some ((m x).getD _) = m x
          rw [hs]
          rfl
        · rw [if_neg e2]
  rw [this] at hd'
  rw [e, hd'.unique hd]

theorem Settled.self {c : Calc α} (hc : c.out ∉ c.ins) {a : AbsFrame α} {t : Serie α} (ht : c.F (c.ins.map (valueAt a)) = .ok t) : Settled c (after c a t) := by
  refine ⟨t, by rw [read_after hc]; exact ht, if_pos rfl, fun hi n hn => ?_, fun h0 => ?_⟩
  · show (if _ then _ else if _ then _ else _ : Option (Serie α)).isSome = true
    rw [if_neg (show ¬ n = c.out from fun he => hc (he ▸ hn)), if_pos ⟨hi, hn⟩]
    rfl
  · have h0 : (if a.count = 0 then t.count else a.count) = 0 := h0
    split at h0
    · exact h0
    · contradiction

theorem Settled.other {c x : Calc α} (h1 : x.out ∉ c.ins) (h2 : x.out ≠ c.out) {a : AbsFrame α} (h : Settled c a) (t : Serie α) : Settled c (after x a t) := by
  obtain ⟨u, q1, q2, q3, q4⟩ := h
  have key : ∀ n, n ≠ x.out → (a.map n).isSome → (after x a t).map n = a.map n := fun n hn hs => by
    show (if _ then _ else if _ then _ else _) = _
    rw [if_neg hn]
    split
    · obtain ⟨s, hs⟩ := Option.isSome_iff_exists.1 hs
      unfold valueAt
      rw [hs]
      rfl
    · rfl
  refine ⟨u, by rw [read_after h1]; exact q1, by rw [key _ h2.symm (by rw [q2]; rfl)]; exact q2, fun hi n hn => ?_, fun h0 => q4 ?_⟩
  · rw [key n (fun he => h1 (he ▸ hn)) (q3 hi n hn)]
    exact q3 hi n hn
  · have h0 : (if a.count = 0 then t.count else a.count) = 0 := h0
    split at h0
    · assumption
    · contradiction

theorem settled_runAll : ∀ {cs : List (Calc α)}, InOrder cs → (∀ c ∈ cs, c.out ∉ c.ins) → ∀ {d r : Dataframe α} {a : AbsFrame α}, Represents d a →
    runAll cs d = .ok r → ∃ b, Represents r b ∧ (∀ c ∈ cs, Settled c b) ∧
      ∀ c, (∀ x ∈ cs, x.out ∉ c.ins ∧ x.out ≠ c.out) → Settled c a → Settled c b
  | [], _, _, d, r, a, hd, hr => by cases hr; exact ⟨a, hd, by simp, fun _ _ h => h⟩
  | c :: cs, ho, hs, d, r, a, hd, hr => by
    have q := List.pairwise_cons.1 ho
    cases e1 : c.run d with
    | ok d1 =>
      have hr : runAll cs d1 = .ok r := by simpa only [runAll, e1, Res.ok_bind] using hr
      obtain ⟨t, ht, hd1⟩ := (run_eq c hd).2 d1 e1
      obtain ⟨b, hb, h1, h2⟩ := settled_runAll q.2 (fun x hx => hs x (List.mem_cons_of_mem _ hx)) hd1 hr
      refine ⟨b, hb, fun x hx => ?_, fun x hx hsx => h2 x (fun y hy => hx y (List.mem_cons_of_mem _ hy)) ?_⟩
      · rcases List.mem_cons.1 hx with rfl | hx
        · exact h2 x q.1 (Settled.self (hs x List.mem_cons_self) ht)
        · exact h1 x hx
      · exact hsx.other (hx c List.mem_cons_self).1 (hx c List.mem_cons_self).2 t
    | throw e => simp only [runAll, e1] at hr; cases hr
    | ub => simp only [runAll, e1] at hr; cases hr

/-- C155: running the steps again changes nothing, when no step writes what it reads or what an earlier one has read or written. So does
running any of them again, in any order. -/
theorem C155_again (count : Nat) (ops : List (DOp α)) {cs : List (Calc α)} (ho : InOrder cs) (hs : ∀ c ∈ cs, c.out ∉ c.ins) {r : Dataframe α}
    (hr : runAll cs (Dataframe.history count ops) = .ok r) {again : List (Calc α)} (ha : ∀ c ∈ again, c ∈ cs) : runAll again r = .ok r := by
  obtain ⟨b, hb, h, _⟩ := settled_runAll ho hs (Represents.history count ops) hr
  induction again with
  | nil => rfl
  | cons c again ih =>
    simp only [runAll, (h c (ha c List.mem_cons_self)).run hb, Res.ok_bind]
    exact ih fun x hx => ha x (List.mem_cons_of_mem _ hx)

example := C155_again 2 flowFrame (cs := [copyCalc "X" "A", copyCalc "Y" "B", copyCalc "Z" "X"]) (by simp [InOrder, copyCalc]) (by simp [copyCalc]) rfl
  (again := [copyCalc "Z" "X", copyCalc "X" "A", copyCalc "X" "A"]) (fun c hc => by
    simp only [List.mem_cons, List.not_mem_nil, or_false] at hc ⊢
    rcases hc with h | h | h <;> simp [h])

/-- C155: a step that returns has stored the result of its computation on the Series found under the names it reads, dimension aside, and has
changed no Serie found under another name. -/
theorem C155_step (count : Nat) (ops : List (DOp α)) {c : Calc α} {r : Dataframe α} (hr : c.run (Dataframe.history count ops) = .ok r) :
    (∃ t, c.F (c.ins.map (Dataframe.history count ops).get) = .ok t ∧ r.get c.out = { t with dimension := 3 }) ∧
      ∀ n, n ≠ c.out → r.get n = (Dataframe.history count ops).get n := by
  have hd := Represents.history (α := α) count ops
  obtain ⟨t, ht, hd1⟩ := (run_eq c hd).2 r hr
  refine ⟨⟨t, ?_, ?_⟩, fun n hn => ?_⟩
  · rw [List.map_congr_left fun n _ => get_valueAt hd n]
    exact ht
  · rw [get_valueAt hd1, valueAt_after, if_pos rfl]
    rfl
  · rw [get_valueAt hd1, get_valueAt hd, valueAt_after, if_neg hn]

example := C155_step 2 flowFrame (c := copyCalc "X" "A") rfl

/-- C155: at the end the Dataframe is consistent: each Serie computed is, dimension aside, the one that its step computes from the Series found
in the final Dataframe, when no step writes what it reads or what an earlier one has read or written. -/
theorem C155_consistent (count : Nat) (ops : List (DOp α)) {cs : List (Calc α)} (ho : InOrder cs) (hs : ∀ c ∈ cs, c.out ∉ c.ins) {r : Dataframe α}
    (hr : runAll cs (Dataframe.history count ops) = .ok r) {c : Calc α} (hc : c ∈ cs) :
    ∃ t, c.F (c.ins.map r.get) = .ok t ∧ r.get c.out = { t with dimension := 3 } := by
  obtain ⟨b, hb, h, _⟩ := settled_runAll ho hs (Represents.history count ops) hr
  obtain ⟨t, h1, h2, _⟩ := h c hc
  refine ⟨t, ?_, ?_⟩
  · rw [List.map_congr_left fun n _ => get_valueAt hb n]
    exact h1
  · rw [get_valueAt hb]
    unfold valueAt
    rw [h2]
    rfl

example := C155_consistent 2 flowFrame (cs := [copyCalc "X" "A", copyCalc "Y" "B", copyCalc "Z" "X"]) (by simp [InOrder, copyCalc])
  (by simp [copyCalc]) rfl (c := copyCalc "Z" "X") (by simp)

theorem runAll_agree : ∀ {cs : List (Calc α)} {ns : List String} {d d' r r' : Dataframe α} {a a' : AbsFrame α}, Represents d a → Represents d' a' →
    (∀ n, n ∉ ns → valueAt a n = valueAt a' n) → runAll cs d = .ok r → runAll cs d' = .ok r' →
    ∃ b b', Represents r b ∧ Represents r' b' ∧ ∀ n, n ∉ affected cs ns → valueAt b n = valueAt b' n
  | [], ns, d, d', r, r', a, a', hd, hd', h, hr, hr' => by cases hr; cases hr'; exact ⟨a, a', hd, hd', h⟩
  | c :: cs, ns, d, d', r, r', a, a', hd, hd', h, hr, hr' => by
    cases e1 : c.run d with
    | ok d1 =>
      cases e1' : c.run d' with
      | ok d1' =>
        have hr : runAll cs d1 = .ok r := by simpa only [runAll, e1, Res.ok_bind] using hr
        have hr' : runAll cs d1' = .ok r' := by simpa only [runAll, e1', Res.ok_bind] using hr'
        obtain ⟨t, ht, hd1⟩ := (run_eq c hd).2 d1 e1
        obtain ⟨t', ht', hd1'⟩ := (run_eq c hd').2 d1' e1'
        show ∃ b b', Represents r b ∧ Represents r' b' ∧ ∀ n, n ∉ affected cs (if c.ins.any (· ∈ ns) then c.out :: ns else ns.filter (· ≠ c.out)) → _
        refine runAll_agree (cs := cs) hd1 hd1' (fun n hn => ?_) hr hr'
        rw [valueAt_after, valueAt_after]
        by_cases hi : c.ins.any (· ∈ ns) = true
        · rw [if_pos hi] at hn
          rw [if_neg fun he => hn (by simp [he]), if_neg fun he => hn (by simp [he])]
          exact h n fun hm => hn (List.mem_cons_of_mem _ hm)
        · rw [if_neg hi] at hn
          by_cases he : n = c.out
          · rw [if_pos he, if_pos he]
            have : c.ins.map (valueAt a) = c.ins.map (valueAt a') := List.map_congr_left fun x hx => h x fun hm =>
              hi (List.any_eq_true.2 ⟨x, hx, by simpa using hm⟩)
            rw [this, ht'] at ht
            cases ht
            rfl
          · rw [if_neg he, if_neg he]
            exact h n fun hm => hn (by simp [hm, he])
      | throw e => simp only [runAll, e1'] at hr'; cases hr'
      | ub => simp only [runAll, e1'] at hr'; cases hr'
    | throw e => simp only [runAll, e1] at hr; cases hr
    | ub => simp only [runAll, e1] at hr; cases hr

/-- C155: changing some Series of a Dataframe changes nothing to the results that do not depend on them: the same steps, in any order, run on two
Dataframes that give the same Series under all names but `ns`, lead to Dataframes that give the same Series under all names that are not affected. -/
theorem C155_unaffected (count count' : Nat) (ops ops' : List (DOp α)) {ns : List String}
    (h : ∀ n, n ∉ ns → (Dataframe.history count ops).get n = (Dataframe.history count' ops').get n) {cs : List (Calc α)} {r r' : Dataframe α}
    (hr : runAll cs (Dataframe.history count ops) = .ok r) (hr' : runAll cs (Dataframe.history count' ops') = .ok r') {n : String}
    (hn : n ∉ affected cs ns) : r.get n = r'.get n := by
  have hd := Represents.history (α := α) count ops
  have hd' := Represents.history (α := α) count' ops'
  obtain ⟨b, b', h1, h2, h3⟩ := runAll_agree hd hd' (fun n hn => by rw [← get_valueAt hd, ← get_valueAt hd']; exact h n hn) hr hr'
  rw [get_valueAt h1, get_valueAt h2]
  exact h3 n hn

example := C155_unaffected 2 2 flowFrame (flowFrame ++ [.add "A" ⟨[7, 7], 2, 1, 3⟩]) (ns := ["A"])
  (fun n hn => by
    have := (C30_frame 2 flowFrame "A").1 ⟨[7, 7], 2, 1, 3⟩ n (by simpa using hn)
    have e : Dataframe.history 2 (flowFrame ++ [.add "A" ⟨[7, 7], 2, 1, 3⟩]) = (Dataframe.history 2 flowFrame).add "A" ⟨[7, 7], 2, 1, 3⟩ := by
      simp [Dataframe.history, List.foldl_append, DOp.run]
    rw [e]
    exact this.2.symm)
  (cs := [copyCalc "X" "A", copyCalc "Y" "B", copyCalc "Z" "X"]) rfl rfl (n := "Y") (by decide +kernel)

end DF
