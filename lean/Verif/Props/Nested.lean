import Verif.Props.Utils

/-!
# A memoized function memoized again (C166)
-/

namespace DF

open Spec

variable {α σ τ : Type}

/-! ## Helpers -/

/-- One call with the same cache in both objects. -/
theorem memoCall_twice [LT α] [DecidableLT α] [BEq α] [Zero α] (f : Serie α → Eff σ (Serie α)) (s : Serie α) (c : Cache α) (x : σ) :
    memoCall (memoCall f) s (c, (c, x)) =
      ((memoCall f s (c, x)).1, ((memoCall f s (c, x)).2.1, (memoCall f s (c, x)).2)) := by
  unfold memoCall
  cases makeKey s with
  | throw e => rfl
  | ub => rfl
  | ok key =>
    cases hc : cacheFind c key with
    | throw e => simp only [hc]
    | ub => simp only [hc]
    | ok o =>
      cases o with
      | some r => simp only [hc]
      | none =>
        simp only [hc]
        rcases f s x with ⟨r | e | _, t⟩
        · simp only
          cases hs : cacheStore c key r with
          | ok c' => simp only [hs]
          | throw e => simp only
          | ub => simp only
        · rfl
        · rfl

open Classical in
theorem memoRun_call [LT α] [DecidableLT α] [BEq α] [Zero α] (f : Serie α → Eff σ (Serie α)) (s : Serie α) (ops : List (MemoOp α))
    (st : Cache α × σ) :
    memoRun f (.call s :: ops) st =
      if (memoCall f s st).1 = .ub then ([.ub], (memoCall f s st).2)
      else ((memoCall f s st).1 :: (memoRun f ops (memoCall f s st).2).1, (memoRun f ops (memoCall f s st).2).2) := by
  rw [memoRun]
  rcases memoCall f s st with ⟨r | e | _, st'⟩ <;> simp

theorem memoRun_twice [LT α] [DecidableLT α] [BEq α] [Zero α] (f : Serie α → Eff σ (Serie α)) : ∀ (ops : List (MemoOp α)),
    MemoOp.clear ∉ ops → ∀ (c : Cache α) (x : σ),
    memoRun (memoCall f) ops (c, (c, x)) =
      ((memoRun f ops (c, x)).1, ((memoRun f ops (c, x)).2.1, (memoRun f ops (c, x)).2))
  | [], _, _, _ => rfl
  | .clear :: _, h, _, _ => by simp at h
  | .call s :: ops, h, c, x => by
    have ih := memoRun_twice f ops fun h' => h (List.mem_cons_of_mem _ h')
    rw [memoRun_call, memoRun_call, memoCall_twice]
    simp only
    split
    · rfl
    · have := ih (memoCall f s (c, x)).2.1 (memoCall f s (c, x)).2.2
      rw [Prod.mk.eta] at this
      simp only [this]

/-- What a call does to the state of the function: nothing, or one call of the function. -/
theorem memoCall_inner [LT α] [DecidableLT α] [BEq α] [Zero α] (F : Serie α → Eff τ (Serie α)) (s : Serie α) (c : Cache α) (t : τ) :
    (memoCall F s (c, t)).2.2 = t ∨
      (memoCall F s (c, t)).2.2 = (F s t).2 ∧ ((F s t).1 = .ub → (memoCall F s (c, t)).1 = .ub) := by
  unfold memoCall
  cases makeKey s with
  | throw e => exact .inl rfl
  | ub => exact .inl rfl
  | ok key =>
    simp only
    cases hc : cacheFind c key with
    | throw e => exact .inl rfl
    | ub => exact .inl rfl
    | ok o =>
      cases o with
      | some r => exact .inl rfl
      | none =>
        right
        simp only
        rcases F s t with ⟨r | e | _, t'⟩
        · simp only
          cases hs : cacheStore c key r <;> simp
        · simp
        · simp

/-- The inner object only sees calls, of Series passed to the outer one. -/
theorem memoRun_inner [LT α] [DecidableLT α] [BEq α] [Zero α] (g : Serie α → Eff σ (Serie α)) : ∀ (ops : List (MemoOp α)) (c : Cache α)
    (t : Cache α × σ), ∃ l : List (Serie α), (∀ s ∈ l, s ∈ calls ops) ∧
      (memoRun (memoCall g) ops (c, t)).2.2 = (memoRun g (l.map .call) t).2
  | [], _, t => ⟨[], by simp, rfl⟩
  | .clear :: ops, c, t => by
    obtain ⟨l, h1, h2⟩ := memoRun_inner g ops [] t
    exact ⟨l, h1, h2⟩
  | .call s :: ops, c, t => by
    rw [memoRun_call]
    have hin := memoCall_inner (memoCall g) s c t
    obtain ⟨l, h1, h2⟩ := memoRun_inner g ops (memoCall (memoCall g) s (c, t)).2.1 (memoCall (memoCall g) s (c, t)).2.2
    rw [Prod.mk.eta] at h2
    have h1' : ∀ u ∈ l, u ∈ calls (.call s :: ops) := fun u hu => List.mem_cons_of_mem _ (h1 u hu)
    split
    · rcases hin with hin | ⟨hin, _⟩
      · exact ⟨[], by simp, hin⟩
      · refine ⟨[s], by simp [calls], hin.trans ?_⟩
        rw [List.map_cons, List.map_nil, memoRun_call]
        split <;> rfl
    · rename_i hub
      rcases hin with hin | ⟨hin, hu⟩
      · rw [hin] at h2
        exact ⟨l, h1', h2⟩
      · refine ⟨s :: l, ?_, ?_⟩
        · intro u hu
          rcases List.mem_cons.1 hu with rfl | hu
          · exact List.mem_cons_self ..
          · exact h1' u hu
        · rw [List.map_cons, memoRun_call, if_neg fun h => hub (hu h), ← hin]
          exact h2

theorem calls_map_call (l : List (Serie α)) : calls (l.map MemoOp.call) = l := by
  induction l with
  | nil => rfl
  | cons s l ih => rw [List.map_cons, calls, ih]

/-- The outcome is that of `f`, up to the dimension. -/
def GoodOutcome (f : Serie α → Res (Serie α)) (s : Serie α) (out : Res (Serie α)) : Prop :=
  out = f s ∨ ∃ r, f s = .ok r ∧ out = .ok { r with dimension := 3 }

/-- A memoized function that is right stays right. -/
theorem memoCall_good [LinearOrder α] [Zero α] {f : Serie α → Res (Serie α)} {P : Serie α → Prop} (hw : ∀ s, P s → WF s)
    (hd : ∀ s, P s → f s ≠ .ub) (hf : ∀ s t, P s → P t → numbers s = numbers t → f s = f t) {F : Serie α → Eff τ (Serie α)}
    {Inv : τ → Prop} (hF : ∀ s, P s → ∀ t, Inv t → GoodOutcome f s (F s t).1 ∧ Inv (F s t).2) {s : Serie α} (hs : P s)
    {c : Cache α} {t : τ} (hc : CacheOf f P c) (ht : Inv t) :
    GoodOutcome f s (memoCall F s (c, t)).1 ∧ CacheOf f P (memoCall F s (c, t)).2.1 ∧ Inv (memoCall F s (c, t)).2.2 := by
  rcases cacheFind_cases comparable_linear (c := c) (fun _ _ => trivial) (key := numbers s) trivial with
    ⟨hl, _⟩ | ⟨r, hl, hm⟩
  · obtain ⟨g1, g2⟩ := hF s hs t ht
    rcases hfs : F s t with ⟨r | e | _, t'⟩
    · rw [memoCall_ok (hw s hs) hl hfs]
      rw [hfs] at g1 g2
      refine ⟨g1, ?_, g2⟩
      intro p hp
      rcases List.mem_cons.1 hp with rfl | hp
      · rcases g1 with g1 | ⟨r', h1, h2⟩
        · exact ⟨s, r, hs, rfl, g1.symm, rfl⟩
        · cases h2
          exact ⟨s, r', hs, rfl, h1, rfl⟩
      · exact hc p hp
    · rw [memoCall_throw (hw s hs) hl hfs]
      rw [hfs] at g1 g2
      exact ⟨g1, hc, g2⟩
    · rw [hfs] at g1
      rcases g1 with g1 | ⟨_, _, h2⟩
      · exact absurd g1.symm (hd s hs)
      · cases h2
  · rw [memoCall_hit (st := (c, t)) (hw s hs) hl]
    obtain ⟨u, r', hu, hn, hfu, hr⟩ := hc _ hm
    refine ⟨.inr ⟨r', ?_, ?_⟩, hc, ht⟩
    · rw [hf s u hs hu hn.symm, hfu]
    · rw [← hr]

theorem memoRun_good [LinearOrder α] [Zero α] {f : Serie α → Res (Serie α)} {P : Serie α → Prop} (hw : ∀ s, P s → WF s)
    (hd : ∀ s, P s → f s ≠ .ub) (hf : ∀ s t, P s → P t → numbers s = numbers t → f s = f t) {F : Serie α → Eff τ (Serie α)}
    {Inv : τ → Prop} (hF : ∀ s, P s → ∀ t, Inv t → GoodOutcome f s (F s t).1 ∧ Inv (F s t).2) :
    ∀ (ops : List (MemoOp α)), (∀ s ∈ calls ops, P s) → ∀ (c : Cache α) (t : τ), CacheOf f P c → Inv t →
    List.Forall₂ (GoodOutcome f) (calls ops) (memoRun F ops (c, t)).1
  | [], _, _, _, _, _ => .nil
  | .clear :: ops, hP, c, t, _, ht => memoRun_good hw hd hf hF ops hP [] t (fun p hp => by simp at hp) ht
  | .call s :: ops, hP, c, t, hc, ht => by
    have hs : P s := hP s (by simp [calls])
    obtain ⟨g1, g2, g3⟩ := memoCall_good hw hd hf hF hs hc ht
    have hne : (memoCall F s (c, t)).1 ≠ .ub := by
      rcases g1 with g1 | ⟨_, _, g1⟩
      · rw [g1]; exact hd s hs
      · rw [g1]; simp
    rw [memoRun_call, if_neg hne, calls]
    refine .cons g1 ?_
    have := memoRun_good hw hd hf hF ops (fun u hu => hP u (by simp [calls, hu])) (memoCall F s (c, t)).2.1
      (memoCall F s (c, t)).2.2 g2 g3
    rwa [Prod.mk.eta] at this

/-! ## C166 -/

/-- C166: as long as the cache is not cleared, memoizing twice is memoizing once: the same outcomes and the same effects of
`f`, whatever `f` does and whatever the numbers. -/
theorem C166_twice [LT α] [DecidableLT α] [BEq α] [Zero α] (f : Serie α → Eff σ (Serie α)) (ops : List (MemoOp α))
    (hc : MemoOp.clear ∉ ops) (x : σ) :
    (memoRun (memoCall f) ops ([], ([], x))).1 = (memoRun f ops ([], x)).1 ∧
      (memoRun (memoCall f) ops ([], ([], x))).2.2.2 = (memoRun f ops ([], x)).2.2 := by
  rw [memoRun_twice f ops hc]
  exact ⟨rfl, rfl⟩

example := C166_twice (fun s : Serie Int => fun (n : Nat) => (if n = 1 then .throw .runtimeError else .ok s, n + 1))
  [.call ex41, .call ex23, .call ex41, .call ex23] (by simp) 0

/-- C166: clearing the cache of the outer object does not make `f` run again: over any history of calls and clears of the
outer object, once an invocation of `f` has returned no later invocation gets the same numbers. -/
theorem C166_kept [LinearOrder α] [Zero α] {f : Serie α → Eff σ (Serie α)} (ops : List (MemoOp α))
    (hw : ∀ s ∈ calls ops, WF s) (log0 : List (Serie α × Bool)) (x : σ) :
    ∃ log, (memoRun (memoCall (traced f)) ops ([], ([], (log0, x)))).2.2.2.1 = log0 ++ log ∧
      log.Pairwise (fun a b => numbers a.1 = numbers b.1 → a.2 = false) := by
  obtain ⟨l, h1, h2⟩ := memoRun_inner (traced f) ops [] ([], (log0, x))
  rw [h2]
  exact C27_at_most_once (f := f) (l.map .call) (by simp) (by rw [calls_map_call]; exact fun s hs => hw s (h1 s hs)) log0 x

example := C166_kept (f := fun s : Serie Int => fun (n : Nat) => (if n = 1 then .throw .runtimeError else .ok s, n + 1))
  [.call ex41, .call ex23, .clear, .call ex41, .clear, .call ex23] (by decide) [] 0

/-- With one object, the clear makes `f` run again; with two it does not. -/
example : (memoRun (traced fun s : Serie Int => fun (n : Nat) => (.ok s, n + 1)) [.call ex41, .clear, .call ex41] ([], ([], 0))).2.2.2 = 2 ∧
    (memoRun (memoCall (traced fun s : Serie Int => fun (n : Nat) => (.ok s, n + 1))) [.call ex41, .clear, .call ex41]
      ([], ([], ([], 0)))).2.2.2.2 = 1 := by decide +kernel

/-- C166: over any history of calls and clears of the outer object, every outcome is that of `f`, up to the dimension, when `f`
looks at the numbers only. -/
theorem C166_transparent [LinearOrder α] [Zero α] {f : Serie α → Res (Serie α)} (ops : List (MemoOp α)) (x : σ)
    (hw : ∀ s ∈ calls ops, WF s) (hd : ∀ s ∈ calls ops, f s ≠ .ub)
    (hf : ∀ s ∈ calls ops, ∀ t ∈ calls ops, numbers s = numbers t → f s = f t) :
    List.Forall₂ (fun s out => out = f s ∨ ∃ r, f s = .ok r ∧ out = .ok { r with dimension := 3 }) (calls ops)
      (memoRun (memoCall fun s => Eff.lift (f s)) ops ([], ([], x))).1 := by
  have hf' : ∀ s t, s ∈ calls ops → t ∈ calls ops → numbers s = numbers t → f s = f t := fun s t hs ht => hf s hs t ht
  refine memoRun_good (P := fun s => s ∈ calls ops) (Inv := fun t : Cache α × σ => CacheOf f (fun s => s ∈ calls ops) t.1) hw hd hf' ?_ ops (fun _ h => h) [] ([], x)
    (fun p hp => by simp at hp) (fun p hp => by simp at hp)
  rintro s hs ⟨c, t⟩ ht
  have := memoCall_good (P := fun s => s ∈ calls ops) (F := fun s => Eff.lift (f s)) (Inv := fun _ : σ => True) hw hd hf'
    (fun s _ t _ => ⟨.inl rfl, trivial⟩) hs ht (t := t) trivial
  exact ⟨this.1, this.2.1⟩

example := C166_transparent (f := fun s : Serie Int => .ok (ofScalars (numbers s).reverse))
  [.call ex41, .clear, .call ex41, .call ex23, .call ex41] () (by decide) (by decide)
  (fun s _ t _ h => by show Res.ok _ = Res.ok _; rw [h])

end DF
