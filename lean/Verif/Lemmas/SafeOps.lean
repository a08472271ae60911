import Verif.Lemmas.Safe

/-!
# Absence of undefined behaviour: the functions of the library
-/

namespace DF

open Spec

variable {α : Type} {s t : Serie α}

namespace Safe

open SafeE (Item)

theorem item (hs : WF s) {v : List α} (h : v.length = s.itemSize) : Item v := ⟨by rw [h]; exact hs.pos, by have := hs.int; omega⟩

theorem item_len {v w : List α} (hw : Item w) (h : v.length = w.length) : Item v := ⟨by rw [h]; exact hw.1, by rw [h]; exact hw.2⟩

theorem mapArr [Zero α] {cb : List α → Nat → Res (List α)} (hs : WF s)
    (hcb : ∀ v i, v.length = s.itemSize → i < s.count → Safe Item (cb v i)) : Safe (fun _ => True) (DF.mapArr cb s) :=
  ((SafeE.mapVV (I := fun _ : Unit => True) (cb := fun v i => Eff.lift (cb v i)) hs fun v i hv hi => SafeE.lift (hcb v i hv hi)) () trivial).1

theorem mapNum {cb : α → Nat → Res α} (hcb : ∀ x i, i < s.count → Safe (fun _ => True) (cb x i)) :
    Safe (fun t : Serie α => t.itemSize = 1 ∧ t.data.length = s.count) (DF.mapNum cb s) := by
  have : SafeE (fun _ : Unit => True) (fun t : Serie α => t.itemSize = 1 ∧ t.data.length = s.count)
      (DF.mapSS (σ := Unit) (fun v i => Eff.lift (cb v i)) s) := by
    have h := SafeE.forLoopI (I := fun _ : Unit => True) (fun i (r : List α) => r.length = i) (f := fun i r => do
      let x ← Eff.lift (s.getD i)
      let y ← (fun v i => Eff.lift (cb v i)) x i
      Pure.pure (r ++ [y])) s.count 0 [] rfl fun i r _ hi hr => by
        refine (SafeE.lift (getD s i)).bind fun x _ => (SafeE.lift (hcb x i (by omega))).bind fun y _ => SafeE.pure ?_
        rw [List.length_append, hr]; rfl
    rw [Nat.zero_add] at h
    exact h.bind fun r hr => (SafeE.ofArr r one_ne_zero).mono fun t ht => ⟨ht.2, by rw [ht.1, hr]⟩
  exact (this () trivial).1

/-! ## add, sub -/

theorem binOp [Zero α] (op : α → α → α) (hs : WF s) (ht : WF t) : Safe (fun r : Serie α => WF r ∧ r.count = s.count ∧ r.itemSize = s.itemSize) (DF.binOp op s t) := by
  refine ite (fun _ => trivial) fun hc => ?_
  push Not at hc
  refine (forLoop _ 0 _ (Keeps.refl (WF.zerosLike hs 3)) fun i r _ hi hr => ite (fun h1 => ?_) fun _ => ?_).mono fun r hr => ⟨hr.wf, hr.count, hr.itemSize⟩
  · exact (getD s i).bind fun x _ => (getD t i).bind fun y _ => (putD r hr.wf i _).mono fun _ h => hr.trans h
  · refine (getA hs (by omega)).bind fun v hv => (getA ht (by omega)).bind fun w hw => ?_
    refine (forLoop (I := fun m : List α => m.length = s.itemSize) _ 0 _ List.length_replicate fun j m _ hj hm => ?_).bind fun m _ =>
      (putA r hr.wf i m).mono fun _ h => hr.trans h
    exact (rd (by omega)).bind fun x _ => (rd (by omega)).bind fun y _ => (wr _ (by omega)).mono fun _ h => h.trans hm

theorem countAndCheck (ss : List (Serie α)) : Safe (fun cs => cs = ss.map (·.count) ∧ ∀ a ∈ ss, ∀ b ∈ ss, a.count = b.count) (DF.countAndCheck ss) := by
  unfold DF.countAndCheck
  cases ss with
  | nil => exact ⟨rfl, fun a h => by cases h⟩
  | cons s ss =>
    show Safe _ (if (ss.map (·.count)).all (· == s.count) then _ else _)
    refine ite (fun h => ⟨rfl, ?_⟩) fun _ => trivial
    have h' : ∀ a ∈ s :: ss, a.count = s.count := by
      intro a ha
      rcases List.mem_cons.1 ha with rfl | ha
      · rfl
      · exact beq_iff_eq.1 (List.all_eq_true.1 h _ (List.mem_map_of_mem ha))
    exact fun a ha b hb => (h' a ha).trans (h' b hb).symm

theorem foldSeries [Zero α] {op : α → α → α} {a : Serie α} {ss : List (Serie α)} (h : ∀ s ∈ a :: ss, WF s) :
    Safe (fun _ => True) (DF.foldSeries (DF.binOp op) (a :: ss)) := by
  refine (countAndCheck (a :: ss)).bind fun _ _ => ?_
  refine (foldlM (I := WF) _ _ (WF.zerosLike (h a (List.mem_cons_self ..)) 3) fun x hx r hr => ?_).mono fun _ _ => trivial
  exact (binOp op hr (h x hx)).bind fun y hy => ⟨hy.1.pos, hy.1.int, hy.1.fits, hy.1.small⟩

theorem opList [Zero α] (op : α → α → α) {a : Serie α} {ss : List (Serie α)} (h : ∀ s ∈ a :: ss, WF s) :
    Safe (fun _ => True) (DF.opList op (a :: ss)) := by
  have ha := h a (List.mem_cons_self ..)
  show Safe _ (DF.forLoop _ 1 ss.length () >>= fun _ => DF.mapArr _ a)
  refine (forLoopI (fun i (_ : Unit) => ∀ j x, 1 ≤ j → j < i → (a :: ss)[j]? = some x → x.count = a.count ∧ x.itemSize = a.itemSize) ss.length 1 ()
    (fun j x h1 h2 => by omega) fun i _ h1 h2 hi => ?_).bind fun _ hc => mapArr ha fun v i hv hi => ?_
  · have hl : i < (a :: ss).length := by rw [List.length_cons]; omega
    rw [rd_of_lt hl]
    refine ite (fun _ => trivial) fun hc => ite (fun _ => trivial) fun hk => ?_
    intro j x hj1 hj2 hx
    rcases Nat.lt_succ_iff_lt_or_eq.1 hj2 with hj | rfl
    · exact hi j x hj1 hj hx
    · rw [List.getElem?_eq_getElem hl] at hx
      cases hx
      exact ⟨(not_not.1 hc).symm, (not_not.1 hk).symm⟩
  · refine (forLoop (I := fun r : List α => r.length = a.itemSize) _ 1 v hv fun j r h1 h2 hr => ?_).mono fun r hr => item ha hr
    have hl : j < (a :: ss).length := by rw [List.length_cons] at h2 ⊢; omega
    have hx := hc j _ h1 (by rw [List.length_cons] at h2; omega) (List.getElem?_eq_getElem hl)
    have hw := h _ (List.getElem_mem hl)
    rw [rd_of_lt hl]
    refine (updLoop (n := a.itemSize) (by omega) fun k hk x => ?_).mono fun m hm => hm.trans hr
    exact (value hw (by omega)).bind fun w hw' => (rd (by omega)).bind fun _ _ => trivial

/-! ## products and quotients -/

theorem scaled [Zero α] {f : Nat → α → Res α} {n : Nat} (hs : WF s) (hn : n ≤ s.itemSize) (hf : ∀ k < n, ∀ x, Safe (fun _ => True) (f k x)) :
    Safe (fun _ => True) (DF.mapArr (fun a _ => DF.updLoop n f a) s) :=
  mapArr hs fun v _ hv _ => (updLoop (by omega) hf).mono fun m hm => item hs (hm.trans hv)

theorem scaledAll [Zero α] {f : Nat → α → Res α} (hs : WF s) (hf : ∀ k < s.itemSize, ∀ x, Safe (fun _ => True) (f k x)) :
    Safe (fun _ => True) (DF.mapArr (fun a _ => DF.updLoop a.length f a) s) :=
  mapArr hs fun v _ hv _ => (updLoop (by omega) fun k hk => hf k (by omega)).mono fun m hm => item hs (hm.trans hv)

theorem multSerie [Zero α] [Mul α] (hs : WF s) (ht : WF t) (h : s.itemSize = 1 → t.itemSize = 1 → s.data.length ≤ t.data.length) :
    Safe (fun r : Serie α => s.itemSize = 1 → r.itemSize = 1) (DF.multSerie s t) := by
  refine ite (fun _ => trivial) fun hc => ite (fun h1 => ite (fun _ => trivial) fun h2 => ?_) fun h1 => ?_
  · refine (forLoop (I := fun m : List α => m.length = s.data.length) _ 0 _ List.length_replicate fun i m _ hi hm => ?_).bind fun m _ =>
      (ofArray m 3 one_ne_zero).mono fun r hr _ => hr.2
    have := h h1 (not_not.1 h2)
    exact (rd (by omega)).bind fun x _ => (rd (by omega)).bind fun y _ => (wr _ (by omega)).mono fun _ h => h.trans hm
  · refine (mapArr hs fun v i hv hi => ite (fun h3 => ?_) fun h3 => ite (fun _ => (by exact trivial)) fun h4 => ?_).mono fun _ _ h => (h1 h).elim
    · refine (scalar (by have := ht.count_le; omega)).bind fun d _ => (updLoop le_rfl fun k _ x => (by exact trivial)).mono fun m hm => item hs (hm.trans hv)
    · refine (value ht (by omega)).bind fun d hd => (updLoop le_rfl fun k hk x => ?_).mono fun m hm => item hs (hm.trans hv)
      exact (rd (by omega)).bind fun _ _ => trivial

theorem divSerie [Zero α] [Neg α] [LT α] [DecidableLT α] [Div α] [OfScientific α] (hs : WF s) : Safe (fun _ => True) (DF.divSerie t s) := by
  refine ite (fun _ => trivial) fun _ => ite (fun _ => trivial) fun _ => ite (fun _ => trivial) fun _ => ite (fun _ => ?_) fun _ => ?_
  · refine (mapNum fun x i _ => (getD t i).bind fun w _ => ite (fun _ => (by exact trivial)) fun _ => (by exact trivial)).mono fun _ _ => (by exact trivial)
  · refine mapArr hs fun v i hv _ => (getD t i).bind fun w _ => ite (fun _ => item hs (by rw [List.length_replicate, hv])) fun _ => ?_
    refine (forLoop (I := fun m : List α => m.length = v.length) _ 0 _ List.length_replicate fun j m _ hj hm => ?_).mono fun m hm => item hs (hm.trans hv)
    exact (rd (by omega)).bind fun x _ => (wr _ (by omega)).mono fun _ h => h.trans hm

theorem foldlM_check {γ : Type} {C : γ → Prop} {f : γ → Res Unit} (hf : ∀ x, Safe (fun _ => C x) (f x)) : ∀ l : List γ,
    Safe (fun _ => ∀ x ∈ l, C x) (l.foldlM (fun (_ : Unit) x => f x) ())
  | [] => fun _ h => by cases h
  | a :: l => by
    rw [List.foldlM_cons]
    refine (hf a).bind fun _ ha => (foldlM_check hf l).mono fun _ hl x hx => ?_
    rcases List.mem_cons.1 hx with rfl | hx
    · exact ha
    · exact hl x hx

theorem weightedSum [Zero α] [Add α] [Mul α] {a : Serie α} {ss : List (Serie α)} (h : ∀ s ∈ a :: ss, WF s) (ws : List α) :
    Safe (fun _ => True) (DF.weightedSum (a :: ss) ws) := by
  have ha := h a (List.mem_cons_self ..)
  refine ite (fun _ => trivial) fun hl => ?_
  show Safe _ (List.foldlM _ () (a :: ss) >>= fun _ => DF.mapArr _ a)
  refine (foldlM_check (C := fun x => x.count = a.count ∧ x.itemSize = a.itemSize) (f := fun s : Serie α =>
    if s.count ≠ a.count then .throw .invalidArgument else if s.itemSize ≠ a.itemSize then .throw .invalidArgument else .ok ())
    (fun x => ite (fun _ => trivial) fun hc => ite (fun _ => trivial) fun hk => ⟨not_not.1 hc, not_not.1 hk⟩) (a :: ss)).bind fun _ hc => ?_
  refine mapArr ha fun v i hv hi => ?_
  refine (forLoop (I := fun r : List α => r.length = a.itemSize) _ 0 _ List.length_replicate fun j r _ hj hr => ?_).mono fun r hr => item ha hr
  rw [Nat.zero_add] at hj
  refine (rd hj).bind fun x hx => (value (h x hx) (by rw [(hc x hx).1]; exact hi)).bind fun w hw =>
    (rd (by rw [← not_not.1 hl]; exact hj)).bind fun c _ => (updLoop (by omega) fun k hk y => ?_).mono fun m hm => hm.trans hr
  exact (rd (by rw [hw, (hc x hx).2]; exact hk)).bind fun _ _ => trivial

/-! ## minMax, normalize, masks -/

theorem minMax [LT α] [DecidableLT α] [Limits α] (hs : WF s) :
    Safe (fun p : List α × List α => 0 < s.count → p.1.length = s.itemSize ∧ p.2.length = s.itemSize) (DF.minMax s) := by
  refine ite (fun _ => trivial) fun _ => ite (fun h0 => fun h => by omega) fun h0 => ite (fun h1 => ?_) fun h1 => ?_
  · refine (forLoop (I := fun _ => True) _ 0 _ (by exact trivial) fun i p _ _ _ => (getD s i).bind fun _ _ => (by exact trivial)).bind fun p _ => ?_
    exact fun _ => ⟨h1.symm, h1.symm⟩
  · refine (getA hs (by omega)).bind fun v hv => ?_
    refine (forLoop (I := fun p : List α × List α => p.1.length = s.itemSize ∧ p.2.length = s.itemSize) _ 1 _ ⟨hv, hv⟩
      fun i p _ hi hp => ?_).mono fun _ h _ => h
    refine (getA hs (by omega)).bind fun w hw => forLoop _ 0 p hp fun j q _ hj hq => ?_
    exact (rd (by omega)).bind fun x _ => (rd (by omega)).bind fun a _ => (rd (by omega)).bind fun b _ =>
      (wr _ (by omega)).bind fun m hm => (wr _ (by omega)).bind fun n hn => ⟨hm.trans hq.1, hn.trans hq.2⟩

theorem normalize [Zero α] [One α] [Add α] [Sub α] [Mul α] [Div α] [LT α] [DecidableLT α] [Limits α] [Sqrt α] (hs : WF s)
    (h : s.itemSize = 1 → 0 < s.count) : Safe (fun _ => True) (DF.normalize s) := by
  refine ite (fun _ => trivial) fun _ => ite (fun h1 => ?_) fun _ => ?_
  · refine (minMax hs).bind fun p hp => ?_
    obtain ⟨ha, hb⟩ := hp (h h1)
    refine (rd (by omega)).bind fun hi _ => (rd (by omega)).bind fun lo _ => ?_
    exact (mapNum fun x i _ => (rd (by omega)).bind fun _ _ => (by exact trivial)).mono fun _ _ => (by exact trivial)
  · exact mapArr hs fun v i hv _ => item hs (by rw [List.length_map, hv])

theorem stdEqual (pred : α → α → Bool) : ∀ l m : List α, l.length ≤ m.length → Safe (fun _ => True) (DF.stdEqual pred l m)
  | [], _, _ => trivial
  | a :: l, [], h => by simp at h
  | a :: l, b :: m, h => ite (fun _ => stdEqual pred l m (by simpa using h)) fun _ => trivial

theorem maskWith [Zero α] [One α] (pred : α → α → Bool) (hs : WF s) (ht : WF t) : Safe (fun _ => True) (DF.maskWith pred s t) := by
  refine ite (fun _ => trivial) fun hc => ?_
  have hc' : s.itemSize = t.itemSize ∧ s.count = t.count := by
    simp only [hs.valid, ht.valid, Bool.not_true, Bool.false_or, Bool.or_eq_true, decide_eq_true_eq] at hc
    push Not at hc
    exact hc
  refine (forLoop (I := WF) _ 0 _ (wfZeros Nat.one_pos (by decide) (by have := hs.count_lt; omega)) fun i r _ hi hr =>
    ite (fun h1 => ?_) fun _ => ?_).mono fun _ _ => trivial
  · have := hs.count_le
    have := ht.count_le
    exact (scalar (by omega)).bind fun x _ => (scalar (by omega)).bind fun y _ => (putScalar r hr i _).mono fun _ h => h.wf
  · refine (value hs (by omega)).bind fun v hv => (value ht (by omega)).bind fun w hw => (stdEqual pred v w (by omega)).bind fun b _ => ?_
    exact (putScalar r hr i _).mono fun _ h => h.wf

theorem random [Zero α] (next : Nat → α) {c k : Nat} (h0 : 0 < k) (h1 : k < 2 ^ 31) (h2 : c * k < 2 ^ 32) : Safe (fun _ => True) (DF.random next c k) := by
  refine (forLoop (I := fun p : Serie α × Nat => WF p.1) _ 0 _ (wfZeros h0 h1 h2) fun i p _ hi hp => ite (fun _ => ?_) fun _ => ?_).bind fun p _ => trivial
  · exact (putD p.1 hp i _).bind fun r hr => hr.wf
  · refine (forLoop (I := fun q : List α × Nat => q.1.length = k) _ 0 _ List.length_replicate fun j q _ hj hq => ?_).bind fun q _ =>
      (putA p.1 hp i _).bind fun r hr => hr.wf
    exact (wr _ (by omega)).bind fun v hv => hv.trans hq

/-! ## statistics -/

theorem mean [Zero α] [Add α] [Div α] [NatCast α] (hs : WF s) : Safe (fun t : Tuple α => s.itemSize = 1 → ∃ x, t = .number x) (DF.mean s) := by
  refine ite (fun _ => ?_) fun h1 => ?_
  · exact ((SafeE.reduceS (I := fun _ : Unit => True) (fun a x i => SafeE.pure trivial) 0 () trivial).1).bind fun x _ _ => ⟨_, rfl⟩
  · refine (SafeE.exec (I := fun b : List α => b.length = s.itemSize) (SafeE.forEachV hs fun v i hv _ => SafeE.update fun b hb => ?_)
      List.length_replicate).bind fun b _ h => (h1 h).elim
    exact (updLoop (by omega) fun k hk x => (rd hk).bind fun _ _ => (by exact trivial)).mono fun m hm => hm.trans hb

theorem subNum [Sub α] (x : α) : Safe (fun r : Serie α => r.itemSize = 1 ∧ r.data.length = s.count) (DF.subNum s x) :=
  ite (fun _ => trivial) fun _ => mapNum fun _ _ _ => trivial

theorem addNum [Add α] (x : α) : Safe (fun r : Serie α => r.itemSize = 1 ∧ r.data.length = s.count) (DF.addNum s x) :=
  ite (fun _ => trivial) fun _ => mapNum fun _ _ _ => trivial

end Safe

end DF
