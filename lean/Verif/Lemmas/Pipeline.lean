import Verif.Spec.Pipeline
import Verif.Lemmas.SafeMore

/-!
# Programs made of calls to the library: sizes and absence of undefined behaviour
-/

namespace DF

open Spec

variable {α σ : Type} {s t : Serie α} {n m : Nat}

/-- A neat Serie of at most `n` numbers, whose items have at most `n` numbers. -/
structure Fit (n : Nat) (s : Serie α) : Prop where
  exact : s.data.length = s.count * s.itemSize
  len : s.data.length ≤ n
  width : s.itemSize ≤ n
  item : 0 < s.itemSize ∨ s.count = 0

namespace Fit

theorem wf (h : Fit n s) (hn : n < 2 ^ 31) (hc : 0 < s.count) : WF s := by
  have h1 := h.width
  have h2 := h.len
  exact ⟨h.item.resolve_right (by omega), by omega, h.exact.ge, by omega⟩

theorem count_le (h : Fit n s) : s.count ≤ n := by
  rcases h.item with h0 | h0
  · exact ((Nat.le_mul_of_pos_right _ h0).trans h.exact.ge).trans h.len
  · omega

theorem mono (h : Fit n s) (hm : n ≤ m) : Fit m s := ⟨h.exact, h.len.trans hm, h.width.trans hm, h.item⟩

theorem blank [Zero α] (n d : Nat) : Fit n (Serie.zeros 0 0 d : Serie α) := ⟨rfl, Nat.zero_le _, Nat.zero_le _, .inr rfl⟩

theorem neat (h : Fit n s) : Neat s := ⟨h.exact, h.item⟩

end Fit

/-- The Serie has `c` items of `k` numbers. -/
structure Shape (k c : Nat) (s : Serie α) : Prop where
  itemSize : s.itemSize = k
  count : s.count = c
  length : s.data.length = c * k

namespace Shape

variable {k c : Nat}

theorem zeros [Zero α] (k c d : Nat) (h : c * k < 2 ^ 32) : Shape k c (Serie.zeros k c d : Serie α) :=
  ⟨rfl, rfl, by show (List.replicate (u32 (c * k)) (0 : α)).length = _; rw [List.length_replicate]; exact Nat.mod_eq_of_lt h⟩

theorem wf (h : Shape k c s) (h0 : 0 < k) (h1 : k < 2 ^ 31) (h2 : c * k < 2 ^ 32) : WF s :=
  ⟨by rw [h.itemSize]; exact h0, by rw [h.itemSize]; exact h1, by rw [h.itemSize, h.count, h.length], by rw [h.length]; exact h2⟩

theorem keeps (h : Shape k c s) (h' : Keeps s t) : Shape k c t :=
  ⟨h'.itemSize.trans h.itemSize, h'.count.trans h.count, h'.length.trans h.length⟩

theorem fit (h : Shape k c s) (h1 : c * k ≤ n) (h2 : k ≤ n) (h0 : 0 < k ∨ c = 0) : Fit n s :=
  ⟨by rw [h.length, h.count, h.itemSize], by rw [h.length]; exact h1, by rw [h.itemSize]; exact h2, by rw [h.itemSize, h.count]; exact h0⟩

end Shape

namespace Safe

theorem ofArrayFit {k c d : Nat} {l : List α} (h0 : 0 < k) (h1 : k ≤ n) (hl : l.length = c * k) (h2 : l.length ≤ n) (hn : n < 2 ^ 31) :
    Safe (Fit n) (Serie.ofArray k l d) := by
  have hc : c ≤ c * k := Nat.le_mul_of_pos_right _ h0
  have e : u32 (l.length / sizeT k) = c := by
    rw [sizeT_of_lt (by omega), hl, Nat.mul_div_cancel _ h0]
    exact Nat.mod_eq_of_lt (by omega)
  unfold Serie.ofArray Serie.divCount
  rw [if_neg h0.ne', e]
  exact ⟨hl, h2, h1, .inl h0⟩

end Safe

namespace SafeE

variable {I : σ → Prop}

theorem mapSSFit {cb : α → Nat → Eff σ α} (hs : Fit n s) (h1 : 1 ≤ n) (hn : n < 2 ^ 31) (hcb : ∀ x i, i < s.count → SafeE I (fun _ => True) (cb x i)) :
    SafeE I (Fit n) (DF.mapSS cb s) := by
  have hc := hs.count_le
  have h := forLoopI (I := I) (fun i (r : List α) => r.length = i) (f := fun i r => do
      let x ← Eff.lift (s.getD i)
      let y ← cb x i
      Pure.pure (r ++ [y])) s.count 0 [] rfl fun i r _ hi hr =>
        (lift (Safe.getD s i)).bind fun x _ => (hcb x i (by omega)).bind fun y _ => pure (by rw [List.length_append, hr]; rfl)
  exact h.bind fun r hr => lift (Safe.ofArrayFit (c := s.count) Nat.one_pos h1 (by omega) (by omega) hn)

theorem mapVSFit {cb : List α → Nat → Eff σ α} (hs : Fit n s) (h1 : 1 ≤ n) (hn : n < 2 ^ 31) (hcb : Cb I cb) : SafeE I (Fit n) (DF.mapVS cb s) := by
  have hc := hs.count_le
  have h := forLoopI (I := I) (fun i (r : List α) => r.length = i) (f := fun i r => do
      let x ← Eff.lift (s.getA i)
      let y ← cb x i
      Pure.pure (r ++ [y])) s.count 0 [] rfl fun i r _ hi hr =>
        (lift (Safe.getA (hs.wf hn (by omega)) (by omega))).bind fun x _ => (hcb x i).bind fun y _ => pure (by rw [List.length_append, hr]; rfl)
  exact h.bind fun r hr => lift (Safe.ofArrayFit (c := s.count) Nat.one_pos h1 (by omega) (by omega) hn)

theorem checkSFit [Zero α] [One α] {cb : α → Nat → Eff σ Bool} (hs : Fit n s) (h1 : 1 ≤ n) (hn : n < 2 ^ 31) (hcb : Cb I cb) : SafeE I (Fit n) (DF.checkS s cb) := by
  have hc := hs.count_le
  have h := forLoopI (I := I) (fun i (r : List α) => r.length = i) (f := fun i r => do
      let x ← Eff.lift (s.getD i)
      let b ← cb x i
      Pure.pure (r ++ [if b then 1 else 0])) s.count 0 [] rfl fun i r _ hi hr =>
        (lift (Safe.getD s i)).bind fun x _ => (hcb x i).bind fun y _ => pure (by rw [List.length_append, hr]; rfl)
  exact h.bind fun r hr => lift (Safe.ofArrayFit (c := s.count) Nat.one_pos h1 (by omega) (by omega) hn)

theorem checkVFit [Zero α] [One α] {cb : List α → Nat → Eff σ Bool} (hs : Fit n s) (h1 : 1 ≤ n) (hn : n < 2 ^ 31) (hcb : Cb I cb) :
    SafeE I (Fit n) (DF.checkV s cb) := by
  have hc := hs.count_le
  have h := forLoopI (I := I) (fun i (r : List α) => r.length = i) (f := fun i r => do
      let x ← Eff.lift (s.getA i)
      let b ← cb x i
      Pure.pure (r ++ [if b then 1 else 0])) s.count 0 [] rfl fun i r _ hi hr =>
        (lift (Safe.getA (hs.wf hn (by omega)) (by omega))).bind fun x _ => (hcb x i).bind fun y _ => pure (by rw [List.length_append, hr]; rfl)
  exact h.bind fun r hr => lift (Safe.ofArrayFit (c := s.count) Nat.one_pos h1 (by omega) (by omega) hn)

/-- An array that makes a Serie of `c` items of at most `m` numbers. -/
def Room (c m : Nat) (w : List α) : Prop := 0 < w.length ∧ w.length ≤ m ∧ c * w.length ≤ m

theorem packed [Zero α] {γ : Type} {get : Nat → Res γ} {G : γ → Prop} {cb : γ → Nat → Eff σ (List α)} {c : Nat} (hm : m < 2 ^ 31)
    (hg : ∀ i < c, Safe G (get i)) (hcb : ∀ x i, G x → i < c → SafeE I (Room c m) (cb x i)) : SafeE I (Fit m)
    (if c = 0 then Pure.pure (Serie.zeros 0 0) else do
      let x0 ← Eff.lift (get 0)
      let first ← cb x0 0
      let itemSize := first.length
      let flattened ← DF.forLoop (fun i r => do
        let x ← Eff.lift (get i)
        let y ← cb x i
        if y.length ≠ itemSize then Eff.throw .runtimeError else Pure.pure (r ++ y)) 1 (c - 1) first
      Eff.lift (Serie.ofArray (DF.u32 itemSize) flattened)) := by
  refine ite (fun _ => pure (Fit.blank ..)) fun h0 => (lift (hg 0 (by omega))).bind fun x hx => (hcb x 0 hx (by omega)).bind fun y hy => ?_
  refine (forLoopI (fun i (r : List α) => r.length = i * y.length) (c - 1) 1 y (Nat.one_mul _).symm fun i r h1 hi hr => ?_).bind fun r hr => ?_
  · refine (lift (hg i (by omega))).bind fun x hx => (hcb x i hx (by omega)).bind fun z _ => ite (fun _ => throw _) fun hz => pure ?_
    rw [List.length_append, hr, not_not.1 hz, Nat.succ_mul]
  · rw [show 1 + (c - 1) = c by omega] at hr
    obtain ⟨a, b, d⟩ := hy
    refine lift ?_
    rw [show DF.u32 y.length = y.length from Nat.mod_eq_of_lt (by omega)]
    exact Safe.ofArrayFit a b hr (by omega) hm

theorem mapSVFit [Zero α] {cb : α → Nat → Eff σ (List α)} (hm : m < 2 ^ 31) (hcb : ∀ x i, i < s.count → SafeE I (Room s.count m) (cb x i)) :
    SafeE I (Fit m) (DF.mapSV cb s) := packed hm (G := fun _ => True) (fun i _ => (Safe.getD s i).mono fun _ _ => trivial) fun x i _ => hcb x i

theorem mapVVFit [Zero α] {cb : List α → Nat → Eff σ (List α)} (hs : Fit n s) (hn : n < 2 ^ 31) (hm : m < 2 ^ 31)
    (hcb : ∀ v i, v.length = s.itemSize → i < s.count → SafeE I (Room s.count m) (cb v i)) :
    SafeE I (Fit m) (DF.mapVV cb s) := packed hm (fun i hi => Safe.getA (hs.wf hn (by omega)) hi) hcb

end SafeE

namespace Safe

open SafeE (Room Idx)

/-- The items keep their size. -/
theorem room (hs : Fit n s) {v : List α} {i : Nat} (hi : i < s.count) (h : v.length = s.itemSize) : Room s.count n v := by
  refine ⟨?_, ?_, ?_⟩
  · rw [h]; exact hs.item.resolve_right (by omega)
  · rw [h]; exact hs.width
  · rw [h, ← hs.exact]; exact hs.len

theorem mapArrFit [Zero α] {cb : List α → Nat → Res (List α)} (hs : Fit n s) (hn : n < 2 ^ 31)
    (hcb : ∀ v i, v.length = s.itemSize → i < s.count → Safe (fun w : List α => w.length = s.itemSize) (cb v i)) : Safe (Fit n) (DF.mapArr cb s) :=
  ((SafeE.mapVVFit (I := fun _ : Unit => True) (cb := fun v i => Eff.lift (cb v i)) hs hn hn fun v i hv hi =>
    SafeE.lift ((hcb v i hv hi).mono fun _ hw => room hs hi hw)) () trivial).1

theorem mapNumFit {cb : α → Nat → Res α} (hs : Fit n s) (h1 : 1 ≤ n) (hn : n < 2 ^ 31) (hcb : ∀ x i, i < s.count → Safe (fun _ => True) (cb x i)) :
    Safe (Fit n) (DF.mapNum cb s) :=
  ((SafeE.mapSSFit (I := fun _ : Unit => True) (cb := fun v i => Eff.lift (cb v i)) hs h1 hn fun x i hi => SafeE.lift (hcb x i hi)) () trivial).1

/-! ## Selections -/

theorem idx_len {idx : List Nat} (hs : Fit n s) (hn : n < 2 ^ 31) (hi : Idx s.count idx) : u32 idx.length = idx.length :=
  Nat.mod_eq_of_lt (by have := hs.count_le; have := hi.2; omega)

theorem gatherDFit [Zero α] {idx : List Nat} (hs : Fit n s) (h1 : 1 ≤ n) (hn : n < 2 ^ 31) (hi : Idx s.count idx) : Safe (Fit n) (DF.gatherD s idx) := by
  have hc := hs.count_le
  have hi2 := hi.2
  unfold DF.gatherD
  rw [idx_len hs hn hi]
  refine (forLoop (I := Shape 1 idx.length) _ 0 _ (Shape.zeros _ _ _ (by omega)) fun i r _ h hr => ?_).mono fun r hr => hr.fit (by omega) h1 (.inl Nat.one_pos)
  exact (rd (by omega)).bind fun k _ => (getD s k).bind fun x _ =>
    (putD r (hr.wf Nat.one_pos (by decide) (by omega)) i x).mono fun _ h => hr.keeps h

theorem idx_mul {idx : List Nat} (hs : Fit n s) (hi : Idx s.count idx) : idx.length * s.itemSize ≤ n :=
  (Nat.mul_le_mul_right _ hi.2).trans (hs.exact ▸ hs.len)

theorem gatherAFit [Zero α] {idx : List Nat} (hs : Fit n s) (hn : n < 2 ^ 31) (hi : Idx s.count idx) : Safe (Fit n) (DF.gatherA s idx) := by
  have hm := idx_mul hs hi
  have hi2 := hi.2
  unfold DF.gatherA
  rw [idx_len hs hn hi]
  refine (forLoop (I := Shape s.itemSize idx.length) _ 0 _ (Shape.zeros _ _ _ (by omega)) fun i r _ h hr => ?_).mono fun r hr =>
    hr.fit hm hs.width (hs.item.imp_right fun h => by omega)
  have hw := hs.wf hn (show 0 < s.count by omega)
  exact (rd (by omega)).bind fun k hk => (getA hw (hi.1 k hk)).bind fun x _ => (putA r (hr.wf hw.pos hw.int (by omega)) i x).mono fun _ h => hr.keeps h

theorem gatherFindFit [Zero α] {idx : List Nat} (hs : Fit n s) (hn : n < 2 ^ 31) (hi : Idx s.count idx) : Safe (Fit n) (DF.gatherFind s idx) := by
  have hm := idx_mul hs hi
  have hi2 := hi.2
  unfold DF.gatherFind
  rw [idx_len hs hn hi]
  refine (forLoop (I := Shape s.itemSize idx.length) _ 0 _ (Shape.zeros _ _ _ (by omega)) fun i r _ h hr => ?_).mono fun r hr =>
    hr.fit hm hs.width (hs.item.imp_right fun h => by omega)
  have hw := hs.wf hn (show 0 < s.count by omega)
  refine ite (fun _ => ?_) fun _ => ?_
  · exact (rd (by omega)).bind fun k hk => (getD s k).bind fun x _ => (putD r (hr.wf hw.pos hw.int (by omega)) i x).mono fun _ h => hr.keeps h
  · exact (rd (by omega)).bind fun k hk => (getA hw (hi.1 k hk)).bind fun x _ => (putA r (hr.wf hw.pos hw.int (by omega)) i x).mono fun _ h => hr.keeps h

/-! ## Arithmetic -/

theorem scaledFit [Zero α] {f : Nat → α → Res α} (hs : Fit n s) (hn : n < 2 ^ 31) (hf : ∀ k < s.itemSize, ∀ x, Safe (fun _ => True) (f k x)) :
    Safe (Fit n) (DF.mapArr (fun a _ => DF.updLoop s.itemSize f a) s) :=
  mapArrFit hs hn fun v _ hv _ => (updLoop (by omega) hf).mono fun m hm => hm.trans hv

theorem scaledAllFit [Zero α] {f : Nat → α → Res α} (hs : Fit n s) (hn : n < 2 ^ 31) (hf : ∀ k < s.itemSize, ∀ x, Safe (fun _ => True) (f k x)) :
    Safe (Fit n) (DF.mapArr (fun a _ => DF.updLoop a.length f a) s) :=
  mapArrFit hs hn fun v _ hv _ => (updLoop (by omega) fun k hk => hf k (by omega)).mono fun m hm => hm.trans hv

theorem binOpFit [Zero α] (op : α → α → α) (hs : Fit n s) (ht : Fit m t) (hn : n < 2 ^ 31) (hm : m < 2 ^ 31) : Safe (Fit n) (DF.binOp op s t) := by
  have hl := hs.exact
  have hl' := hs.len
  refine ite (fun _ => trivial) fun hc => ?_
  push Not at hc
  refine (forLoop (I := Shape s.itemSize s.count) _ 0 _ (Shape.zeros _ _ _ (by omega)) fun i r _ hi hr => ?_).mono fun r hr =>
    hr.fit (by omega) hs.width hs.item
  have hw := hs.wf hn (by omega)
  have hw' := ht.wf hm (by omega)
  have hwr := hr.wf hw.pos hw.int (by omega)
  refine ite (fun h1 => ?_) fun _ => ?_
  · exact (getD s i).bind fun x _ => (getD t i).bind fun y _ => (putD r hwr i _).mono fun _ h => hr.keeps h
  · refine (getA hw (by omega)).bind fun v hv => (getA hw' (by omega)).bind fun w hw => ?_
    refine (forLoop (I := fun m : List α => m.length = s.itemSize) _ 0 _ List.length_replicate fun j m _ hj hm => ?_).bind fun m _ =>
      (putA r hwr i m).mono fun _ h => hr.keeps h
    exact (rd (by omega)).bind fun x _ => (rd (by omega)).bind fun y _ => (wr _ (by omega)).mono fun _ h => h.trans hm

theorem foldSeriesFit [Zero α] {op : α → α → α} {a : Serie α} {ss : List (Serie α)} (h : ∀ s ∈ a :: ss, Fit n s) (hn : n < 2 ^ 31) :
    Safe (Fit n) (DF.foldSeries (DF.binOp op) (a :: ss)) := by
  have ha := h a (List.mem_cons_self ..)
  have hl := ha.exact
  have hl' := ha.len
  refine (countAndCheck (a :: ss)).bind fun _ _ => ?_
  refine foldlM (I := Fit n) _ _ ((Shape.zeros _ _ _ (by omega)).fit (by omega) ha.width ha.item) fun x hx r hr => ?_
  exact (binOpFit op hr (h x hx) hn hn).bind fun y hy => ⟨hy.exact, hy.len, hy.width, hy.item⟩

theorem opListFit [Zero α] (op : α → α → α) {a : Serie α} {ss : List (Serie α)} (h : ∀ s ∈ a :: ss, Fit n s) (hn : n < 2 ^ 31) :
    Safe (Fit n) (DF.opList op (a :: ss)) := by
  have ha := h a (List.mem_cons_self ..)
  show Safe _ (DF.forLoop _ 1 ss.length () >>= fun _ => DF.mapArr _ a)
  refine (forLoopI (fun i (_ : Unit) => ∀ j x, 1 ≤ j → j < i → (a :: ss)[j]? = some x → x.count = a.count ∧ x.itemSize = a.itemSize) ss.length 1 ()
    (fun j x h1 h2 => by omega) fun i _ h1 h2 hi => ?_).bind fun _ hc => mapArrFit ha hn fun v i hv hi => ?_
  · have hl : i < (a :: ss).length := by rw [List.length_cons]; omega
    rw [rd_of_lt hl]
    refine ite (fun _ => trivial) fun hc => ite (fun _ => trivial) fun hk => ?_
    intro j x hj1 hj2 hx
    rcases Nat.lt_succ_iff_lt_or_eq.1 hj2 with hj | rfl
    · exact hi j x hj1 hj hx
    · rw [List.getElem?_eq_getElem hl] at hx
      cases hx
      exact ⟨(not_not.1 hc).symm, (not_not.1 hk).symm⟩
  · refine forLoop (I := fun r : List α => r.length = a.itemSize) _ 1 v hv fun j r h1 h2 hr => ?_
    have hl : j < (a :: ss).length := by rw [List.length_cons] at h2 ⊢; omega
    have hx := hc j _ h1 (by rw [List.length_cons] at h2; omega) (List.getElem?_eq_getElem hl)
    have hw := (h _ (List.getElem_mem hl)).wf hn (by omega)
    rw [rd_of_lt hl]
    refine (updLoop (n := a.itemSize) (by omega) fun k hk x => ?_).mono fun m hm => hm.trans hr
    exact (value hw (by omega)).bind fun w hw' => (rd (by omega)).bind fun _ _ => trivial

theorem multSerieFit [Zero α] [Mul α] (hs : Fit n s) (ht : Fit m t) (h1' : 1 ≤ n) (hn : n < 2 ^ 31) (hm : m < 2 ^ 31) : Safe (Fit n) (DF.multSerie s t) := by
  refine ite (fun _ => trivial) fun hc => ite (fun h1 => ite (fun _ => trivial) fun h2 => ?_) fun h1 => ?_
  · have e1 := hs.exact
    have e2 := ht.exact
    rw [h1, Nat.mul_one] at e1
    rw [not_not.1 h2, Nat.mul_one] at e2
    have := hs.len
    refine (forLoop (I := fun m : List α => m.length = s.data.length) _ 0 _ List.length_replicate fun i m _ hi hm => ?_).bind fun m hm =>
      ofArrayFit (c := s.count) Nat.one_pos h1' (by omega) (by omega) hn
    exact (rd (by omega)).bind fun x _ => (rd (by omega)).bind fun y _ => (wr _ (by omega)).mono fun _ h => h.trans hm
  · refine mapArrFit hs hn fun v i hv hi => ?_
    have hw := ht.wf hm (by omega)
    refine ite (fun h3 => ?_) fun h3 => ite (fun _ => (by exact trivial)) fun h4 => ?_
    · refine (scalar (by have := hw.count_le; omega)).bind fun d _ => (updLoop le_rfl fun k _ x => (by exact trivial)).mono fun m hm => hm.trans hv
    · refine (value hw (by omega)).bind fun d hd => (updLoop le_rfl fun k hk x => ?_).mono fun m hm => hm.trans hv
      exact (rd (by omega)).bind fun _ _ => trivial

theorem divSerieFit [Zero α] [Neg α] [LT α] [DecidableLT α] [Div α] [OfScientific α] (hs : Fit n s) (h1 : 1 ≤ n) (hn : n < 2 ^ 31) :
    Safe (Fit n) (DF.divSerie t s) := by
  refine ite (fun _ => trivial) fun _ => ite (fun _ => trivial) fun _ => ite (fun _ => trivial) fun _ => ite (fun _ => ?_) fun _ => ?_
  · exact mapNumFit hs h1 hn fun x i _ => (getD t i).bind fun w _ => ite (fun _ => (by exact trivial)) fun _ => (by exact trivial)
  · refine mapArrFit hs hn fun v i hv _ => (getD t i).bind fun w _ => ite (fun _ => (List.length_replicate).trans hv) fun _ => ?_
    refine (forLoop (I := fun m : List α => m.length = v.length) _ 0 _ List.length_replicate fun j m _ hj hm => ?_).mono fun m hm => hm.trans hv
    exact (rd (by omega)).bind fun x _ => (wr _ (by omega)).mono fun _ h => h.trans hm

theorem weightedSumFit [Zero α] [Add α] [Mul α] {a : Serie α} {ss : List (Serie α)} (h : ∀ s ∈ a :: ss, Fit n s) (hn : n < 2 ^ 31) (ws : List α) :
    Safe (Fit n) (DF.weightedSum (a :: ss) ws) := by
  have ha := h a (List.mem_cons_self ..)
  refine ite (fun _ => trivial) fun hl => ?_
  show Safe _ (List.foldlM _ () (a :: ss) >>= fun _ => DF.mapArr _ a)
  refine (foldlM_check (C := fun x => x.count = a.count ∧ x.itemSize = a.itemSize) (f := fun s : Serie α =>
    if s.count ≠ a.count then .throw .invalidArgument else if s.itemSize ≠ a.itemSize then .throw .invalidArgument else .ok ())
    (fun x => ite (fun _ => trivial) fun hc => ite (fun _ => trivial) fun hk => ⟨not_not.1 hc, not_not.1 hk⟩) (a :: ss)).bind fun _ hc => ?_
  refine mapArrFit ha hn fun v i hv hi => ?_
  refine forLoop (I := fun r : List α => r.length = a.itemSize) _ 0 _ List.length_replicate fun j r _ hj hr => ?_
  rw [Nat.zero_add] at hj
  refine (rd hj).bind fun x hx => (value ((h x hx).wf hn (by rw [(hc x hx).1]; omega)) (by rw [(hc x hx).1]; exact hi)).bind fun w hw =>
    (rd (by rw [← not_not.1 hl]; exact hj)).bind fun c _ => (updLoop (by omega) fun k hk y => ?_).mono fun m hm => hm.trans hr
  exact (rd (by rw [hw, (hc x hx).2]; exact hk)).bind fun _ _ => trivial

theorem maskWithFit [Zero α] [One α] (pred : α → α → Bool) (hs : Fit n s) (ht : Fit m t) (h1 : 1 ≤ n) (hn : n < 2 ^ 31) (hm : m < 2 ^ 31) :
    Safe (Fit n) (DF.maskWith pred s t) := by
  have hcn := hs.count_le
  refine ite (fun _ => trivial) fun hc => ?_
  have hc' : s.itemSize = t.itemSize ∧ s.count = t.count := by
    simp only [Bool.or_eq_true, decide_eq_true_eq] at hc
    push Not at hc
    exact ⟨hc.1.2, hc.2⟩
  refine (forLoop (I := Shape 1 s.count) _ 0 _ (Shape.zeros _ _ _ (by omega)) fun i r _ hi hr => ?_).mono fun _ hr => hr.fit (by omega) h1 (.inl Nat.one_pos)
  have hw := hs.wf hn (by omega)
  have hw' := ht.wf hm (by omega)
  have hwr := hr.wf Nat.one_pos (by decide) (by omega)
  refine ite (fun h1 => ?_) fun _ => ?_
  · have := hw.count_le
    have := hw'.count_le
    exact (scalar (by omega)).bind fun x _ => (scalar (by omega)).bind fun y _ => (putScalar r hwr i _).mono fun _ h => hr.keeps h
  · refine (value hw (by omega)).bind fun v hv => (value hw' (by omega)).bind fun w hw => (stdEqual pred v w (by omega)).bind fun b _ => ?_
    exact (putScalar r hwr i _).mono fun _ h => hr.keeps h

end Safe

end DF
