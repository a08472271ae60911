import Verif.Lemmas.Pipeline
import Verif.Lemmas.Combine

/-!
# Programs made of calls to the library: functions that move items
-/

namespace DF

open Spec

variable {α σ : Type} {s t : Serie α} {n m : Nat}

namespace Safe

/-! ## merge, concat -/

theorem pushItemShape {k c : Nat} {st : Serie α × Nat} (h : Shape k c st.1) (h0 : 0 < k) (h1 : k < 2 ^ 31) (h2 : c * k < 2 ^ 32) (v : List α) :
    Safe (fun st' : Serie α × Nat => Shape k c st'.1) (DF.pushItem st v) :=
  (putA st.1 (h.wf h0 h1 h2) st.2 v).bind fun _ hr => h.keeps hr

theorem pushAllShape {k c : Nat} (hs : Fit n s) (hn : n < 2 ^ 31) (hk : s.itemSize = k) {st : Serie α × Nat} (h : Shape k c st.1) (h2 : c * k < 2 ^ 32) :
    Safe (fun st' : Serie α × Nat => Shape k c st'.1) (DF.pushAll s st) :=
  forLoop _ 0 _ h fun i st _ hi h => by
    have hw := hs.wf hn (by omega)
    exact (getA hw (by omega)).bind fun v _ => pushItemShape h (hk ▸ hw.pos) (hk ▸ hw.int) h2 v

theorem pushAtShape {k c : Nat} (hs : Fit n s) (hn : n < 2 ^ 31) (hk : s.itemSize = k) (i : Nat) {st : Serie α × Nat} (h : Shape k c st.1) (h2 : c * k < 2 ^ 32) :
    Safe (fun st' : Serie α × Nat => Shape k c st'.1) (DF.pushAt i s st) :=
  ite (fun hi => by
    have hw := hs.wf hn (by omega)
    exact (getA hw hi).bind fun v _ => pushItemShape h (hk ▸ hw.pos) (hk ▸ hw.int) h2 v) fun _ => h

theorem merge2Fit [Zero α] (hs : Fit n s) (ht : Fit m t) (h : n + m < 2 ^ 31) (c : Bool) : Safe (Fit (n + m)) (DF.merge2 s t c) := by
  have a1 := hs.count_le
  have a2 := ht.count_le
  have b1 := hs.len
  have b2 := ht.len
  refine ite (fun _ => trivial) fun hk => ?_
  have hk' : t.itemSize = s.itemSize := (not_not.1 hk).symm
  have e : (s.count + t.count) * s.itemSize = s.data.length + t.data.length := by
    rw [Nat.add_mul, ← hs.exact, ht.exact, hk']
  rw [show u32 (s.count + t.count) = s.count + t.count from Nat.mod_eq_of_lt (by omega)]
  have hz := Shape.zeros (α := α) s.itemSize (s.count + t.count) 3 (by omega)
  have hf : ∀ r : Serie α, Shape s.itemSize (s.count + t.count) r → Fit (n + m) r := fun r hr => hr.fit (by omega) (hs.width.trans (by omega)) (by
    rcases hs.item with h | h
    · exact .inl h
    · rcases ht.item with h' | h'
      · exact .inl (by omega)
      · exact .inr (by omega))
  cases c
  · exact (forLoop (I := fun st : Serie α × Nat => Shape s.itemSize (s.count + t.count) st.1) _ 0 _ hz fun i st _ _ h =>
      (pushAtShape hs (by omega) rfl i h (by omega)).bind fun st h => pushAtShape ht (by omega) hk' i h (by omega)).bind fun _ h => hf _ h
  · exact (pushAllShape hs (by omega) rfl (st := (_, 0)) hz (by omega)).bind fun st h => (pushAllShape ht (by omega) hk' h (by omega)).bind fun _ h => hf _ h

theorem total_eq {γ : Type} (f : γ → Nat) : ∀ (l : List γ) (a : Nat), a + (l.map f).sum < 2 ^ 32 → l.foldl (fun t s => u32 (t + f s)) a = a + (l.map f).sum
  | [], a, _ => rfl
  | x :: l, a, h => by
    rw [List.map_cons, List.sum_cons] at h
    rw [List.foldl_cons, List.map_cons, List.sum_cons, show u32 (a + f x) = a + f x from Nat.mod_eq_of_lt (by omega), total_eq f l _ (by omega), Nat.add_assoc]

/-- Several Series, of at most `n` numbers in all, whose items have at most `n` numbers in all. -/
structure Fits (n : Nat) (ss : List (Serie α)) : Prop where
  each : ∀ s ∈ ss, Fit n s
  len : (ss.map (·.data.length)).sum ≤ n
  width : (ss.map (·.itemSize)).sum ≤ n
  counts : (ss.map (·.count)).sum ≤ n

theorem sum_mul {k : Nat} : ∀ ss : List (Serie α), (∀ s ∈ ss, Fit n s) → (∀ s ∈ ss, s.itemSize = k) →
    (ss.map (·.count)).sum * k = (ss.map (·.data.length)).sum
  | [], _, _ => Nat.zero_mul _
  | s :: ss, h, hk => by
    rw [List.map_cons, List.map_cons, List.sum_cons, List.sum_cons, Nat.add_mul,
      sum_mul ss (fun x hx => h x (List.mem_cons_of_mem _ hx)) fun x hx => hk x (List.mem_cons_of_mem _ hx),
      (h s (List.mem_cons_self ..)).exact, hk s (List.mem_cons_self ..)]

theorem sum_item {k : Nat} : ∀ ss : List (Serie α), (∀ s ∈ ss, Fit n s) → (∀ s ∈ ss, s.itemSize = k) → 0 < k ∨ (ss.map (·.count)).sum = 0
  | [], _, _ => .inr rfl
  | s :: ss, h, hk => by
    rcases (h s (List.mem_cons_self ..)).item with h0 | h0
    · exact .inl (hk s (List.mem_cons_self ..) ▸ h0)
    · rcases sum_item ss (fun x hx => h x (List.mem_cons_of_mem _ hx)) fun x hx => hk x (List.mem_cons_of_mem _ hx) with h1 | h1
      · exact .inl h1
      · exact .inr (by rw [List.map_cons, List.sum_cons, h0, h1])

theorem mergeNFit [Zero α] {a : Serie α} {ss : List (Serie α)} (h : Fits n (a :: ss)) (hn : n < 2 ^ 31) (c : Bool) :
    Safe (Fit n) (DF.mergeN c (a :: ss)) := by
  have hcs := h.counts
  have hlen := h.len
  refine ite (fun _ => trivial) fun hadj => ?_
  have hk : ∀ x ∈ a :: ss, x.itemSize = a.itemSize := by
    have : adjacentEqual ((a :: ss).map (·.itemSize)) = true := by simpa using hadj
    rw [List.map_cons, adjacentEqual_iff] at this
    intro x hx
    rcases List.mem_cons.1 hx with rfl | hx
    · rfl
    · exact this _ (List.mem_map_of_mem hx)
  have e := sum_mul _ h.each hk
  rw [show (a :: ss).foldl (fun t s => u32 (t + s.count)) 0 = ((a :: ss).map (·.count)).sum from
    (total_eq (fun x : Serie α => x.count) _ _ (by omega)).trans (Nat.zero_add _)]
  have hz := Shape.zeros (α := α) a.itemSize ((a :: ss).map (·.count)).sum 3 (by omega)
  have hf : ∀ r : Serie α, Shape a.itemSize ((a :: ss).map (·.count)).sum r → Fit n r := fun r hr =>
    hr.fit (by omega) (h.each a (List.mem_cons_self ..)).width (sum_item _ h.each hk)
  cases c
  · refine (forLoop (I := fun st : Serie α × Nat => Shape a.itemSize ((a :: ss).map (·.count)).sum st.1) _ 0 _ hz fun i st _ _ hst => ?_).bind fun _ h => hf _ h
    exact foldlM _ _ hst fun x hx st hst => pushAtShape (h.each x hx) hn (hk x hx) i hst (by omega)
  · exact (foldlM (I := fun st : Serie α × Nat => Shape a.itemSize ((a :: ss).map fun x : Serie α => x.count).sum st.1) (f := fun st s => DF.pushAll s st) _ _ hz
      fun x hx st hst => pushAllShape (h.each x hx) hn (hk x hx) hst (by omega)).bind fun _ h => hf _ h

theorem concatFit [Zero α] {a : Serie α} {ss : List (Serie α)} (h : Fits n (a :: ss)) (hn : n < 2 ^ 31) : Safe (Fit n) (DF.concat (a :: ss)) := by
  have hcs := h.counts
  have hlen := h.len
  have hl : ∀ (l : List (Serie α)) (b : Nat), b + (l.map (·.count)).sum < 2 ^ 32 →
      Safe (fun m => m = b + (l.map (·.count)).sum ∧ ∀ x ∈ l, x.itemSize = a.itemSize) (l.foldlM (fun t s =>
      if !s.isValid || s.itemSize ≠ a.itemSize then Res.throw .invalidArgument else .ok (u32 (t + s.count))) b) := by
    intro l
    induction l with
    | nil => exact fun b _ => ⟨rfl, fun _ h => by cases h⟩
    | cons x l ih =>
      intro b hb
      rw [List.map_cons, List.sum_cons] at hb
      rw [List.foldlM_cons]
      refine (ite (P := fun m => m = b + x.count ∧ x.itemSize = a.itemSize) (fun _ => (by exact trivial)) fun hx => ?_).bind fun m hm => ?_
      · simp only [Bool.or_eq_true, decide_eq_true_eq] at hx
        push Not at hx
        exact ⟨Nat.mod_eq_of_lt (by omega), hx.2⟩
      · refine (ih m (by omega)).mono fun k hk => ⟨?_, fun y hy => ?_⟩
        · rw [hk.1, hm.1, List.map_cons, List.sum_cons, Nat.add_assoc]
        · rcases List.mem_cons.1 hy with rfl | hy
          · exact hm.2
          · exact hk.2 y hy
  refine (hl (a :: ss) 0 (by omega)).bind fun tot ht => ?_
  obtain ⟨rfl, hk⟩ := ht
  rw [Nat.zero_add]
  have e := sum_mul _ h.each hk
  have hz := Shape.zeros (α := α) a.itemSize ((a :: ss).map (·.count)).sum 3 (by omega)
  exact (foldlM (I := fun st : Serie α × Nat => Shape a.itemSize ((a :: ss).map fun x : Serie α => x.count).sum st.1) (f := fun st s => DF.pushAll s st) _ _ hz fun x hx st hst =>
    pushAllShape (h.each x hx) hn (hk x hx) hst (by omega)).bind fun _ hr =>
      hr.fit (by omega) (h.each a (List.mem_cons_self ..)).width (sum_item _ h.each hk)

/-! ## partition_n -/

theorem sliceFit [Zero α] (hs : Fit n s) (hn : n < 2 ^ 31) {start size : Nat} (h : start + size ≤ s.count) : Safe (Fit n) (DF.slice s start size) := by
  have hm : size * s.itemSize ≤ n := (Nat.mul_le_mul_right _ (show size ≤ s.count by omega)).trans (hs.exact ▸ hs.len)
  refine (forLoop (I := Shape s.itemSize size) _ 0 _ (Shape.zeros _ _ _ (by omega)) fun j r _ hj hr => ?_).mono fun r hr =>
    hr.fit hm hs.width (hs.item.imp_right fun h => by omega)
  have hw := hs.wf hn (by omega)
  refine (getA hw ?_).bind fun v _ => (putA r (hr.wf hw.pos hw.int (by omega)) j v).mono fun _ h => hr.keeps h
  exact (Nat.mod_le _ _).trans_lt (by omega)

theorem partLoopFit [Zero α] (hs : Fit n s) (hn : n < 2 ^ 31) {k : Nat} (hk : 0 < k) : ∀ (rest i : Nat) (parts : List (Serie α)), i + rest = k →
    (∀ p ∈ parts, Fit n p) →
    Safe (fun v => ∀ p ∈ v, Fit n p) (DF.partLoop s (s.count / k) (s.count % k) s.count rest i (i * (s.count / k) + min i (s.count % k)) parts)
  | 0, _, _, _, hp => hp
  | rest + 1, i, parts, h, hp => by
    have hc := hs.count_le
    obtain ⟨h1, h2⟩ := part_size (c := s.count) (show i < k by omega)
    unfold DF.partLoop
    have hu : u32 (s.count / k + if i < s.count % k then 1 else 0) = s.count / k + if i < s.count % k then 1 else 0 := Nat.mod_eq_of_lt (by omega)
    simp only [hu]
    rw [h1, show u32 ((i + 1) * (s.count / k) + min (i + 1) (s.count % k)) = _ from Nat.mod_eq_of_lt (by omega)]
    refine (sliceFit hs hn (by omega)).bind fun p hf => ?_
    have hp' : ∀ q ∈ parts ++ [p], Fit n q := fun q hq => by
      rcases List.mem_append.1 hq with hq | hq
      · exact hp q hq
      · rw [List.mem_singleton.1 hq]; exact hf
    exact ite (fun _ => hp') fun _ => partLoopFit hs hn hk rest (i + 1) _ (by omega) hp'

theorem partitionNFit [Zero α] (hs : Fit n s) (hn : n < 2 ^ 31) {k : Nat} (hk : 0 < k) : Safe (fun v => ∀ p ∈ v, Fit n p) (DF.partitionN k s) := by
  refine ite (fun h => by omega) fun _ => ?_
  have := partLoopFit hs hn hk k 0 [] (Nat.zero_add _) fun _ h => by cases h
  rwa [Nat.zero_mul, Nat.zero_min, Nat.zero_add] at this

theorem atFit {v : List (Serie α)} (h : ∀ p ∈ v, Fit n p) (j : Nat) : Safe (Fit n) (at? v j) := by
  unfold at?
  cases e : v[j]? with
  | none => trivial
  | some p => exact h p (List.mem_of_getElem? e)

/-! ## zip, unzip -/

theorem putScalarShape {k c : Nat} (h : Shape k c s) (i : Nat) (x : α) : Safe (Shape k c) (s.putScalar i x) := by
  by_cases hi : i < s.data.length
  · exact of_ok (b := { s with data := s.data.set i x }) (Serie.putD_eq hi) ⟨h.itemSize, h.count, by rw [List.length_set]; exact h.length⟩
  · have e : Serie.setScalar i x s = (.throw .invalidArgument, s) := if_pos (by omega)
    unfold Serie.putScalar Eff.exec
    rw [e]; trivial

theorem zipCopyShape {k c : Nat} (hs : Fit n s) (hn : n < 2 ^ 31) (off : Nat) {r : Serie α} (hr : Shape k c r) : Safe (Shape k c) (DF.zipCopy s s.count off r) := by
  refine forLoop _ 0 _ hr fun i r _ hi hr => ?_
  have hw := hs.wf hn (by omega)
  refine ite (fun h1 => ?_) fun _ => ?_
  · exact (scalar (by have := hw.count_le; omega)).bind fun x _ => putScalarShape hr ..
  · refine (value hw (by omega)).bind fun v hv => forLoop _ 0 _ hr fun j r _ hj hr => ?_
    exact (rd (by omega)).bind fun x _ => putScalarShape hr ..

theorem mul_sum {c : Nat} : ∀ ss : List (Serie α), (∀ s ∈ ss, Fit n s) → (∀ s ∈ ss, s.count = c) →
    c * (ss.map (·.itemSize)).sum = (ss.map (·.data.length)).sum
  | [], _, _ => Nat.mul_zero _
  | s :: ss, h, hk => by
    rw [List.map_cons, List.map_cons, List.sum_cons, List.sum_cons, Nat.mul_add,
      mul_sum ss (fun x hx => h x (List.mem_cons_of_mem _ hx)) fun x hx => hk x (List.mem_cons_of_mem _ hx),
      (h s (List.mem_cons_self ..)).exact, hk s (List.mem_cons_self ..)]

theorem zipFit [Zero α] {a : Serie α} {ss : List (Serie α)} (h : Fits n (a :: ss)) (hn : n < 2 ^ 31) : Safe (Fit n) (DF.zip (a :: ss)) := by
  have hlen := h.len
  have hw := h.width
  refine ite (fun _ => trivial) fun hv => (countAndCheck (a :: ss)).bind fun cs hcs => ?_
  obtain ⟨rfl, hc⟩ := hcs
  refine Safe.bind (P := fun c => c = a.count) (show _ = _ from rfl) fun c hca => ?_
  subst hca
  have e := mul_sum _ h.each fun x hx => hc x hx a (List.mem_cons_self ..)
  have ha : 0 < a.itemSize := by
    have hv' : (a :: ss).all (·.isValid) = true := by simpa using hv
    have := List.all_eq_true.1 hv' a (List.mem_cons_self ..)
    simp only [Serie.isValid, Bool.and_eq_true, decide_eq_true_eq] at this
    exact this.1
  have hpos : 0 < ((a :: ss).map (·.itemSize)).sum := by rw [List.map_cons, List.sum_cons]; omega
  show Safe _ (List.foldlM _ (Serie.zeros ((a :: ss).foldl (fun t s => u32 (t + s.itemSize)) 0) a.count, 0) (a :: ss) >>= fun st => pure st.1)
  rw [show (a :: ss).foldl (fun t s => u32 (t + s.itemSize)) 0 = ((a :: ss).map (·.itemSize)).sum from
    (total_eq (fun x : Serie α => x.itemSize) _ _ (by omega)).trans (Nat.zero_add _)]
  refine (foldlM (I := fun st : Serie α × Nat => Shape ((a :: ss).map (·.itemSize)).sum a.count st.1) _ _ (Shape.zeros _ _ _ (by omega))
    fun x hx st hst => ?_).bind fun st hst => hst.fit (by omega) hw (.inl hpos)
  exact (zipCopyShape (h.each x hx) hn _ hst).bind fun _ h => h

theorem unzipOneFit [Zero α] (hs : Fit n s) (hn : n < 2 ^ 31) {k off : Nat} (hk : 0 < k) (h : off + k ≤ s.itemSize) : Safe (Fit n) (DF.unzipOne s k off) := by
  have hlt : ∀ i < s.count, ∀ j < k, u32 (i * s.itemSize + off + j) < s.data.length := fun i hi j hj => by
    refine (Nat.mod_le _ _).trans_lt ?_
    have h1 : (i + 1) * s.itemSize ≤ s.count * s.itemSize := Nat.mul_le_mul_right _ hi
    have h2 : (i + 1) * s.itemSize = i * s.itemSize + s.itemSize := Nat.succ_mul _ _
    have := hs.exact
    omega
  have hmul : s.count * k ≤ n := (Nat.mul_le_mul_left _ (show k ≤ s.itemSize by omega)).trans (hs.exact ▸ hs.len)
  have hwd := hs.width
  refine (forLoop (I := Shape k s.count) _ 0 _ (Shape.zeros _ _ _ (by omega)) fun i r _ hi hr => ite (fun h1 => ?_) fun _ => ?_).mono fun r hr =>
    hr.fit hmul (by omega) (.inl hk)
  · exact (scalar (hlt i (by omega) 0 hk)).bind fun x _ => putScalarShape hr i x
  · refine (forLoop (I := fun v : List α => v.length = k) _ 0 _ List.length_replicate fun j v _ hj hv => ?_).bind fun v _ =>
      (putValue r (hr.wf hk (by omega) (by omega)) i v).mono fun _ h => hr.keeps h
    exact (scalar (hlt i (by omega) j (by omega))).bind fun x _ => (wr _ (by omega)).mono fun _ h => h.trans hv

theorem unzipFit [Zero α] (hs : Fit n s) (hn : n < 2 ^ 31) {sizes : List Nat} (hp : ∀ k ∈ sizes, 0 < k) (h : sizes.sum < 2 ^ 32) :
    Safe (fun v => ∀ p ∈ v, Fit n p) (DF.unzip s sizes) := by
  have hwd := hs.width
  refine ite (fun _ => trivial) fun h0 => ite (fun _ => trivial) fun h1 => ?_
  have htot := total_eq id sizes 0 (by simpa using h)
  simp only [id, List.map_id, Nat.zero_add] at htot
  rw [show sizes.foldl (fun t k => u32 (t + k)) 0 = sizes.sum by simpa using htot] at h1
  have hgo : ∀ (l : List Nat) (st : List (Serie α) × Nat), (∀ k ∈ l, 0 < k) → st.2 + l.sum = s.itemSize → (∀ p ∈ st.1, Fit n p) →
      Safe (fun st' : List (Serie α) × Nat => ∀ p ∈ st'.1, Fit n p) (l.foldlM (fun (st : List (Serie α) × Nat) k => do
      let s ← DF.unzipOne s k st.2
      pure (st.1 ++ [s], u32 (st.2 + k))) st) := by
    intro l
    induction l with
    | nil => exact fun _ _ _ h => h
    | cons k l ih =>
      intro st hl hst hf
      rw [List.sum_cons] at hst
      rw [List.foldlM_cons]
      refine ((unzipOneFit hs hn (hl k (List.mem_cons_self ..)) (by omega)).bind
        (R := fun st' : List (Serie α) × Nat => st'.2 = st.2 + k ∧ ∀ p ∈ st'.1, Fit n p) fun r hr => ?_).bind
        fun st' h' => ih st' (fun j hj => hl j (List.mem_cons_of_mem _ hj)) (by omega) h'.2
      refine ⟨Nat.mod_eq_of_lt (by omega), fun q hq => ?_⟩
      rcases List.mem_append.1 hq with hq | hq
      · exact hf q hq
      · rw [List.mem_singleton.1 hq]; exact hr
  exact (hgo sizes ([], 0) hp (by rw [Nat.zero_add]; exact not_not.1 h1) fun _ h => by cases h).bind fun _ h => h

/-! ## Matrices -/

theorem transposeFit [Zero α] (hs : Fit n s) (hn : n < 2 ^ 31) : Safe (Fit n) (DF.transpose s) := by
  refine ite (fun _ => trivial) fun h => ite (fun h4 => ?_) fun h4 => ?_
  · refine mapArrFit hs hn fun v i hv _ => (pick fun k hk => ?_).mono fun w hw => hw.trans h4.symm
    simp only [List.mem_cons, List.not_mem_nil, or_false] at hk
    omega
  · refine mapArrFit hs hn fun v i hv _ => (pick fun k hk => ?_).mono fun w hw => hw.trans (show 9 = s.itemSize by omega)
    simp only [List.mem_cons, List.not_mem_nil, or_false] at hk
    omega

theorem invFit [Zero α] [One α] [Add α] [Sub α] [Mul α] [Div α] [Neg α] [LT α] [DecidableLT α] [OfScientific α] (hs : Fit n s) (hn : n < 2 ^ 31) :
    Safe (Fit n) (DF.inv s) := by
  have he : Fit n (Serie.empty : Serie α) := Fit.blank n 3
  refine ite (fun _ => he) fun _ => ite (fun _ => he) fun h => ite (fun h6 => ?_) fun h6 => ?_
  · refine mapArrFit hs hn fun v i hv _ => ?_
    unfold invSym
    repeat refine (rd (by omega)).bind fun _ _ => ?_
    exact ite (fun _ => trivial) fun _ => h6.symm
  · refine mapArrFit hs hn fun v i hv _ => ?_
    unfold invFull
    repeat refine (rd (by omega)).bind fun _ _ => ?_
    exact ite (fun _ => trivial) fun _ => show 9 = s.itemSize by omega

end Safe

end DF
