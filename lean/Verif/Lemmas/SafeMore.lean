import Verif.Lemmas.SafeOps
import Verif.Lemmas.Algebra

/-!
# Absence of undefined behaviour: combine, algebra, geo
-/

namespace DF

open Spec

variable {α : Type} {s t : Serie α}

namespace Safe

open SafeE (Item)

theorem multNumbers [Zero α] [Mul α] (h1 : s.itemSize = 1) (h : s.data.length ≤ t.data.length) :
    Safe (fun _ => True) (DF.multSerie s t) := by
  refine ite (fun _ => trivial) fun hc => ite (fun _ => ite (fun _ => trivial) fun _ => ?_) fun h' => (h' h1).elim
  refine (forLoop (I := fun m : List α => m.length = s.data.length) _ 0 _ List.length_replicate fun i m _ hi hm => ?_).bind fun m _ =>
    (ofArray m 3 one_ne_zero).mono fun r hr => trivial
  exact (rd (by omega)).bind fun x _ => (rd (by omega)).bind fun y _ => (wr _ (by omega)).mono fun _ h => h.trans hm

theorem covariance [Zero α] [Add α] [Sub α] [Mul α] [Div α] [NatCast α] (hs : WF s) (ht : WF t) : Safe (fun _ => True) (DF.covariance s t) := by
  refine ite (fun _ => trivial) fun hc => ite (fun _ => trivial) fun h1 => ite (fun _ => trivial) fun h2 => ?_
  have hm : ∀ {r : Serie α}, WF r → r.itemSize = 1 → Safe (fun _ => True) (DF.mean r >>= Tuple.getNumber) := fun hr h =>
    (mean hr).bind fun x hx => by obtain ⟨y, rfl⟩ := hx h; exact trivial
  refine (hm hs (not_not.1 h1)).bind fun xb _ => (hm ht (not_not.1 h2)).bind fun yb _ => ?_
  refine (subNum xb).bind fun dx hx => (subNum yb).bind fun dy hy => ?_
  refine (multNumbers hx.1 (by omega)).bind fun p _ => ?_
  exact (SafeE.reduceS (I := fun _ : Unit => True) (fun a x i => SafeE.pure trivial) 0 () trivial).1

/-! ## merge, concat, partition_n -/

theorem pushItem {st : Serie α × Nat} (h : WF st.1) (v : List α) : Safe (fun st' : Serie α × Nat => WF st'.1) (DF.pushItem st v) :=
  (putA st.1 h st.2 v).bind fun _ hr => hr.wf

theorem pushAll (hs : WF s) {st : Serie α × Nat} (h : WF st.1) : Safe (fun st' : Serie α × Nat => WF st'.1) (DF.pushAll s st) :=
  forLoop _ 0 _ h fun i st _ hi h => (getA hs (by omega)).bind fun v _ => pushItem h v

theorem pushAt (hs : WF s) (i : Nat) {st : Serie α × Nat} (h : WF st.1) : Safe (fun st' : Serie α × Nat => WF st'.1) (DF.pushAt i s st) :=
  ite (fun hi => (getA hs hi).bind fun v _ => pushItem h v) fun _ => h

theorem merge2 [Zero α] (hs : WF s) (ht : WF t) (h : (s.count + t.count) * s.itemSize < 2 ^ 32) (c : Bool) : Safe (fun _ => True) (DF.merge2 s t c) := by
  have hz : WF (Serie.zeros s.itemSize (u32 (s.count + t.count)) : Serie α) :=
    wfZeros hs.pos hs.int ((Nat.mul_le_mul_right _ (Nat.mod_le _ _)).trans_lt h)
  refine ite (fun _ => trivial) fun _ => ?_
  cases c
  · exact (forLoop (I := fun st : Serie α × Nat => WF st.1) _ 0 _ hz fun i st _ _ h => (pushAt hs i h).bind fun st h => pushAt ht i h).bind fun _ _ => trivial
  · exact (pushAll hs (st := (_, 0)) hz).bind fun st h => (pushAll ht h).bind fun _ _ => trivial

theorem total_le (f : γ → Nat) : ∀ (l : List γ) (a : Nat), l.foldl (fun t s => u32 (t + f s)) a ≤ a + (l.map f).sum
  | [], a => by simp
  | x :: l, a => by
    rw [List.foldl_cons, List.map_cons, List.sum_cons]
    have := total_le f l (u32 (a + f x))
    have : u32 (a + f x) ≤ a + f x := Nat.mod_le _ _
    omega

theorem mergeN [Zero α] {a : Serie α} {ss : List (Serie α)} (h : ∀ s ∈ a :: ss, WF s) (hn : ((a :: ss).map (·.count)).sum * a.itemSize < 2 ^ 32) (c : Bool) :
    Safe (fun _ => True) (DF.mergeN c (a :: ss)) := by
  have ha := h a (List.mem_cons_self ..)
  have hz : WF (Serie.zeros a.itemSize ((a :: ss).foldl (fun t s => u32 (t + s.count)) 0) : Serie α) :=
    wfZeros ha.pos ha.int ((Nat.mul_le_mul_right _ ((total_le _ _ _).trans (Nat.zero_add _).le)).trans_lt hn)
  refine ite (fun _ => trivial) fun _ => ?_
  cases c
  · refine (forLoop (I := fun st : Serie α × Nat => WF st.1) _ 0 _ hz fun i st _ _ hst => ?_).bind fun _ _ => trivial
    exact foldlM (I := fun st : Serie α × Nat => WF st.1) _ _ hst fun x hx st hst => pushAt (h x hx) i hst
  · exact (foldlM (I := fun st : Serie α × Nat => WF st.1) _ _ hz fun x hx st hst => pushAll (h x hx) hst).bind fun _ _ => trivial

theorem concat [Zero α] {ss : List (Serie α)} (h : ∀ s ∈ ss, WF s) (hn : ∀ s ∈ ss, (ss.map (·.count)).sum * s.itemSize < 2 ^ 32) :
    Safe (fun _ => True) (DF.concat ss) := by
  cases ss with
  | nil => trivial
  | cons a ss =>
  have ha := h a (List.mem_cons_self ..)
  have hl : ∀ (l : List (Serie α)) (n : Nat), Safe (fun m => m ≤ n + (l.map (·.count)).sum) (l.foldlM (fun t s =>
      if !s.isValid || s.itemSize ≠ a.itemSize then Res.throw .invalidArgument else .ok (u32 (t + s.count))) n) := by
    intro l
    induction l with
    | nil => exact fun n => le_rfl
    | cons x l ih =>
      intro n
      rw [List.foldlM_cons]
      refine (ite (P := fun m => m ≤ n + x.count) (fun _ => (by exact trivial)) fun _ => Nat.mod_le _ _).bind fun m hm => (ih m).mono fun k hk => ?_
      rw [List.map_cons, List.sum_cons]
      omega
  refine (hl _ 0).bind fun m hm => ?_
  refine (foldlM (I := fun st : Serie α × Nat => WF st.1) _ _ (wfZeros ha.pos ha.int ?_) fun x hx st hst => pushAll (h x hx) hst).bind fun _ _ => trivial
  rw [Nat.zero_add] at hm
  exact (Nat.mul_le_mul_right _ hm).trans_lt (hn a (List.mem_cons_self ..))

theorem slice [Zero α] (hs : WF s) {start size : Nat} (h : start + size ≤ s.count) : Safe (fun _ => True) (DF.slice s start size) := by
  have hz : WF (Serie.zeros s.itemSize size : Serie α) := wfZeros hs.pos hs.int
    ((Nat.mul_le_mul_right _ (show size ≤ s.count by omega)).trans_lt (hs.fits.trans_lt hs.small))
  refine (forLoop (I := WF) _ 0 _ hz fun j r _ hj hr => ?_).mono fun _ _ => trivial
  refine (getA hs ?_).bind fun v _ => (putA r hr j v).mono fun _ h => h.wf
  exact (Nat.mod_le _ _).trans_lt (by omega)

/-- The number of items of the first `i` parts. -/
theorem part_size {n c i : Nat} (hi : i < n) :
    i * (c / n) + min i (c % n) + (c / n + if i < c % n then 1 else 0) = (i + 1) * (c / n) + min (i + 1) (c % n) ∧
      (i + 1) * (c / n) + min (i + 1) (c % n) ≤ c := by
  have h1 : (i + 1) * (c / n) = i * (c / n) + c / n := Nat.succ_mul _ _
  have h2 : (i + 1) * (c / n) ≤ n * (c / n) := Nat.mul_le_mul_right _ hi
  have h3 := Nat.div_add_mod c n
  refine ⟨?_, by omega⟩
  by_cases h : i < c % n
  · rw [if_pos h]; omega
  · rw [if_neg h]; omega

theorem partLoop [Zero α] (hs : WF s) {n : Nat} (hn : 0 < n) : ∀ (rest i : Nat) (parts : List (Serie α)), i + rest = n →
    Safe (fun _ => True) (DF.partLoop s (s.count / n) (s.count % n) s.count rest i (i * (s.count / n) + min i (s.count % n)) parts)
  | 0, _, _, _ => trivial
  | rest + 1, i, parts, h => by
    have hc := hs.count_lt
    obtain ⟨h1, h2⟩ := part_size (c := s.count) (show i < n by omega)
    unfold DF.partLoop
    have hu : u32 (s.count / n + if i < s.count % n then 1 else 0) = s.count / n + if i < s.count % n then 1 else 0 := Nat.mod_eq_of_lt (by omega)
    simp only [hu]
    rw [h1, show u32 ((i + 1) * (s.count / n) + min (i + 1) (s.count % n)) = _ from Nat.mod_eq_of_lt (by omega)]
    exact (slice hs (by omega)).bind fun p _ => ite (fun _ => trivial) fun _ => partLoop hs hn rest (i + 1) _ (by omega)

theorem partLoopAll [Zero α] (hs : WF s) {n : Nat} (hn : 0 < n) : ∀ (rest i : Nat) (parts : List (Serie α)), i + rest = n →
    Safe (fun _ => True) (DF.partLoopAll s (s.count / n) (s.count % n) rest i (i * (s.count / n) + min i (s.count % n)) parts)
  | 0, _, _, _ => trivial
  | rest + 1, i, parts, h => by
    have hc := hs.count_lt
    obtain ⟨h1, h2⟩ := part_size (c := s.count) (show i < n by omega)
    unfold DF.partLoopAll
    have hu : u32 (s.count / n + if i < s.count % n then 1 else 0) = s.count / n + if i < s.count % n then 1 else 0 := Nat.mod_eq_of_lt (by omega)
    simp only [hu]
    rw [h1, show u32 ((i + 1) * (s.count / n) + min (i + 1) (s.count % n)) = _ from Nat.mod_eq_of_lt (by omega)]
    exact (slice hs (by omega)).bind fun p _ => partLoopAll hs hn rest (i + 1) _ (by omega)

theorem partitionN [Zero α] (hs : WF s) {n : Nat} (hn : 0 < n) : Safe (fun _ => True) (DF.partitionN n s) := by
  refine ite (fun h => by omega) fun _ => ?_
  have := partLoop hs hn n 0 [] (Nat.zero_add _)
  rwa [Nat.zero_mul, Nat.zero_min, Nat.zero_add] at this

theorem partitionNMulti [Zero α] {a : Serie α} {ss : List (Serie α)} (h : ∀ s ∈ a :: ss, WF s) (n : Nat) :
    Safe (fun _ => True) (DF.partitionNMulti n (a :: ss)) := by
  refine ite (fun h => trivial) fun hn => ?_
  refine (countAndCheck (a :: ss)).bind fun cs hcs => ?_
  obtain ⟨rfl, hc⟩ := hcs
  refine Safe.bind (P := fun c => c = a.count) (show _ = _ from rfl) fun c hca => ?_
  refine (mapM (P := fun _ => True) _ fun x hx => ?_).mono fun _ _ => trivial
  rw [hca, hc a (List.mem_cons_self ..) x hx]
  have := partLoopAll (h x hx) (Nat.pos_of_ne_zero hn) n 0 [] (Nat.zero_add _)
  rwa [Nat.zero_mul, Nat.zero_min, Nat.zero_add] at this

/-! ## zip, unzip -/

theorem putScalar' (s : Serie α) (i : Nat) (x : α) : Safe (fun _ => True) (s.putScalar i x) := by
  by_cases h : i < s.data.length
  · refine of_ok (b := { s with data := s.data.set i x }) (Serie.putD_eq h) trivial
  · have e : Serie.setScalar i x s = (.throw .invalidArgument, s) := if_pos (by omega)
    unfold Serie.putScalar Eff.exec
    rw [e]; trivial

theorem zipCopy (hs : WF s) {c : Nat} (hc : c ≤ s.count) (off : Nat) (r : Serie α) : Safe (fun _ => True) (DF.zipCopy s c off r) := by
  refine forLoop _ 0 _ trivial fun i r _ hi _ => ite (fun h1 => ?_) fun _ => ?_
  · exact (scalar (by have := hs.count_le; omega)).bind fun x _ => putScalar' ..
  · refine (value hs (by omega)).bind fun v hv => forLoop _ 0 _ trivial fun j r _ hj _ => ?_
    exact (rd (by omega)).bind fun x _ => putScalar' ..

theorem zip [Zero α] {a : Serie α} {ss : List (Serie α)} (h : ∀ s ∈ a :: ss, WF s) : Safe (fun _ => True) (DF.zip (a :: ss)) := by
  refine ite (fun _ => trivial) fun _ => (countAndCheck (a :: ss)).bind fun cs hcs => ?_
  obtain ⟨rfl, hc⟩ := hcs
  refine Safe.bind (P := fun _ => True) trivial fun c _ => ?_
  refine (foldlM (I := fun _ => True) _ _ trivial fun x hx st _ => ?_).bind fun _ _ => trivial
  exact (zipCopy (h x hx) le_rfl _ _).bind fun _ _ => trivial

theorem zipVector [Zero α] [DecidableEq (Serie α)] {ss : List (Serie α)} (h : ∀ s ∈ ss, WF s) : Safe (fun _ => True) (DF.zipVector ss) := by
  refine ite (fun _ => trivial) fun h0 => ite (fun _ => trivial) fun _ => (countAndCheck ss).bind fun cs hcs => ?_
  cases ss with
  | nil => exact (h0 rfl).elim
  | cons a ss =>
  obtain ⟨rfl, hc⟩ := hcs
  refine Safe.bind (P := fun c => c = a.count) (show _ = _ from rfl) fun c hca => ?_
  refine (foldlM (I := fun _ => True) _ _ trivial fun x hx st _ => ?_).bind fun _ _ => trivial
  exact (zipCopy (h x hx) (by rw [hca, hc a (List.mem_cons_self ..) x hx]) _ _).bind fun _ _ => trivial

theorem unzipOne [Zero α] (hs : WF s) {k off : Nat} (h : off + k ≤ s.itemSize) : Safe (fun _ => True) (DF.unzipOne s k off) := by
  have hlt : ∀ i < s.count, ∀ j < k, u32 (i * s.itemSize + off + j) < s.data.length := fun i hi j hj => by
    refine (Nat.mod_le _ _).trans_lt ?_
    have h1 : (i + 1) * s.itemSize ≤ s.count * s.itemSize := Nat.mul_le_mul_right _ hi
    have h2 : (i + 1) * s.itemSize = i * s.itemSize + s.itemSize := Nat.succ_mul _ _
    have := hs.fits
    omega
  rcases Nat.eq_zero_or_pos k with rfl | hk
  · refine (forLoop (I := fun r : Serie α => r.itemSize = 0) _ 0 _ rfl fun i r _ hi hr => ?_).mono fun _ _ => trivial
    rw [if_neg (show ¬ (0 : Nat) = 1 by decide)]
    show Safe _ (r.putValue i [])
    by_cases h : i ≥ r.count
    · have e : Serie.setValue i [] r = (.throw .invalidArgument, r) := if_pos h
      unfold Serie.putValue Eff.exec
      rw [e]; trivial
    · have e : Serie.setValue i [] r = (.ok (), r) := by
        unfold Serie.setValue
        rw [if_neg h, hr]
        rfl
      unfold Serie.putValue Eff.exec
      rw [e]; exact hr
  · have hz : WF (Serie.zeros k s.count : Serie α) := wfZeros hk (by have := hs.int; omega)
      ((Nat.mul_le_mul_left _ (show k ≤ s.itemSize by omega)).trans_lt (hs.fits.trans_lt hs.small))
    refine (forLoop (I := WF) _ 0 _ hz fun i r _ hi hr => ite (fun h1 => ?_) fun _ => ?_).mono fun _ _ => trivial
    · exact (scalar (hlt i (by omega) 0 hk)).bind fun x _ => (putScalar r hr i x).mono fun _ h => h.wf
    · refine (forLoop (I := fun v : List α => v.length = k) _ 0 _ List.length_replicate fun j v _ hj hv => ?_).bind fun v _ =>
        (putValue r hr i v).mono fun _ h => h.wf
      exact (scalar (hlt i (by omega) j (by omega))).bind fun x _ => (wr _ (by omega)).mono fun _ h => h.trans hv

theorem unzip [Zero α] (hs : WF s) {sizes : List Nat} (h : sizes.sum < 2 ^ 32) : Safe (fun _ => True) (DF.unzip s sizes) := by
  refine ite (fun _ => trivial) fun h0 => ite (fun _ => trivial) fun h1 => ?_
  have htot : ∀ (l : List Nat) (a : Nat), a + l.sum < 2 ^ 32 → l.foldl (fun t k => u32 (t + k)) a = a + l.sum := by
    intro l
    induction l with
    | nil => exact fun a _ => rfl
    | cons k l ih =>
      intro a ha
      rw [List.sum_cons] at ha
      rw [List.foldl_cons, List.sum_cons, show u32 (a + k) = a + k from Nat.mod_eq_of_lt (by omega), ih _ (by omega), Nat.add_assoc]
  rw [htot _ _ (by omega), Nat.zero_add] at h1
  have hint := hs.int
  have hgo : ∀ (l : List Nat) (st : List (Serie α) × Nat), st.2 + l.sum = s.itemSize → Safe (fun _ => True) (l.foldlM (fun (st : List (Serie α) × Nat) k => do
      let s ← DF.unzipOne s k st.2
      pure (st.1 ++ [s], u32 (st.2 + k))) st) := by
    intro l
    induction l with
    | nil => exact fun _ _ => trivial
    | cons k l ih =>
      intro st hst
      rw [List.sum_cons] at hst
      rw [List.foldlM_cons]
      refine ((unzipOne hs (by omega)).bind (R := fun st' : List (Serie α) × Nat => st'.2 = st.2 + k) fun r _ => ?_).bind fun st' h' => ih st' (by omega)
      exact Nat.mod_eq_of_lt (by omega)
  exact (hgo sizes _ (by rw [Nat.zero_add]; exact not_not.1 h1)).bind fun _ _ => trivial

/-! ## algebra -/

theorem pick {v : List α} {ks : List Nat} (h : ∀ k ∈ ks, k < v.length) : Safe (fun w : List α => w.length = ks.length) (DF.pick v ks) :=
  (mapM (P := fun _ => True) ks fun k hk => (rd (h k hk)).mono fun _ _ => trivial).mono fun _ h => h.1

theorem transpose [Zero α] (hs : WF s) : Safe (fun _ => True) (DF.transpose s) := by
  refine ite (fun _ => trivial) fun h => ite (fun h4 => ?_) fun h4 => ?_
  · refine mapArr hs fun v i hv _ => (pick fun k hk => ?_).mono fun w hw => ⟨by rw [hw]; decide, by rw [hw]; decide⟩
    simp only [List.mem_cons, List.not_mem_nil, or_false] at hk
    omega
  · refine mapArr hs fun v i hv _ => (pick fun k hk => ?_).mono fun w hw => ⟨by rw [hw]; decide, by rw [hw]; decide⟩
    simp only [List.mem_cons, List.not_mem_nil, or_false] at hk
    omega

theorem items {n : Nat} {x : Res (List α)} (h0 : 0 < n) (h1 : n < 2 ^ 32) (h : Safe (fun w : List α => w.length = n) x) : Safe Item x :=
  h.mono fun _ hw => ⟨by omega, by omega⟩

section

variable [Zero α] [One α] [Add α] [Sub α] [Mul α] [Div α] [Neg α] [LT α] [DecidableLT α] [OfScientific α]

theorem inv (hs : WF s) : Safe (fun _ => True) (DF.inv s) := by
  refine ite (fun _ => trivial) fun _ => ite (fun _ => trivial) fun h => ite (fun h6 => ?_) fun h6 => ?_
  · refine mapArr hs fun v i hv _ => items (n := 6) (by decide) (by decide) ?_
    unfold invSym
    repeat refine (rd (by omega)).bind fun _ _ => ?_
    exact ite (fun _ => trivial) fun _ => rfl
  · refine mapArr hs fun v i hv _ => items (n := 9) (by decide) (by decide) ?_
    unfold invFull
    repeat refine (rd (by omega)).bind fun _ _ => ?_
    exact ite (fun _ => trivial) fun _ => rfl

omit [One α] [Div α] [Neg α] [LT α] [DecidableLT α] [OfScientific α] in
theorem det (hs : WF s) (h2 : ¬ (s.itemSize = 3 ∧ s.dimension = 2)) (h3 : ¬ (s.itemSize = 6 ∧ s.dimension = 3)) : Safe (fun _ => True) (DF.det s) := by
  refine ite (fun _ => trivial) fun _ => mapArr hs fun v i hv _ => items (n := 1) (by decide) (by decide) ?_
  refine ite (fun h => ?_) fun _ => ite (fun h => ?_) fun _ => trivial
  · have h4 : v.length = 4 := by omega
    rw [if_neg (by omega), squaredMatrix_two h4]
    match v, h4 with
    | [a, b, c, d], _ => exact show _ = _ from rfl
  · have h4 : v.length = 9 := by omega
    rw [if_neg (by omega), squaredMatrix_three h4]
    match v, h4 with
    | [a, b, c, d, e, f, g, h, i], _ => exact show _ = _ from rfl

end

theorem cross [Zero α] [Sub α] [Mul α] (hs : WF s) (ht : WF t) (h : s.count ≤ t.count) : Safe (fun _ => True) (DF.cross s t) := by
  refine ite (fun _ => trivial) fun _ => ite (fun _ => trivial) fun _ => ite (fun _ => trivial) fun _ => ite (fun _ => trivial) fun _ => ?_
  refine mapArr hs fun v i hv hi => items (n := 3) (by decide) (by decide) ((value ht (by omega)).bind fun w hw => ?_)
  unfold crossItem
  repeat refine (rd (by omega)).bind fun _ _ => ?_
  exact rfl

theorem dotItem [Zero α] [Add α] [Mul α] {k : Nat} {v w : List α} (hv : k ≤ v.length) (hw : k ≤ w.length) : Safe Item (DF.dotItem k v w) := by
  refine items (n := 1) (by decide) (by decide) (forLoop (I := fun r : List α => r.length = 1) _ 0 _ rfl fun i r _ hi hr => ?_)
  exact (rd (by omega)).bind fun _ _ => (rd (by omega)).bind fun _ _ => (rd (by omega)).bind fun _ _ => (wr _ (by omega)).mono fun _ h => h.trans hr

theorem dot [Zero α] [Add α] [Mul α] (hs : WF s) (ht : WF t) (h : s.count ≤ t.count) (hk : s.itemSize ≤ t.itemSize) : Safe (fun _ => True) (DF.dot s t) :=
  mapArr hs fun v i hv hi => (value ht (by omega)).bind fun w hw => dotItem (by omega) (by omega)

theorem dotArray [Zero α] [Add α] [Mul α] (hs : WF s) (h : 0 < s.count) (b : List α) : Safe (fun _ => True) (DF.dotArray s b) :=
  (value hs h).bind fun v hv => ite (fun _ => trivial) fun hb => mapArr hs fun w i hw hi => dotItem (by omega) (by omega)

/-! ## geo -/

section

variable [Zero α] [Sub α] [Mul α] [Trunc α]

omit [Zero α] in
theorem normalOf (hs : WF s) (h3 : s.itemSize = 3) {v : List α} (hv : v.length = 3)
    (h : ∀ x ∈ v, ∃ i, Trunc.toU32 x = .ok i ∧ i < s.count) : Safe (fun n : List α => n.length = 3) (DF.normalOf s v) := by
  have hx : ∀ k < 3, Safe (fun w : List α => w.length = 3) (DF.vertex s v k) := fun k hk =>
    (rd (by omega)).bind fun x hx => by
      obtain ⟨i, hi, hlt⟩ := h x hx
      exact Safe.bind (P := (· = i)) (of_ok hi rfl) fun j hj => by subst hj; exact (value hs hlt).mono fun w hw => hw.trans h3
  have he : ∀ {a b : List α}, a.length = 3 → b.length = 3 → Safe (fun w : List α => w.length = 3) (DF.edge a b) := fun ha hb => by
    unfold DF.edge
    repeat refine (rd (by omega)).bind fun _ _ => ?_
    exact rfl
  refine (hx 0 (by decide)).bind fun a ha => (hx 1 (by decide)).bind fun b hb => (hx 2 (by decide)).bind fun c hc =>
    (he ha hb).bind fun d hd => (he ha hc).bind fun e he => ?_
  unfold crossArr
  repeat refine (rd (by omega)).bind fun _ _ => ?_
  exact rfl

/-- A loop on captured variables, the invariant depending on the index. -/
theorem loop {σ : Type} {f : Nat → Unit → Eff σ Unit} (I : Nat → σ → Prop) : ∀ (n lo : Nat) (st : σ), I lo st →
    (∀ i, lo ≤ i → i < lo + n → ∀ st, I i st → Safe (fun _ => I (i + 1) (f i () st).2) (f i () st).1) →
    Safe (fun _ => True) (DF.forLoop f lo n () st).1
  | 0, _, _, _, _ => trivial
  | n + 1, lo, st, h, hf => by
    have h1 := hf lo le_rfl (by omega) st h
    rw [forLoop_succ]
    rcases hx : f lo () st with ⟨r, s'⟩
    rw [hx] at h1
    cases r with
    | ok b => rw [Eff.bind_ok hx]; exact loop I n (lo + 1) s' h1 fun i hi hi' => hf i (by omega) (by omega)
    | throw e => rw [Eff.bind_throw hx]; trivial
    | ub => exact h1.elim

theorem normals {P I : Serie α} (hP : WF P) (hI : WF I) (h : ∀ x ∈ I.data, ∃ i, Trunc.toU32 x = .ok i ∧ i < P.count) :
    Safe (fun _ => True) (DF.normals P I) := by
  refine ite (fun _ => trivial) fun _ => ite (fun _ => trivial) fun h3 => ?_
  push Not at h3
  have hsmall : I.count * 3 < 2 ^ 32 := by have := hI.fits; have := hI.small; rw [h3.2] at *; omega
  have hu : u32 (I.count * 3) = I.count * 3 := Nat.mod_eq_of_lt hsmall
  refine Safe.bind (P := fun _ => True) ?_ fun p _ => (ofArray p.1 3 (by decide)).mono fun _ _ => trivial
  have key : Safe (fun _ => True) (forEachV (fun t _ => Eff.update (normalStep P t)) I (List.replicate (u32 (I.count * 3)) 0, 0)).1 := by
    unfold forEachV
    rw [if_neg (by omega)]
    refine loop (fun i (p : List α × Nat) => p.1.length = I.count * 3 ∧ p.2 = u32 (i * 3)) _ 0 _ ⟨by rw [List.length_replicate, hu], rfl⟩ fun i _ hi p hp => ?_
    rw [Nat.zero_add] at hi
    have hx : Eff.lift (I.getA i) p = (.ok (chunk I.itemSize I.data i), p) := by rw [Serie.getA_eq hI hi]; rfl
    rw [Eff.bind_ok hx]
    have hlen : (chunk I.itemSize I.data i).length = 3 := by
      have := getA hI hi
      rw [Serie.getA_eq hI hi] at this
      exact this.trans h3.2
    have hmem : ∀ x ∈ chunk I.itemSize I.data i, x ∈ I.data := fun x hx => List.mem_of_mem_drop (List.mem_of_mem_take hx)
    have hi3 : u32 (i * 3) = i * 3 := Nat.mod_eq_of_lt (by omega)
    have hstep : Safe (fun q : List α × Nat => q.1.length = I.count * 3 ∧ q.2 = u32 ((i + 1) * 3)) (normalStep P (chunk I.itemSize I.data i) p) := by
      refine (normalOf hP h3.1 hlen fun x hx => h x (hmem x hx)).bind fun n hn => ?_
      have e1 : u32 (p.2 + 1) = i * 3 + 1 := by rw [hp.2, hi3]; exact Nat.mod_eq_of_lt (by omega)
      have e2 : u32 (i * 3 + 1 + 1) = i * 3 + 2 := Nat.mod_eq_of_lt (by omega)
      refine (rd (by omega)).bind fun x _ => (wr _ (by omega)).bind fun d hd => ?_
      simp only [e1, e2]
      refine (rd (by omega)).bind fun x _ => (wr _ (by omega)).bind fun d' hd' => ?_
      refine (rd (by omega)).bind fun x _ => (wr _ (by omega)).bind fun d'' hd'' => ?_
      exact ⟨show d''.length = _ by omega, congrArg u32 (by omega)⟩
    show Safe (fun _ => (Eff.update (normalStep P (chunk I.itemSize I.data i)) p).2.1.length = I.count * 3 ∧
      (Eff.update (normalStep P (chunk I.itemSize I.data i)) p).2.2 = u32 ((i + 1) * 3)) (Eff.update (normalStep P (chunk I.itemSize I.data i)) p).1
    unfold Eff.update
    cases hr : normalStep P (chunk I.itemSize I.data i) p with
    | ok q => rw [hr] at hstep; exact hstep
    | throw e => trivial
    | ub => rw [hr] at hstep; exact hstep.elim
  unfold Eff.exec
  revert key
  rcases forEachV (fun t _ => Eff.update (normalStep P t)) I (List.replicate (u32 (I.count * 3)) 0, 0) with ⟨r, s'⟩
  intro key
  cases r with
  | ok b => trivial
  | throw e => trivial
  | ub => exact key.elim

end

theorem insar [Zero α] [Add α] [Mul α] (hs : WF s) (h : s.itemSize = 3 → 0 < s.count) (los : List α) : Safe (fun _ => True) (DF.insar s los) := by
  refine ite (fun _ => trivial) fun h3 => ite (fun _ => trivial) fun _ => dotArray hs (h ?_) los
  simp only [hs.valid, Bool.not_true, Bool.false_or, decide_eq_true_eq] at h3
  exact not_not.1 h3

theorem fringes [Zero α] [Sub α] [Mul α] [Div α] [Neg α] [LT α] [DecidableLT α] [Trunc α] (hs : WF s) (x : α) : Safe (fun _ => True) (DF.fringes s x) := by
  refine ite (fun _ => trivial) fun _ => mapArr hs fun v i hv _ => ?_
  exact items (n := 1) (by decide) (by decide) ((rd (by have := hs.pos; omega)).bind fun _ _ => rfl)

theorem gridFill {n : List Nat} {point : Nat → Nat → Nat → Res (List α)} (hn : n.length = 3) (hp : ∀ i j k, Safe (fun _ => True) (point i j k))
    {p : Serie α × Nat} (h : WF p.1) : Safe (fun p : Serie α × Nat => WF p.1) (DF.gridFill n point p) := by
  refine (rd (by omega)).bind fun n0 _ => (rd (by omega)).bind fun n1 _ => (rd (by omega)).bind fun n2 _ => ?_
  refine forLoop _ 0 _ h fun k p _ _ h => forLoop _ 0 _ h fun j p _ _ h => forLoop _ 0 _ h fun i p _ _ h => ?_
  exact (hp i j k).bind fun v _ => (putA p.1 h p.2 v).bind fun r hr => hr.wf

theorem gridSpacing [Zero α] [Div α] [NatCast α] {npts : List Nat} {size : Nat → Res α} (h : npts.length ≤ 3) (hs : ∀ i < 3, Safe (fun _ => True) (size i)) :
    Safe (fun l : List α => l.length = 3) (DF.gridSpacing npts size) := by
  refine forLoop _ 0 _ rfl fun i l _ hi hl => (rd (by omega)).bind fun n _ => ite (fun _ => ?_) fun _ => ?_
  · exact (hs i (by omega)).bind fun d _ => (wr _ (by omega)).mono fun _ h => h.trans hl
  · exact (wr _ (by omega)).mono fun _ h => h.trans hl

theorem gridCounts_length (npts : List Nat) : (gridCounts npts).length = 3 := by
  unfold gridCounts
  rw [List.length_take, List.length_append]
  show min 3 (npts.length + 3) = 3
  omega

theorem gridTotal_le (npts : List Nat) : gridTotal npts ≤ npts.prod := by
  have : ∀ (l : List Nat) (a : Nat), l.foldl (fun total n => u32 (total * n)) a ≤ a * l.prod := by
    intro l
    induction l with
    | nil => intro a; simp
    | cons n l ih =>
      intro a
      rw [List.foldl_cons, List.prod_cons, ← Nat.mul_assoc]
      exact (ih _).trans (Nat.mul_le_mul_right _ (Nat.mod_le _ _))
  exact (this npts 1).trans (Nat.one_mul _).le

section

variable [Zero α] [Add α] [Sub α] [Mul α] [Div α] [NatCast α]

theorem fromPoints {npts : List Nat} (h : npts.prod * 3 < 2 ^ 32) (p q : List α) : Safe (fun _ => True) (DF.fromPoints npts p q) := by
  refine ite (fun _ => trivial) fun h1 => ite (fun _ => trivial) fun h2 => ?_
  refine (gridSpacing (by omega) fun i hi => (rd (by omega)).bind fun _ _ => (rd (by omega)).bind fun _ _ => (by exact trivial)).bind fun d hd => ?_
  refine (gridFill (gridCounts_length npts) (fun i j k => ?_) (wfZeros (by decide) (by decide)
    ((Nat.mul_le_mul_right _ (gridTotal_le npts)).trans_lt h))).bind fun _ _ => trivial
  have hc : ∀ a < 3, ∀ i : Nat, Safe (fun _ => True) (do
      let x ← DF.rd p a
      let d ← DF.rd d a
      Pure.pure (x + (i : α) * d) : Res α) := fun a ha i => (rd (by omega)).bind fun _ _ => (rd (by omega)).bind fun _ _ => (by exact trivial)
  exact (hc 0 (by decide) i).bind fun _ _ => (hc 1 (by decide) j).bind fun _ _ => (hc 2 (by decide) k).bind fun _ _ => (by exact trivial)

theorem fromDims [OfNat α 2] {npts : List Nat} (h : npts.prod * 3 < 2 ^ 32) (p q : List α) : Safe (fun _ => True) (DF.fromDims npts p q) := by
  refine ite (fun _ => trivial) fun h1 => ite (fun _ => trivial) fun h2 => ?_
  refine (gridSpacing (by omega) fun i hi => (rd (by omega)).mono fun _ _ => trivial).bind fun s hs => ?_
  refine (gridFill (gridCounts_length npts) (fun i j k => ?_) (wfZeros (by decide) (by decide)
    ((Nat.mul_le_mul_right _ (gridTotal_le npts)).trans_lt h))).bind fun _ _ => trivial
  have hc : ∀ a < 3, ∀ i : Nat, Safe (fun _ => True) (do
      let c ← DF.rd p a
      let d ← DF.rd q a
      let s ← DF.rd s a
      Pure.pure (c - d / 2 + (i : α) * s) : Res α) := fun a ha i =>
    (rd (by omega)).bind fun _ _ => (rd (by omega)).bind fun _ _ => (rd (by omega)).bind fun _ _ => (by exact trivial)
  exact (hc 0 (by decide) i).bind fun _ _ => (hc 1 (by decide) j).bind fun _ _ => (hc 2 (by decide) k).bind fun _ _ => (by exact trivial)

end

end Safe

end DF
