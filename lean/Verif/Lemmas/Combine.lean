import Verif.Model.Combine
import Verif.Spec.Combine
import Verif.Lemmas.Functional

/-! # Lemmas on merge, concat, partition_n -/

namespace DF

open Spec

variable {α β γ : Type}

section push

variable [Zero α] {k n : Nat}

/-- A Serie being filled with `done` and the running index. -/
def fillSt (k n : Nat) (done : List (List α)) : Serie α × Nat := (partialS k n 3 done, done.length)

theorem pushItem_fill (hk : 0 < k) (hk' : k < 2 ^ 31) (hs : n * k < 2 ^ 32) {done : List (List α)}
    {v : List α} (hd : ∀ v ∈ done, v.length = k) (hn : done.length < n) (hv : v.length = k) :
    pushItem (fillSt k n done) v = .ok (fillSt k n (done ++ [v])) := by
  have hn' : n ≤ n * k := Nat.le_mul_of_pos_right _ hk
  simp only [pushItem, fillSt]
  rw [putA_partialS hk hk' hd hn hs hv, Res.ok_bind, u32_of_lt (by omega)]
  simp

theorem pushAll_fill (hs : n * k < 2 ^ 32) {s : Serie α} (h : WF s) (hk : s.itemSize = k)
    {done : List (List α)} (hd : ∀ v ∈ done, v.length = k) (hn : done.length + s.count ≤ n) :
    pushAll s (fillSt k n done) = .ok (fillSt k n (done ++ items s)) := by
  have h0 : 0 < k := hk ▸ h.pos
  have h1 : k < 2 ^ 31 := hk ▸ h.int
  unfold pushAll
  have := forLoop_exact (m := Res)
    (f := fun i st => s.getA i >>= fun v => pushItem st v)
    (fun i => fillSt k n (done ++ (items s).take i)) s.count 0 ?_
  · simp only [List.take_zero, List.append_nil, Nat.zero_add] at this
    rw [this, ← items_length s, List.take_length]; rfl
  · intro i _ hi
    have hi' : i < (items s).length := by simpa using hi
    rw [Serie.getA_items h hi', Res.ok_bind, pushItem_fill h0 h1 hs]
    · rw [List.take_add_one, List.getElem?_eq_getElem hi']; simp
    · intro v hv
      rcases List.mem_append.1 hv with hv | hv
      · exact hd v hv
      · rw [← hk]; exact h.item_length (List.mem_of_mem_take hv)
    · simp; omega
    · rw [← hk]; exact h.item_length (List.getElem_mem _)

theorem pushAt_fill (hs : n * k < 2 ^ 32) {s : Serie α} (h : WF s) (hk : s.itemSize = k)
    {done : List (List α)} (hd : ∀ v ∈ done, v.length = k) (i : Nat)
    (hn : done.length + (items s)[i]?.toList.length ≤ n) :
    pushAt i s (fillSt k n done) = .ok (fillSt k n (done ++ (items s)[i]?.toList)) := by
  have h0 : 0 < k := hk ▸ h.pos
  have h1 : k < 2 ^ 31 := hk ▸ h.int
  unfold pushAt
  by_cases hi : i < s.count
  · have hi' : i < (items s).length := by simpa using hi
    rw [List.getElem?_eq_getElem hi'] at hn ⊢
    simp only [Option.toList_some, List.length_cons, List.length_nil] at hn ⊢
    rw [if_pos hi, Serie.getA_items h hi', Res.ok_bind, pushItem_fill h0 h1 hs hd (by omega)]
    rw [← hk]; exact h.item_length (List.getElem_mem _)
  · rw [if_neg hi, List.getElem?_eq_none (by simp; omega)]; simp

theorem foldlM_pushAll (hs : n * k < 2 ^ 32) : ∀ (ss : List (Serie α)) (done : List (List α)),
    (∀ s ∈ ss, WF s ∧ s.itemSize = k) → (∀ v ∈ done, v.length = k) →
    done.length + (ss.map (·.count)).sum ≤ n →
    ss.foldlM (fun st s => pushAll s st) (fillSt k n done) =
      .ok (fillSt k n (done ++ (ss.map items).flatten)) := by
  intro ss
  induction ss with
  | nil => intro done _ _ _; simp
  | cons s ss ih =>
    intro done hw hd hn
    obtain ⟨h, hk⟩ := hw s (by simp)
    simp only [List.map_cons, List.sum_cons] at hn
    rw [List.foldlM_cons, pushAll_fill hs h hk hd (by omega), Res.ok_bind, ih]
    · simp
    · intro t ht; exact hw t (by simp [ht])
    · intro v hv
      rcases List.mem_append.1 hv with hv | hv
      · exact hd v hv
      · rw [← hk]; exact h.item_length hv
    · simp; omega

omit [Zero α] in
theorem filterMap_items_length (ss : List (Serie α)) (hw : ∀ s ∈ ss, WF s ∧ s.itemSize = k) (i : Nat) :
    ∀ v ∈ ss.filterMap (fun s => (items s)[i]?), v.length = k := by
  intro v hv
  obtain ⟨s, hs, hv⟩ := List.mem_filterMap.1 hv
  obtain ⟨h, hk⟩ := hw s hs
  rw [← hk]; exact h.item_length (List.mem_of_getElem? hv)

theorem foldlM_pushAt (hs : n * k < 2 ^ 32) (i : Nat) : ∀ (ss : List (Serie α)) (done : List (List α)),
    (∀ s ∈ ss, WF s ∧ s.itemSize = k) → (∀ v ∈ done, v.length = k) →
    done.length + (ss.filterMap (fun s => (items s)[i]?)).length ≤ n →
    ss.foldlM (fun st s => pushAt i s st) (fillSt k n done) =
      .ok (fillSt k n (done ++ ss.filterMap (fun s => (items s)[i]?))) := by
  intro ss
  induction ss with
  | nil => intro done _ _ _; simp
  | cons s ss ih =>
    intro done hw hd hn
    obtain ⟨h, hk⟩ := hw s (by simp)
    have e : (s :: ss).filterMap (fun s => (items s)[i]?) =
        (items s)[i]?.toList ++ ss.filterMap (fun s => (items s)[i]?) := by
      cases hi : (items s)[i]? <;> simp [hi]
    rw [e] at hn ⊢
    rw [List.length_append] at hn
    rw [List.foldlM_cons, pushAt_fill hs h hk hd i (by omega), Res.ok_bind, ih]
    · simp
    · intro t ht; exact hw t (by simp [ht])
    · intro v hv
      rcases List.mem_append.1 hv with hv | hv
      · exact hd v hv
      · rw [← hk]
        refine h.item_length (List.mem_of_getElem? (i := i) ?_)
        simpa using hv
    · rw [List.length_append]; omega

end push

/-! ## Round robin -/

/-- The prefix of the round robin made of the first `m` rounds. -/
def rounds (ls : List (List γ)) (m : Nat) : List γ :=
  (List.range m).flatMap (fun i => ls.filterMap (fun l => l[i]?))

theorem rounds_succ (ls : List (List γ)) (m : Nat) :
    rounds ls (m + 1) = rounds ls m ++ ls.filterMap (fun l => l[m]?) := by
  simp [rounds, List.range_succ]

theorem filterMap_cons_toList (f : γ → Option β) (x : γ) (l : List γ) :
    (x :: l).filterMap f = (f x).toList ++ l.filterMap f := by
  cases h : f x <;> simp [h]

theorem rounds_perm : ∀ (m : Nat) (ls : List (List γ)), (rounds ls m).Perm (ls.map (·.take m)).flatten := by
  intro m
  induction m with
  | zero =>
    intro ls
    induction ls with
    | nil => exact .nil
    | cons l ls ih => simp [rounds]
  | succ m ih =>
    intro ls
    rw [rounds_succ]
    refine (List.Perm.append_right _ (ih ls)).trans ?_
    induction ls with
    | nil => simp
    | cons l ls ih2 =>
      rw [filterMap_cons_toList]
      simp only [List.map_cons, List.flatten_cons, List.take_add_one]
      rw [List.append_assoc, List.append_assoc]
      refine List.Perm.append_left _ ?_
      simp only [List.take_add_one] at ih2
      refine List.Perm.trans ?_ (List.Perm.append_left _ ih2)
      rw [← List.append_assoc, ← List.append_assoc]
      exact List.Perm.append_right _ List.perm_append_comm

theorem le_foldl_max (ls : List (List γ)) : ∀ (m : Nat),
    m ≤ ls.foldl (fun m l => max m l.length) m ∧ ∀ l ∈ ls, l.length ≤ ls.foldl (fun m l => max m l.length) m := by
  induction ls with
  | nil => intro m; simp
  | cons a ls ih =>
    intro m
    simp only [List.foldl_cons]
    obtain ⟨h1, h2⟩ := ih (max m a.length)
    refine ⟨by omega, ?_⟩
    intro l hl
    rcases List.mem_cons.1 hl with rfl | hl
    · omega
    · exact h2 l hl

theorem roundRobin_perm (ls : List (List γ)) : (roundRobin ls).Perm ls.flatten := by
  have := rounds_perm (ls.foldl (fun m l => max m l.length) 0) ls
  have e : ls.map (·.take (ls.foldl (fun m l => max m l.length) 0)) = ls := by
    conv => rhs; rw [← List.map_id ls]
    apply List.map_congr_left
    intro l hl
    exact List.take_of_length_le ((le_foldl_max ls 0).2 l hl)
  rw [e] at this
  exact this

theorem rounds_length_le (ls : List (List γ)) (m : Nat) : (rounds ls m).length ≤ ls.flatten.length := by
  have := (rounds_perm m ls).length_eq
  rw [this]
  clear this
  induction ls with
  | nil => simp
  | cons l ls ih => simp only [List.map_cons, List.flatten_cons, List.length_append, List.length_take]; omega

theorem rounds_two (m : Nat) : ∀ (xs ys : List γ), xs.length ≤ m → ys.length ≤ m →
    rounds [xs, ys] m = interleave xs ys := by
  induction m with
  | zero =>
    intro xs ys hx hy
    cases xs <;> cases ys <;> simp_all [rounds, interleave]
  | succ m ih =>
    intro xs ys hx hy
    have step : ∀ a b : List γ, rounds [a, b] (m + 1) =
        (a.head?.toList ++ b.head?.toList) ++ rounds [a.tail, b.tail] m := by
      intro a b
      simp only [rounds, List.range_succ_eq_map, List.flatMap_cons, List.flatMap_map]
      congr 1
      · rw [filterMap_cons_toList, filterMap_cons_toList]
        simp [List.head?_eq_getElem?]
      · simp only [filterMap_cons_toList, List.getElem?_tail, List.filterMap_nil]
    rw [step]
    cases xs with
    | nil =>
      cases ys with
      | nil => simp [ih [] [] (by simp) (by simp), interleave]
      | cons y ys =>
        rw [List.tail_nil, List.tail_cons, ih [] ys (by simp) (by simpa using hy)]
        simp
        cases ys <;> simp [interleave]
    | cons x xs =>
      cases ys with
      | nil =>
        rw [List.tail_nil, List.tail_cons, ih xs [] (by simpa using hx) (by simp)]
        simp
        cases xs <;> simp [interleave]
      | cons y ys =>
        rw [List.tail_cons, List.tail_cons, ih xs ys (by simpa using hx) (by simpa using hy)]
        simp [interleave]

theorem roundRobin_two (xs ys : List γ) : roundRobin [xs, ys] = interleave xs ys := by
  have := rounds_two (max (max 0 xs.length) ys.length) xs ys (by omega) (by omega)
  exact this

/-! ## merge, concat -/

section merge

variable [Zero α]

theorem fill_start {k n : Nat} (h : n * k < 2 ^ 32) : ((Serie.zeros k n : Serie α), 0) = fillSt k n [] := by
  rw [zeros_eq_partialS h]; rfl

theorem fill_end {k n : Nat} {done : List (List α)} (h : done.length = n) :
    (fillSt k n done).1 = ofItems k done := by
  subst h; exact partialS_done _

theorem foldl_u32_sum (f : β → Nat) : ∀ (l : List β) (t : Nat), t + (l.map f).sum < 2 ^ 32 →
    l.foldl (fun t s => u32 (t + f s)) t = t + (l.map f).sum := by
  intro l
  induction l with
  | nil => intro t _; simp
  | cons a l ih =>
    intro t h
    simp only [List.map_cons, List.sum_cons] at h ⊢
    rw [List.foldl_cons, u32_of_lt (by omega), ih _ (by omega)]; omega

theorem adjacentEqual_iff : ∀ (a : Nat) (l : List Nat), adjacentEqual (a :: l) = true ↔ ∀ b ∈ l, b = a := by
  intro a l
  induction l generalizing a with
  | nil => simp [adjacentEqual]
  | cons b l ih =>
    simp only [adjacentEqual, Bool.and_eq_true, beq_iff_eq, ih, List.mem_cons]
    constructor
    · rintro ⟨rfl, h⟩ c (rfl | hc)
      · rfl
      · exact h c hc
    · intro h
      have hb := h b (Or.inl rfl)
      subst hb
      exact ⟨rfl, fun c hc => h c (Or.inr hc)⟩

omit [Zero α] in
theorem flatten_items_length (ss : List (Serie α)) :
    (ss.map items).flatten.length = (ss.map (·.count)).sum := by
  induction ss with
  | nil => rfl
  | cons s ss ih => simp [ih]

theorem concatLoop {k : Nat} {ss : List (Serie α)} (hw : ∀ s ∈ ss, WF s ∧ s.itemSize = k)
    (hn : (ss.map (·.count)).sum * k < 2 ^ 32) :
    (ss.foldlM (fun st s => pushAll s st) ((Serie.zeros k (ss.map (·.count)).sum : Serie α), 0) >>=
      fun st => pure st.1) = .ok (ofItems k (ss.map items).flatten) := by
  rw [fill_start hn, foldlM_pushAll hn ss [] hw (by simp) (by simp)]
  simp only [Res.ok_bind, List.nil_append]
  rw [fill_end (flatten_items_length ss)]; rfl

theorem concat_eq {k : Nat} {ss : List (Serie α)} (hne : ss ≠ []) (hw : ∀ s ∈ ss, WF s ∧ s.itemSize = k)
    (hn : (ss.map (·.count)).sum * k < 2 ^ 32) : concat ss = .ok (ofItems k (ss.map items).flatten) := by
  cases ss with
  | nil => exact absurd rfl hne
  | cons s0 ss =>
    have hk0 := (hw s0 (by simp)).2
    have hpos : 0 < k := hk0 ▸ (hw s0 (by simp)).1.pos
    have hle : ((s0 :: ss).map (·.count)).sum ≤ ((s0 :: ss).map (·.count)).sum * k := Nat.le_mul_of_pos_right _ hpos
    unfold concat
    simp only
    have htot : ∀ (l : List (Serie α)) (t : Nat), (∀ s ∈ l, WF s ∧ s.itemSize = k) →
        t + (l.map (·.count)).sum < 2 ^ 32 →
        l.foldlM (fun t s => if (!s.isValid || decide (s.itemSize ≠ s0.itemSize)) = true then
          (.throw .invalidArgument : Res Nat) else .ok (u32 (t + s.count))) t = .ok (t + (l.map (·.count)).sum) := by
      intro l
      induction l with
      | nil => intro t _ _; simp
      | cons s l ih =>
        intro t h1 h2
        obtain ⟨a, b⟩ := h1 s (by simp)
        simp only [List.map_cons, List.sum_cons] at h2 ⊢
        rw [List.foldlM_cons, if_neg (by simp [a.valid, b, hk0]), Res.ok_bind, u32_of_lt (by omega),
          ih _ (fun t ht => h1 t (by simp [ht])) (by omega)]
        congr 1; omega
    rw [htot (s0 :: ss) 0 hw (by omega), Res.ok_bind, Nat.zero_add, hk0]
    exact concatLoop hw hn

theorem concat_bad {ss : List (Serie α)} {s : Serie α} (hs : s ∈ ss)
    (h : s.isValid = false ∨ ∃ t ∈ ss, t.itemSize ≠ s.itemSize) : concat ss = .throw .invalidArgument := by
  cases ss with
  | nil => simp at hs
  | cons s0 ss =>
    have hbad : ∃ u ∈ s0 :: ss, u.isValid = false ∨ u.itemSize ≠ s0.itemSize := by
      rcases h with h | ⟨t, ht, h⟩
      · exact ⟨s, hs, Or.inl h⟩
      · by_cases e : s.itemSize = s0.itemSize
        · exact ⟨t, ht, Or.inr (by rw [← e]; exact h)⟩
        · exact ⟨s, hs, Or.inr e⟩
    unfold concat
    simp only
    have htot : ∀ (l : List (Serie α)) (t : Nat), (∃ u ∈ l, u.isValid = false ∨ u.itemSize ≠ s0.itemSize) →
        l.foldlM (fun t s => if (!s.isValid || decide (s.itemSize ≠ s0.itemSize)) = true then
          (.throw .invalidArgument : Res Nat) else .ok (u32 (t + s.count))) t = .throw .invalidArgument := by
      intro l
      induction l with
      | nil => rintro t ⟨u, hu, _⟩; simp at hu
      | cons a l ih =>
        rintro t ⟨u, hu, hub⟩
        rw [List.foldlM_cons]
        split
        · rfl
        · rename_i hc
          rw [Res.ok_bind]
          apply ih
          rcases List.mem_cons.1 hu with rfl | hu
          · exfalso; apply hc
            rcases hub with hub | hub <;> simp [hub]
          · exact ⟨u, hu, hub⟩
    rw [htot _ _ hbad]; rfl

theorem merge2_concat {a b : Serie α} (ha : WF a) (hb : WF b) (hk : b.itemSize = a.itemSize)
    (hn : (a.count + b.count) * a.itemSize < 2 ^ 32) :
    merge2 a b true = .ok (ofItems a.itemSize (items a ++ items b)) := by
  have hle : a.count + b.count ≤ (a.count + b.count) * a.itemSize := Nat.le_mul_of_pos_right _ ha.pos
  unfold merge2
  rw [if_neg (by simp [hk])]
  simp only [if_true]
  rw [u32_of_lt (by omega), fill_start hn, pushAll_fill hn ha rfl (by simp) (by simp), Res.ok_bind,
    pushAll_fill hn hb hk (by
      intro v hv; simp only [List.nil_append] at hv; exact ha.item_length hv) (by simp), Res.ok_bind]
  rw [fill_end (by simp)]; simp

theorem merge2_interleave {a b : Serie α} (ha : WF a) (hb : WF b) (hk : b.itemSize = a.itemSize)
    (hn : (a.count + b.count) * a.itemSize < 2 ^ 32) :
    merge2 a b false = .ok (ofItems a.itemSize (interleave (items a) (items b))) := by
  have hle : a.count + b.count ≤ (a.count + b.count) * a.itemSize := Nat.le_mul_of_pos_right _ ha.pos
  have hw : ∀ s ∈ [a, b], WF s ∧ s.itemSize = a.itemSize := by
    intro s hs; simp at hs; rcases hs with rfl | rfl
    · exact ⟨ha, rfl⟩
    · exact ⟨hb, hk⟩
  unfold merge2
  rw [if_neg (by simp [hk])]
  simp only [Bool.false_eq_true, if_false]
  rw [u32_of_lt (by omega), fill_start hn]
  have hlen : ∀ m, (rounds [items a, items b] m).length ≤ a.count + b.count := by
    intro m
    have := rounds_length_le [items a, items b] m
    simpa using this
  have := forLoop_exact (m := Res)
    (f := fun i st => pushAt i a st >>= fun st => pushAt i b st)
    (fun i => fillSt a.itemSize (a.count + b.count) (rounds [items a, items b] i)) (max a.count b.count) 0 ?_
  · rw [show fillSt a.itemSize (a.count + b.count) [] =
      fillSt a.itemSize (a.count + b.count) (rounds [items a, items b] 0) from rfl, this, Nat.zero_add,
      rounds_two _ _ _ (by rw [items_length]; omega) (by rw [items_length]; omega)]
    simp only [pure_bind]
    rw [fill_end]
    · rfl
    · rw [← roundRobin_two, (roundRobin_perm _).length_eq]; simp
  · intro i _ hi
    have h2 := hlen (i + 1)
    rw [rounds_succ, List.length_append] at h2
    have hd : ∀ m, ∀ v ∈ rounds [items a, items b] m, v.length = a.itemSize := by
      intro m v hv
      simp only [rounds, List.mem_flatMap] at hv
      obtain ⟨j, _, hv⟩ := hv
      have := filterMap_items_length [a, b] hw j v
      apply this
      simpa using hv
    have hfm : [items a, items b].filterMap (fun l => l[i]?) = [a, b].filterMap (fun s => (items s)[i]?) := by
      simp only [filterMap_cons_toList, List.filterMap_nil]
    rw [hfm] at h2
    have := foldlM_pushAt hn i [a, b] (rounds [items a, items b] i) hw (hd i) h2
    rw [rounds_succ, hfm]
    simp only [List.foldlM_cons, List.foldlM_nil] at this
    simp only [bind_pure] at this
    rw [this]
    rfl

theorem mergeN_eq {k : Nat} {ss : List (Serie α)} (hne : ss ≠ []) (hw : ∀ s ∈ ss, WF s ∧ s.itemSize = k)
    (hn : (ss.map (·.count)).sum * k < 2 ^ 32) :
    mergeN true ss = .ok (ofItems k (ss.map items).flatten) ∧
    mergeN false ss = .ok (ofItems k (roundRobin (ss.map items))) := by
  cases hss : ss with
  | nil => exact absurd hss hne
  | cons s0 ss' =>
    rw [← hss]
    have hk0 : s0.itemSize = k := (hw s0 (by simp [hss])).2
    have hpos : 0 < k := hk0 ▸ (hw s0 (by simp [hss])).1.pos
    have hle : (ss.map (·.count)).sum ≤ (ss.map (·.count)).sum * k := Nat.le_mul_of_pos_right _ hpos
    have hadj : adjacentEqual (ss.map (·.itemSize)) = true := by
      rw [hss, List.map_cons, adjacentEqual_iff]
      intro b hb
      obtain ⟨s, hs, rfl⟩ := List.mem_map.1 hb
      rw [hk0]; exact (hw s (by simp [hss, hs])).2
    have htot : ss.foldl (fun t s => u32 (t + s.count)) 0 = (ss.map (·.count)).sum := by
      rw [foldl_u32_sum (fun s : Serie α => s.count) ss 0 (by omega)]; omega
    have e : ∀ c, mergeN c ss = if c then
        (ss.foldlM (fun st s => pushAll s st) ((Serie.zeros k (ss.map (·.count)).sum : Serie α), 0) >>=
          fun st => pure st.1) else
        (forLoop (fun i st => ss.foldlM (fun st s => pushAt i s st) st) 0 (ss.foldl (fun m s => max m s.count) 0)
          ((Serie.zeros k (ss.map (·.count)).sum : Serie α), 0) >>= fun st => pure st.1) := by
      intro c
      rw [← htot, ← hk0]
      subst hss
      simp only [mergeN, hadj, Bool.not_true, Bool.false_eq_true, if_false]
    constructor
    · rw [e, if_pos rfl, concatLoop hw hn]
    · rw [e, if_neg (by simp), fill_start hn]
      have hmax : ss.foldl (fun m s => max m s.count) 0 =
          (ss.map items).foldl (fun m l => max m l.length) 0 := by
        rw [List.foldl_map]; simp
      have hlen : ∀ m, (rounds (ss.map items) m).length ≤ (ss.map (·.count)).sum := by
        intro m
        have := rounds_length_le (ss.map items) m
        rwa [flatten_items_length] at this
      have hfm : ∀ i : Nat, (ss.map items).filterMap (fun l => l[i]?) = ss.filterMap (fun s => (items s)[i]?) := by
        intro i; rw [List.filterMap_map]; rfl
      have := forLoop_exact (m := Res)
        (f := fun i st => ss.foldlM (fun st s => pushAt i s st) st)
        (fun i => fillSt k (ss.map (·.count)).sum (rounds (ss.map items) i))
        (ss.foldl (fun m s => max m s.count) 0) 0 ?_
      · rw [show fillSt k (ss.map (·.count)).sum [] =
          fillSt k (ss.map (·.count)).sum (rounds (ss.map items) 0) from rfl, this, Nat.zero_add, hmax]
        simp only [pure_bind]
        rw [fill_end]
        · rfl
        · have := (roundRobin_perm (ss.map items)).length_eq
          rw [flatten_items_length] at this
          exact this
      · intro i _ hi
        have h2 := hlen (i + 1)
        rw [rounds_succ, List.length_append, hfm] at h2
        have hd : ∀ m, ∀ v ∈ rounds (ss.map items) m, v.length = k := by
          intro m v hv
          simp only [rounds, List.mem_flatMap] at hv
          obtain ⟨j, _, hv⟩ := hv
          rw [hfm] at hv
          exact filterMap_items_length ss hw j v hv
        rw [rounds_succ, hfm]
        exact foldlM_pushAt hn i ss (rounds (ss.map items) i) hw (hd i) h2

end merge

/-! ## partition_n -/

/-- First item of part `i` when cutting `c` items into `n` parts. -/
def cut (c n i : Nat) : Nat := i * (c / n) + min i (c % n)

theorem cut_zero (c n : Nat) : cut c n 0 = 0 := by simp [cut]

theorem cut_succ (c n i : Nat) : cut c n (i + 1) = cut c n i + (c / n + if i < c % n then 1 else 0) := by
  unfold cut
  rw [Nat.succ_mul]
  split <;> omega

theorem cut_last {c n : Nat} (hn : 0 < n) : cut c n n = c := by
  unfold cut
  have h1 := Nat.div_add_mod c n
  have h2 := Nat.mod_lt c hn
  rw [Nat.min_eq_right (by omega), h1]

theorem cut_mono {c n : Nat} {i j : Nat} (h : i ≤ j) : cut c n i ≤ cut c n j := by
  induction h with
  | refl => exact Nat.le_refl _
  | step _ ih => rw [cut_succ]; exact Nat.le_trans ih (Nat.le_add_right _ _)

theorem cut_le {c n i : Nat} (hn : 0 < n) (hi : i ≤ n) : cut c n i ≤ c := by
  have := cut_mono (c := c) (n := n) hi
  rwa [cut_last hn] at this

theorem cut_count {c n m : Nat} (hn : 0 < n) (hm : m ≤ n) (h1 : cut c n m = c)
    (h2 : m = 1 ∧ c = 0 ∨ cut c n (m - 1) < c) (h0 : 0 < m) : m = max 1 (min n c) := by
  rcases h2 with ⟨h2, h3⟩ | h2
  · omega
  · by_cases hc : n ≤ c
    · have hq : 0 < c / n := Nat.div_pos hc hn
      have hmono : ∀ i j, i < j → cut c n i < cut c n j := by
        intro i j hij
        have a := cut_succ c n i
        have b := cut_mono (c := c) (n := n) (show i + 1 ≤ j by omega)
        omega
      by_cases hmn : m = n
      · omega
      · have := hmono m n (by omega)
        rw [cut_last hn] at this; omega
    · have e : ∀ i, cut c n i = min i c := by
        intro i
        simp [cut, Nat.div_eq_of_lt (show c < n by omega), Nat.mod_eq_of_lt (show c < n by omega)]
      rw [e] at h1 h2
      omega

section part

variable [Zero α]

/-- Part `i` of the items. -/
def partItems (s : Serie α) (n i : Nat) : List (List α) :=
  ((items s).drop (cut s.count n i)).take (s.count / n + if i < s.count % n then 1 else 0)

theorem slice_eq {s : Serie α} (h : WF s) {start size : Nat} (hs : start + size ≤ s.count) :
    slice s start size = .ok (ofItems s.itemSize (((items s).drop start).take size)) := by
  have hc := h.count_lt
  have hl : (((items s).drop start).take size).length = size := by simp; omega
  have hm : size * s.itemSize < 2 ^ 32 :=
    Nat.lt_of_le_of_lt (Nat.le_trans (Nat.mul_le_mul_right _ (by omega)) h.fits) h.small
  unfold slice
  have := forLoop_putA (d := 3) (g := fun j => s.getA (u32 (start + j))) h.pos h.int
    (((items s).drop start).take size)
    (fun v hv => h.item_length (List.mem_of_mem_drop (List.mem_of_mem_take hv))) (by rw [hl]; exact hm) ?_
  · rwa [hl] at this
  · intro i hi
    rw [hl] at hi
    rw [u32_of_lt (by omega), Serie.getA_items h (by simp; omega)]
    simp

omit [Zero α] in
theorem partItems_flatten {s : Serie α} {n : Nat} : ∀ m, m ≤ n →
    ((List.range m).map (partItems s n)).flatten = (items s).take (cut s.count n m) := by
  intro m
  induction m with
  | zero => intro _; simp [cut_zero]
  | succ m ih =>
    intro hm
    rw [List.range_succ, List.map_append, List.flatten_append, ih (by omega), cut_succ, List.take_add]
    simp [partItems]

theorem partLoop_eq {s : Serie α} (h : WF s) {n : Nat} (hn : 0 < n) : ∀ (rest i : Nat) (parts : List (Serie α)),
    0 < rest → i + rest = n → (0 < i → cut s.count n i < s.count) →
    ∃ m, i < m ∧ m ≤ n ∧ cut s.count n m = s.count ∧ ((i = 0 ∧ m = 1 ∧ s.count = 0) ∨ cut s.count n (m - 1) < s.count) ∧
    partLoop s (s.count / n) (s.count % n) s.count rest i (cut s.count n i) parts =
      .ok (parts ++ (List.range' i (m - i)).map (fun j => ofItems s.itemSize (partItems s n j))) := by
  intro rest
  induction rest with
  | zero => intro i parts h0; omega
  | succ rest ih =>
    intro i parts _ hi hlt
    have hc := h.count_lt
    have hle := cut_le (c := s.count) hn (i := i + 1) (by omega)
    have hcs := cut_succ s.count n i
    have hsz : u32 (s.count / n + if i < s.count % n then 1 else 0) =
        s.count / n + if i < s.count % n then 1 else 0 := u32_of_lt (by omega)
    unfold partLoop
    simp only
    rw [hsz, slice_eq h (by omega), Res.ok_bind, ← hcs, u32_of_lt (by omega)]
    by_cases he : cut s.count n (i + 1) ≥ s.count
    · rw [if_pos he]
      refine ⟨i + 1, by omega, by omega, by omega, ?_, ?_⟩
      · rcases Nat.eq_zero_or_pos i with h0 | h0
        · subst h0
          rcases Nat.eq_zero_or_pos s.count with h1 | h1
          · exact Or.inl ⟨rfl, rfl, h1⟩
          · right; simpa [cut_zero] using h1
        · exact Or.inr (hlt h0)
      simp [partItems]
    · rw [if_neg he]
      have hrest : 0 < rest := by
        rcases Nat.eq_zero_or_pos rest with h0 | h0
        · subst h0
          have : i + 1 = n := by omega
          rw [this, cut_last hn] at he; omega
        · exact h0
      obtain ⟨m, h1, h2, h3, h4, h5⟩ := ih (i + 1)
        (parts ++ [ofItems s.itemSize (partItems s n i)]) hrest (by omega) (fun _ => by omega)
      refine ⟨m, by omega, h2, h3, ?_, ?_⟩
      · rcases h4 with h4 | h4
        · omega
        · exact Or.inr h4
      · refine Eq.trans h5 ?_
        rw [show m - i = (m - (i + 1)) + 1 by omega, List.range'_succ]
        simp

theorem partLoopAll_eq {s : Serie α} (h : WF s) {n : Nat} (hn : 0 < n) : ∀ (rest i : Nat) (parts : List (Serie α)),
    i + rest = n →
    partLoopAll s (s.count / n) (s.count % n) rest i (cut s.count n i) parts =
      .ok (parts ++ (List.range' i rest).map (fun j => ofItems s.itemSize (partItems s n j))) := by
  intro rest
  induction rest with
  | zero => intro i parts _; simp [partLoopAll]
  | succ rest ih =>
    intro i parts hi
    have hc := h.count_lt
    have hle := cut_le (c := s.count) hn (i := i + 1) (by omega)
    have hcs := cut_succ s.count n i
    have hsz : u32 (s.count / n + if i < s.count % n then 1 else 0) =
        s.count / n + if i < s.count % n then 1 else 0 := u32_of_lt (by omega)
    unfold partLoopAll
    simp only
    rw [hsz, slice_eq h (by omega), Res.ok_bind, ← hcs, u32_of_lt (by omega), ih _ _ (by omega),
      List.range'_succ]
    simp [partItems]

omit [Zero α] in
theorem partItems_length {s : Serie α} {n i : Nat} (hn : 0 < n) (hi : i < n) :
    (partItems s n i).length = s.count / n + if i < s.count % n then 1 else 0 := by
  have hle := cut_le (c := s.count) hn (i := i + 1) (by omega)
  have hcs := cut_succ s.count n i
  simp only [partItems, List.length_take, List.length_drop, items_length]
  omega

omit [Zero α] in
theorem partItems_item {s : Serie α} (h : WF s) {n i : Nat} : ∀ v ∈ partItems s n i, v.length = s.itemSize :=
  fun _ hv => h.item_length (List.mem_of_mem_drop (List.mem_of_mem_take hv))

end part

end DF
