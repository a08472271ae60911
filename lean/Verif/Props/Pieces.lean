import Verif.Props.Order

/-!
# Properties of Series made of pieces (C139)

What the functions return for a concatenation, from what they return for the pieces, such as the parts made by `partition_n`.
-/

namespace DF

open Spec

variable {α σ : Type}

/-- Pieces for the examples. -/
def exPieces : List (Serie ℚ) := [exQ, ofScalars [7, 2], ofScalars [6]]

theorem exPieces_ok : ∀ s ∈ exPieces, WF s ∧ s.itemSize = 1 := by decide

theorem WF_flat {ss : List (Serie α)} (hw : ∀ s ∈ ss, WF s ∧ s.itemSize = 1) (hn : (ss.map (·.count)).sum < 2 ^ 32) :
    WF (ofScalars (ss.map scalars).flatten) := WF_ofScalars (by rw [scalars_sum hw]; exact hn)

theorem flatten_singles : ∀ l : List α, (l.map fun x => [x]).flatten = l
  | [] => rfl
  | x :: l => by rw [List.map_cons, List.flatten_cons, flatten_singles l]; rfl

theorem foldlM_zipIdx {β γ : Type} {m : Type → Type} [Monad m] [LawfulMonad m] (f : β → γ → m β) :
    ∀ (l : List γ) (lo : Nat) (b : β), (l.zipIdx lo).foldlM (fun acc p => f acc p.1) b = l.foldlM f b
  | [], _, _ => rfl
  | x :: l, lo, b => by
    rw [List.zipIdx_cons, List.foldlM_cons, List.foldlM_cons]
    exact bind_congr fun c => foldlM_zipIdx f l (lo + 1) c

theorem reduceS_list {s : Serie α} (h : WF s) (f : α → α → Eff σ α) (init : α) :
    reduceS (fun acc x _ => f acc x) s init = (scalars s).foldlM f init := by
  unfold reduceS
  rw [forLoop_fold _ (scalars s) s.count init h.scalars_length.symm (getD_hyp h)]
  exact foldlM_zipIdx f _ _ _

/-- C139: `reduce` goes on from piece to piece. -/
theorem C139_reduce [Zero α] {ss : List (Serie α)} (hne : ss ≠ []) (hw : ∀ s ∈ ss, WF s ∧ s.itemSize = 1)
    (hn : (ss.map (·.count)).sum < 2 ^ 32) (f : α → α → Eff σ α) (init : α) :
    (Eff.lift (concat ss) >>= fun t => reduceS (fun acc x _ => f acc x) t init) =
      ss.foldlM (fun acc s => reduceS (fun acc x _ => f acc x) s acc) init := by
  rw [concat_scalars hne hw hn, Eff.lift_ok, pure_bind, reduceS_list (WF_flat hw hn), scalars_ofScalars]
  clear hne hn
  induction ss generalizing init with
  | nil => rfl
  | cons s ss ih =>
    rw [List.map_cons, List.flatten_cons, List.foldlM_append, List.foldlM_cons, reduceS_list (hw s (by simp)).1]
    exact bind_congr fun c => ih (fun t ht => hw t (by simp [ht])) c

example := C139_reduce (σ := List ℚ) (ss := exPieces) (by decide) exPieces_ok (by decide)
  (fun acc x => fun log => (.ok (acc * 2 + x), x :: log)) 1

/-- C139: `forEach` visits one piece after the other. -/
theorem C139_forEach [Zero α] {ss : List (Serie α)} (hne : ss ≠ []) (hw : ∀ s ∈ ss, WF s ∧ s.itemSize = 1)
    (hn : (ss.map (·.count)).sum < 2 ^ 32) (f : α → Eff σ Unit) :
    (Eff.lift (concat ss) >>= forEachS (fun x _ => f x)) = ss.forM (forEachS (fun x _ => f x)) := by
  have key : ∀ {s : Serie α}, WF s → s.itemSize = 1 → forEachS (fun x _ => f x) s = (scalars s).forM f := by
    intro s h h1
    unfold forEachS
    rw [if_neg (by simpa using h1), forLoop_unit _ (scalars s) s.count h.scalars_length.symm (getD_hyp h)]
    generalize 0 = lo
    induction scalars s generalizing lo with
    | nil => rfl
    | cons x l ih =>
      rw [callAll_cons, bind_assoc]
      refine bind_congr fun u => ?_
      rw [bind_assoc]
      exact ih (lo + 1)
  rw [concat_scalars hne hw hn, Eff.lift_ok, pure_bind, key (WF_flat hw hn) rfl, scalars_ofScalars]
  clear hne hn
  induction ss with
  | nil => rfl
  | cons s ss ih =>
    rw [List.map_cons, List.flatten_cons]
    refine List.forM_append.trans ?_
    show _ = (do forEachS (fun x _ => f x) s; ss.forM (forEachS fun x _ => f x))
    rw [key (hw s (by simp)).1 (hw s (by simp)).2]
    exact bind_congr fun _ => ih (fun t ht => hw t (by simp [ht]))

example := C139_forEach (σ := List ℚ) (ss := exPieces) (by decide) exPieces_ok (by decide) (fun x => fun log => (.ok (), x :: log))

/-- C139: the mean is the mean of the means, weighted by the numbers of items. -/
theorem C139_mean [Field α] [CharZero α] {ss : List (Serie α)} (hne : ss ≠ []) (hw : ∀ s ∈ ss, (WF s ∧ s.itemSize = 1) ∧ 0 < s.count)
    (hn : (ss.map (·.count)).sum < 2 ^ 32) :
    ∃ (m : α) (ms : List α), (concat ss >>= mean) = .ok (.number m) ∧ ss.mapM mean = .ok (ms.map .number) ∧
      m * ((ss.map (·.count)).sum : Nat) = (List.zipWith (fun x (s : Serie α) => x * (s.count : α)) ms ss).sum := by
  have hw' : ∀ s ∈ ss, WF s ∧ s.itemSize = 1 := fun s hs => (hw s hs).1
  have hflat := WF_flat hw' hn
  refine ⟨_, ss.map (fun s => (scalars s).sum / (s.count : α)), by
    rw [concat_scalars hne hw' hn, Res.ok_bind, mean_scalar hflat rfl], ?_, ?_⟩
  · rw [mapM_ok (g := fun s => Tuple.number ((scalars s).sum / (s.count : α))) ss (fun s hs => mean_scalar (hw s hs).1.1 (hw s hs).1.2),
      List.map_map]
    rfl
  · have hc : ((ofScalars (ss.map scalars).flatten).count) = (ss.map (·.count)).sum := scalars_sum hw'
    have hpos : ((ss.map (·.count)).sum : Nat) ≠ 0 := by
      obtain ⟨s, hs⟩ := List.exists_mem_of_ne_nil _ hne
      have := List.le_sum_of_mem (List.mem_map_of_mem (f := (·.count)) hs)
      have := (hw s hs).2
      omega
    rw [hc, div_mul_cancel₀ _ (Nat.cast_ne_zero.2 hpos), scalars_ofScalars, List.zipWith_map_left]
    clear hc hpos hflat hn hne
    induction ss with
    | nil => rfl
    | cons s ss ih =>
      rw [List.map_cons, List.flatten_cons, List.sum_append, List.zipWith_cons_cons, List.sum_cons,
        ih (fun t ht => hw t (by simp [ht])) (fun t ht => hw' t (by simp [ht])),
        div_mul_cancel₀ _ (Nat.cast_ne_zero.2 (by have := (hw s (by simp)).2; omega))]

example := C139_mean (ss := exPieces) (by decide) (by decide) (by decide)

/-- C139: the minimum is the least of the minima, the maximum the greatest of the maxima. -/
theorem C139_minMax [LinearOrder α] [Zero α] [Limits α] {ss : List (Serie α)} (hne : ss ≠ [])
    (hw : ∀ s ∈ ss, (WF s ∧ s.itemSize = 1) ∧ 0 < s.count) (hn : (ss.map (·.count)).sum < 2 ^ 32)
    (hlim : ∀ s ∈ ss, ∀ x ∈ scalars s, Limits.lowest ≤ x ∧ x ≤ Limits.highest) :
    ∃ (a b : α) (l : List (α × α)), (concat ss >>= minMax) = .ok ([a], [b]) ∧
      ss.mapM minMax = .ok (l.map fun p => ([p.1], [p.2])) ∧ Least a (l.map Prod.fst) ∧ Greatest b (l.map Prod.snd) := by
  have hw' : ∀ s ∈ ss, WF s ∧ s.itemSize = 1 := fun s hs => (hw s hs).1
  have hflat := WF_flat hw' hn
  have hmem : ∀ x, x ∈ (ss.map scalars).flatten ↔ ∃ s ∈ ss, x ∈ scalars s := by
    intro x
    simp [List.mem_flatten]
  obtain ⟨s0, hs0⟩ := List.exists_mem_of_ne_nil _ hne
  have h0 : 0 < (ofScalars (ss.map scalars).flatten).count := by
    show 0 < (ss.map scalars).flatten.length
    rw [scalars_sum hw']
    have := List.le_sum_of_mem (List.mem_map_of_mem (f := (·.count)) hs0)
    have := (hw s0 hs0).2
    omega
  obtain ⟨a, b, e, la, gb⟩ := minMax_scalar hflat h0 rfl (by
    intro x hx
    rw [scalars_ofScalars] at hx
    obtain ⟨s, hs, hx⟩ := (hmem x).1 hx
    exact hlim s hs x hx)
  rw [scalars_ofScalars] at la gb
  have each : ∀ s : Serie α, ∃ p : α × α, s ∈ ss → minMax s = .ok ([p.1], [p.2]) ∧ Least p.1 (scalars s) ∧ Greatest p.2 (scalars s) := by
    intro s
    by_cases hs : s ∈ ss
    · obtain ⟨x, y, e, l, g⟩ := minMax_scalar (hw s hs).1.1 (hw s hs).2 (hw s hs).1.2 (hlim s hs)
      exact ⟨(x, y), fun _ => ⟨e, l, g⟩⟩
    · exact ⟨(a, b), fun h => absurd h hs⟩
  choose f hf using each
  refine ⟨a, b, ss.map f, by rw [concat_scalars hne hw' hn, Res.ok_bind, e], ?_, ?_, ?_⟩
  · rw [mapM_ok (g := fun s => ([(f s).1], [(f s).2])) ss (fun s hs => (hf s hs).1), List.map_map]
    rfl
  · rw [List.map_map]
    refine ⟨?_, fun y hy => ?_⟩
    · obtain ⟨s, hs, hx⟩ := (hmem a).1 la.1
      refine List.mem_map.2 ⟨s, hs, le_antisymm ((hf s hs).2.1.2 a hx) (la.2 _ ((hmem _).2 ⟨s, hs, (hf s hs).2.1.1⟩))⟩
    · obtain ⟨s, hs, rfl⟩ := List.mem_map.1 hy
      exact la.2 _ ((hmem _).2 ⟨s, hs, (hf s hs).2.1.1⟩)
  · rw [List.map_map]
    refine ⟨?_, fun y hy => ?_⟩
    · obtain ⟨s, hs, hx⟩ := (hmem b).1 gb.1
      refine List.mem_map.2 ⟨s, hs, le_antisymm (gb.2 _ ((hmem _).2 ⟨s, hs, (hf s hs).2.2.1⟩)) ((hf s hs).2.2.2 b hx)⟩
    · obtain ⟨s, hs, rfl⟩ := List.mem_map.1 hy
      exact gb.2 _ ((hmem _).2 ⟨s, hs, (hf s hs).2.2.1⟩)

example := @C139_minMax ℚ _ _ ⟨1000, -1000⟩ exPieces (by decide) (by decide) (by decide) (by decide +kernel)

/-- C139: the counts of `bins` are the sums of the counts. -/
theorem C139_bins [Field α] [LinearOrder α] [IsStrictOrderedRing α] [FloorRing α] {a b : Serie α} (ha : WF a) (hb : WF b)
    (a1 : a.itemSize = 1) (b1 : b.itemSize = 1) (hn : a.count + b.count < 2 ^ 32) {nb : Nat} (hnb : 0 < nb) (hnb' : nb < 2 ^ 32)
    {start stop : α} (hss : start < stop)
    (hva : ∀ v ∈ scalars a, start ≤ v ∧ v < start + 2 ^ 32 * ((stop - start) / (nb : α)))
    (hvb : ∀ v ∈ scalars b, start ≤ v ∧ v < start + 2 ^ 32 * ((stop - start) / (nb : α))) :
    ∃ t, (concat [a, b] >>= fun s => binsIn s nb start stop) = .ok t ∧
      (do let x ← binsIn a nb start stop
          let y ← binsIn b nb start stop
          add2 x y) = .ok t := by
  have hw : ∀ s ∈ [a, b], WF s ∧ s.itemSize = 1 := by
    intro s hs
    rcases List.mem_cons.1 hs with rfl | hs
    · exact ⟨ha, a1⟩
    · rcases List.mem_singleton.1 hs with rfl
      exact ⟨hb, b1⟩
  have hn' : ([a, b].map (·.count)).sum < 2 ^ 32 := by simpa using hn
  obtain ⟨x, ex, lx, _, fx⟩ := binsIn_eq ha a1 hnb hnb' hss hva
  obtain ⟨y, ey, ly, _, fy⟩ := binsIn_eq hb b1 hnb hnb' hss hvb
  have hf : ([a, b].map scalars).flatten = scalars a ++ scalars b := by simp
  obtain ⟨z, ez, lz, _, fz⟩ := binsIn_eq (WF_flat hw hn') rfl hnb hnb' hss (by
    intro v hv
    rw [scalars_ofScalars, hf] at hv
    rcases List.mem_append.1 hv with hv | hv
    · exact hva v hv
    · exact hvb v hv)
  refine ⟨ofScalars z, by rw [concat_scalars (by simp) hw hn', Res.ok_bind, ez], ?_⟩
  have wx : WF (ofScalars x) := WF_ofScalars (by omega)
  have wy : WF (ofScalars y) := WF_ofScalars (by omega)
  have hs : SameShape (ofScalars x) (ofScalars y) := ⟨rfl, by simp [ofScalars, lx, ly]⟩
  rw [ex, ey, Res.ok_bind, Res.ok_bind]
  unfold add2
  rw [binOp_eq wx wy hs]
  congr 1
  have hz : z = List.zipWith (· + ·) x y := by
    apply List.ext_getElem?
    intro i
    by_cases hi : i < nb
    · rw [fz i hi, List.getElem?_zipWith, fx i hi, fy i hi, scalars_ofScalars, hf, List.countP_append]
      push_cast
      rfl
    · rw [List.getElem?_eq_none (by omega), List.getElem?_eq_none (by rw [List.length_zipWith]; omega)]
  rw [hz]
  unfold pointwise
  rw [items_scalar rfl wx.count_le, items_scalar rfl wy.count_le, scalars_ofScalars, scalars_ofScalars, List.zipWith_map, ofScalars_eq_ofItems (List.zipWith _ _ _), List.map_zipWith]
  rfl

example := C139_bins exQ_WF (b := ofScalars [5, 5, 2]) (by decide) rfl rfl (by decide) (nb := 3) (by decide) (by decide) (start := 0) (stop := 6)
  (by norm_num) (by decide +kernel) (by decide +kernel)

/-- C139: the covariance of two concatenations of `n` and `m` numbers, from the covariances and the means of the pieces: the mean of the covariances weighted
by the numbers of items, plus a term for the difference of the means. -/
theorem C139_covariance [Field α] [CharZero α] {a b c e : Serie α} (hw : ∀ s ∈ [a, b, c, e], (WF s ∧ s.itemSize = 1) ∧ 0 < s.count)
    (hac : a.count = c.count) (hbe : b.count = e.count) (hn : a.count + b.count < 2 ^ 32) :
    ∃ w u v ma mb mc me : α, (do let x ← concat [a, b]
                                 let y ← concat [c, e]
                                 covariance x y) = .ok w ∧ covariance a c = .ok u ∧ covariance b e = .ok v ∧
      mean a = .ok (.number ma) ∧ mean b = .ok (.number mb) ∧ mean c = .ok (.number mc) ∧ mean e = .ok (.number me) ∧
      w = ((a.count : α) * u + (b.count : α) * v) / ((a.count : α) + (b.count : α)) +
        (a.count : α) * (b.count : α) / ((a.count : α) + (b.count : α)) ^ 2 * ((ma - mb) * (mc - me)) := by
  simp only [List.mem_cons, List.not_mem_nil, or_false, forall_eq_or_imp, forall_eq] at hw
  obtain ⟨⟨⟨wa, a1⟩, a0⟩, ⟨⟨wb, b1⟩, b0⟩, ⟨⟨wc, c1⟩, c0⟩, ⟨we, e1⟩, e0⟩ := hw
  have two : ∀ {p q : Serie α}, WF p → WF q → p.itemSize = 1 → q.itemSize = 1 → ∀ s ∈ [p, q], WF s ∧ s.itemSize = 1 := by
    intro p q hp hq kp kq s hs
    rcases List.mem_cons.1 hs with rfl | hs
    · exact ⟨hp, kp⟩
    · rcases List.mem_singleton.1 hs with rfl
      exact ⟨hq, kq⟩
  have hn1 : ([a, b].map (·.count)).sum < 2 ^ 32 := by simpa using hn
  have hn2 : ([c, e].map (·.count)).sum < 2 ^ 32 := by simpa [← hac, ← hbe] using hn
  have f1 : ([a, b].map scalars).flatten = scalars a ++ scalars b := by simp
  have f2 : ([c, e].map scalars).flatten = scalars c ++ scalars e := by simp
  have w1 := WF_flat (two wa wb a1 b1) hn1
  have w2 := WF_flat (two wc we c1 e1) hn2
  have la := wa.scalars_length
  have lb := wb.scalars_length
  have lc := wc.scalars_length
  have le := we.scalars_length
  have na : (a.count : α) ≠ 0 := Nat.cast_ne_zero.2 (by omega)
  have nb : (b.count : α) ≠ 0 := Nat.cast_ne_zero.2 (by omega)
  have nn : (a.count : α) + (b.count : α) ≠ 0 := by rw [← Nat.cast_add]; exact Nat.cast_ne_zero.2 (by omega)
  rw [f1] at w1
  rw [f2] at w2
  have hcov := C46_covariance w1 w2 (by simp [ofScalars, la, lb, lc, le, hac, hbe]) rfl rfl (by simp [ofScalars, la, lb]; omega)
  refine ⟨_, _, _, _, _, _, _, Eq.trans ?_ hcov, C46_covariance wa wc hac a1 c1 a0, C46_covariance wb we hbe b1 e1 b0, mean_scalar wa a1,
    mean_scalar wb b1, mean_scalar wc c1, mean_scalar we e1, ?_⟩
  · rw [concat_scalars (by simp) (two wa wb a1 b1) hn1, concat_scalars (by simp) (two wc we c1 e1) hn2, Res.ok_bind, Res.ok_bind, f1, f2]
  · simp only [scalars_ofScalars]
    rw [List.zipWith_append (by rw [la, lc, hac])]
    unfold average
    simp only [List.sum_append, List.length_append, List.length_zipWith, la, lb, lc, le, ← hac, ← hbe, Nat.min_self]
    push_cast
    field_simp
    ring

example := C139_covariance (a := ofScalars [1, 2, 4]) (b := ofScalars [7, 2]) (c := ofScalars [3, 1, (1 : ℚ)]) (e := ofScalars [5, 9])
  (by decide) rfl rfl (by decide)

/-- C139: to sort, one may sort the pieces first. -/
theorem C139_sort [LinearOrder α] [Zero α] {srt : StdSort} (hs : srt.Correct) {a b : Serie α} (ha : WF a) (hb : WF b)
    (hk : b.itemSize = a.itemSize) (hn : (a.count + b.count) * a.itemSize < 2 ^ 32) :
    (do let x ← sortDefault srt a
        let y ← sortDefault srt b
        let t ← concat [x, y]
        sortDefault srt t) = (concat [a, b] >>= sortDefault srt) := by
  obtain ⟨x, ex, rx⟩ := C138_sort hs ha
  obtain ⟨y, ey, ry⟩ := C138_sort hs hb
  have two : ∀ {p q : Serie α}, WF p → WF q → p.itemSize = a.itemSize → q.itemSize = a.itemSize →
      ∀ s ∈ [p, q], WF s ∧ s.itemSize = a.itemSize := by
    intro p q hp hq kp kq s hs
    rcases List.mem_cons.1 hs with rfl | hs
    · exact ⟨hp, kp⟩
    · rcases List.mem_singleton.1 hs with rfl
      exact ⟨hq, kq⟩
  have ky : y.itemSize = a.itemSize := ry.2.1.trans hk
  obtain ⟨s, es, ws, ks, is, _⟩ := C22_concat (ss := [a, b]) (by simp) (two ha hb rfl hk) (by simpa using hn)
  obtain ⟨t, et, wt, kt, it, _⟩ := C22_concat (ss := [x, y]) (by simp) (two rx.1 ry.1 rx.2.1 ky)
    (by simpa [rx.count, ry.count] using hn)
  rw [ex, ey, Res.ok_bind, Res.ok_bind, et, es, Res.ok_bind, Res.ok_bind]
  refine C138_sorted hs ws ⟨wt, kt.trans ks.symm, ?_⟩
  rw [is, it]
  simpa using rx.2.2.append ry.2.2

example := C139_sort stdSort_exists.choose_spec exQ_WF (b := exT) exT_reordered.1 rfl (by decide)

/-- C139: `reduce` may be run on the parts made by `partition_n`, one after the other. -/
theorem C139_partition [Zero α] {s : Serie α} (h : WF s) (h1 : s.itemSize = 1) {n : Nat} (hn : 0 < n) (f : α → α → Eff σ α) (init : α) :
    (Eff.lift (partitionN n s) >>= fun ps => ps.foldlM (fun acc p => reduceS (fun acc x _ => f acc x) p acc) init) =
      reduceS (fun acc x _ => f acc x) s init := by
  obtain ⟨ps, e, hl, hw, hf, hc, ec⟩ := C23_partition h hn
  have hw' : ∀ p ∈ ps, WF p ∧ p.itemSize = 1 := fun p hp => ⟨(hw p hp).1, (hw p hp).2.trans h1⟩
  have hne : ps ≠ [] := by
    intro he
    rw [he] at hl
    simp at hl
    omega
  have hflat : (ps.map scalars).flatten = scalars s := by
    have e1 : ps.map items = ps.map fun p => (scalars p).map fun x => [x] :=
      List.map_congr_left fun p hp => items_scalar (hw' p hp).2 (hw' p hp).1.count_le
    have e2 := items_scalar h1 h.count_le
    rw [← hf, e1] at e2
    have := congrArg List.flatten e2
    simpa [List.flatten_flatten, Function.comp_def, List.map_flatten, flatten_singles] using this
  have hs : (ps.map (·.count)).sum < 2 ^ 32 := by
    rw [← scalars_sum hw', hflat, h.scalars_length]
    exact Nat.lt_of_le_of_lt h.count_le h.small
  rw [e, Eff.lift_ok, pure_bind, ← C139_reduce hne hw' hs, concat_scalars hne hw' hs, Eff.lift_ok, pure_bind,
    reduceS_list (WF_flat hw' hs), reduceS_list h, scalars_ofScalars, hflat]

example := C139_partition (σ := List ℚ) exQ_WF rfl (n := 3) (by decide) (fun acc x => fun log => (.ok (acc * 2 + x), x :: log)) 1

end DF
