import Verif.Spec.Order
import Verif.Props.Laws
import Verif.Props.Stats

/-!
# Properties about the order of the items (C138)
-/

namespace DF

open Spec

variable {α σ : Type}

/-- The Serie 3, 1, 4, 1, 5 in another order. -/
def exT : Serie ℚ := ⟨[1, 5, 3, 1, 4], 5, 1, 3⟩
theorem exT_reordered : Reordered exQ exT := ⟨by decide, rfl, by decide +kernel⟩

namespace Spec.Reordered

variable {s t : Serie α}

theorem count (r : Reordered s t) : t.count = s.count := by
  rw [← items_length t, ← items_length s, r.2.2.length_eq]

theorem component (r : Reordered s t) (j : Nat) : (Spec.component s j).Perm (Spec.component t j) := r.2.2.filterMap _

theorem scalars (r : Reordered s t) (h : WF s) (h1 : s.itemSize = 1) : (Spec.scalars s).Perm (Spec.scalars t) := by
  have := r.component 0
  rwa [component_scalar h h1, component_scalar r.1 (r.2.1.trans h1)] at this

end Spec.Reordered

/-! ## Where reordered Series come from -/

/-- C138: a sorted Serie has the items of the Serie. -/
theorem C138_sort [LinearOrder α] [Zero α] {srt : StdSort} (hs : srt.Correct) {s : Serie α} (h : WF s) :
    ∃ t, sortDefault srt s = .ok t ∧ Reordered s t := by
  have hfit : s.count * s.itemSize < 2 ^ 32 := Nat.lt_of_le_of_lt h.fits h.small
  by_cases h1 : s.itemSize = 1
  · obtain ⟨xs, e, p, o⟩ := C29_sort_numbers hs h h1
    have hlen : xs.length = s.count := p.length_eq.trans h.scalars_length
    have hw : WF (ofScalars xs) := WF_ofScalars (by have := h.count_lt; omega)
    refine ⟨_, e, hw, h1.symm, ?_⟩
    rw [items_scalar h1 h.count_le, items_scalar rfl hw.count_le, scalars_ofScalars]
    exact p.symm.map _
  · obtain ⟨its, e, p, o⟩ := C29_sort_vectors hs h h1
    have hl : ∀ v ∈ its, v.length = s.itemSize := fun v hv => h.item_length (p.mem_iff.1 hv)
    refine ⟨_, e, WF_ofItems h.pos h.int hl (by rw [p.length_eq, items_length]; exact hfit), rfl, ?_⟩
    rw [items_ofItems hl]
    exact p.symm

example := C138_sort stdSort_exists.choose_spec exQ_WF

/-- C138: so have the two halves of `partition` put together. -/
theorem C138_partition [Zero α] {s : Serie α} (h : WF s) (p : List α → Nat → Bool) (st : σ) :
    ∃ a b t, partitionV (pureCb p) s st = (.ok (a, b), st) ∧ concat [a, b] = .ok t ∧ Reordered s t := by
  obtain ⟨a, b, t, e, e', hw, hk, hp⟩ := partition_concat h p st
  exact ⟨a, b, t, e, e', hw, hk, hp.symm⟩

example := C138_partition exQ_WF (fun v i => decide (v.sum < 3 ∧ i < 4)) ()

/-- C138: and two Series merged alternately, compared with the first followed by the second. -/
theorem C138_merge [Zero α] {a b : Serie α} (ha : WF a) (hb : WF b) (hk : b.itemSize = a.itemSize)
    (hn : (a.count + b.count) * a.itemSize < 2 ^ 32) :
    ∃ s t, merge2 a b true = .ok s ∧ merge2 a b false = .ok t ∧ WF s ∧ Reordered s t := by
  have hp : (interleave (items a) (items b)).Perm (items a ++ items b) := (C19_no_loss []).2.1 _ _
  have hl : ∀ v ∈ items a ++ items b, v.length = a.itemSize := by
    intro v hv
    rcases List.mem_append.1 hv with hv | hv
    · exact ha.item_length hv
    · rw [← hk]; exact hb.item_length hv
  have hl' : ∀ v ∈ interleave (items a) (items b), v.length = a.itemSize := fun v hv => hl v (hp.mem_iff.1 hv)
  have hc : (items a ++ items b).length = a.count + b.count := by rw [List.length_append, items_length, items_length]
  refine ⟨_, _, C19_merge_concatenate ha hb hk hn, C19_merge_interleave ha hb hk hn,
    WF_ofItems ha.pos ha.int hl (by rw [hc]; exact hn), WF_ofItems ha.pos ha.int hl' (by rw [hp.length_eq, hc]; exact hn), rfl, ?_⟩
  rw [items_ofItems hl, items_ofItems hl']
  exact hp.symm

example := C138_merge exQ_WF (b := exT) exT_reordered.1 rfl (by decide)

/-! ## What does not depend on the order -/

/-- C138: the mean. -/
theorem C138_mean [Field α] {s t : Serie α} (h : WF s) (r : Reordered s t) : mean t = mean s := by
  by_cases h1 : s.itemSize = 1
  · rw [mean_scalar h h1, mean_scalar r.1 (r.2.1.trans h1), r.count, (r.scalars h h1).sum_eq]
  · obtain ⟨b, e, hl, hb⟩ := mean_items h h1
    obtain ⟨b', e', hl', hb'⟩ := mean_items r.1 (by rw [r.2.1]; exact h1)
    rw [e, e']
    congr 2
    apply List.ext_getElem?
    intro j
    by_cases hj : j < s.itemSize
    · rw [hb j hj, hb' j (by rw [r.2.1]; exact hj), r.count, (r.component j).sum_eq]
    · rw [List.getElem?_eq_none (l := b') (by rw [hl', r.2.1]; omega), List.getElem?_eq_none (by omega)]

example := C138_mean exQ_WF exT_reordered

/-- C138: the minimum and the maximum of each component. -/
theorem C138_minMax [LinearOrder α] [Limits α] {s t : Serie α} (h : WF s) (h0 : 0 < s.count) (r : Reordered s t)
    (hlim : ∀ v ∈ items s, ∀ x ∈ v, Limits.lowest ≤ x ∧ x ≤ Limits.highest) : minMax t = minMax s := by
  have h0' : 0 < t.count := by rw [r.count]; exact h0
  have least : ∀ {l m : List α} {a b : α}, l.Perm m → Least a l → Least b m → b = a := fun hp ha hb =>
    le_antisymm (hb.2 _ (hp.mem_iff.1 ha.1)) (ha.2 _ (hp.mem_iff.2 hb.1))
  have greatest : ∀ {l m : List α} {a b : α}, l.Perm m → Greatest a l → Greatest b m → b = a := fun hp ha hb =>
    le_antisymm (ha.2 _ (hp.mem_iff.2 hb.1)) (hb.2 _ (hp.mem_iff.1 ha.1))
  by_cases h1 : s.itemSize = 1
  · have hp := r.scalars h h1
    have hls : ∀ x ∈ scalars s, Limits.lowest ≤ x ∧ x ≤ Limits.highest := fun x hx =>
      hlim [x] (by rw [items_scalar h1 h.count_le]; exact List.mem_map.2 ⟨x, hx, rfl⟩) x (by simp)
    obtain ⟨a, b, e, la, gb⟩ := minMax_scalar h h0 h1 hls
    obtain ⟨a', b', e', la', gb'⟩ := minMax_scalar r.1 h0' (r.2.1.trans h1) (fun x hx => hls x (hp.mem_iff.2 hx))
    rw [e, e', least hp la la', greatest hp gb gb']
  · obtain ⟨mn, mx, e, l1, l2, f⟩ := minMax_items h h0 h1
    obtain ⟨mn', mx', e', l1', l2', f'⟩ := minMax_items r.1 h0' (by rw [r.2.1]; exact h1)
    rw [e, e']
    have k1 : mn' = mn := by
      apply List.ext_getElem?
      intro j
      by_cases hj : j < s.itemSize
      · obtain ⟨a, b, x1, x2, x3, x4⟩ := f j hj
        obtain ⟨a', b', y1, y2, y3, y4⟩ := f' j (by rw [r.2.1]; exact hj)
        rw [x1, y1, least (r.component j) x3 y3]
      · rw [List.getElem?_eq_none (by rw [l1', r.2.1]; omega), List.getElem?_eq_none (by omega)]
    have k2 : mx' = mx := by
      apply List.ext_getElem?
      intro j
      by_cases hj : j < s.itemSize
      · obtain ⟨a, b, x1, x2, x3, x4⟩ := f j hj
        obtain ⟨a', b', y1, y2, y3, y4⟩ := f' j (by rw [r.2.1]; exact hj)
        rw [x2, y2, greatest (r.component j) x4 y4]
      · rw [List.getElem?_eq_none (by rw [l2', r.2.1]; omega), List.getElem?_eq_none (by omega)]
    rw [k1, k2]

example := @C138_minMax ℚ _ ⟨1000, -1000⟩ _ _ exQ_WF (by decide) exT_reordered (by decide +kernel)

/-- C138: the covariance, when both Series are put in the same order. -/
theorem C138_covariance [Field α] [CharZero α] {x y x' y' : Serie α} (hx : WF x) (hy : WF y) (hx' : WF x') (hy' : WF y')
    (hc : x.count = y.count) (hc' : x'.count = y'.count) (h1 : x.itemSize = 1) (h2 : y.itemSize = 1) (h1' : x'.itemSize = 1)
    (h2' : y'.itemSize = 1) (hp : ((scalars x).zip (scalars y)).Perm ((scalars x').zip (scalars y'))) :
    covariance x' y' = covariance x y := by
  have hl := hx.scalars_length
  have hm := hy.scalars_length
  have hl' := hx'.scalars_length
  have hm' := hy'.scalars_length
  have p1 : (scalars x).Perm (scalars x') := by
    have := hp.map Prod.fst
    rwa [List.map_fst_zip (by omega), List.map_fst_zip (by omega)] at this
  have p2 : (scalars y).Perm (scalars y') := by
    have := hp.map Prod.snd
    rwa [List.map_snd_zip (by omega), List.map_snd_zip (by omega)] at this
  have a1 : average (scalars x') = average (scalars x) := by unfold average; rw [p1.sum_eq, p1.length_eq]
  have a2 : average (scalars y') = average (scalars y) := by unfold average; rw [p2.sum_eq, p2.length_eq]
  rw [covariance_eq hx hy hc h1 h2, covariance_eq hx' hy' hc' h1' h2', a1, a2, p1.length_eq]
  have key : ∀ l m : List α, List.zipWith (· * ·) (l.map (· - average (scalars x))) (m.map (· - average (scalars y))) =
      (l.zip m).map (fun p => (p.1 - average (scalars x)) * (p.2 - average (scalars y))) := by
    intro l m
    rw [List.zip, List.map_zipWith, List.zipWith_map]
  rw [key, key, (hp.map _).sum_eq]

example := C138_covariance (x := exQ) (y := ofScalars [2, 0, 7, 1, 8]) (x' := exT) (y' := ofScalars [1, 8, 2, 0, 7]) exQ_WF (by decide)
  exT_reordered.1 (by decide) rfl rfl rfl rfl rfl rfl (by decide +kernel)

theorem exec_callAll {γ : Type} (f : γ → Eff σ Unit) : ∀ (l : List γ) (lo : Nat) (b : σ),
    Eff.exec (callAll (fun v _ => f v) l lo >>= fun _ => pure ()) b = l.foldlM (fun b v => Eff.exec (f v) b) b
  | [], lo, b => rfl
  | v :: l, lo, b => by
    rw [callAll_cons, List.foldlM_cons, bind_assoc]
    rcases hf : f v b with ⟨_ | e | _, b'⟩
    · have e1 : Eff.exec (f v) b = .ok b' := by unfold Eff.exec; rw [hf]
      rw [e1, Res.ok_bind, ← exec_callAll f l (lo + 1) b']
      unfold Eff.exec
      rw [Eff.bind_ok hf, bind_assoc]
      rfl
    · have e1 : Eff.exec (f v) b = .throw e := by unfold Eff.exec; rw [hf]
      rw [e1, Res.throw_bind]
      unfold Eff.exec
      rw [Eff.bind_throw hf]
    · have e1 : Eff.exec (f v) b = .ub := by unfold Eff.exec; rw [hf]
      rw [e1, Res.ub_bind]
      unfold Eff.exec
      rw [Eff.bind_ub hf]

theorem foldlM_perm {β γ : Type} {g : β → γ → Res β} (hg : ∀ b v w, (g b v >>= fun c => g c w) = (g b w >>= fun c => g c v))
    {l m : List γ} (hp : l.Perm m) : ∀ b, l.foldlM g b = m.foldlM g b := by
  induction hp with
  | nil => intro b; rfl
  | cons x _ ih =>
    intro b
    simp only [List.foldlM_cons, ih]
  | swap x y l =>
    intro b
    simp only [List.foldlM_cons]
    rw [← bind_assoc, ← bind_assoc, hg]
  | trans _ _ ih1 ih2 => intro b; rw [ih1, ih2]

theorem binOne_exec [Field α] [LinearOrder α] [FloorRing α] {nb : Nat} (hnb : 0 < nb) (start size v : α) :
    (∀ b, Eff.exec (binOne nb start size v) b = .ub) ∨
    ∃ i, ∀ b, Eff.exec (binOne nb start size v) b = if i < b.length then .ok (b.modify i (· + 1)) else .ub := by
  unfold binOne
  generalize hr : (if size == 0 then Res.ub else Trunc.toU32 ((v - start) / size)) = r
  cases r with
  | ub => exact .inl fun b => rfl
  | throw e =>
    exfalso
    split at hr
    · cases hr
    · change toU32 _ = _ at hr
      unfold toU32 at hr
      split at hr <;> cases hr
  | ok i =>
    refine .inr ⟨if i ≥ nb then nb - 1 else i, fun b => ?_⟩
    rw [Eff.lift_ok, pure_bind]
    dsimp only
    rw [if_neg (by split <;> omega)]
    generalize (if i ≥ nb then nb - 1 else i) = k
    unfold Eff.exec Eff.update
    by_cases hk : k < b.length
    · have : (rd b k >>= fun x => wr b k (x + 1)) = .ok (b.modify k (· + 1)) := by
        rw [rd_of_lt hk, Res.ok_bind]
        unfold wr
        rw [if_pos hk, List.modify_eq_set_getElem? , List.getElem?_eq_getElem hk]
        rfl
      simp only [this, if_pos hk]
    · have : (rd b k >>= fun x => wr b k (x + 1)) = .ub := by
        unfold rd
        rw [List.getElem?_eq_none (by omega)]
        rfl
      simp only [this, if_neg hk]

theorem binOne_comm [Field α] [LinearOrder α] [FloorRing α] {nb : Nat} (hnb : 0 < nb) (start size : α) (b : List α) (v w : α) :
    (Eff.exec (binOne nb start size v) b >>= fun c => Eff.exec (binOne nb start size w) c) =
      (Eff.exec (binOne nb start size w) b >>= fun c => Eff.exec (binOne nb start size v) c) := by
  rcases binOne_exec hnb start size v with hv | ⟨i, hv⟩ <;> rcases binOne_exec hnb start size w with hw | ⟨j, hw⟩
  · simp only [hv, hw]
  · simp only [hv, hw]
    split <;> rfl
  · simp only [hv, hw]
    split <;> rfl
  · simp only [hv, hw]
    by_cases hi : i < b.length <;> by_cases hj : j < b.length
    · simp only [if_pos hi, if_pos hj, Res.ok_bind, List.length_modify]
      congr 1
      by_cases hij : i = j
      · rw [hij]
      · apply List.ext_getElem?
        intro k
        simp only [List.getElem?_modify]
        cases b[k]? with
        | none => rfl
        | some x =>
          by_cases h1 : i = k <;> by_cases h2 : j = k <;> simp [h1, h2]
    · simp only [if_pos hi, if_neg hj, Res.ok_bind, List.length_modify, Res.ub_bind]
    · simp only [if_pos hj, if_neg hi, Res.ok_bind, List.length_modify, Res.ub_bind]
    · simp only [if_neg hj, if_neg hi, Res.ub_bind]

/-- C138: the counts of `bins`. -/
theorem C138_binsIn [Field α] [LinearOrder α] [FloorRing α] {s t : Serie α} (h : WF s) (h1 : s.itemSize = 1) (r : Reordered s t)
    (nb : Nat) (start stop : α) : binsIn t nb start stop = binsIn s nb start stop := by
  have h1' : t.itemSize = 1 := r.2.1.trans h1
  unfold binsIn
  rw [if_neg (by simpa using h1'), if_neg (c := s.itemSize ≠ 1) (by simpa using h1)]
  split
  · rfl
  · rename_i hnb
    dsimp only
    congr 1
    unfold forEachS
    rw [if_neg (by simpa using h1'), if_neg (c := s.itemSize ≠ 1) (by simpa using h1),
      forLoop_unit _ (scalars s) s.count h.scalars_length.symm (getD_hyp h),
      forLoop_unit _ (scalars t) t.count r.1.scalars_length.symm (getD_hyp r.1), exec_callAll, exec_callAll]
    refine foldlM_perm (binOne_comm (by omega) _ _) (r.scalars h h1).symm _

example := C138_binsIn exQ_WF rfl exT_reordered 3 0 6

/-- C138: the histogram over the range of the numbers. -/
theorem C138_bins [Field α] [LinearOrder α] [FloorRing α] [Limits α] {s t : Serie α} (h : WF s) (h1 : s.itemSize = 1)
    (h0 : 0 < s.count) (r : Reordered s t) (hlim : ∀ v ∈ items s, ∀ x ∈ v, Limits.lowest ≤ x ∧ x ≤ Limits.highest) (nb : Nat) :
    bins t nb = bins s nb := by
  unfold bins
  rw [C138_minMax h h0 r hlim]
  simp only [C138_binsIn h h1 r]

example := @C138_bins ℚ _ _ _ ⟨1000, -1000⟩ _ _ exQ_WF rfl (by decide) exT_reordered (by decide +kernel) 3

/-- C138: the sorted Serie. -/
theorem C138_sorted [LinearOrder α] [Zero α] {srt : StdSort} (hs : srt.Correct) {s t : Serie α} (h : WF s) (r : Reordered s t) :
    sortDefault srt t = sortDefault srt s := by
  by_cases h1 : s.itemSize = 1
  · obtain ⟨xs, e, p, o⟩ := C29_sort_numbers hs h h1
    obtain ⟨ys, e', p', o'⟩ := C29_sort_numbers hs r.1 (r.2.1.trans h1)
    rw [e, e', (p.trans ((r.scalars h h1).trans p'.symm)).eq_of_pairwise (fun _ _ _ _ => le_antisymm) o o']
  · obtain ⟨xs, e, p, o⟩ := C29_sort_vectors hs h h1
    obtain ⟨ys, e', p', o'⟩ := C29_sort_vectors hs r.1 (by rw [r.2.1]; exact h1)
    rw [e, e', r.2.1, (p.trans (r.2.2.trans p'.symm)).eq_of_pairwise (fun _ _ _ _ => le_antisymm) o o']

example := C138_sorted stdSort_exists.choose_spec exQ_WF exT_reordered

/-- C138: which numbers are outliers. -/
theorem C138_outliers [Field α] [LinearOrder α] [IsStrictOrderedRing α] [FloorRing α] {srt : StdSort} (hs : srt.Correct)
    {s t : Serie α} (h : WF s) (h1 : s.itemSize = 1) (h0 : 0 < s.count) (r : Reordered s t) (m : α) :
    ∃ o o' n n', outliers srt s m = .ok o ∧ outliers srt t m = .ok o' ∧ Reordered o o' ∧
      notOutliers srt s m = .ok n ∧ notOutliers srt t m = .ok n' ∧ Reordered n n' := by
  have hp := r.scalars h h1
  have h1' : t.itemSize = 1 := r.2.1.trans h1
  have h0' : 0 < t.count := by rw [r.count]; exact h0
  obtain ⟨a, b, lo, hi, ea, eb, rfl, rfl, e1, e2, _⟩ := C48_outliers hs h h1 h0 m
  obtain ⟨a', b', lo', hi', ea', eb', rfl, rfl, e1', e2', _⟩ := C48_outliers hs r.1 h1' h0' m
  rw [← C47_order_independent hs hs h r.1 h1 h1' hp h0, ea] at ea'
  rw [← C47_order_independent hs hs h r.1 h1 h1' hp h0, eb] at eb'
  cases ea'
  cases eb'
  have re : ∀ q : α → Bool, Reordered (ofScalars ((scalars s).filter q)) (ofScalars ((scalars t).filter q)) := by
    intro q
    have w1 : WF (ofScalars ((scalars s).filter q)) := WF_filterS h q
    have w2 : WF (ofScalars ((scalars t).filter q)) := WF_filterS r.1 q
    refine ⟨w2, rfl, ?_⟩
    rw [items_scalar rfl w1.count_le, items_scalar rfl w2.count_le, scalars_ofScalars, scalars_ofScalars]
    exact (hp.filter q).map _
  exact ⟨_, _, _, _, e1, e1', re _, e2, e2', re _⟩

example := C138_outliers stdSort_exists.choose_spec exQ_WF rfl (by decide) exT_reordered (3 / 2)

/-- C138: a `reduce` whose callback gives the same result in either order of two items. -/
theorem C138_reduce {s t : Serie α} (h : WF s) (h1 : s.itemSize = 1) (r : Reordered s t) (f : α → α → α)
    (hf : ∀ a x y, f (f a x) y = f (f a y) x) (init : α) (st : σ) :
    reduceS (fun acc x _ => pure (f acc x)) t init st = reduceS (fun acc x _ => pure (f acc x)) s init st := by
  have key : ∀ {s : Serie α}, WF s → reduceS (σ := σ) (fun acc x _ => pure (f acc x)) s init = pure ((scalars s).foldl f init) := by
    intro s h
    unfold reduceS
    rw [forLoop_fold _ (scalars s) s.count init h.scalars_length.symm (getD_hyp h), List.foldlM_pure]
    congr 1
    have : ∀ (l : List α) (lo : Nat) (a : α), List.foldl (fun acc (p : α × Nat) => f acc p.1) a (l.zipIdx lo) = List.foldl f a l := by
      intro l
      induction l with
      | nil => intros; rfl
      | cons x l ih => intro lo a; simp [List.zipIdx_cons, ih]
    exact this _ _ _
  rw [key h, key r.1, (r.scalars h h1).foldl_eq' (fun x _ y _ z => hf z x y)]

example := C138_reduce (σ := Unit) exQ_WF rfl exT_reordered (fun a x => a + x ^ 2) (fun a x y => by ring) 0 ()

end DF
