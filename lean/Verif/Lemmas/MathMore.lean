import Verif.Lemmas.MathOps
import Mathlib.Order.Defs.LinearOrder
import Mathlib.Order.MinMax

/-! # Lemmas on mult, div, minMax, random and the equality functions -/

namespace DF

open Spec

variable {α β γ σ : Type}

/-! ## mult, div -/

theorem scaleBy_eq [Zero α] [Mul α] {s : Serie α} (h : WF s) (h0 : 0 < s.count) {w : List α} (hw : w.length = s.itemSize) :
    scaleBy s w = .ok (ofItems s.itemSize ((items s).map (fun v => List.zipWith (· * ·) v w))) := by
  have hfit := h.fits
  have hsm := h.small
  unfold scaleBy
  rw [if_neg (by simp [hw])]
  refine mapArr_ok h h0 (AllReturn_map (g := fun v => List.zipWith (· * ·) v w) (fun v hv i => ?_)) h.pos h.int ?_ (by omega)
  · have hl := h.item_length hv
    refine updLoop_zip (by omega) (by omega) (fun c hc x => ?_)
    rw [rd_of_lt hc]; rfl
  · intro v hv
    obtain ⟨u, hu, rfl⟩ := List.mem_map.1 hv
    rw [List.length_zipWith, h.item_length hu, hw]; simp

/-- Each item of `s` multiplied by the number of `m` at the same position. -/
theorem multSerie_weights [Zero α] [Mul α] {s m : Serie α} (h : WF s) (hm : WF m) (h0 : 0 < s.count)
    (hc : s.count = m.count) (hm1 : m.itemSize = 1) (hs1 : s.itemSize ≠ 1) :
    multSerie s m = .ok (ofItems s.itemSize (List.zipWith (fun v d => v.map (· * d)) (items s) (scalars m))) := by
  have hfit := h.fits
  have hsm := h.small
  have hml := hm.scalars_length
  have hle := hm.count_le
  unfold multSerie
  rw [if_neg (by simp [hc]), if_neg hs1]
  refine mapArr_ok h h0 ⟨?_, fun i h1 h2 => ?_⟩ h.pos h.int ?_ (by omega)
  · rw [List.length_zipWith, items_length, hml, hc]; simp
  · rw [items_length] at h1
    simp only
    rw [if_pos hm1, Serie.scalar_eq hm (by rw [hm1]; omega), Res.ok_bind, List.getElem_zipWith]
    refine (updLoop_map (g := (· * m.data[i]'(by omega))) rfl (fun _ _ => rfl)).trans ?_
    simp [scalars]
  · intro v hv
    obtain ⟨i, hi, rfl⟩ := List.mem_iff_getElem.1 hv
    rw [List.getElem_zipWith, List.length_map]
    exact h.item_length (List.getElem_mem _)

theorem multSerie_same [Zero α] [Mul α] {s m : Serie α} (h : WF s) (hm : WF m) (h0 : 0 < s.count)
    (hs : SameShape s m) (hs1 : s.itemSize ≠ 1) : multSerie s m = .ok (pointwise (· * ·) s m) := by
  obtain ⟨hk, hc⟩ := hs
  have hfit := h.fits
  have hsm := h.small
  have hl := zipItems_length (op := (· * ·)) (fun v hv => h.item_length hv)
    (fun v hv => by rw [hk]; exact hm.item_length hv)
  unfold multSerie
  rw [if_neg (by simp [hc]), if_neg hs1]
  refine mapArr_ok h h0 ⟨?_, fun i h1 h2 => ?_⟩ h.pos h.int hl (by omega)
  · rw [List.length_zipWith, items_length, items_length, hc]; simp
  · have h3 : i < (items m).length := by simpa [← hc] using h1
    have e1 := h.item_length (List.getElem_mem h1)
    have e2 := hm.item_length (List.getElem_mem h3)
    simp only
    rw [if_neg (by omega), if_neg (by simp [hk]), Serie.value_eq hm (by simpa using h3), Res.ok_bind, List.getElem_zipWith]
    rw [show chunk m.itemSize m.data i = (items m)[i] from (items_getElem _ _ _).symm]
    refine updLoop_zip rfl (by omega) (fun c hc x => ?_)
    rw [rd_of_lt hc]; rfl

theorem multSerie_scalar [Zero α] [Mul α] {s m : Serie α} (h : WF s) (hm : WF m) (hc : s.count = m.count)
    (hs1 : s.itemSize = 1) (hm1 : m.itemSize = 1) (ht : s.data.length = s.count) :
    multSerie s m = .ok (ofScalars (List.zipWith (· * ·) (scalars s) (scalars m))) := by
  have hsm := h.small
  have hle := hm.count_le
  have hls := h.scalars_length
  have hlm := hm.scalars_length
  unfold multSerie
  rw [if_neg (by simp [hc]), if_pos hs1, if_neg (by simp [hm1])]
  have hl : (List.zipWith (· * ·) (scalars s) (scalars m)).length = s.data.length := by
    rw [List.length_zipWith, hls, hlm, ht, hc]; simp
  have := wr_loop (v := List.zipWith (· * ·) (scalars s) (scalars m)) (w := List.replicate s.data.length (0 : α))
    (g := fun i => do
      let x ← rd s.data i
      let y ← rd m.data i
      pure (x * y)) (by rw [hl]; simp) (by
      intro i hi
      rw [hl] at hi
      rw [rd_of_lt hi, Res.ok_bind, rd_of_lt (by omega)]
      simp [scalars])
  rw [hl] at this
  simp only [bind_assoc, pure_bind] at this
  rw [this, Res.ok_bind, ofArray_one (by rw [hl]; exact hsm)]

theorem divSerie_scalar [Zero α] [Neg α] [LT α] [DecidableLT α] [Div α] [OfScientific α] {w s : Serie α}
    (h : WF s) (hw : WF w) (hc : w.count = s.count) (hw1 : w.itemSize = 1) (hs1 : s.itemSize = 1) :
    divSerie w s = .ok (ofScalars (List.zipWith (fun v d => if absv d < (1e-10 : α) then 0 else v / d)
      (scalars s) (scalars w))) := by
  have hls := h.scalars_length
  have hlw := hw.scalars_length
  unfold divSerie
  rw [h.valid, hw.valid, if_neg (by simp), if_neg (by simp [hc]), if_neg (by simp [hw1]), if_pos hs1]
  refine mapNum_ok h ⟨?_, fun i h1 h2 => ?_⟩
  · rw [List.length_zipWith, hls, hlw, hc]; simp
  · simp only
    rw [Serie.getD_scalars hw.count_le (i := i) (by omega), Res.ok_bind, List.getElem_zipWith]
    split <;> rfl

theorem divSerie_items [Zero α] [Neg α] [LT α] [DecidableLT α] [Div α] [OfScientific α] {w s : Serie α}
    (h : WF s) (hw : WF w) (h0 : 0 < s.count) (hc : w.count = s.count) (hw1 : w.itemSize = 1) (hs1 : s.itemSize ≠ 1) :
    divSerie w s = .ok (ofItems s.itemSize (List.zipWith (fun v d => v.map fun x =>
      if absv d < (1e-10 : α) then 0 else x / d) (items s) (scalars w))) := by
  have hlw := hw.scalars_length
  have hfit := h.fits
  have hsm := h.small
  unfold divSerie
  rw [h.valid, hw.valid, if_neg (by simp), if_neg (by simp [hc]), if_neg (by simp [hw1]), if_neg hs1]
  refine mapArr_ok h h0 ⟨?_, fun i h1 h2 => ?_⟩ h.pos h.int ?_ (by omega)
  · rw [List.length_zipWith, items_length, hlw, hc]; simp
  · rw [items_length] at h1
    simp only
    rw [Serie.getD_scalars hw.count_le (i := i) (by omega), Res.ok_bind, List.getElem_zipWith]
    split
    · rw [List.map_const']; rfl
    · have := wr_loop (v := (items s)[i].map (· / (scalars w)[i]'(by omega)))
        (w := List.replicate (items s)[i].length (0 : α))
        (g := fun j => do
          let x ← rd (items s)[i] j
          pure (x / (scalars w)[i]'(by omega))) (by simp) (by
          intro j hj
          rw [List.length_map] at hj
          rw [rd_of_lt hj]; simp)
      rw [List.length_map] at this
      simp only [bind_assoc, pure_bind] at this
      exact this
  · intro v hv
    obtain ⟨i, hi, rfl⟩ := List.mem_iff_getElem.1 hv
    rw [List.getElem_zipWith, List.length_map]
    exact h.item_length (List.getElem_mem _)

/-! ## minMax -/

theorem minv_eq [LinearOrder α] (a b : α) : minv a b = min a b := by
  unfold minv
  split
  · rw [min_eq_right (le_of_lt (by assumption))]
  · rw [min_eq_left (not_lt.1 (by assumption))]

theorem maxv_eq [LinearOrder α] (a b : α) : maxv a b = max a b := by
  unfold maxv
  split
  · rw [max_eq_right (le_of_lt (by assumption))]
  · rw [max_eq_left (not_lt.1 (by assumption))]

theorem Spec.Least.snoc [LinearOrder α] {a x : α} {l : List α} (h : Least a l) : Least (minv a x) (l ++ [x]) := by
  rw [minv_eq]
  refine ⟨?_, fun y hy => ?_⟩
  · rcases min_choice a x with e | e <;> rw [e]
    · simp [h.1]
    · simp
  · rcases List.mem_append.1 hy with hy | hy
    · exact le_trans (min_le_left _ _) (h.2 y hy)
    · simp at hy; subst hy; exact min_le_right _ _

theorem Spec.Greatest.snoc [LinearOrder α] {a x : α} {l : List α} (h : Greatest a l) : Greatest (maxv a x) (l ++ [x]) := by
  rw [maxv_eq]
  refine ⟨?_, fun y hy => ?_⟩
  · rcases max_choice a x with e | e <;> rw [e]
    · simp [h.1]
    · simp
  · rcases List.mem_append.1 hy with hy | hy
    · exact le_trans (h.2 y hy) (le_max_left _ _)
    · simp at hy; subst hy; exact le_max_right _ _

theorem minMax_scalar [LinearOrder α] [Limits α] {s : Serie α} (h : WF s) (h0 : 0 < s.count) (h1 : s.itemSize = 1)
    (hlim : ∀ x ∈ scalars s, Limits.lowest ≤ x ∧ x ≤ Limits.highest) :
    ∃ a b, minMax s = .ok ([a], [b]) ∧ Least a (scalars s) ∧ Greatest b (scalars s) := by
  have hl := h.scalars_length
  obtain ⟨p, hp, _, hI⟩ := forLoop_inv (f := fun i (p : α × α) => do
      let v ← s.getD i
      pure (minv p.1 v, maxv p.2 v))
    (fun i p => (i = 0 → p = (Limits.highest, Limits.lowest)) ∧
      (0 < i → Least p.1 ((scalars s).take i) ∧ Greatest p.2 ((scalars s).take i))) s.count 0
      (Limits.highest, Limits.lowest) (by
      intro i p _ hi ⟨hz, hI⟩
      simp only [Nat.zero_add] at hi
      have hi' : i < (scalars s).length := by omega
      refine ⟨_, by rw [Serie.getD_scalars h.count_le hi', Res.ok_bind]; rfl, by simp, fun _ => ?_⟩
      rw [List.take_add_one, List.getElem?_eq_getElem hi']
      simp only [Option.toList_some]
      by_cases e : i = 0
      · subst e
        obtain ⟨hlo, hhi⟩ := hlim _ (List.getElem_mem hi')
        rw [hz rfl, minv_eq, maxv_eq, min_eq_right hhi, max_eq_right hlo]
        simp [Least, Greatest]
      · obtain ⟨ha, hb⟩ := hI (by omega)
        exact ⟨ha.snoc, hb.snoc⟩) ⟨fun _ => rfl, fun hc => absurd hc (by omega)⟩
  rw [Nat.zero_add] at hI
  have hI := hI h0
  rw [List.take_of_length_le (by omega)] at hI
  refine ⟨p.1, p.2, ?_, hI.1, hI.2⟩
  unfold minMax
  rw [h.valid, if_neg (by simp), if_neg (by omega), if_pos h1, hp]
  rfl

theorem minMax_inner [LT α] [DecidableLT α] {v : List α} {p : List α × List α} (h1 : p.1.length = v.length)
    (h2 : p.2.length = v.length) :
    forLoop (m := Res) (fun j (p : List α × List α) => do
        let x ← rd v j
        let a ← rd p.1 j
        let b ← rd p.2 j
        let mn ← wr p.1 j (minv a x)
        let mx ← wr p.2 j (maxv b x)
        pure (mn, mx)) 0 v.length p = .ok (List.zipWith minv p.1 v, List.zipWith maxv p.2 v) := by
  have := forLoop_exact (m := Res) (f := fun j (p : List α × List α) => do
        let x ← rd v j
        let a ← rd p.1 j
        let b ← rd p.2 j
        let mn ← wr p.1 j (minv a x)
        let mx ← wr p.2 j (maxv b x)
        pure (mn, mx))
    (fun j => ((List.zipWith minv p.1 v).take j ++ p.1.drop j, (List.zipWith maxv p.2 v).take j ++ p.2.drop j)) v.length 0
    (by
      intro j _ hj
      rw [Nat.zero_add] at hj
      have key : ∀ (op : α → α → α) (q : List α) (hq : q.length = v.length) (_ : j < q.length),
          rd ((List.zipWith op q v).take j ++ q.drop j) j = .ok q[j] ∧
          wr ((List.zipWith op q v).take j ++ q.drop j) j (op q[j] v[j]) =
            .ok ((List.zipWith op q v).take (j + 1) ++ q.drop (j + 1)) := by
        intro op q hq hj'
        have hl : ((List.zipWith op q v).take j).length = j := by simp; omega
        constructor
        · rw [rd_of_lt (by simp; omega), List.getElem_append_right (by rw [hl])]
          simp [hl]
        · rw [wr_of_lt (by simp; omega), List.set_append_right _ _ (by rw [hl]), hl, Nat.sub_self,
            List.drop_eq_getElem_cons hj', List.set_cons_zero, List.take_add_one,
            List.getElem?_eq_getElem (by simp; omega)]
          simp
      obtain ⟨a1, a2⟩ := key minv p.1 h1 (by omega)
      obtain ⟨b1, b2⟩ := key maxv p.2 h2 (by omega)
      simp only
      rw [rd_of_lt hj, Res.ok_bind, a1, Res.ok_bind, b1, Res.ok_bind, a2, Res.ok_bind, b2, Res.ok_bind])
  simp only [List.take_zero, List.drop_zero, List.nil_append, Nat.zero_add] at this
  refine this.trans ?_
  rw [List.take_of_length_le (by rw [List.length_zipWith]; omega), List.take_of_length_le (by rw [List.length_zipWith]; omega), List.drop_of_length_le (by omega),
    List.drop_of_length_le (by omega)]
  simp

theorem component_snoc {j : Nat} {l : List (List α)} {v : List α} {x : α} (hx : v[j]? = some x) :
    (l ++ [v]).filterMap (·[j]?) = l.filterMap (·[j]?) ++ [x] := by
  simp [List.filterMap_append, hx]

theorem minMax_items [LinearOrder α] [Limits α] {s : Serie α} (h : WF s) (h0 : 0 < s.count) (h1 : s.itemSize ≠ 1) :
    ∃ mn mx, minMax s = .ok (mn, mx) ∧ mn.length = s.itemSize ∧ mx.length = s.itemSize ∧
      ∀ j, j < s.itemSize → ∃ a b, mn[j]? = some a ∧ mx[j]? = some b ∧ Least a (component s j) ∧ Greatest b (component s j) := by
  have hil := items_length s
  obtain ⟨p, hp, hl1, hl2, hI⟩ := forLoop_inv (f := fun i (p : List α × List α) => do
      let v ← s.getA i
      forLoop (fun j (p : List α × List α) => do
        let x ← rd v j
        let a ← rd p.1 j
        let b ← rd p.2 j
        let mn ← wr p.1 j (minv a x)
        let mx ← wr p.2 j (maxv b x)
        pure (mn, mx)) 0 v.length p)
    (fun i p => p.1.length = s.itemSize ∧ p.2.length = s.itemSize ∧
      ∀ j, j < s.itemSize → ∃ a b, p.1[j]? = some a ∧ p.2[j]? = some b ∧
        Least a (((items s).take i).filterMap (·[j]?)) ∧ Greatest b (((items s).take i).filterMap (·[j]?)))
    (s.count - 1) 1 ((items s)[0], (items s)[0]) (by
      intro i p hi1 hi2 ⟨hp1, hp2, hI⟩
      have hi : i < (items s).length := by omega
      have hv := h.item_length (List.getElem_mem hi)
      refine ⟨_, by rw [Serie.getA_items h hi, Res.ok_bind, minMax_inner (by omega) (by omega)], ?_, ?_, ?_⟩
      · simp only [List.length_zipWith]; omega
      · simp only [List.length_zipWith]; omega
      · intro j hj
        obtain ⟨a, b, ha, hb, hL, hG⟩ := hI j hj
        have hx : (items s)[i][j]? = some ((items s)[i][j]'(by omega)) := List.getElem?_eq_getElem (by omega)
        rw [List.take_add_one, List.getElem?_eq_getElem hi]
        simp only [Option.toList_some]
        rw [component_snoc hx]
        refine ⟨_, _, ?_, ?_, hL.snoc, hG.snoc⟩
        · rw [List.getElem?_zipWith, ha, hx]
        · rw [List.getElem?_zipWith, hb, hx])
    (by
      have hv := h.item_length (List.getElem_mem (show 0 < (items s).length by omega))
      refine ⟨hv, hv, fun j hj => ?_⟩
      have hx : (items s)[0][j]? = some ((items s)[0][j]'(by omega)) := List.getElem?_eq_getElem (by omega)
      refine ⟨_, _, hx, hx, ?_⟩
      rw [List.take_one, List.head?_eq_getElem?, List.getElem?_eq_getElem (by omega)]
      simp [hx, Least, Greatest])
  refine ⟨p.1, p.2, ?_, hl1, hl2, ?_⟩
  · unfold minMax
    rw [h.valid, if_neg (by simp), if_neg (by omega), if_neg h1, Serie.getA_items h (by omega), Res.ok_bind, hp]
  · rw [show 1 + (s.count - 1) = s.count by omega, List.take_of_length_le (by omega)] at hI
    exact hI

/-! ## equality functions -/

theorem stdEqual_eq {pred : α → α → Bool} : ∀ {l m : List α}, l.length = m.length →
    ∃ b, stdEqual pred l m = .ok b ∧ (b = true ↔ ∀ i (h : i < l.length) (h' : i < m.length), pred l[i] m[i] = true) := by
  intro l
  induction l with
  | nil => intro m h; exact ⟨true, rfl, by simp⟩
  | cons a l ih =>
    intro m h
    cases m with
    | nil => simp at h
    | cons c m =>
      obtain ⟨b, hb, hiff⟩ := ih (m := m) (by simpa using h)
      by_cases hp : pred a c = true
      · refine ⟨b, by rw [stdEqual, if_pos hp, hb], ?_⟩
        rw [hiff]
        constructor
        · intro hh i h1 h2
          cases i with
          | zero => exact hp
          | succ i => exact hh i (by simpa using h1) (by simpa using h2)
        · intro hh i h1 h2
          exact hh (i + 1) (by simpa using h1) (by simpa using h2)
      · refine ⟨false, by rw [stdEqual, if_neg hp], ?_⟩
        constructor
        · intro hf; cases hf
        · intro hh
          exact absurd (hh 0 (by simp) (by simp)) hp

theorem exec_setScalar {s : Serie α} {i : Nat} {x : α} (hi : i < s.data.length) :
    (Serie.setScalar i x).exec s = .ok { s with data := s.data.set i x } := by
  rw [Eff.exec, Serie.setScalar_eq hi]

open Classical in
theorem maskWith_eq [Zero α] [One α] {pred : α → α → Bool} {a b : Serie α} (ha : WF a) (hb : WF b) (hs : SameShape a b) :
    ∃ xs, maskWith pred a b = .ok (ofScalars xs) ∧ xs.length = a.count ∧
      ∀ i (h : i < xs.length) (h1 : i < (items a).length) (h2 : i < (items b).length),
        xs[i] = if ∀ j (hj : j < (items a)[i].length) (hj' : j < (items b)[i].length),
          pred (items a)[i][j] (items b)[i][j] = true then 1 else 0 := by
  obtain ⟨hk, hc⟩ := hs
  have hfa := ha.fits
  have hfb := hb.fits
  have hsm := ha.small
  have hcl := ha.count_lt
  have hpos := ha.pos
  let F : Nat → α := fun i => if ∀ j (hj : j < a.itemSize) (h1 : i < (items a).length) (h2 : i < (items b).length)
      (hj1 : j < (items a)[i].length) (hj2 : j < (items b)[i].length), pred (items a)[i][j] (items b)[i][j] = true
      then 1 else 0
  refine ⟨(List.range a.count).map F, ?_, by simp, fun i h h1 h2 => ?_⟩
  · unfold maskWith
    rw [if_neg (by simp [ha.valid, hb.valid, hk, hc])]
    have := forLoop_putD (d := 3) (g := fun i => .ok (F i)) ((List.range a.count).map F) (by simpa using hcl)
      (by intro i hi; simp)
    rw [List.length_map, List.length_range] at this
    rw [← this]
    rw [zeros_eq_partialD hcl]
    have hstep : ∀ i (r : Serie α), i < a.count → r.data.length = a.count →
        (if a.itemSize = 1 then do
          let x ← a.scalar i
          let y ← b.scalar i
          (Serie.setScalar i (if pred x y then 1 else 0)).exec r
        else do
          let v1 ← a.value i
          let v2 ← b.value i
          let eq ← stdEqual pred v1 v2
          (Serie.setScalar i (if eq then 1 else 0)).exec r) = (Res.ok (F i) >>= fun v => r.putD i v) := by
      intro i r hi hr
      have hia : i < (items a).length := by simpa using hi
      have hib : i < (items b).length := by simpa [← hc] using hi
      have hla := ha.item_length (List.getElem_mem hia)
      have hlb := hb.item_length (List.getElem_mem hib)
      have hput : ∀ x : α, (Serie.setScalar i x).exec r = r.putD i x := fun x => by
        rw [exec_setScalar (by omega), Serie.putD_eq (by omega)]
      rw [Res.ok_bind]
      split
      · rename_i h1
        rw [Serie.scalar_eq ha (by rw [h1]; omega), Res.ok_bind, Serie.scalar_eq hb (by rw [← hk, h1]; omega), Res.ok_bind, hput]
        congr 1
        show _ = F i
        simp only [F, h1, Nat.lt_one_iff]
        have e : (∀ j (hj : j = 0) (h1 : i < (items a).length) (h2 : i < (items b).length)
            (hj1 : j < (items a)[i].length) (hj2 : j < (items b)[i].length), pred (items a)[i][j] (items b)[i][j] = true) ↔
            pred (a.data[i]'(by rw [h1] at hfa; omega)) (b.data[i]'(by rw [← hk, h1] at hfb; omega)) = true := by
          have ea : ∀ hj : 0 < (items a)[i].length, (items a)[i][0]'hj = a.data[i]'(by rw [h1] at hfa; omega) := by
            intro _; rw [← Option.some_inj, ← List.getElem?_eq_getElem, items_getElem, chunk_getElem?, if_pos (by omega)]; rw [show i * a.itemSize + 0 = i by rw [h1]; omega, List.getElem?_eq_getElem]
          have eb : ∀ hj : 0 < (items b)[i].length, (items b)[i][0]'hj = b.data[i]'(by rw [← hk, h1] at hfb; omega) := by
            intro _; rw [← Option.some_inj, ← List.getElem?_eq_getElem, items_getElem, chunk_getElem?, if_pos (by omega)]; rw [show i * b.itemSize + 0 = i by rw [← hk, h1]; omega, List.getElem?_eq_getElem]
          constructor
          · intro hh
            have := hh 0 rfl hia hib (by omega) (by omega)
            rwa [ea, eb] at this
          · rintro hh j rfl _ _ _ _
            rwa [ea, eb]
        by_cases hp : pred (a.data[i]'(by rw [h1] at hfa; omega)) (b.data[i]'(by rw [← hk, h1] at hfb; omega)) = true
        · rw [if_pos hp, if_pos (e.2 hp)]
        · rw [if_neg hp, if_neg (fun hh => hp (e.1 hh))]
      · rw [Serie.value_eq ha hi, Res.ok_bind, Serie.value_eq hb (by omega), Res.ok_bind]
        rw [show chunk a.itemSize a.data i = (items a)[i] from (items_getElem _ _ _).symm,
          show chunk b.itemSize b.data i = (items b)[i] from (items_getElem _ _ _).symm]
        obtain ⟨e, he, hiff⟩ := stdEqual_eq (pred := pred) (l := (items a)[i]) (m := (items b)[i]) (by omega)
        rw [he, Res.ok_bind, hput]
        congr 1
        show _ = F i
        simp only [F]
        by_cases hp : e = true
        · rw [if_pos hp, if_pos]
          intro j hj _ _ hj1 hj2
          exact hiff.1 hp j hj1 hj2
        · rw [if_neg hp, if_neg]
          intro hh
          exact hp (hiff.2 (fun j h1 h2 => hh j (by omega) hia hib h1 h2))
    have hlen : ∀ n (lo : Nat) (r : Serie α), lo + n ≤ a.count → r.data.length = a.count →
        forLoop (fun i (result : Serie α) =>
          if a.itemSize = 1 then do
            let x ← a.scalar i
            let y ← b.scalar i
            (Serie.setScalar i (if pred x y then 1 else 0)).exec result
          else do
            let v1 ← a.value i
            let v2 ← b.value i
            let eq ← stdEqual pred v1 v2
            (Serie.setScalar i (if eq then 1 else 0)).exec result) lo n r =
        forLoop (fun i (r : Serie α) => Res.ok (F i) >>= fun v => r.putD i v) lo n r := by
      intro n
      induction n with
      | zero => intros; rfl
      | succ n ih =>
        intro lo r hlo hr
        rw [forLoop_succ, forLoop_succ, hstep lo r (by omega) hr, Res.ok_bind, Serie.putD_eq (by omega), Res.ok_bind, Res.ok_bind]
        exact ih _ _ (by omega) (by simpa using hr)
    exact hlen a.count 0 _ (by omega) (by simp [partialD])
  · rw [List.getElem_map, List.getElem_range]
    simp only [F]
    have hla := ha.item_length (List.getElem_mem h1)
    have hlb := hb.item_length (List.getElem_mem h2)
    by_cases hp : ∀ j (hj : j < (items a)[i].length) (hj' : j < (items b)[i].length),
          pred (items a)[i][j] (items b)[i][j] = true
    · rw [if_pos hp, if_pos]
      intro j hj _ _ hj1 hj2
      exact hp j hj1 hj2
    · rw [if_neg hp, if_neg]
      intro hh
      exact hp (fun j hj hj' => hh j (by omega) h1 h2 hj hj')

/-! ## random -/

theorem splice_single {l : List α} {i : Nat} {x : α} (h : i < l.length) : splice l i [x] = l.set i x := by
  apply List.ext_getElem?
  intro n
  rw [splice_getElem? (by simp only [List.length_singleton]; omega), List.getElem?_set]
  simp only [List.length_singleton]
  by_cases h1 : n < i
  · rw [if_pos h1, if_neg (by omega)]
  · rw [if_neg h1]
    by_cases h2 : n = i
    · subst h2; simp [h]
    · rw [if_neg (by omega), if_neg (by omega)]

theorem random_eq [Zero α] (next : Nat → α) {n k : Nat} (hk : 0 < k) (hk' : k < 2 ^ 31) (hn : n * k < 2 ^ 32) :
    random next n k = .ok (ofItems k ((List.range n).map fun i => (List.range k).map fun j => next (i * k + j))) := by
  have hcol : ∀ v ∈ (List.range n).map (fun i => (List.range k).map fun j => next (i * k + j)), v.length = k := by
    intro v hv
    obtain ⟨i, _, rfl⟩ := List.mem_map.1 hv
    simp
  unfold random
  have hinner : ∀ (i c : Nat), forLoop (m := Res) (fun j (q : List α × Nat) => do
        let v ← wr q.1 j (next q.2)
        pure (v, q.2 + 1)) 0 k (List.replicate k 0, c) =
      .ok ((List.range k).map (fun j => next (c + j)), c + k) := by
    intro i c
    have := forLoop_exact (m := Res) (f := fun j (q : List α × Nat) => do
        let v ← wr q.1 j (next q.2)
        pure (v, q.2 + 1))
      (fun j => ((List.range j).map (fun j => next (c + j)) ++ List.replicate (k - j) 0, c + j)) k 0 (by
        intro j _ hj
        rw [Nat.zero_add] at hj
        simp only
        rw [wr_of_lt (by simp; omega), Res.ok_bind, List.set_append_right _ _ (by simp)]
        obtain ⟨d, hd⟩ : ∃ d, k - j = d + 1 := ⟨k - j - 1, by omega⟩
        rw [hd, show k - (j + 1) = d by omega]
        simp [List.range_succ, List.replicate_succ, Nat.add_assoc])
    simp only [List.range_zero, List.map_nil, List.nil_append, Nat.sub_zero, Nat.add_zero, Nat.zero_add, Nat.sub_self,
      List.replicate_zero, List.append_nil] at this
    exact this
  have := forLoop_inv (f := fun i (p : Serie α × Nat) =>
      if k = 1 then do
        let r ← p.1.putD i (next p.2)
        pure (r, p.2 + 1)
      else do
        let (values, n) ← forLoop (fun j (q : List α × Nat) => do
          let v ← wr q.1 j (next q.2)
          pure (v, q.2 + 1)) 0 k (List.replicate k 0, p.2)
        let r ← p.1.putA i values
        pure (r, n))
    (fun i p => p.2 = i * k ∧ forLoop (m := Res) (fun i (r : Serie α) =>
        Res.ok ((List.range k).map fun j => next (i * k + j)) >>= fun v => r.putA i v) 0 i (Serie.zeros k n) = .ok p.1 ∧
        p.1.data.length = n * k ∧ p.1.itemSize = k ∧ p.1.count = n) n 0 (Serie.zeros k n, 0) (by
      intro i p _ hi ⟨hp, hloop, hdl, hki, hcn⟩
      rw [Nat.zero_add] at hi
      have hfit : (i + 1) * k ≤ n * k := Nat.mul_le_mul_right k (by omega)
      rw [Nat.succ_mul] at hfit
      have hw : WF p.1 := ⟨by omega, by omega, by rw [hcn, hki, hdl], by omega⟩
      have hputA : ∃ r', p.1.putA i ((List.range k).map fun j => next (i * k + j)) = .ok r' ∧
          r'.data.length = n * k ∧ r'.itemSize = k ∧ r'.count = n := by
        rw [Serie.putA_eq hw (by omega) (by simp [hki])]
        refine ⟨_, rfl, ?_, hki, hcn⟩
        rw [splice_length (by rw [hki, List.length_map, List.length_range, hdl]; omega), hdl]
      obtain ⟨r', hr', hd', hk'', hc'⟩ := hputA
      have hout : forLoop (m := Res) (fun i (r : Serie α) =>
        Res.ok ((List.range k).map fun j => next (i * k + j)) >>= fun v => r.putA i v) 0 (i + 1) (Serie.zeros k n) = .ok r' := by
        rw [forLoop_add, hloop, Res.ok_bind, forLoop_succ, Nat.zero_add, Res.ok_bind, hr']
        rfl
      refine ⟨(r', p.2 + k), ?_, ?_, hout, hd', hk'', hc'⟩
      · split
        · rename_i e
          subst e
          have : p.1.putD i (next p.2) = .ok r' := by
            rw [← hr', hp, Serie.putD_eq (by omega), Serie.putA_eq hw (by omega) (by simp [hki]), hki]
            simp only [Nat.mul_one, List.range_one, List.map_singleton, Nat.add_zero]
            rw [splice_single (by omega)]
          rw [this, Res.ok_bind]; rfl
        · rw [hinner i p.2, Res.ok_bind]
          simp only
          rw [hp, hr', Res.ok_bind]; rfl
      · simp only [hp, Nat.succ_mul]) ⟨by simp, rfl, by simp [Serie.zeros, u32_of_lt hn], rfl, rfl⟩
  obtain ⟨p, hp, _, hloop, _⟩ := this
  rw [hp, Res.ok_bind]
  rw [Nat.zero_add] at hloop
  have hfill := forLoop_putA (d := 3) (g := fun i => .ok ((List.range k).map fun j => next (i * k + j))) hk hk'
    ((List.range n).map (fun i => (List.range k).map fun j => next (i * k + j))) hcol (by simpa using hn) (by intro i hi; simp)
  rw [List.length_map, List.length_range] at hfill
  rw [hfill] at hloop
  have := Res.ok.inj hloop
  rw [this]; rfl

end DF
