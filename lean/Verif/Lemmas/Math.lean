import Verif.Spec.Math
import Verif.Lemmas.Functional
import Verif.Lemmas.Zip

/-! # Lemmas on the arithmetic functions -/

namespace DF

open Spec

variable {α β γ σ : Type}

/-! ## map with callbacks without side effect -/

theorem callAll_lift {f : γ → Nat → Res β} : ∀ (l : List γ) (ys : List β) (lo : Nat), ys.length = l.length →
    (∀ i (h : i < l.length) (h' : i < ys.length), f l[i] (lo + i) = .ok ys[i]) →
    callAll (m := Eff σ) (fun x i => Eff.lift (f x i)) l lo = pure ys := by
  intro l
  induction l with
  | nil => intro ys lo h _; simp at h; subst h; rfl
  | cons a l ih =>
    intro ys lo h hf
    cases ys with
    | nil => simp at h
    | cons y ys =>
      have h0 := hf 0 (by simp) (by simp)
      simp only [List.getElem_cons_zero, Nat.add_zero] at h0
      have := ih ys (lo + 1) (by simpa using h) (fun i h1 h2 => by
        have := hf (i + 1) (by simpa using h1) (by simpa using h2)
        simp only [List.getElem_cons_succ] at this
        rw [show lo + 1 + i = lo + (i + 1) by omega]; exact this)
      unfold callAll at this ⊢
      rw [List.zipIdx_cons, List.mapM_cons]
      simp only [h0, Eff.lift_ok, pure_bind]
      rw [this]; rfl

theorem sizedMap_lift {f : γ → Nat → Res (List α)} {l : List γ} {ys : List (List α)} {k : Nat}
    (hret : AllReturn f l ys) (hne : l ≠ []) (hk : 0 < k) (hk' : k < 2 ^ 31)
    (hy : ∀ y ∈ ys, y.length = k) (hn : l.length * k < 2 ^ 32) :
    sizedMap (σ := σ) (fun x i => Eff.lift (f x i)) l = pure (ofItems k ys) := by
  obtain ⟨hlen, hf⟩ := hret
  cases l with
  | nil => exact absurd rfl hne
  | cons x l =>
    cases ys with
    | nil => simp at hlen
    | cons y ys =>
      have h0 := hf 0 (by simp) (by simp)
      simp at h0
      have hyk : y.length = k := hy y (by simp)
      rw [sizedMap_cons, h0, Eff.lift_ok, pure_bind]
      have hcall : callAll (m := Eff σ) (fun x i => Eff.lift (f x i) >>= fun z =>
          if z.length ≠ y.length then Eff.throw .runtimeError else pure z) l 1 =
          callAll (fun x i => Eff.lift (f x i >>= fun z =>
            if z.length ≠ y.length then .throw .runtimeError else .ok z)) l 1 := by
        congr 1; funext x i st
        simp only [Eff.bind_def, Eff.lift]
        cases f x i with
        | ok z => simp only [Res.ok_bind]; split <;> rfl
        | throw e => rfl
        | ub => rfl
      rw [hcall, callAll_lift l ys 1 (by simpa using hlen), pure_bind]
      · have := ofArray_rows hk hk' (its := y :: ys) hy (by simpa [hlen] using hn)
        rw [hyk, u32_of_lt (by omega)]
        simp only [List.flatten_cons] at this
        rw [this]; rfl
      · intro i h1 h2
        have := hf (i + 1) (by simpa using h1) (by simpa using h2)
        simp only [List.getElem_cons_succ] at this
        rw [Nat.add_comm 1, this]
        have hz := hy ys[i] (by simp)
        simp [hz, hyk]

theorem mapArr_ok [Zero α] {s : Serie α} (h : WF s) (h0 : 0 < s.count) {cb : List α → Nat → Res (List α)}
    {ys : List (List α)} {k : Nat} (hret : AllReturn cb (items s) ys) (hk : 0 < k) (hk' : k < 2 ^ 31)
    (hy : ∀ y ∈ ys, y.length = k) (hn : s.count * k < 2 ^ 32) : mapArr cb s = .ok (ofItems k ys) := by
  unfold mapArr
  rw [mapVV_eq h, sizedMap_lift hret (by rw [← List.length_pos_iff, items_length]; exact h0) hk hk' hy
    (by rw [items_length]; exact hn)]
  rfl

theorem mapArr_empty [Zero α] {s : Serie α} (h0 : s.count = 0) (cb : List α → Nat → Res (List α)) :
    mapArr cb s = .ok ⟨[], 0, 0, 3⟩ := by
  unfold mapArr mapVV
  rw [if_pos h0]; rfl

theorem mapArr_throw0 [Zero α] {s : Serie α} (h : WF s) (h0 : 0 < s.count) {cb : List α → Nat → Res (List α)} {e : Err}
    (hcb : ∀ v, cb v 0 = .throw e) : mapArr cb s = .throw e := by
  unfold mapArr
  rw [mapVV_eq h]
  have hl := items_length s
  cases hs : items s with
  | nil => rw [hs] at hl; simp at hl; omega
  | cons x l => rw [sizedMap_cons, hcb]; rfl

theorem mapNum_ok {s : Serie α} (h : WF s) {cb : α → Nat → Res α} {ys : List α}
    (hret : AllReturn cb (scalars s) ys) : mapNum cb s = .ok (ofScalars ys) := by
  unfold mapNum
  rw [mapSS_eq h, callAll_lift (scalars s) ys 0 hret.1 (fun i h1 h2 => by rw [Nat.zero_add]; exact hret.2 i h1 h2)]
  rfl

/-- A callback given by a function on items, whatever the index. -/
theorem AllReturn_map {f : γ → Nat → Res β} {g : γ → β} {l : List γ} (h : ∀ x ∈ l, ∀ i, f x i = .ok (g x)) :
    AllReturn f l (l.map g) :=
  ⟨by simp, fun i h1 h2 => by rw [List.getElem_map]; exact h _ (List.getElem_mem _) i⟩

theorem ofScalars_eq_ofItems (xs : List α) (d : Nat) : ofScalars xs d = ofItems 1 (xs.map (fun x => [x])) d := by
  simp [ofScalars, ofItems]
  induction xs with
  | nil => rfl
  | cons a l ih => simpa using ih

/-! ## loops on arrays -/

theorem updLoop_eq {n : Nat} {f : Nat → α → Res α} {g : Nat → α → α} {r : List α} (hn : n = r.length)
    (hf : ∀ k (h : k < r.length), f k r[k] = .ok (g k r[k])) : updLoop n f r = .ok (r.mapIdx g) := by
  unfold updLoop
  have := forLoop_exact (m := Res) (f := fun k r => rd r k >>= fun x => f k x >>= fun y => wr r k y)
    (fun j => (r.mapIdx g).take j ++ r.drop j) n 0 ?_
  · simp only [List.take_zero, List.drop_zero, List.nil_append, Nat.zero_add] at this
    rw [this, hn]; simp [List.take_of_length_le]
  · intro j _ hj
    have hj' : j < r.length := by omega
    have hl : ((r.mapIdx g).take j).length = j := by simp; omega
    rw [rd_of_lt (by simp; omega)]
    simp only [Res.ok_bind]
    rw [List.getElem_append_right (Nat.le_of_eq hl)]
    simp only [hl, Nat.sub_self, List.getElem_drop, Nat.add_zero]
    rw [hf j hj', Res.ok_bind, wr_of_lt (by simp; omega), List.set_append_right _ _ (Nat.le_of_eq hl), hl, Nat.sub_self,
      List.drop_eq_getElem_cons hj', List.set_cons_zero, List.take_add_one, List.getElem?_eq_getElem (by simpa using hj')]
    simp

theorem updLoop_map {n : Nat} {f : Nat → α → Res α} {g : α → α} {r : List α} (hn : n = r.length)
    (hf : ∀ k x, f k x = .ok (g x)) : updLoop n f r = .ok (r.map g) := by
  rw [updLoop_eq (g := fun _ => g) hn (fun k _ => hf k _)]
  simp [List.mapIdx_eq_zipIdx_map]
  rw [show (fun p : α × Nat => g p.1) = g ∘ Prod.fst from rfl, ← List.map_map, List.zipIdx_map_fst]

theorem updLoop_zip {n : Nat} {f : Nat → α → Res α} {op : α → α → α} {r v : List α} (hn : n = r.length)
    (hv : v.length = r.length) (hf : ∀ k (h : k < v.length) x, f k x = .ok (op x v[k])) :
    updLoop n f r = .ok (List.zipWith op r v) := by
  rw [updLoop_eq (g := fun k x => (v[k]?.map (op x)).getD x) hn]
  · congr 1
    apply List.ext_getElem
    · simp [hv]
    · intro i h1 h2
      simp at h1
      simp [show i < v.length by omega]
  · intro k hk
    rw [hf k (by omega)]
    simp [show k < v.length by omega]

/-! ## add, sub -/

theorem zipItems_length {op : α → α → α} {a b : List (List α)} {k : Nat} (ha : ∀ v ∈ a, v.length = k)
    (hb : ∀ v ∈ b, v.length = k) : ∀ v ∈ List.zipWith (List.zipWith op) a b, v.length = k := by
  intro v hv
  obtain ⟨i, hi, rfl⟩ := List.mem_iff_getElem.1 hv
  simp only [List.length_zipWith] at hi
  rw [List.getElem_zipWith, List.length_zipWith, ha _ (List.getElem_mem _), hb _ (List.getElem_mem _)]
  simp

theorem binOp_eq [Zero α] {op : α → α → α} {a b : Serie α} (ha : WF a) (hb : WF b) (hs : SameShape a b) :
    binOp op a b = .ok (pointwise op a b) := by
  obtain ⟨hk, hc⟩ := hs
  have hfit := ha.fits
  have hsm := ha.small
  unfold binOp
  rw [if_neg (by simp [hk, hc])]
  by_cases h1 : a.itemSize = 1
  · have hb1 : b.itemSize = 1 := by rw [← hk, h1]
    have hla := ha.scalars_length
    have hlb := hb.scalars_length
    have hlen : (List.zipWith op (scalars a) (scalars b)).length = a.count := by
      rw [List.length_zipWith, hla, hlb, hc]; simp
    have := forLoop_putD (d := 3) (g := fun i => do
      let x ← a.getD i
      let y ← b.getD i
      pure (op x y)) (List.zipWith op (scalars a) (scalars b)) (by rw [hlen]; exact ha.count_lt) (by
        intro i hi
        rw [hlen] at hi
        rw [Serie.getD_scalars ha.count_le (by rw [hla]; exact hi), Serie.getD_scalars hb.count_le (by rw [hlb, ← hc]; exact hi)]
        simp)
    rw [hlen] at this
    rw [h1]
    simp only [if_true]
    simp only [bind_assoc, pure_bind] at this
    rw [this]
    unfold pointwise
    rw [h1, ofScalars_eq_ofItems, items_scalar h1 ha.count_le, items_scalar hb1 hb.count_le]
    congr 2
    rw [List.map_zipWith, List.zipWith_map]
    rfl
  · have hia := fun v (hv : v ∈ items a) => ha.item_length hv
    have hib : ∀ v ∈ items b, v.length = a.itemSize := fun v hv => by rw [hk]; exact hb.item_length hv
    have hlen : (List.zipWith (List.zipWith op) (items a) (items b)).length = a.count := by
      rw [List.length_zipWith, items_length, items_length, hc]; simp
    have := forLoop_putA (d := 3) (g := fun i => do
        let v1 ← a.getA i
        let v2 ← b.getA i
        forLoop (fun j sum => do
          let x ← rd v1 j
          let y ← rd v2 j
          wr sum j (op x y)) 0 a.itemSize (List.replicate a.itemSize (0 : α))) ha.pos ha.int
        (List.zipWith (List.zipWith op) (items a) (items b)) (zipItems_length hia hib) (by rw [hlen]; omega) (by
        intro i hi
        rw [hlen] at hi
        rw [Serie.getA_items ha (by simpa using hi), Serie.getA_items hb (by simpa [← hc] using hi)]
        simp only [Res.ok_bind, List.getElem_zipWith]
        have hia' : i < (items a).length := by simpa using hi
        have hib' : i < (items b).length := by simpa [← hc] using hi
        have e1 := hia _ (List.getElem_mem hia')
        have e2 := hib _ (List.getElem_mem hib')
        have e3 : (List.zipWith op (items a)[i] (items b)[i]).length = a.itemSize := by
          rw [List.length_zipWith, e1, e2]; simp
        have := wr_loop (v := List.zipWith op (items a)[i] (items b)[i]) (w := List.replicate a.itemSize (0 : α))
          (g := fun j => do
            let x ← rd (items a)[i] j
            let y ← rd (items b)[i] j
            pure (op x y)) (by rw [e3]; simp) (by
            intro j hj
            rw [e3] at hj
            rw [rd_of_lt (by omega), rd_of_lt (by omega)]
            simp)
        rw [e3] at this
        simp only [bind_assoc, pure_bind] at this
        exact this)
    rw [hlen] at this
    simp only [if_neg h1]
    simp only [bind_assoc] at this
    exact this

theorem binOp_throw [Zero α] {op : α → α → α} {a b : Serie α} (hs : ¬ SameShape a b) :
    binOp op a b = .throw .invalidArgument := by
  unfold binOp
  rw [if_pos]
  unfold SameShape at hs
  omega

theorem WF_pointwise {op : α → α → α} {a b : Serie α} (ha : WF a) (hb : WF b) (hs : SameShape a b) :
    WF (pointwise op a b) ∧ SameShape (pointwise op a b) a ∧
    items (pointwise op a b) = List.zipWith (List.zipWith op) (items a) (items b) := by
  obtain ⟨hk, hc⟩ := hs
  have hfit := ha.fits
  have hsm := ha.small
  have hl := zipItems_length (op := op) (fun v hv => ha.item_length hv)
    (fun v hv => by rw [hk]; exact hb.item_length hv)
  have hlen : (List.zipWith (List.zipWith op) (items a) (items b)).length = a.count := by
    rw [List.length_zipWith, items_length, items_length, hc]; simp
  exact ⟨WF_ofItems ha.pos ha.int hl (by rw [hlen]; omega), ⟨rfl, hlen⟩, items_ofItems hl⟩

theorem cell_isSome {s : Serie α} (h : WF s) {i j : Nat} (hi : i < s.count) (hj : j < s.itemSize) :
    ∃ x, cell s i j = some x := by
  unfold cell
  have hi' : i < (items s).length := by simpa using hi
  have := h.item_length (List.getElem_mem hi')
  rw [List.getElem?_eq_getElem hi']
  simp only [Option.bind_some]
  exact ⟨_, List.getElem?_eq_getElem (by omega)⟩

theorem cell_pointwise {op : α → α → α} {a b : Serie α} (ha : WF a) (hb : WF b) (hs : SameShape a b) {i j : Nat}
    {x y : α} (hx : cell a i j = some x) (hy : cell b i j = some y) : cell (pointwise op a b) i j = some (op x y) := by
  unfold cell at *
  rw [(WF_pointwise ha hb hs).2.2]
  rw [Option.bind_eq_some_iff] at hx hy
  obtain ⟨u, hu, hx⟩ := hx
  obtain ⟨v, hv, hy⟩ := hy
  rw [List.getElem?_zipWith, hu, hv]
  simp only [Option.bind_some]
  rw [List.getElem?_zipWith, hx, hy]

/-- Cells determine the items. -/
theorem items_ext {a b : Serie α} (ha : WF a) (hb : WF b) (hs : SameShape a b)
    (h : ∀ i j, i < a.count → j < a.itemSize → cell a i j = cell b i j) : items a = items b := by
  obtain ⟨hk, hc⟩ := hs
  apply List.ext_getElem
  · simp [hc]
  · intro i h1 h2
    have l1 := ha.item_length (List.getElem_mem h1)
    have l2 := hb.item_length (List.getElem_mem h2)
    apply List.ext_getElem?
    intro j
    by_cases hj : j < a.itemSize
    · have := h i j (by simpa using h1) hj
      unfold cell at this
      rw [List.getElem?_eq_getElem h1, List.getElem?_eq_getElem h2] at this
      exact this
    · rw [List.getElem?_eq_none (by omega), List.getElem?_eq_none (by omega)]

theorem zeros_eq_ofItems [Zero α] {k n : Nat} (h : n * k < 2 ^ 32) :
    (Serie.zeros k n : Serie α) = ofItems k (List.replicate n (List.replicate k 0)) := by
  simp [Serie.zeros, ofItems, u32_of_lt h]

theorem WF_zeros [Zero α] {k n : Nat} (hk : 0 < k) (hk' : k < 2 ^ 31) (h : n * k < 2 ^ 32) :
    WF (Serie.zeros k n : Serie α) := by
  rw [zeros_eq_ofItems h]
  exact WF_ofItems hk hk' (by simp) (by simpa using h)

theorem cell_zeros [Zero α] {k n i j : Nat} (h : n * k < 2 ^ 32) (hi : i < n) (hj : j < k) :
    cell (Serie.zeros k n : Serie α) i j = some 0 := by
  unfold cell
  rw [zeros_eq_ofItems h, items_ofItems (by simp)]
  simp [hi, hj]

theorem binOp_fold [Zero α] {op : α → α → α} {k n : Nat} :
    ∀ (ss : List (Serie α)) (acc : Serie α), (∀ s ∈ ss, WF s ∧ s.itemSize = k ∧ s.count = n) →
    WF acc → acc.itemSize = k → acc.count = n → acc.dimension = 3 →
    ∃ r, ss.foldlM (fun result s => do
        let r ← binOp op result s
        (Serie.assign r).exec result) acc = Res.ok r ∧ WF r ∧ r.itemSize = k ∧ r.count = n ∧
      ∀ i j, i < n → j < k → ∃ (x : α) (xs : List α), cell acc i j = some x ∧ ss.map (fun s => cell s i j) = xs.map some ∧
        cell r i j = some (xs.foldl op x) := by
  intro ss
  induction ss with
  | nil =>
    intro acc _ hw hk hn _
    refine ⟨acc, rfl, hw, hk, hn, fun i j hi hj => ?_⟩
    obtain ⟨x, hx⟩ := cell_isSome hw (i := i) (j := j) (by omega) (by omega)
    exact ⟨x, [], hx, rfl, hx⟩
  | cons s ss ih =>
    intro acc hss hw hk hn h3
    obtain ⟨hsw, hsk, hsn⟩ := hss s (by simp)
    have hsh : SameShape acc s := ⟨by omega, by omega⟩
    obtain ⟨pw, ⟨pk, pn⟩, pi⟩ := WF_pointwise (op := op) hw hsw hsh
    have hassign : (Serie.assign (pointwise op acc s)).exec acc = Res.ok (pointwise op acc s) := by
      simp [Serie.assign, Eff.exec, h3, pointwise, ofItems]
    obtain ⟨r, hr, rw', rk, rn, hcell⟩ := ih (pointwise op acc s) (fun t ht => hss t (by simp [ht])) pw
      (by omega) (by omega) rfl
    refine ⟨r, ?_, rw', rk, rn, fun i j hi hj => ?_⟩
    · rw [List.foldlM_cons, binOp_eq hw hsw hsh]
      simp only [Res.ok_bind]
      rw [hassign, Res.ok_bind]
      exact hr
    · obtain ⟨x, hx⟩ := cell_isSome hw (i := i) (j := j) (by omega) (by omega)
      obtain ⟨y, hy⟩ := cell_isSome hsw (i := i) (j := j) (by omega) (by omega)
      obtain ⟨z, zs, hz, hzs, hr⟩ := hcell i j hi hj
      rw [cell_pointwise hw hsw hsh hx hy] at hz
      simp at hz; subst hz
      exact ⟨x, y :: zs, hx, by simp [hy, hzs], hr⟩

theorem countAndCheck_same {ss : List (Serie α)} {n : Nat} (h : ∀ s ∈ ss, s.count = n) :
    countAndCheck ss = .ok (ss.map (·.count)) := by
  unfold countAndCheck
  cases ss with
  | nil => rfl
  | cons s ss =>
    simp only [List.map_cons]
    rw [if_pos]
    simp only [List.all_eq_true, List.mem_map, beq_iff_eq]
    rintro c ⟨t, ht, rfl⟩
    rw [h t (by simp [ht]), h s (by simp)]

theorem foldSeries_eq [Zero α] {op : α → α → α} {k n : Nat} {ss : List (Serie α)} (hne : ss ≠ [])
    (hss : ∀ s ∈ ss, WF s ∧ s.itemSize = k ∧ s.count = n) :
    ∃ r, foldSeries (binOp op) ss = .ok r ∧ WF r ∧ r.itemSize = k ∧ r.count = n ∧
      ∀ i j, i < n → j < k → ∃ xs : List α, ss.map (fun s => cell s i j) = xs.map some ∧
        cell r i j = some (xs.foldl op 0) := by
  cases ss with
  | nil => exact absurd rfl hne
  | cons s ss =>
    obtain ⟨hw, hk, hn⟩ := hss s (by simp)
    have hfit := hw.fits
    have hsm := hw.small
    rw [hk, hn] at hfit
    have hpos := hw.pos
    have hint := hw.int
    rw [hk] at hpos hint
    obtain ⟨r, hr, a, b, c, d⟩ := binOp_fold (op := op) (s :: ss) (Serie.zeros k n) hss
      (WF_zeros hpos hint (by omega)) rfl rfl rfl
    refine ⟨r, ?_, a, b, c, fun i j hi hj => ?_⟩
    · unfold foldSeries
      simp only
      rw [countAndCheck_same (fun t ht => (hss t ht).2.2), Res.ok_bind, hk, hn]
      exact hr
    · obtain ⟨x, xs, hx, h1, h2⟩ := d i j hi hj
      rw [cell_zeros (by omega) hi hj] at hx
      simp at hx; subst hx
      exact ⟨xs, h1, h2⟩

end DF
