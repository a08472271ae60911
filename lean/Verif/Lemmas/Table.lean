import Verif.Spec.Table
import Verif.Lemmas.ByItem

/-!
# Tables and scripts
-/

namespace DF

open Spec

variable {α β γ : Type} {B n m k : Nat} {ks : List Nat} {ss : List (Serie α)}

theorem gives_or_throws {g : β → Res γ} : ∀ {l : List β}, (∀ x ∈ l, (∃ y, g x = .ok y) ∨ ∃ e, g x = .throw e) →
    (∃ ws, Gives g l ws) ∨ ∃ x ∈ l, ∃ e, g x = .throw e
  | [], _ => .inl ⟨[], .nil⟩
  | x :: l, h => by
    rcases h x List.mem_cons_self with ⟨y, h1⟩ | ⟨e, h1⟩
    · rcases gives_or_throws fun u hu => h u (List.mem_cons_of_mem _ hu) with ⟨ws, h2⟩ | ⟨u, hu, e, h2⟩
      · exact .inl ⟨y :: ws, .cons h1 h2⟩
      · exact .inr ⟨u, List.mem_cons_of_mem _ hu, e, h2⟩
    · exact .inr ⟨x, List.mem_cons_self, e, h1⟩

theorem Spec.Gives.all {g : β → Res γ} {P : γ → Prop} {l : List β} {ws : List γ} (h : Gives g l ws) (hp : ∀ x ∈ l, ∀ y, g x = .ok y → P y) :
    ∀ w ∈ ws, P w := fun w hw => by
  obtain ⟨v, hv, h1⟩ := h.mem hw
  exact hp v hv w h1

theorem Spec.Gives.select {g : β → Res γ} {l : List β} {ws : List γ} (h : Gives g l ws) : ∀ {ps : List Nat}, (∀ i ∈ ps, i < l.length) →
    Gives g (Spec.select ps l) (Spec.select ps ws)
  | [], _ => .nil
  | i :: ps, hp => by
    have hi : i < l.length := hp i List.mem_cons_self
    have hi' : i < ws.length := by rw [← List.Forall₂.length_eq h]; exact hi
    have e1 : Spec.select (i :: ps) l = l[i] :: Spec.select ps l := by
      unfold Spec.select; rw [List.filterMap_cons, List.getElem?_eq_getElem hi]
    have e2 : Spec.select (i :: ps) ws = ws[i] :: Spec.select ps ws := by
      unfold Spec.select; rw [List.filterMap_cons, List.getElem?_eq_getElem hi']
    rw [e1, e2]
    exact .cons (List.Forall₂.get h hi hi') (h.select fun j hj => hp j (List.mem_cons_of_mem _ hj))

theorem Spec.Gives.concat {g : β → Res γ} : ∀ {a b : List β} {us vs : List γ}, Gives g a us → Gives g b vs → Gives g (a ++ b) (us ++ vs)
  | _, _, _, _, .nil, h => h
  | _, _, _, _, .cons h hs, h' => .cons h (Spec.Gives.concat hs h')

/-! ## selections -/

theorem select_map (ps : List Nat) (f : β → γ) (l : List β) : select ps (l.map f) = (select ps l).map f := by
  unfold select
  rw [List.map_filterMap]
  congr 1
  funext i
  rw [List.getElem?_map]

theorem select_length {l : List β} : ∀ {ps : List Nat}, (∀ i ∈ ps, i < l.length) → (select ps l).length = ps.length
  | [], _ => rfl
  | i :: ps, h => by
    have ih := select_length (l := l) (ps := ps) fun j hj => h j (List.mem_cons_of_mem _ hj)
    unfold select at ih ⊢
    rw [List.filterMap_cons, List.getElem?_eq_getElem (h i List.mem_cons_self)]
    simp [ih]

theorem select_mem {ps : List Nat} {l : List β} {x : β} (h : x ∈ select ps l) : x ∈ l := by
  obtain ⟨i, _, hi⟩ := List.mem_filterMap.1 h
  exact List.mem_of_getElem? hi

theorem select_range (f : Nat → β) {n : Nat} : ∀ {ps : List Nat}, (∀ i ∈ ps, i < n) → select ps ((List.range n).map f) = ps.map f
  | [], _ => rfl
  | i :: ps, h => by
    have ih := select_range f (ps := ps) fun j hj => h j (List.mem_cons_of_mem _ hj)
    have hi : i < ((List.range n).map f).length := by simpa using h i List.mem_cons_self
    unfold select at ih ⊢
    rw [List.filterMap_cons, List.getElem?_eq_getElem hi, ih]
    simp

theorem items_def (s : Serie α) : items s = (List.range s.count).map (chunk s.itemSize s.data) := rfl

/-! ## columns and tables -/

theorem Spec.Column.ofItems {ws : List (List α)} (hm : 0 < m) (hm' : m < 2 ^ 31) (hB : m ≤ B) (hl : ws.length = n) (hw : ∀ w ∈ ws, w.length = m)
    (hn : n * B < 2 ^ 32) : Column B n m (Spec.ofItems m ws) :=
  ⟨WF_recipe hm hm' hw hB (by rw [hl]; exact hn), rfl, hl, rfl, by
    show ws.flatten.length = _
    rw [List.length_flatten, List.map_congr_left (g := fun _ => m) hw, ← hl]
    simp, hB⟩

theorem Spec.Column.eq_items {s : Serie α} (h : Column B n k s) : s = Spec.ofItems k (items s) := by
  have := ofItems_items (s := s) (by rw [h.exact, h.count, h.size])
  rw [h.size, h.dim] at this
  exact this.symm

theorem Spec.Column.item_length {s : Serie α} (h : Column B n k s) : ∀ v ∈ items s, v.length = k := fun _ hv => (h.wf.item_length hv).trans h.size

theorem Spec.Column.items_length {s : Serie α} (h : Column B n k s) : (items s).length = n := by rw [DF.Spec.items_length, h.count]

theorem Spec.Column.selectItems {s : Serie α} (h : Column B n k s) {ps : List Nat} (hp : ∀ i ∈ ps, i < n) (hB : ps.length * B < 2 ^ 32) :
    Column B ps.length k (selectItems ps s) ∧ items (Spec.selectItems ps s) = select ps (items s) := by
  have hl : ∀ v ∈ select ps (items s), v.length = k := fun v hv => h.item_length v (select_mem hv)
  unfold Spec.selectItems
  rw [h.size]
  refine ⟨Spec.Column.ofItems (h.size ▸ h.wf.pos) (h.size ▸ h.wf.int) h.le ?_ hl hB, items_ofItems hl⟩
  exact select_length (by rw [h.items_length]; exact hp)

theorem Spec.Table.mem (h : Table B n ks ss) : ∀ s ∈ ss, ∃ k ∈ ks, Column B n k s := by
  induction h with
  | nil => simp
  | cons h1 _ ih =>
    intro s hs
    rcases List.mem_cons.1 hs with rfl | hs
    · exact ⟨_, List.mem_cons_self, h1⟩
    · obtain ⟨k, hk, h⟩ := ih s hs
      exact ⟨k, List.mem_cons_of_mem _ hk, h⟩

theorem Spec.Table.sizes (h : Table B n ks ss) : ss.map (·.itemSize) = ks := by
  induction h with
  | nil => rfl
  | cons h1 _ ih => rw [List.map_cons, ih, h1.size]

theorem Spec.Table.row_sizes (h : Table B n ks ss) : ∀ r ∈ rows ss n, r.map List.length = ks := by
  intro r hr
  obtain ⟨i, hi, rfl⟩ := List.mem_map.1 hr
  rw [List.mem_range] at hi
  unfold row
  rw [List.map_map, ← h.sizes]
  refine List.map_congr_left fun s hs => ?_
  obtain ⟨k, _, hc⟩ := h.mem s hs
  exact chunk_length (hc.wf.item_fits (by rw [hc.count]; exact hi))

theorem Spec.Table.append {t : Serie α} (h : Table B n ks ss) (ht : Column B n m t) : Table B n (ks ++ [m]) (ss ++ [t]) := by
  induction h with
  | nil => exact .cons ht .nil
  | cons h1 _ ih => exact .cons h1 ih

theorem Spec.Table.length (h : Table B n ks ss) : ss.length = ks.length := (List.Forall₂.length_eq h).symm

theorem Spec.Table.select (h : Table B n ks ss) : ∀ {cs : List Nat}, (∀ c ∈ cs, c < ks.length) → Table B n (select cs ks) (Spec.select cs ss)
  | [], _ => .nil
  | c :: cs, hc => by
    have h1 : c < ks.length := hc c List.mem_cons_self
    have h2 : c < ss.length := by rw [h.length]; exact h1
    have e1 : Spec.select (c :: cs) ks = ks[c] :: Spec.select cs ks := by
      unfold Spec.select; rw [List.filterMap_cons, List.getElem?_eq_getElem h1]
    have e2 : Spec.select (c :: cs) ss = ss[c] :: Spec.select cs ss := by
      unfold Spec.select; rw [List.filterMap_cons, List.getElem?_eq_getElem h2]
    rw [e1, e2]
    exact .cons (List.Forall₂.get h h1 h2) (Spec.Table.select h fun d hd => hc d (List.mem_cons_of_mem _ hd))

theorem Spec.Table.selectItems (h : Table B n ks ss) {ps : List Nat} (hp : ∀ i ∈ ps, i < n) (hB : ps.length * B < 2 ^ 32) :
    Table B ps.length ks (ss.map (selectItems ps)) := by
  induction h with
  | nil => exact .nil
  | cons h1 _ ih => exact .cons (h1.selectItems hp hB).1 ih

/-- Item `i` of a column, as `row` reads it. -/
theorem Spec.Column.chunk {s : Serie α} (h : Column B n k s) {i : Nat} (hi : i < n) : (items s)[i]? = some (Spec.chunk s.itemSize s.data i) := by
  rw [items_def, List.getElem?_map, List.getElem?_range (by rw [h.count]; exact hi)]
  rfl

theorem rows_select (h : Table B n ks ss) {ps : List Nat} (hp : ∀ i ∈ ps, i < n) (hB : ps.length * B < 2 ^ 32) :
    rows (ss.map (selectItems ps)) ps.length = select ps (rows ss n) := by
  show _ = select ps ((List.range n).map (row ss))
  rw [select_range _ hp]
  apply List.ext_getElem (by simp)
  intro j h1 h2
  have hj : j < ps.length := by simpa using h1
  simp only [rows, List.getElem_map, List.getElem_range]
  unfold row
  rw [List.map_map]
  refine List.map_congr_left fun s hs => ?_
  obtain ⟨k, _, hc⟩ := h.mem s hs
  obtain ⟨c1, c2⟩ := hc.selectItems hp hB
  have e1 := c1.chunk hj
  rw [c2, items_def, hc.count, select_range _ hp, List.getElem?_map, List.getElem?_eq_getElem hj] at e1
  exact (Option.some.inj e1).symm

/-! ## functions that work row by row -/

variable {F : List (Serie α) → Res (Serie α)}

theorem Spec.RowRecipe.total {g : List (List α) → Res (List α)} (hg : RowRecipe ks m g) {l : List (List (List α))}
    (hl : ∀ r ∈ l, r.map List.length = ks) : (∃ ws, Gives g l ws ∧ ws.length = l.length ∧ ∀ w ∈ ws, w.length = m) ∨ ∃ r ∈ l, ∃ e, g r = .throw e := by
  rcases gives_or_throws (g := g) (l := l) fun r hr => by
    rcases hg r (hl r hr) with ⟨w, h1, _⟩ | ⟨e, _, h1⟩
    · exact .inl ⟨w, h1⟩
    · exact .inr ⟨e, h1⟩ with ⟨ws, h⟩ | h
  · refine .inl ⟨ws, h, (List.Forall₂.length_eq h).symm, h.all fun r hr w hw => ?_⟩
    rcases hg r (hl r hr) with ⟨w', h1, h2⟩ | ⟨e, _, h1⟩
    · rw [hw] at h1; cases h1; exact h2
    · rw [hw] at h1; cases h1
  · exact .inr h

theorem Spec.RowByRow.defined (hF : RowByRow B ks m F) (h : Table B n ks ss) (h0 : 0 < n) (hB : n * B < 2 ^ 32) :
    (∃ t, F ss = .ok t ∧ Column B n m t) ∨ ∃ e, StdError e ∧ F ss = .throw e := by
  obtain ⟨hm, hmB, hm', g, hg, hF⟩ := hF
  obtain ⟨r1, r2⟩ := hF n ss h0 hB h
  rcases hg.total h.row_sizes with ⟨ws, h1, h2, h3⟩ | h1
  · exact .inl ⟨_, r1 ws h1, Spec.Column.ofItems hm hm' hmB (by simpa using h2) h3 hB⟩
  · obtain ⟨r, hr, e, h2, h3⟩ := r2 h1
    rcases hg r (h.row_sizes r hr) with ⟨w, h4, _⟩ | ⟨e', h4, h5⟩
    · rw [h2] at h4; cases h4
    · rw [h2] at h5; cases h5; exact .inr ⟨e, h4, h3⟩

theorem Spec.RowByRow.column (hF : RowByRow B ks m F) (h : Table B n ks ss) (h0 : 0 < n) (hB : n * B < 2 ^ 32) {t : Serie α} (ht : F ss = .ok t) :
    Column B n m t := by
  rcases hF.defined h h0 hB with ⟨t', h1, h2⟩ | ⟨e, _, h1⟩
  · rw [ht] at h1; cases h1; exact h2
  · rw [ht] at h1; cases h1

theorem Spec.RowByRow.select (hF : RowByRow B ks m F) (h : Table B n ks ss) (h0 : 0 < n) (hB : n * B < 2 ^ 32) {t : Serie α} (ht : F ss = .ok t)
    {ps : List Nat} (hne : ps ≠ []) (hp : ∀ i ∈ ps, i < n) (hpB : ps.length * B < 2 ^ 32) :
    F (ss.map (selectItems ps)) = .ok (selectItems ps t) := by
  obtain ⟨hm, hmB, hm', g, hg, hF⟩ := hF
  obtain ⟨r1, r2⟩ := hF n ss h0 hB h
  rcases hg.total h.row_sizes with ⟨ws, h1, h2, h3⟩ | h1
  · rw [r1 ws h1] at ht
    cases ht
    rw [rows_length] at h2
    refine ((hF ps.length _ (List.length_pos_iff.2 hne) hpB (h.selectItems hp hpB)).1 (Spec.select ps ws) ?_).trans ?_
    · rw [rows_select h hp hpB]
      exact h1.select (by simpa using hp)
    · unfold Spec.selectItems
      rw [items_ofItems h3]
      rfl
  · obtain ⟨r, hr, e, h2, h3⟩ := r2 h1
    rw [h3] at ht; cases ht

/-! ## one table after another -/

theorem concat_two [Zero α] {l : Nat} {a b : Serie α} (ha : Column B n k a) (hb : Column B l k b) (hB : (n + l) * B < 2 ^ 32) :
    concat [a, b] = .ok (ofItems k (items a ++ items b)) ∧ Column B (n + l) k (ofItems k (items a ++ items b)) ∧
      items (ofItems k (items a ++ items b)) = items a ++ items b := by
  have hk : 0 < k := ha.size ▸ ha.wf.pos
  have hk' : k < 2 ^ 31 := ha.size ▸ ha.wf.int
  have hl : ∀ v ∈ items a ++ items b, v.length = k := fun v hv => by
    rcases List.mem_append.1 hv with hv | hv
    · exact ha.item_length v hv
    · exact hb.item_length v hv
  refine ⟨?_, Spec.Column.ofItems hk hk' ha.le (by rw [List.length_append, ha.items_length, hb.items_length]) hl hB, items_ofItems hl⟩
  rw [concat_eq (k := k) (by simp)]
  · simp
  · intro s hs
    rcases List.mem_cons.1 hs with rfl | hs
    · exact ⟨ha.wf, ha.size⟩
    · rcases List.mem_cons.1 hs with rfl | hs
      · exact ⟨hb.wf, hb.size⟩
      · simp at hs
  · refine Nat.lt_of_le_of_lt ?_ hB
    simp [ha.count, hb.count]
    exact Nat.mul_le_mul_left _ ha.le

variable [Zero α] {l : Nat} {ta tb tc : List (Serie α)}

theorem Spec.Stacked.table (h : Stacked ta tb tc) (ha : Table B n ks ta) (hb : Table B l ks tb) (hB : (n + l) * B < 2 ^ 32) : Table B (n + l) ks tc := by
  induction h generalizing ks with
  | nil => cases ha; exact .nil
  | cons h1 _ ih =>
    cases ha with
    | cons ha has =>
      cases hb with
      | cons hb hbs =>
        obtain ⟨c1, c2, c3⟩ := concat_two ha hb hB
        rw [h1] at c1
        cases c1
        exact .cons c2 (ih has hbs)

theorem Spec.Stacked.rows (h : Stacked ta tb tc) (ha : Table B n ks ta) (hb : Table B l ks tb) (hB : (n + l) * B < 2 ^ 32) :
    rows tc (n + l) = Spec.rows ta n ++ Spec.rows tb l := by
  have key : (∀ i, i < n → row tc i = row ta i) ∧ ∀ i, i < l → row tc (n + i) = row tb i := by
    induction h generalizing ks with
    | nil => exact ⟨fun _ _ => rfl, fun _ _ => rfl⟩
    | @cons a b c as bs cs h1 _ ih =>
      cases ha with
      | cons ha has =>
        cases hb with
        | cons hb hbs =>
          obtain ⟨c1, c2, c3⟩ := concat_two ha hb hB
          rw [h1] at c1
          have hc := Res.ok.inj c1
          rw [← hc] at c2 c3
          obtain ⟨i1, i2⟩ := ih has hbs
          refine ⟨fun i hi => ?_, fun i hi => ?_⟩
          · have e := c2.chunk (i := i) (by omega)
            rw [c3, List.getElem?_append_left (by rw [ha.items_length]; exact hi), ha.chunk hi] at e
            show Spec.chunk c.itemSize c.data i :: row cs i = Spec.chunk a.itemSize a.data i :: row as i
            rw [i1 i hi, Option.some.inj e]
          · have e := c2.chunk (i := n + i) (by omega)
            rw [c3, List.getElem?_append_right (by rw [ha.items_length]; omega), ha.items_length, Nat.add_sub_cancel_left, hb.chunk hi] at e
            show Spec.chunk c.itemSize c.data (n + i) :: row cs (n + i) = Spec.chunk b.itemSize b.data i :: row bs i
            rw [i2 i hi, Option.some.inj e]
  show (List.range (n + l)).map (row tc) = (List.range n).map (row ta) ++ (List.range l).map (row tb)
  rw [List.range_add, List.map_append, List.map_map]
  congr 1
  · exact List.map_congr_left fun i hi => key.1 i (List.mem_range.1 hi)
  · exact List.map_congr_left fun i hi => key.2 i (List.mem_range.1 hi)

/-- Two tables with the same columns can be put one after the other. -/
theorem Spec.Stacked.exists (ha : Table B n ks ta) (hb : Table B l ks tb) (hB : (n + l) * B < 2 ^ 32) : ∃ tc, Stacked ta tb tc := by
  induction ha generalizing tb with
  | nil => cases hb; exact ⟨[], .nil⟩
  | cons h1 _ ih =>
    cases hb with
    | cons h2 h3 =>
      obtain ⟨tc, h4⟩ := ih h3
      exact ⟨_, .cons (concat_two h1 h2 hB).1 h4⟩

theorem Spec.Stacked.append (h : Stacked ta tb tc) {a b c : Serie α} (hc : concat [a, b] = .ok c) : Stacked (ta ++ [a]) (tb ++ [b]) (tc ++ [c]) := by
  induction h with
  | nil => exact .cons hc .nil
  | cons h1 _ ih => exact .cons h1 ih

theorem Spec.Stacked.lengths (h : Stacked ta tb tc) : ta.length = tc.length ∧ tb.length = tc.length := by
  induction h with
  | nil => exact ⟨rfl, rfl⟩
  | cons _ _ ih => exact ⟨congrArg (· + 1) ih.1, congrArg (· + 1) ih.2⟩

theorem Spec.Stacked.get (h : Stacked ta tb tc) : ∀ {i : Nat} (ha : i < ta.length) (hb : i < tb.length) (hc : i < tc.length),
    concat [ta[i], tb[i]] = .ok tc[i] := by
  induction h with
  | nil => intro i ha; simp at ha
  | cons h1 _ ih =>
    intro i ha hb hc
    cases i with
    | zero => exact h1
    | succ i => exact ih (by simpa using ha) (by simpa using hb) (by simpa using hc)

theorem Spec.Stacked.unique {td : List (Serie α)} (h : Stacked ta tb tc) (h' : Stacked ta tb td) : tc = td := by
  induction h generalizing td with
  | nil => cases h'; rfl
  | cons h1 _ ih =>
    cases h' with
    | cons h2 h3 =>
      rw [h1] at h2
      rw [Res.ok.inj h2, ih h3]

theorem Spec.Stacked.select (h : Stacked ta tb tc) : ∀ {cs : List Nat}, (∀ c ∈ cs, c < tc.length) →
    Stacked (select cs ta) (Spec.select cs tb) (Spec.select cs tc)
  | [], _ => .nil
  | c :: cs, hc => by
    have h3 : c < tc.length := hc c List.mem_cons_self
    have h1 : c < ta.length := by rw [h.lengths.1]; exact h3
    have h2 : c < tb.length := by rw [h.lengths.2]; exact h3
    have e1 : Spec.select (c :: cs) ta = ta[c] :: Spec.select cs ta := by
      unfold Spec.select; rw [List.filterMap_cons, List.getElem?_eq_getElem h1]
    have e2 : Spec.select (c :: cs) tb = tb[c] :: Spec.select cs tb := by
      unfold Spec.select; rw [List.filterMap_cons, List.getElem?_eq_getElem h2]
    have e3 : Spec.select (c :: cs) tc = tc[c] :: Spec.select cs tc := by
      unfold Spec.select; rw [List.filterMap_cons, List.getElem?_eq_getElem h3]
    rw [e1, e2, e3]
    exact .cons (h.get h1 h2 h3) (Spec.Stacked.select h fun d hd => hc d (List.mem_cons_of_mem _ hd))

theorem Spec.RowByRow.stack (hF : RowByRow B ks m F) (h : Stacked ta tb tc) (ha : Table B n ks ta) (hb : Table B l ks tb) (hn : 0 < n) (hl : 0 < l)
    (hB : (n + l) * B < 2 ^ 32) (t : Serie α) :
    F tc = .ok t ↔ ∃ u v, F ta = .ok u ∧ F tb = .ok v ∧ concat [u, v] = .ok t := by
  obtain ⟨hm, hmB, hm', g, hg, hF⟩ := hF
  have hBn : n * B < 2 ^ 32 := Nat.lt_of_le_of_lt (Nat.mul_le_mul_right _ (by omega)) hB
  have hBl : l * B < 2 ^ 32 := Nat.lt_of_le_of_lt (Nat.mul_le_mul_right _ (by omega)) hB
  obtain ⟨a1, a2⟩ := hF n ta hn hBn ha
  obtain ⟨b1, b2⟩ := hF l tb hl hBl hb
  obtain ⟨c1, c2⟩ := hF (n + l) tc (by omega) hB (h.table ha hb hB)
  rw [h.rows ha hb hB] at c1 c2
  rcases hg.total ha.row_sizes with ⟨us, u1, u2, u3⟩ | hu
  · rcases hg.total hb.row_sizes with ⟨vs, v1, v2, v3⟩ | hv
    · rw [rows_length] at u2 v2
      rw [a1 us u1, b1 vs v1, c1 _ (u1.concat v1)]
      have hc := (concat_two (Spec.Column.ofItems hm hm' hmB u2 u3 hBn) (Spec.Column.ofItems hm hm' hmB v2 v3 hBl) hB).1
      rw [items_ofItems u3, items_ofItems v3] at hc
      constructor
      · intro ht
        exact ⟨_, _, rfl, rfl, hc.trans ht⟩
      · rintro ⟨u, v, h1, h2, h3⟩
        cases h1
        cases h2
        exact hc.symm.trans h3
    · obtain ⟨r, hr, e, he, hFb⟩ := b2 hv
      obtain ⟨_, _, e', _, hFc⟩ := c2 ⟨r, List.mem_append_right _ hr, e, he⟩
      rw [hFb, hFc]
      exact ⟨fun h => (by cases h), fun ⟨_, _, _, h, _⟩ => (by cases h)⟩
  · obtain ⟨r, hr, e, he, hFa⟩ := a2 hu
    obtain ⟨_, _, e', _, hFc⟩ := c2 ⟨r, List.mem_append_left _ hr, e, he⟩
    rw [hFa, hFc]
    exact ⟨fun h => (by cases h), fun ⟨_, _, h, _⟩ => (by cases h)⟩

end DF
