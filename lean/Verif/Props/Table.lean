import Verif.Lemmas.Table
import Verif.Lemmas.MathMore
import Verif.Lemmas.Zip
import Verif.Props.ByItem
import Verif.Props.Float

/-!
# C154: scripts that compute new columns row by row

Such a script can be run on the rows one wants, in the order one wants, or on one batch of rows after the other.
-/

namespace DF

open Spec

variable {α : Type}

/-! ## the functions of the library -/

theorem Spec.RowByRow.ofRun {B m : Nat} {ks : List Nat} {F : List (Serie α) → Res (Serie α)} {g : List (List α) → List α} (hm : 0 < m) (hmB : m ≤ B)
    (hm' : m < 2 ^ 31) (hg : ∀ r : List (List α), r.map List.length = ks → (g r).length = m)
    (hF : ∀ n ss, 0 < n → n * B < 2 ^ 32 → Table B n ks ss → F ss = .ok (ofItems m ((rows ss n).map g))) : RowByRow B ks m F := by
  refine ⟨hm, hmB, hm', fun r => .ok (g r), fun r hr => .inl ⟨_, rfl, hg r hr⟩, fun n ss h0 hB h => ⟨fun ws hw => ?_, fun ⟨_, _, _, he⟩ => (by cases he)⟩⟩
  have hgive : ∀ l : List (List (List α)), Gives (fun v => .ok (g v)) l (l.map g) := fun l => by
    induction l with
    | nil => exact .nil
    | cons v l ih => exact .cons rfl ih
  rw [hF n ss h0 hB h, (hgive _).unique hw]

theorem rows_two {B n k l : Nat} {a b : Serie α} (ha : Column B n k a) (hb : Column B n l b) :
    rows [a, b] n = List.zipWith (fun u v => [u, v]) (items a) (items b) := by
  rw [items_def, items_def, ha.count, hb.count, List.zipWith_map, List.zipWith_self]
  rfl

theorem Spec.RowByRow.two {B k l m : Nat} {f : Serie α → Serie α → Res (Serie α)} {g : List α → List α → List α} (hm : 0 < m) (hmB : m ≤ B)
    (hm' : m < 2 ^ 31) (hg : ∀ u v, u.length = k → v.length = l → (g u v).length = m)
    (hf : ∀ n a b, 0 < n → Column B n k a → Column B n l b → f a b = .ok (ofItems m (List.zipWith g (items a) (items b)))) :
    RowByRow B [k, l] m (call2 f) := by
  refine Spec.RowByRow.ofRun (g := fun r => g (r.getD 0 []) (r.getD 1 [])) hm hmB hm' ?_ ?_
  · intro r hr
    match r, hr with
    | [u, v], hr => 
      simp only [List.map_cons, List.map_nil, List.cons.injEq, and_true] at hr
      exact hg u v hr.1 hr.2
  · intro n ss h0 hB h
    match ss, h with
    | [a, b], .cons ha (.cons hb .nil) =>
      show f a b = _
      rw [hf n a b h0 ha hb, rows_two ha hb, List.map_zipWith]
      rfl

/-- C154: a function that works item by item works row by row on one column. -/
theorem C154_one {B k m : Nat} {f : Serie α → Res (Serie α)} (hf : ItemByItem B k m f) : RowByRow B [k] m (call1 f) := by
  obtain ⟨hm, hmB, hm', g, hg, hf⟩ := hf
  refine ⟨hm, hmB, hm', fun r => g (r.getD 0 []), ?_, ?_⟩
  · intro r hr
    match r, hr with
    | [u], hr =>
      simp only [List.map_cons, List.map_nil, List.cons.injEq, and_true] at hr
      exact hg u hr
  · intro n ss h0 hB h
    match ss, h with
    | [s], .cons hs .nil =>
      obtain ⟨r1, r2⟩ := hf s hs.wf hs.size hs.dim (by rw [hs.count]; exact h0) (by rw [hs.count]; exact hB)
      have hr : rows [s] n = (items s).map fun v => [v] := by
        rw [items_def, hs.count, List.map_map]
        rfl
      rw [hr]
      refine ⟨fun ws hw => r1 ws ?_, ?_⟩
      · unfold Gives at hw ⊢
        rw [List.forall₂_map_left_iff] at hw
        exact hw
      · rintro ⟨r, hr, e, he⟩
        obtain ⟨v, hv, rfl⟩ := List.mem_map.1 hr
        obtain ⟨u, hu, e', h1, h2⟩ := r2 ⟨v, hv, e, he⟩
        exact ⟨[u], List.mem_map.2 ⟨u, hu, rfl⟩, e', h1, h2⟩

example := C154_one (C153_matrices (α := ℚ) (B := 9) (by decide)).2.2.2.2

/-- C154: adding, subtracting and multiplying two columns number by number work row by row; so does multiplying or dividing the items of a
column by the numbers of another. -/
theorem C154_pairs [Ring α] [LT α] [DecidableLT α] [Div α] [OfScientific α] {k B : Nat} (hk : 0 < k) (hk' : k < 2 ^ 31) (hB : k ≤ B) :
    RowByRow B [k, k] k (call2 (add2 (α := α))) ∧ RowByRow B [k, k] k (call2 (sub2 (α := α))) ∧
    RowByRow B [k, k] k (call2 (multSerie (α := α))) ∧ RowByRow B [k, 1] k (call2 (multSerie (α := α))) ∧
    RowByRow B [1, k] k (call2 (divSerie (α := α))) := by
  have hpw : ∀ {op : α → α → α} (u v : List α), u.length = k → v.length = k → (List.zipWith op u v).length = k := by
    intro op u v hu hv; simp [hu, hv]
  refine ⟨Spec.RowByRow.two hk hB hk' (hpw (op := (· + ·))) fun n a b h0 ha hb => ?_, Spec.RowByRow.two hk hB hk' (hpw (op := (· - ·))) fun n a b h0 ha hb => ?_,
    Spec.RowByRow.two hk hB hk' (hpw (op := (· * ·))) fun n a b h0 ha hb => ?_,
    Spec.RowByRow.two (g := fun u v => u.map (· * num v 0)) hk hB hk' (fun u v hu _ => by simp [hu]) fun n a b h0 ha hb => ?_,
    Spec.RowByRow.two (g := fun w u => u.map fun x => if absv (num w 0) < (1e-10 : α) then 0 else x / num w 0) hk hB hk'
      (fun u v _ hv => by simp [hv]) fun n a b h0 ha hb => ?_⟩
  · rw [← ha.size]
    exact binOp_eq ha.wf hb.wf ⟨by rw [ha.size, hb.size], by rw [ha.count, hb.count]⟩
  · rw [← ha.size]
    exact binOp_eq ha.wf hb.wf ⟨by rw [ha.size, hb.size], by rw [ha.count, hb.count]⟩
  · have hab : a.count = b.count := by rw [ha.count, hb.count]
    by_cases h1 : k = 1
    · subst h1
      rw [multSerie_scalar ha.wf hb.wf hab ha.size hb.size (by rw [ha.exact, ha.count, Nat.mul_one]), ofScalars_eq_ofItems,
        items_scalar ha.size ha.wf.count_le, items_scalar hb.size hb.wf.count_le, List.zipWith_map, List.map_zipWith]
      rfl
    · rw [multSerie_same ha.wf hb.wf (by rw [ha.count]; exact h0) ⟨by rw [ha.size, hb.size], hab⟩ (by rw [ha.size]; exact h1), pointwise, ha.size]
  · have hab : a.count = b.count := by rw [ha.count, hb.count]
    rw [items_scalar hb.size hb.wf.count_le]
    by_cases h1 : k = 1
    · subst h1
      rw [multSerie_scalar ha.wf hb.wf hab ha.size hb.size (by rw [ha.exact, ha.count, Nat.mul_one]), ofScalars_eq_ofItems,
        items_scalar ha.size ha.wf.count_le, List.zipWith_map, List.map_zipWith]
      rfl
    · rw [multSerie_weights ha.wf hb.wf (by rw [ha.count]; exact h0) hab hb.size (by rw [ha.size]; exact h1), List.zipWith_map_right, ha.size]
      rfl
  · have hab : a.count = b.count := by rw [ha.count, hb.count]
    rw [items_scalar ha.size ha.wf.count_le]
    by_cases h1 : k = 1
    · subst h1
      rw [divSerie_scalar hb.wf ha.wf hab ha.size hb.size, ofScalars_eq_ofItems,
        items_scalar hb.size hb.wf.count_le, List.zipWith_map, List.map_zipWith, List.zipWith_comm]
      rfl
    · rw [divSerie_items hb.wf ha.wf (by rw [hb.count]; exact h0) hab ha.size (by rw [hb.size]; exact h1), List.zipWith_map_left, hb.size,
        List.zipWith_comm]
      rfl

example := C154_pairs (α := ℚ) (k := 3) (B := 9) (by decide) (by decide) (by decide)

/-- C154: so do the dot and the cross products of two columns. -/
theorem C154_products [Zero α] [Add α] [Sub α] [Mul α] {k B : Nat} (hB : 3 ≤ B) :
    RowByRow B [k, k] 1 (call2 (dot (α := α))) ∧ RowByRow B [3, 3] 3 (call2 (cross (α := α))) := by
  refine ⟨Spec.RowByRow.two (g := fun u v => [(List.zipWith (· * ·) u v).foldl (· + ·) 0]) (by omega) (by omega) (by omega) (fun _ _ _ _ => rfl)
      fun n a b h0 ha hb => ?_,
    Spec.RowByRow.two (g := fun u v => [num u 1 * num v 2 - num u 2 * num v 1, num u 2 * num v 0 - num u 0 * num v 2,
      num u 0 * num v 1 - num u 1 * num v 0]) (by omega) (by omega) (by omega) (fun _ _ _ _ => rfl) fun n a b h0 ha hb => ?_⟩
  · exact dot_run_raw ha.wf hb.wf ⟨by rw [ha.size, hb.size], by rw [ha.count, hb.count]⟩ (by rw [ha.count]; exact h0)
  · exact cross_run ha.wf hb.wf ha.size hb.size (by rw [ha.count, hb.count]) (by rw [ha.count]; exact h0)

example := C154_products (α := ℚ) (k := 3) (B := 9) (by decide)

/-- C154: so do the sum and the difference of several columns, their weighted sum, and putting several columns side by side. -/
theorem C154_many [Ring α] {k j B : Nat} (hk : 0 < k) (hk' : k < 2 ^ 31) (hB : k ≤ B) (ws : List α) (hws : ws.length = j + 1) {ks : List Nat} (hne : ks ≠ [])
    (hks : ks.sum < 2 ^ 31) (hksB : ks.sum ≤ B) (hpos : ∀ k ∈ ks, 0 < k) :
    RowByRow B (List.replicate (j + 1) k) k (addList (α := α)) ∧ RowByRow B (List.replicate (j + 1) k) k (subList (α := α)) ∧
    RowByRow B (List.replicate (j + 1) k) k (fun ss => weightedSum ss ws) ∧ RowByRow B ks ks.sum (zip (α := α)) := by
  have hlen : ∀ (op : α → α → α) (r : List (List α)), r.map List.length = List.replicate (j + 1) k →
      (match r with | [] => [] | v :: vs => vs.foldl (List.zipWith op) v).length = k := by
    intro op r hr
    match r, hr with
    | v :: vs, hr =>
      rw [List.replicate_succ, List.map_cons, List.cons.injEq] at hr
      refine foldRows_length _ _ hr.1 fun u hu => ?_
      have : u.length ∈ vs.map List.length := List.mem_map.2 ⟨u, hu, rfl⟩
      rw [hr.2] at this
      exact (List.mem_replicate.1 this).2
  have hcol : ∀ {n : Nat} {ss : List (Serie α)}, Table B n (List.replicate (j + 1) k) ss → ∀ s ∈ ss, WF s ∧ s.itemSize = k ∧ s.count = n := by
    intro n ss h s hs
    obtain ⟨k', hk', hc⟩ := h.mem s hs
    rw [(List.mem_replicate.1 hk').2] at hc
    exact ⟨hc.wf, hc.size, hc.count⟩
  have hop : ∀ op : α → α → α, RowByRow B (List.replicate (j + 1) k) k (opList op) := fun op => by
    refine Spec.RowByRow.ofRun (g := fun r => match r with | [] => [] | v :: vs => vs.foldl (List.zipWith op) v) hk hB hk' (hlen op) ?_
    intro n ss h0 hB h
    match ss, h with
    | s :: ss, h =>
      rw [opList_run (hcol h) h0, rows, List.map_map]
      rfl
  refine ⟨hop _, hop _, ?_, ?_⟩
  · refine Spec.RowByRow.ofRun (g := fun r => (List.zipWith (fun v a => v.map (· * a)) r ws).foldl (List.zipWith (· + ·)) (List.replicate k 0))
      hk hB hk' ?_ ?_
    · intro r hr
      refine foldRows_length _ _ (by simp) fun u hu => ?_
      obtain ⟨i, hi, rfl⟩ := List.mem_iff_getElem.1 hu
      rw [List.getElem_zipWith, List.length_map]
      rw [List.length_zipWith] at hi
      have : r[i].length ∈ r.map List.length := List.mem_map.2 ⟨_, List.getElem_mem _, rfl⟩
      rw [hr] at this
      exact (List.mem_replicate.1 this).2
    · intro n ss h0 hB h
      have hl : ss.length = j + 1 := by rw [h.length]; simp
      rw [weightedSum_run (fun he => by rw [he] at hl; simp at hl) (by rw [hl, hws]) (hcol h) h0, rows, List.map_map]
      congr 3
      funext i
      simp only [Function.comp_apply, row, List.zipWith_map_left]
      rfl
  · refine Spec.RowByRow.ofRun (g := List.flatten) ?_ hksB hks (fun r hr => by rw [List.length_flatten, hr]) ?_
    · obtain ⟨k, l, rfl⟩ := List.exists_cons_of_ne_nil hne
      have := hpos k (by simp)
      rw [List.sum_cons]; omega
    · intro n ss h0 hB h
      have := (zip_eq (ss := ss) (n := n) (fun he => by subst he; cases h; exact hne rfl) (fun s hs => (h.mem s hs).choose_spec.2.wf)
        (fun s hs => (h.mem s hs).choose_spec.2.count) (by rw [h.sizes]; exact hks)
        (by rw [h.sizes]; exact Nat.lt_of_le_of_lt (Nat.mul_le_mul_left _ hksB) hB)).1
      rw [h.sizes] at this
      exact this

example := C154_many (α := ℚ) (k := 3) (j := 1) (B := 9) (by decide) (by decide) (by decide) [1, 2] rfl (ks := [3, 1]) (by decide) (by decide)
  (by decide) (by decide)

theorem callAll_rows {ks : List Nat} {m : Nat} {g : List (List α) → Res (List α)} (hg : RowRecipe ks m g) : ∀ {l : List (List (List α))} (lo : Nat),
    (∀ r ∈ l, r.map List.length = ks) →
    callAll (m := Eff Unit) (fun x _ => Eff.lift (g x) >>= fun y => if y.length ≠ m then Eff.throw .runtimeError else pure y) l lo =
      Eff.lift (l.mapM g)
  | [], lo, _ => by rw [callAll_nil]; rfl
  | v :: l, lo, h => by
    rw [callAll_cons, callAll_rows hg (lo + 1) fun u hu => h u (List.mem_cons_of_mem _ hu), List.mapM_cons]
    rcases hg v (h v (by simp)) with ⟨w, h1, h2⟩ | ⟨e, hse, h1⟩
    · rw [h1, Eff.lift_ok, pure_bind, if_neg (by simp [h2]), pure_bind, Res.ok_bind, Eff.lift_bind]
      rfl
    · rw [h1]; rfl

theorem mapM_outcome {β γ : Type} {g : β → Res γ} : ∀ {l : List β}, (∀ ws, Gives g l ws → l.mapM g = .ok ws) ∧
    ((∀ x ∈ l, (∃ y, g x = .ok y) ∨ ∃ e, g x = .throw e) → (∃ x ∈ l, ∃ e, g x = .throw e) → ∃ x ∈ l, ∃ e, g x = .throw e ∧ l.mapM g = .throw e)
  | [] => ⟨fun ws h => by cases h; rfl, fun _ ⟨x, hx, _⟩ => by simp at hx⟩
  | x :: l => by
    obtain ⟨i1, i2⟩ := mapM_outcome (g := g) (l := l)
    rw [List.mapM_cons]
    refine ⟨fun ws h => ?_, fun hall h => ?_⟩
    · cases h with
      | cons h1 h2 => rw [h1, Res.ok_bind, i1 _ h2]; rfl
    · rcases hall x List.mem_cons_self with ⟨y, hy⟩ | ⟨e, he⟩
      · obtain ⟨z, hz, e, h1, h2⟩ := i2 (fun z hz => hall z (List.mem_cons_of_mem _ hz)) (by
          obtain ⟨z, hz, e, he⟩ := h
          rcases List.mem_cons.1 hz with rfl | hz
          · rw [hy] at he; cases he
          · exact ⟨z, hz, e, he⟩)
        exact ⟨z, List.mem_cons_of_mem _ hz, e, h1, by rw [hy, Res.ok_bind, h2]; rfl⟩
      · exact ⟨x, List.mem_cons_self, e, he, by rw [he]; rfl⟩

/-- C154: so does `map` over several columns, with any callback that is the same recipe for every index; the recipe may throw
exceptions derived from `std::exception`. -/
theorem C154_map [Zero α] {B m : Nat} {ks : List Nat} (hne : ks ≠ []) (hm : 0 < m) (hm' : m < 2 ^ 31) (hB : m ≤ B) {g : List (List α) → Res (List α)}
    (hg : RowRecipe ks m g) :
    RowByRow B ks m (fun ss => (mapMultiV (σ := Unit) (fun r _ => Eff.lift (g r)) ss ()).1) := by
  refine ⟨hm, hB, hm', g, hg, fun n ss h0 hB h => ?_⟩
  have hall := h.row_sizes
  have hn : n < 2 ^ 32 := by
    refine Nat.lt_of_le_of_lt ?_ hB
    exact Nat.le_mul_of_pos_right _ (by omega)
  have hrun : (mapMultiV (σ := Unit) (fun r _ => Eff.lift (g r)) ss ()).1 = (rows ss n).mapM g >>= fun ws => .ok (ofItems m ws) := by
    rw [mapMultiV_eq (fun he => by subst he; cases h; exact hne rfl) (fun s hs => (h.mem s hs).choose_spec.2.wf)
      (fun s hs => (h.mem s hs).choose_spec.2.count) h0]
    have hl := rows_length ss n
    revert hall hl
    generalize rows ss n = l
    intro hall hl
    obtain ⟨v, l, rfl⟩ := List.exists_cons_of_length_pos (l := l) (by omega)
    have hall' : ∀ r ∈ l, r.map List.length = ks := fun r hr => hall r (List.mem_cons_of_mem _ hr)
    rw [sizedMap_cons, List.mapM_cons]
    rcases hg v (hall v (by simp)) with ⟨w, h1, h2⟩ | ⟨e, _, h1⟩
    · rw [h1, Eff.lift_ok, pure_bind, h2, Res.ok_bind, callAll_rows hg 1 hall']
      rcases hg.total hall' with ⟨ws, h3, h4, h5⟩ | h3
      · rw [mapM_outcome.1 ws h3, Eff.lift_ok, pure_bind, u32_of_lt (by omega), Res.ok_bind]
        have := ofArray_rows' (its := w :: ws) hm hm' (by simpa [h2] using h5) (by simp at hl ⊢; omega)
        rw [List.flatten_cons] at this
        rw [this]
        rfl
      · obtain ⟨r, hr, e, _, h4⟩ := mapM_outcome.2 (fun r hr => by
          rcases hg r (hall' r hr) with ⟨w, h1, _⟩ | ⟨e, _, h1⟩
          · exact .inl ⟨w, h1⟩
          · exact .inr ⟨e, h1⟩) h3
        rw [h4]; rfl
    · rw [h1]; rfl
  beta_reduce
  rw [hrun]
  refine ⟨fun ws hw => by rw [mapM_outcome.1 ws hw]; rfl, fun hr => ?_⟩
  obtain ⟨r, hr, e, h1, h2⟩ := mapM_outcome.2 (fun r hr => by
    rcases hg r (hall r hr) with ⟨w, h1, _⟩ | ⟨e, _, h1⟩
    · exact .inl ⟨w, h1⟩
    · exact .inr ⟨e, h1⟩) hr
  exact ⟨r, hr, e, h1, by rw [h2]; rfl⟩

example := C154_map (α := ℚ) (B := 9) (m := 1) (ks := [3, 1]) (by decide) (by decide) (by decide) (by decide)
  (g := fun r => if r.flatten.sum < 0 then .throw .runtimeError else .ok [r.flatten.sum]) (fun r _ => by
    by_cases h : r.flatten.sum < 0
    · exact .inr ⟨_, stdError_iff.2 rfl, if_pos h⟩
    · exact .inl ⟨_, if_neg h, rfl⟩)

/-! ## what it brings -/

/-- C154: a script returns a table with as many rows, whose first columns are the given ones, or throws; it has no undefined behaviour. -/
theorem C154_defined {B n : Nat} {ks out : List Nat} {P : List (Serie α) → Res (List (Serie α))} (hP : Script B ks out P) {ss : List (Serie α)}
    (h : Table B n ks ss) (h0 : 0 < n) (hB : n * B < 2 ^ 32) :
    (∃ ts, P ss = .ok ts ∧ Table B n out ts ∧ ss <+: ts) ∨ ∃ e, StdError e ∧ P ss = .throw e := by
  induction hP generalizing ss with
  | done => exact .inl ⟨ss, rfl, h, List.prefix_rfl⟩
  | step hc hF _ ih =>
    rcases hF.defined (h.select hc) h0 hB with ⟨t, h1, h2⟩ | ⟨e, h1, h2⟩
    · rcases ih (h.append h2) with ⟨ts, h3, h4, h5⟩ | ⟨e, h3, h4⟩
      · exact .inl ⟨ts, by beta_reduce; rw [h1, Res.ok_bind, h3], h4, (List.prefix_append _ _).trans h5⟩
      · exact .inr ⟨e, h3, by beta_reduce; rw [h1, Res.ok_bind, h4]⟩
    · exact .inr ⟨e, h1, by beta_reduce; rw [h2]; rfl⟩

/-- Cross products of columns 0 and 1, then their dot products with column 0. -/
private theorem exScript : Script (α := ℚ) 3 [3, 3] [3, 3, 3, 1] (fun ss => call2 cross (select [0, 1] ss) >>= fun t =>
    (fun ss => call2 dot (select [0, 2] ss) >>= fun t => (fun ss => .ok ss) (ss ++ [t])) (ss ++ [t])) :=
  .step (by decide) (C154_products (k := 3) (by decide)).2 (.step (by decide) (C154_products (by decide)).1 .done)

private theorem exTable : Table (α := ℚ) 3 2 [3, 3] [⟨[1, 0, 0, 0, 1, 0], 2, 3, 3⟩, ⟨[0, 1, 0, 1, 1, 1], 2, 3, 3⟩] :=
  .cons ⟨by decide, rfl, rfl, rfl, rfl, by decide⟩ (.cons ⟨by decide, rfl, rfl, rfl, rfl, by decide⟩ .nil)

example := C154_defined exScript exTable (by decide) (by decide)

/-- C154: a script can be run on the rows one wants, in any order and with repetitions: this gives the same rows of the table
that the script gives on all the rows. -/
theorem C154_rows {B n : Nat} {ks out : List Nat} {P : List (Serie α) → Res (List (Serie α))} (hP : Script B ks out P) {ss ts : List (Serie α)}
    (h : Table B n ks ss) (h0 : 0 < n) (hB : n * B < 2 ^ 32) (ht : P ss = .ok ts) {ps : List Nat} (hne : ps ≠ []) (hp : ∀ i ∈ ps, i < n)
    (hpB : ps.length * B < 2 ^ 32) :
    P (ss.map (selectItems ps)) = .ok (ts.map (selectItems ps)) := by
  induction hP generalizing ss with
  | done => cases ht; rfl
  | step hc hF _ ih =>
    beta_reduce at ht ⊢
    rcases hF.defined (h.select hc) h0 hB with ⟨t, h1, h2⟩ | ⟨e, h1, h2⟩
    · rw [h1, Res.ok_bind] at ht
      rw [select_map, hF.select (h.select hc) h0 hB h1 hne hp hpB, Res.ok_bind]
      have := ih (h.append h2) ht
      rw [List.map_append] at this
      exact this
    · rw [h2] at ht; cases ht

example := C154_rows exScript exTable (by decide) (by decide) rfl (ps := [1, 0, 1]) (by decide) (by decide) (by decide)

/-- C154: a script can be run on one batch of rows after the other: it returns on the whole table exactly when it returns on the two batches, and
the table it returns is then the concatenation, column by column, of the two others. -/
theorem C154_batches [Zero α] {B n l : Nat} {ks out : List Nat} {P : List (Serie α) → Res (List (Serie α))} (hP : Script B ks out P)
    {ta tb tc : List (Serie α)} (hs : Stacked ta tb tc) (ha : Table B n ks ta) (hb : Table B l ks tb) (hn : 0 < n) (hl : 0 < l)
    (hB : (n + l) * B < 2 ^ 32) (t : List (Serie α)) :
    P tc = .ok t ↔ ∃ u v, P ta = .ok u ∧ P tb = .ok v ∧ Stacked u v t := by
  have hBn : n * B < 2 ^ 32 := Nat.lt_of_le_of_lt (Nat.mul_le_mul_right _ (by omega)) hB
  have hBl : l * B < 2 ^ 32 := Nat.lt_of_le_of_lt (Nat.mul_le_mul_right _ (by omega)) hB
  induction hP generalizing ta tb tc with
  | done =>
    constructor
    · intro ht; cases ht; exact ⟨_, _, rfl, rfl, hs⟩
    · rintro ⟨u, v, h1, h2, h3⟩
      cases h1
      cases h2
      exact congrArg _ (hs.unique h3)
  | @step ks out m cs F P hc hF _ ih =>
    have hcl : ∀ c ∈ cs, c < tc.length := fun c h => by rw [(hs.table ha hb hB).length]; exact hc c h
    have key := hF.stack (hs.select hcl) (ha.select hc) (hb.select hc) hn hl hB
    beta_reduce
    constructor
    · intro ht
      cases hx : F (select cs tc) with
      | ok x =>
        rw [hx, Res.ok_bind] at ht
        obtain ⟨u, v, h1, h2, h3⟩ := (key x).1 hx
        obtain ⟨p, q, h4, h5, h6⟩ := (ih (hs.append h3) (ha.append (hF.column (ha.select hc) hn hBn h1))
          (hb.append (hF.column (hb.select hc) hl hBl h2))).1 ht
        exact ⟨p, q, by rw [h1, Res.ok_bind, h4], by rw [h2, Res.ok_bind, h5], h6⟩
      | throw e => rw [hx] at ht; cases ht
      | ub => rw [hx] at ht; cases ht
    · rintro ⟨p, q, h4, h5, h6⟩
      cases hu : F (select cs ta) with
      | ok u =>
        cases hv : F (select cs tb) with
        | ok v =>
          rw [hu, Res.ok_bind] at h4
          rw [hv, Res.ok_bind] at h5
          have cu := hF.column (ha.select hc) hn hBn hu
          have cv := hF.column (hb.select hc) hl hBl hv
          have h3 := (concat_two cu cv hB).1
          rw [(key _).2 ⟨u, v, hu, hv, h3⟩, Res.ok_bind]
          exact (ih (hs.append h3) (ha.append cu) (hb.append cv)).2 ⟨p, q, h4, h5, h6⟩
        | throw e => rw [hv] at h5; cases h5
        | ub => rw [hv] at h5; cases h5
      | throw e => rw [hu] at h4; cases h4
      | ub => rw [hu] at h4; cases h4

example := fun tc hs => C154_batches exScript (tc := tc) hs exTable exTable (by decide) (by decide) (by decide)

/-- C154: two batches of rows with the same columns can always be put together, in one way. -/
theorem C154_stack [Zero α] {B n l : Nat} {ks : List Nat} {ta tb : List (Serie α)} (ha : Table B n ks ta) (hb : Table B l ks tb)
    (hB : (n + l) * B < 2 ^ 32) : ∃ tc, Stacked ta tb tc ∧ Table B (n + l) ks tc ∧ rows tc (n + l) = rows ta n ++ rows tb l ∧
      ∀ td, Stacked ta tb td → td = tc := by
  obtain ⟨tc, h⟩ := Spec.Stacked.exists ha hb hB
  exact ⟨tc, h, h.table ha hb hB, h.rows ha hb hB, fun td h' => h'.unique h⟩

example := C154_stack exTable exTable (by decide)

theorem callAll_pure' {β γ σ : Type} (f : β → γ) : ∀ (l : List β) (lo : Nat), callAll (m := Eff σ) (fun x _ => pure (f x)) l lo = pure (l.map f)
  | [], lo => by rw [callAll_nil]; rfl
  | x :: l, lo => by rw [callAll_cons, callAll_pure' f l, pure_bind]; rfl

theorem keep_select {β : Type} {n : Nat} (f : Nat → β) (q : Nat → Bool) :
    keep ((List.range n).map f) ((List.range n).map q) = select ((List.range n).filter q) ((List.range n).map f) := by
  rw [select_range _ fun i hi => List.mem_range.1 (List.mem_filter.1 hi).1]
  generalize List.range n = l
  induction l with
  | nil => rfl
  | cons i l ih =>
    rw [List.map_cons, List.map_cons, keep, ih, List.filter_cons]
    split <;> rfl

theorem filterMulti_select [Zero α] {σ : Type} {B n : Nat} {ks : List Nat} {ss : List (Serie α)} (h : Table B n ks ss) (hne : ks ≠ [])
    (p : List (List α) → Bool) (st : σ) :
    filterMulti (fun r _ => pure (p r)) ss st = (.ok (ss.map (selectItems ((List.range n).filter fun i => p (row ss i)))), st) := by
  rw [filterMulti_eq (fun he => by subst he; cases h; exact hne rfl) (fun s hs => (h.mem s hs).choose_spec.2.wf)
      (fun s hs => (h.mem s hs).choose_spec.2.count), callAll_pure', pure_bind]
  show (Res.ok _, st) = _
  congr 2
  refine List.map_congr_left fun s hs => ?_
  obtain ⟨k, _, hc⟩ := h.mem s hs
  unfold selectItems
  rw [items_def, hc.count, rows, List.map_map, keep_select]
  rfl

/-- C154: filtering the rows and then running the script gives the same table as running the script and then filtering the rows with the same
predicate on the first columns, when some row satisfies it. -/
theorem C154_filter [Zero α] {σ : Type} {B n : Nat} {ks out : List Nat} {P : List (Serie α) → Res (List (Serie α))} (hP : Script B ks out P)
    {ss ts : List (Serie α)} (h : Table B n ks ss) (h0 : 0 < n) (hB : n * B < 2 ^ 32) (hne : ks ≠ []) (ht : P ss = .ok ts)
    (p : List (List α) → Bool) (hp : ∃ r ∈ rows ss n, p r = true) (st : σ) :
    ∃ fs gs, filterMulti (fun r _ => pure (p r)) ss st = (.ok fs, st) ∧
      filterMulti (fun r _ => pure (p (r.take ks.length))) ts st = (.ok gs, st) ∧ P fs = .ok gs := by
  rcases C154_defined hP h h0 hB with ⟨ts', h1, h2, h3⟩ | ⟨e, _, h1⟩
  · rw [ht] at h1
    cases h1
    have hout : out ≠ [] := by
      intro he
      subst he
      cases h2
      rw [List.prefix_nil] at h3
      subst h3
      cases h
      exact hne rfl
    refine ⟨_, _, filterMulti_select h hne p st, filterMulti_select h2 hout (fun r => p (r.take ks.length)) st, ?_⟩
    obtain ⟨rest, rfl⟩ := h3
    have hrow : ∀ i, (row (ss ++ rest) i).take ks.length = row ss i := fun i => by
      unfold row
      rw [List.map_append, List.take_left' (by rw [List.length_map, h.length])]
    simp only [hrow]
    have hsub : ((List.range n).filter fun i => p (row ss i)).length ≤ n := by
      simpa using List.length_filter_le (fun i => p (row ss i)) (List.range n)
    refine C154_rows hP h h0 hB ht ?_ (fun i hi => List.mem_range.1 (List.mem_filter.1 hi).1)
      (Nat.lt_of_le_of_lt (Nat.mul_le_mul_right _ hsub) hB)
    obtain ⟨r, hr, hpr⟩ := hp
    obtain ⟨i, hi, rfl⟩ := List.mem_map.1 hr
    exact List.ne_nil_of_mem (List.mem_filter.2 ⟨hi, hpr⟩)
  · rw [ht] at h1; cases h1

example := C154_filter exScript exTable (by decide) (by decide) (by decide) rfl (fun r => (r.getD 0 []).getD 0 0 == 1)
  ⟨[[1, 0, 0], [0, 1, 0]], by decide, by decide⟩ ()

end DF
