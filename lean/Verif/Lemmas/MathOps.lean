import Verif.Lemmas.Math

/-! # Lemmas on the arithmetic functions: lists of Series, unary operations, minMax, random, equality -/

namespace DF

open Spec

variable {α β γ σ : Type}

/-! ## unary operations -/

theorem mapItems_length {f : α → α} {s : Serie α} (h : WF s) :
    ∀ v ∈ (items s).map (List.map f), v.length = s.itemSize := by
  intro v hv
  obtain ⟨u, hu, rfl⟩ := List.mem_map.1 hv
  rw [List.length_map]; exact h.item_length hu

theorem mapArr_numbers [Zero α] {s : Serie α} (h : WF s) (h0 : 0 < s.count) {cb : List α → Nat → Res (List α)}
    {f : α → α} (hcb : ∀ v, v.length = s.itemSize → ∀ i, cb v i = .ok (v.map f)) :
    mapArr cb s = .ok (onNumbers f s) := by
  have hfit := h.fits
  have hsm := h.small
  exact mapArr_ok h h0 (AllReturn_map (g := List.map f) (fun v hv i => hcb v (h.item_length hv) i)) h.pos h.int
    (mapItems_length h) (by omega)

theorem onNumbers_facts {f : α → α} {s : Serie α} (h : WF s) :
    WF (onNumbers f s) ∧ SameShape (onNumbers f s) s ∧ items (onNumbers f s) = (items s).map (List.map f) := by
  have hfit := h.fits
  have hsm := h.small
  have hl := mapItems_length (f := f) h
  have hlen : ((items s).map (List.map f)).length = s.count := by simp
  exact ⟨WF_ofItems h.pos h.int hl (by rw [hlen]; omega), ⟨rfl, hlen⟩, items_ofItems hl⟩

theorem mapNum_numbers {s : Serie α} (h : WF s) (h1 : s.itemSize = 1) {f : α → α} {cb : α → Nat → Res α}
    (hcb : ∀ x i, cb x i = .ok (f x)) : mapNum cb s = .ok (onNumbers f s) := by
  rw [mapNum_ok h (AllReturn_map (g := f) (fun x _ i => hcb x i)), ofScalars_eq_ofItems]
  unfold onNumbers
  rw [h1, items_scalar h1 h.count_le]
  simp [Function.comp_def]

/-! ## folding rows -/

theorem forLoop_foldRows {k : Nat} {op : α → α → α} {f : Nat → List α → Res (List α)} :
    ∀ (rows : List (List α)) (lo : Nat) (init : List α), init.length = k → (∀ v ∈ rows, v.length = k) →
    (∀ j (hj : j < rows.length) r, r.length = k → f (lo + j) r = .ok (List.zipWith op r rows[j])) →
    forLoop f lo rows.length init = .ok (rows.foldl (List.zipWith op) init) := by
  intro rows
  induction rows with
  | nil => intros; rfl
  | cons v rows ih =>
    intro lo init hi hr hf
    have h0 := hf 0 (by simp) init hi
    simp only [Nat.add_zero, List.getElem_cons_zero] at h0
    rw [List.length_cons, forLoop_succ, h0, Res.ok_bind, List.foldl_cons]
    refine ih (lo + 1) _ ?_ (fun v hv => hr v (by simp [hv])) (fun j hj r hrl => ?_)
    · rw [List.length_zipWith, hi, hr v (by simp)]; simp
    · have := hf (j + 1) (by simpa using hj) r hrl
      rw [show lo + 1 + j = lo + (j + 1) by omega]
      simpa using this

theorem foldRows_length {k : Nat} {op : α → α → α} : ∀ (rows : List (List α)) (init : List α), init.length = k →
    (∀ v ∈ rows, v.length = k) → (rows.foldl (List.zipWith op) init).length = k := by
  intro rows
  induction rows with
  | nil => intro init h _; exact h
  | cons v rows ih =>
    intro init h hr
    rw [List.foldl_cons]
    refine ih _ ?_ (fun v hv => hr v (by simp [hv]))
    rw [List.length_zipWith, h, hr v (by simp)]; simp

theorem foldRows_cell {op : α → α → α} {c : Nat} : ∀ (rows : List (List α)) (init : List α) (x : α) (xs : List α),
    init[c]? = some x → rows.map (·[c]?) = xs.map some →
    (rows.foldl (List.zipWith op) init)[c]? = some (xs.foldl op x) := by
  intro rows
  induction rows with
  | nil =>
    intro init x xs hx h
    cases xs with
    | nil => exact hx
    | cons _ _ => simp at h
  | cons v rows ih =>
    intro init x xs hx h
    cases xs with
    | nil => simp at h
    | cons y xs =>
      simp only [List.map_cons, List.cons.injEq] at h
      rw [List.foldl_cons, List.foldl_cons]
      exact ih _ _ _ (by rw [List.getElem?_zipWith, hx, h.1]) h.2

/-- The item at position `i`; only used below the count. -/
def rowOf (s : Serie α) (i : Nat) : List α := chunk s.itemSize s.data i

theorem row_length {s : Serie α} (h : WF s) {i : Nat} (hi : i < s.count) : (rowOf s i).length = s.itemSize := by
  unfold rowOf; exact chunk_length (h.item_fits hi)

theorem items_row {s : Serie α} {i : Nat} (hi : i < s.count) : (items s)[i]? = some (rowOf s i) := by
  rw [List.getElem?_eq_getElem (by simpa using hi), items_getElem]; rfl

theorem cell_row {s : Serie α} {i j : Nat} (hi : i < s.count) : cell s i j = (rowOf s i)[j]? := by
  unfold cell; rw [items_row hi]; rfl

theorem rows_cells {ss : List (Serie α)} {i : Nat} (h : ∀ s ∈ ss, i < s.count) (j : Nat) :
    (ss.map (fun s => rowOf s i)).map (·[j]?) = ss.map (fun s => cell s i j) := by
  rw [List.map_map]
  apply List.map_congr_left
  intro s hs
  rw [cell_row (h s hs)]; rfl

theorem cells_some {ss : List (Serie α)} {k n i j : Nat} (hss : ∀ s ∈ ss, WF s ∧ s.itemSize = k ∧ s.count = n)
    (hi : i < n) (hj : j < k) : ∃ xs : List α, ss.map (fun s => cell s i j) = xs.map some := by
  induction ss with
  | nil => exact ⟨[], rfl⟩
  | cons s ss ih =>
    obtain ⟨xs, hx⟩ := ih (fun t ht => hss t (by simp [ht]))
    obtain ⟨hw, hk, hn⟩ := hss s (by simp)
    obtain ⟨x, hx'⟩ := cell_isSome hw (i := i) (j := j) (by omega) (by omega)
    exact ⟨x :: xs, by simp [hx, hx']⟩

theorem cell_ofItems_range {k n : Nat} {F : Nat → List α} (hF : ∀ i, i < n → (F i).length = k) {i j : Nat} (hi : i < n) :
    cell (ofItems k ((List.range n).map F)) i j = (F i)[j]? := by
  unfold cell
  rw [items_ofItems (by
    intro v hv
    obtain ⟨i, hi, rfl⟩ := List.mem_map.1 hv
    exact hF i (by simpa using hi))]
  simp [hi]

theorem mapArr_range [Zero α] {s : Serie α} (h : WF s) (h0 : 0 < s.count) {cb : List α → Nat → Res (List α)} {k : Nat}
    {F : Nat → List α} (hk : 0 < k) (hk' : k < 2 ^ 31) (hn : s.count * k < 2 ^ 32)
    (hF : ∀ i, i < s.count → (F i).length = k) (hcb : ∀ i, i < s.count → cb (rowOf s i) i = .ok (F i)) :
    mapArr cb s = .ok (ofItems k ((List.range s.count).map F)) := by
  refine mapArr_ok h h0 ⟨by simp, fun i h1 h2 => ?_⟩ hk hk' ?_ hn
  · simp only [items_length] at h1
    rw [items_getElem, List.getElem_map, List.getElem_range]
    exact hcb i h1
  · intro v hv
    obtain ⟨i, hi, rfl⟩ := List.mem_map.1 hv
    exact hF i (by simpa using hi)

theorem WF_range {k n : Nat} {F : Nat → List α} (hk : 0 < k) (hk' : k < 2 ^ 31) (hn : n * k < 2 ^ 32)
    (hF : ∀ i, i < n → (F i).length = k) : WF (ofItems k ((List.range n).map F)) := by
  refine WF_ofItems hk hk' ?_ (by simpa using hn)
  intro v hv
  obtain ⟨i, hi, rfl⟩ := List.mem_map.1 hv
  exact hF i (by simpa using hi)

/-! ## add, sub of a list -/

theorem checkLoop_ok {first : Serie α} {g : Nat → Res (Serie α)} : ∀ (ss : List (Serie α)) (lo : Nat),
    (∀ i (h : i < ss.length), g (lo + i) = .ok ss[i]) → (∀ s ∈ ss, SameShape first s) →
    forLoop (m := Res) (fun j (_ : Unit) => do
      let s ← g j
      if first.count ≠ s.count then .throw .invalidArgument
      else if first.itemSize ≠ s.itemSize then .throw .invalidArgument
      else .ok ()) lo ss.length () = .ok () := by
  intro ss
  induction ss with
  | nil => intros; rfl
  | cons s ss ih =>
    intro lo hg h
    have h0 := hg 0 (by simp)
    simp only [Nat.add_zero, List.getElem_cons_zero] at h0
    obtain ⟨e1, e2⟩ := h s (by simp)
    rw [List.length_cons, forLoop_succ, h0, Res.ok_bind, if_neg (by simp [e2]), if_neg (by simp [e1]), Res.ok_bind]
    refine ih (lo + 1) (fun i hi => ?_) (fun t ht => h t (by simp [ht]))
    have := hg (i + 1) (by simpa using hi)
    rw [show lo + 1 + i = lo + (i + 1) by omega]
    simpa using this

theorem checkLoop_throw {first : Serie α} {g : Nat → Res (Serie α)} : ∀ (ss : List (Serie α)) (lo : Nat),
    (∀ i (h : i < ss.length), g (lo + i) = .ok ss[i]) → (∃ s ∈ ss, ¬ SameShape first s) →
    forLoop (m := Res) (fun j (_ : Unit) => do
      let s ← g j
      if first.count ≠ s.count then .throw .invalidArgument
      else if first.itemSize ≠ s.itemSize then .throw .invalidArgument
      else .ok ()) lo ss.length () = .throw .invalidArgument := by
  intro ss
  induction ss with
  | nil => intro _ _ h; obtain ⟨s, hs, _⟩ := h; simp at hs
  | cons s ss ih =>
    intro lo hg h
    have h0 := hg 0 (by simp)
    simp only [Nat.add_zero, List.getElem_cons_zero] at h0
    rw [List.length_cons, forLoop_succ, h0, Res.ok_bind]
    by_cases e2 : first.count = s.count
    · by_cases e1 : first.itemSize = s.itemSize
      · rw [if_neg (by simp [e2]), if_neg (by simp [e1]), Res.ok_bind]
        refine ih (lo + 1) (fun i hi => ?_) ?_
        · have := hg (i + 1) (by simpa using hi)
          rw [show lo + 1 + i = lo + (i + 1) by omega]
          simpa using this
        · obtain ⟨t, ht, hn⟩ := h
          rcases List.mem_cons.1 ht with rfl | ht
          · exact absurd ⟨e1, e2⟩ hn
          · exact ⟨t, ht, hn⟩
      · rw [if_neg (by simp [e2]), if_pos e1]; rfl
    · rw [if_pos e2]; rfl

/-- What `opList` returns. -/
theorem opList_run [Zero α] {op : α → α → α} {first : Serie α} {rest : List (Serie α)} {k n : Nat}
    (hss : ∀ s ∈ first :: rest, WF s ∧ s.itemSize = k ∧ s.count = n) (h0 : 0 < n) :
    opList op (first :: rest) = .ok (ofItems k ((List.range n).map fun i => (rest.map (fun s => rowOf s i)).foldl (List.zipWith op) (rowOf first i))) := by
  obtain ⟨hw, hk, hn⟩ := hss first (by simp)
  have hrest : ∀ s ∈ rest, WF s ∧ s.itemSize = k ∧ s.count = n := fun s hs => hss s (by simp [hs])
  have hfit := hw.fits
  have hsm := hw.small
  have hpos := hw.pos
  have hint := hw.int
  rw [hk] at hpos hint
  rw [hk, hn] at hfit
  have hF : ∀ i, i < n → ((rest.map (fun s => rowOf s i)).foldl (List.zipWith op) (rowOf first i)).length = k := by
    intro i hi
    refine foldRows_length _ _ ?_ ?_
    · rw [row_length hw (by omega), hk]
    · intro v hv
      obtain ⟨s, hs, rfl⟩ := List.mem_map.1 hv
      obtain ⟨a, b, c⟩ := hrest s hs
      rw [row_length a (by omega), b]
  unfold opList
  rw [rd_of_lt (by simp)]
  simp only [List.getElem_cons_zero, Res.ok_bind, List.length_cons, Nat.add_sub_cancel]
  rw [checkLoop_ok (g := fun j => rd (first :: rest) j) rest 1 (fun i hi => by
      rw [Nat.add_comm, rd_of_lt (by simpa using hi)]; simp)
    (fun s hs => ⟨by rw [hk, (hrest s hs).2.1], by rw [hn, (hrest s hs).2.2]⟩), Res.ok_bind]
  rw [mapArr_range hw (by omega) hpos hint (by rw [hn]; omega) (by rw [hn]; exact hF), hn]
  intro i hi
  rw [hn] at hi
  have := forLoop_foldRows (k := k) (op := op) (f := fun j r => do
      let s ← rd (first :: rest) j
      updLoop first.itemSize (fun c x => do
        let v ← s.value i
        let y ← rd v c
        pure (op x y)) r) (rest.map (fun s => rowOf s i)) 1 (rowOf first i) (by rw [row_length hw (by omega), hk])
    (by
      intro v hv
      obtain ⟨s, hs, rfl⟩ := List.mem_map.1 hv
      obtain ⟨a, b, c⟩ := hrest s hs
      rw [row_length a (by omega), b])
    (by
      intro j hj r hr
      simp only [List.length_map] at hj
      obtain ⟨a, b, c⟩ := hrest rest[j] (List.getElem_mem _)
      have hrl := row_length a (i := i) (by omega)
      rw [Nat.add_comm, rd_of_lt (by simpa using hj), Res.ok_bind, List.getElem_cons_succ, List.getElem_map]
      refine updLoop_zip (by omega) (by omega) (fun c hc x => ?_)
      rw [Serie.value_eq a (by omega), Res.ok_bind]
      show (rd (rowOf rest[j] i) c >>= fun y => pure (op x y)) = _
      rw [rd_of_lt hc]; rfl)
  rw [List.length_map] at this
  exact this

theorem opList_eq [Zero α] {op : α → α → α} {first : Serie α} {rest : List (Serie α)} {k n : Nat}
    (hss : ∀ s ∈ first :: rest, WF s ∧ s.itemSize = k ∧ s.count = n) (h0 : 0 < n) :
    ∃ r, opList op (first :: rest) = .ok r ∧ WF r ∧ r.itemSize = k ∧ r.count = n ∧
      ∀ i j, i < n → j < k → ∃ (x : α) (xs : List α), (first :: rest).map (fun s => cell s i j) = (x :: xs).map some ∧
        cell r i j = some (xs.foldl op x) := by
  obtain ⟨hw, hk, hn⟩ := hss first (by simp)
  have hrest : ∀ s ∈ rest, WF s ∧ s.itemSize = k ∧ s.count = n := fun s hs => hss s (by simp [hs])
  have hfit := hw.fits
  have hsm := hw.small
  have hpos := hw.pos
  have hint := hw.int
  rw [hk] at hpos hint
  rw [hk, hn] at hfit
  have hF : ∀ i, i < n → ((rest.map (fun s => rowOf s i)).foldl (List.zipWith op) (rowOf first i)).length = k := by
    intro i hi
    refine foldRows_length _ _ ?_ ?_
    · rw [row_length hw (by omega), hk]
    · intro v hv
      obtain ⟨s, hs, rfl⟩ := List.mem_map.1 hv
      obtain ⟨a, b, c⟩ := hrest s hs
      rw [row_length a (by omega), b]
  refine ⟨_, opList_run hss h0, WF_range hpos hint (by omega) hF, rfl, by simp [ofItems], fun i j hi hj => ?_⟩
  obtain ⟨x, hx⟩ := cell_isSome hw (i := i) (j := j) (by omega) (by omega)
  obtain ⟨xs, hxs⟩ := cells_some hrest hi hj
  refine ⟨x, xs, by simp [hx, hxs], ?_⟩
  rw [cell_ofItems_range hF hi]
  refine foldRows_cell _ _ _ _ (by rw [← cell_row (by omega)]; exact hx) ?_
  rw [rows_cells (fun s hs => by rw [(hrest s hs).2.2]; exact hi), hxs]

theorem opList_throw [Zero α] {op : α → α → α} {first : Serie α} {rest : List (Serie α)}
    (h : ∃ s ∈ rest, ¬ SameShape first s) : opList op (first :: rest) = .throw .invalidArgument := by
  unfold opList
  rw [rd_of_lt (by simp)]
  simp only [List.getElem_cons_zero, Res.ok_bind, List.length_cons, Nat.add_sub_cancel]
  rw [checkLoop_throw (g := fun j => rd (first :: rest) j) rest 1 (fun i hi => by
        rw [Nat.add_comm, rd_of_lt (by simpa using hi)]; simp) h]
  rfl

/-! ## weightedSum -/

/-- What `weightedSum` returns. -/
theorem weightedSum_run [Zero α] [Add α] [Mul α] {series : List (Serie α)} {weights : List α} {k n : Nat}
    (hne : series ≠ []) (hlen : series.length = weights.length)
    (hss : ∀ s ∈ series, WF s ∧ s.itemSize = k ∧ s.count = n) (h0 : 0 < n) :
    weightedSum series weights = .ok (ofItems k ((List.range n).map fun i => (List.zipWith (fun s a => (rowOf s i).map (· * a)) series weights).foldl
      (List.zipWith (· + ·)) (List.replicate k 0))) := by
  obtain ⟨first, rest, rfl⟩ := List.exists_cons_of_ne_nil hne
  obtain ⟨hw, hk, hn⟩ := hss first (by simp)
  have hfit := hw.fits
  have hsm := hw.small
  have hpos := hw.pos
  have hint := hw.int
  rw [hk] at hpos hint
  rw [hk, hn] at hfit
  generalize hS : first :: rest = series at *
  have hrows : ∀ i, i < n → ∀ v ∈ List.zipWith (fun s a => (rowOf s i).map (· * a)) series weights, v.length = k := by
    intro i hi v hv
    obtain ⟨c, hc, rfl⟩ := List.mem_iff_getElem.1 hv
    simp only [List.length_zipWith] at hc
    obtain ⟨a, b, d⟩ := hss series[c] (List.getElem_mem _)
    rw [List.getElem_zipWith, List.length_map, row_length a (by omega), b]
  have hF : ∀ i, i < n → ((List.zipWith (fun s a => (rowOf s i).map (· * a)) series weights).foldl
      (List.zipWith (· + ·)) (List.replicate k 0)).length = k :=
    fun i hi => foldRows_length _ _ (by simp) (hrows i hi)
  unfold weightedSum
  rw [if_neg (by simp [hlen])]
  have hfirst : rd series 0 = .ok first := by rw [← hS]; rfl
  rw [hfirst, Res.ok_bind]
  have hcheck : ∀ l : List (Serie α), (∀ s ∈ l, WF s ∧ s.itemSize = k ∧ s.count = n) →
      l.foldlM (fun (_ : Unit) s =>
        if s.count ≠ first.count then .throw .invalidArgument
        else if s.itemSize ≠ first.itemSize then .throw .invalidArgument
        else .ok ()) () = Res.ok () := by
    intro l
    induction l with
    | nil => intro _; rfl
    | cons s l ih =>
      intro h
      obtain ⟨_, b, c⟩ := h s (by simp)
      rw [List.foldlM_cons, if_neg (by rw [c, hn]; simp), if_neg (by rw [b, hk]; simp), Res.ok_bind]
      exact ih (fun t ht => h t (by simp [ht]))
  rw [hcheck series hss, Res.ok_bind]
  rw [mapArr_range hw (by omega) hpos hint (by rw [hn]; omega) (by rw [hn]; exact hF), hn]
  intro i hi
  rw [hn] at hi
  have hlz : (List.zipWith (fun s a => (rowOf s i).map (· * a)) series weights).length = series.length := by
    rw [List.length_zipWith, hlen]; simp
  have := forLoop_foldRows (k := k) (op := (· + ·)) (f := fun j r => do
      let s ← rd series j
      let sv ← s.value i
      let a ← rd weights j
      updLoop first.itemSize (fun c x => do
        let y ← rd sv c
        pure (x + y * a)) r) (List.zipWith (fun s a => (rowOf s i).map (· * a)) series weights) 0 (List.replicate k 0)
    (by simp) (hrows i hi)
    (by
      intro j hj r hr
      rw [hlz] at hj
      have hj2 : j < weights.length := by omega
      obtain ⟨a, b, c⟩ := hss series[j] (List.getElem_mem _)
      have hrl := row_length a (i := i) (by omega)
      rw [Nat.zero_add, rd_of_lt hj, Res.ok_bind, Serie.value_eq a (by omega), Res.ok_bind, rd_of_lt hj2, Res.ok_bind,
        List.getElem_zipWith]
      refine updLoop_zip (by omega) (by rw [List.length_map]; omega) (fun c hc x => ?_)
      rw [List.length_map] at hc
      show (rd (rowOf series[j] i) c >>= fun y => pure (x + y * weights[j])) = _
      rw [rd_of_lt hc]
      simp)
  rw [hlz] at this
  rw [hk]
  rw [hk] at this
  exact this

theorem weightedSum_eq [Zero α] [Add α] [Mul α] {series : List (Serie α)} {weights : List α} {k n : Nat}
    (hne : series ≠ []) (hlen : series.length = weights.length)
    (hss : ∀ s ∈ series, WF s ∧ s.itemSize = k ∧ s.count = n) (h0 : 0 < n) :
    ∃ r, weightedSum series weights = .ok r ∧ WF r ∧ r.itemSize = k ∧ r.count = n ∧
      ∀ i j, i < n → j < k → ∃ xs : List α, series.map (fun s => cell s i j) = xs.map some ∧
        cell r i j = some ((List.zipWith (· * ·) xs weights).foldl (· + ·) 0) := by
  obtain ⟨first, rest, rfl⟩ := List.exists_cons_of_ne_nil hne
  obtain ⟨hw, hk, hn⟩ := hss first (by simp)
  have hfit := hw.fits
  have hsm := hw.small
  have hpos := hw.pos
  have hint := hw.int
  rw [hk] at hpos hint
  rw [hk, hn] at hfit
  have hrun := weightedSum_run hne hlen hss h0
  generalize hS : first :: rest = series at *
  have hrows : ∀ i, i < n → ∀ v ∈ List.zipWith (fun s a => (rowOf s i).map (· * a)) series weights, v.length = k := by
    intro i hi v hv
    obtain ⟨c, hc, rfl⟩ := List.mem_iff_getElem.1 hv
    simp only [List.length_zipWith] at hc
    obtain ⟨a, b, d⟩ := hss series[c] (List.getElem_mem _)
    rw [List.getElem_zipWith, List.length_map, row_length a (by omega), b]
  have hF : ∀ i, i < n → ((List.zipWith (fun s a => (rowOf s i).map (· * a)) series weights).foldl
      (List.zipWith (· + ·)) (List.replicate k 0)).length = k :=
    fun i hi => foldRows_length _ _ (by simp) (hrows i hi)
  refine ⟨_, hrun, WF_range hpos hint (by omega) hF, rfl, by simp [ofItems], fun i j hi hj => ?_⟩
  obtain ⟨xs, hxs⟩ := cells_some hss hi hj
  refine ⟨xs, hxs, ?_⟩
  rw [cell_ofItems_range hF hi]
  refine foldRows_cell _ _ _ _ (by simp [hj]) ?_
  have hxl : series.length = xs.length := by simpa using congrArg List.length hxs
  apply List.ext_getElem?
  intro c
  have := congrArg (·[c]?) hxs
  simp only [List.getElem?_map] at this
  rw [List.getElem?_map, List.getElem?_map, List.getElem?_zipWith, List.getElem?_zipWith]
  by_cases hc : c < series.length
  · rw [List.getElem?_eq_getElem hc] at this ⊢
    rw [List.getElem?_eq_getElem (show c < xs.length by omega)] at this ⊢
    rw [List.getElem?_eq_getElem (show c < weights.length by omega)]
    simp only [Option.map_some, Option.some.injEq] at this ⊢
    rw [cell_row (by rw [(hss _ (List.getElem_mem hc)).2.2]; exact hi)] at this
    rw [List.getElem?_map, this]; rfl
  · rw [List.getElem?_eq_none (by omega), List.getElem?_eq_none (show xs.length ≤ c by omega)]
    rfl

end DF
