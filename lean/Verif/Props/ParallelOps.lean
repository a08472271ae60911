import Verif.Props.Laws
import Verif.Props.Math
import Verif.Props.Algebra
import Verif.Props.Geo
import Verif.Props.Eigen

/-!
# Operations of the library run by parallel_execute (C107)

`ParallelExecute f s n dur r`: some interleaving of `parallel_execute(f, s, n)` ends with outcome `r`.
-/

namespace DF

open Spec

variable {α : Type}

/-- The parts handed to the jobs: none is empty, their dimension is 3. -/
theorem par_parts [Zero α] {s : Serie α} (h : WF s) (h0 : 0 < s.count) {n : Nat} (hn : 0 < n) :
    ∃ parts, partitionN n s = .ok parts ∧ parts.length = min n s.count ∧ (parts.map items).flatten = items s ∧
      (∀ i (hi : i < parts.length), parts[i].count = s.count / n + if i < s.count % n then 1 else 0) ∧
      ∀ p ∈ parts, WF p ∧ p.itemSize = s.itemSize ∧ 0 < p.count ∧ p.count ≤ s.count ∧ p.dimension = 3 := by
  obtain ⟨parts, p1, p2, p3, p4, p5, _⟩ := C23_partition h hn
  refine ⟨parts, p1, by omega, p4, p5, fun p hp => ⟨(p3 p hp).1, (p3 p hp).2, ?_, ?_, ?_⟩⟩
  · obtain ⟨i, hi, rfl⟩ := List.getElem_of_mem hp
    rw [p5 i hi]
    by_cases hc : n ≤ s.count
    · have := Nat.div_pos hc hn; omega
    · rw [if_pos (by rw [Nat.mod_eq_of_lt (by omega)]; omega)]
      exact Nat.succ_pos _
  · rw [← items_length s, ← p4, flatten_items_length]
    exact le_sum_of_mem (List.mem_map.2 ⟨p, hp, rfl⟩)
  · obtain ⟨m, _, _, _, _, h5⟩ := partLoop_eq h hn n 0 [] hn (by omega) (by omega)
    rw [cut_zero] at h5
    have : partitionN n s = .ok ([] ++ (List.range' 0 (m - 0)).map (fun j => ofItems s.itemSize (partItems s n j))) := by
      unfold partitionN; rw [if_neg (by omega)]; exact h5
    rw [p1] at this
    cases this
    simp only [List.nil_append, List.mem_map] at hp
    obtain ⟨j, _, rfl⟩ := hp
    rfl

/-- A function that applies `g` to every item of every part gives the Serie of the `g`-images. -/
theorem par_items [Zero α] {f : Serie α → Res (Serie α)} {s : Serie α} (h : WF s) (h0 : 0 < s.count) {k : Nat} (hk : 0 < k)
    (hk' : k < 2 ^ 31) (hfit : s.count * k < 2 ^ 32) {g : List α → List α} (hg : ∀ v ∈ items s, (g v).length = k)
    (hf : ∀ p, WF p → p.itemSize = s.itemSize → 0 < p.count → p.dimension = 3 → p.count ≤ s.count →
      f p = .ok (ofItems k ((items p).map g)))
    {n : Nat} (hn : 2 ≤ n) {dur : Nat → Nat} {r : Res (Serie α)} (hr : ParallelExecute f s n dur r) :
    r = .ok (ofItems k ((items s).map g)) := by
  obtain ⟨parts, p1, p2, p3, _, p5⟩ := par_parts h h0 (n := n) (by omega)
  have hfp : ∀ p ∈ parts, f p = .ok (ofItems k ((items p).map g)) := fun p hp =>
    hf p (p5 p hp).1 (p5 p hp).2.1 (p5 p hp).2.2.1 (p5 p hp).2.2.2.2 (p5 p hp).2.2.2.1
  have hsub : ∀ p ∈ parts, ∀ v ∈ items p, v ∈ items s := fun p hp v hv => by
    rw [← p3]; exact List.mem_flatten.2 ⟨_, List.mem_map.2 ⟨p, hp, rfl⟩, hv⟩
  rw [par_outcome hn p1 hr (fun p hp => by rw [hfp p hp]; simp)]
  rw [mapM_ok (g := fun p => ofItems k ((items p).map g)) parts (fun p hp => by
    unfold parJob
    rw [hfp p hp]
    simp [ofItems]), Res.ok_bind]
  have hcount : ((parts.map fun p => ofItems k ((items p).map g)).map (·.count)).sum = s.count := by
    rw [List.map_map, ← items_length s, ← p3, flatten_items_length]
    exact congrArg _ (List.map_congr_left fun p _ => by simp [ofItems])
  unfold parFinish
  rw [if_neg (by rw [hcount]; simp), concat_eq (k := k)]
  · rw [List.map_map, ← p3, List.map_flatten, List.map_map]
    congr 3
    refine List.map_congr_left fun p hp => ?_
    exact items_ofItems (by
      intro v hv; obtain ⟨w, hw, rfl⟩ := List.mem_map.1 hv; exact hg w (hsub p hp w hw))
  · intro he
    rw [List.map_eq_nil_iff] at he
    subst he; simp at p2; omega
  · intro t ht
    obtain ⟨p, hp, rfl⟩ := List.mem_map.1 ht
    exact ⟨WF_ofItems hk hk' (by
      intro v hv; obtain ⟨w, hw, rfl⟩ := List.mem_map.1 hv; exact hg w (hsub p hp w hw)) (by
      rw [List.length_map, items_length]
      exact Nat.lt_of_le_of_lt (Nat.mul_le_mul_right _ (p5 p hp).2.2.2.1) hfit), rfl⟩
  · rw [hcount]; exact hfit

/-- A function that throws on every part. -/
theorem par_throws [Zero α] {f : Serie α → Res (Serie α)} {s : Serie α} (h : WF s) (h0 : 0 < s.count) {n : Nat} (hn : 2 ≤ n) {e : Err}
    (he : StdError e) (hf : ∀ p, WF p → p.itemSize = s.itemSize → 0 < p.count → p.dimension = 3 → f p = .throw e)
    {dur : Nat → Nat} {r : Res (Serie α)} (hr : ParallelExecute f s n dur r) : r = .throw .invalidArgument := by
  obtain ⟨parts, p1, p2, p3, _, p5⟩ := par_parts h h0 (n := n) (by omega)
  have hbad : ∀ p ∈ parts, f p = .throw e := fun p hp => hf p (p5 p hp).1 (p5 p hp).2.1 (p5 p hp).2.2.1 (p5 p hp).2.2.2.2
  have hlen : 0 < parts.length := by omega
  have := (C25_first_failure hn p1 hr (fun p hp => by rw [hbad p hp]; simp) hlen (fun i _ hi => by omega)).1 _
    he (hbad _ (List.getElem_mem hlen))
  exact this

/-- The same for functions that work number by number. -/
theorem par_numbers [Zero α] {f : Serie α → Res (Serie α)} {g : α → α}
    (hf : ∀ p, WF p → 0 < p.count → f p = .ok (onNumbers g p)) {s : Serie α} (h : WF s) (h0 : 0 < s.count) {n : Nat} (hn : 0 < n)
    {dur : Nat → Nat} {r : Res (Serie α)} (hr : ParallelExecute f s n dur r) : r = f s := by
  by_cases h1 : n = 1
  · subst h1; exact hr
  · rw [hf s h h0]
    exact par_items h h0 h.pos h.int (Nat.lt_of_le_of_lt h.fits h.small)
      (fun v hv => by rw [List.length_map]; exact h.item_length hv)
      (fun p hp hk hp0 _ _ => by rw [hf p hp hp0, onNumbers, hk]) (by omega) hr

/-- C107: scaling, negating, multiplying and dividing by a number give the same result in parallel. -/
theorem C107_numbers [DivisionRing α] {s : Serie α} (h : WF s) (h0 : 0 < s.count) {n : Nat} (hn : 0 < n) (x : α) (dur : Nat → Nat)
    (r : Res (Serie α)) :
    (ParallelExecute (fun s => scale s x) s n dur r → r = scale s x) ∧
    (ParallelExecute negate s n dur r → r = negate s) ∧
    (ParallelExecute (fun s => mult s x) s n dur r → r = mult s x) ∧
    (ParallelExecute (fun s => divNum x s) s n dur r → r = divNum x s) :=
  ⟨par_numbers (f := fun s => scale s x) (fun _ hp hp0 => C36_scale hp hp0 x) h h0 hn,
    par_numbers (f := negate) (fun _ hp hp0 => C36_negate hp hp0) h h0 hn,
    par_numbers (f := fun s => mult s x) (fun _ hp hp0 => C36_mult hp hp0 x) h h0 hn,
    par_numbers (f := fun s => divNum x s) (fun _ hp hp0 => C36_div hp hp0 x) h h0 hn⟩

example := C107_numbers (s := (⟨[1, 2, 3, 4], 2, 2, 3⟩ : Serie ℚ)) (by decide) (by decide) (n := 2) (by decide) 3 (fun _ => 5)

/-- C107: transposing matrices and projecting displacements on the line of sight give the same result in parallel. -/
theorem C107_items [CommRing α] {s : Serie α} (h : WF s) (h0 : 0 < s.count) {n : Nat} (hn : 0 < n) (dur : Nat → Nat) (r : Res (Serie α)) :
    (s.itemSize = 4 ∨ s.itemSize = 9 → ParallelExecute transpose s n dur r → r = transpose s) ∧
    (∀ los : List α, los.length = 3 → s.itemSize = 3 → ParallelExecute (fun s => insar s los) s n dur r → r = insar s los) := by
  have hfit := Nat.lt_of_le_of_lt h.fits h.small
  by_cases h1 : n = 1
  · subst h1; exact ⟨fun _ hr => hr, fun _ _ _ hr => hr⟩
  constructor
  · rintro (hk | hk) hr
    · rw [transpose_run2 h h0 hk]
      exact par_items (k := 4) h h0 (by omega) (by omega) (by rw [← hk]; exact hfit) (fun _ _ => rfl)
        (fun p hp hpk hp0 _ _ => transpose_run2 hp hp0 (hpk.trans hk)) (by omega) hr
    · rw [transpose_run3 h h0 hk]
      exact par_items (k := 9) h h0 (by omega) (by omega) (by rw [← hk]; exact hfit) (fun _ _ => rfl)
        (fun p hp hpk hp0 _ _ => transpose_run3 hp hp0 (hpk.trans hk)) (by omega) hr
  · intro los hl hk hr
    have key : ∀ p : Serie α, WF p → p.itemSize = 3 → 0 < p.count → insar p los = .ok (ofItems 1 ((items p).map fun v => [dotL v los])) := by
      intro p hp hpk hp0
      unfold insar dotArray
      rw [hp.valid, if_neg (by simp [hpk]), if_neg (by simp [hl]), Serie.value_eq hp hp0, Res.ok_bind,
        chunk_length (hp.item_fits hp0), if_neg (by simp [hl, hpk])]
      exact mapArr_items hp hp0 (by omega) (by omega) (fun _ _ => rfl) (fun u hu i => dotItem_eq hu (hl.trans hpk.symm))
    rw [key s h hk h0]
    exact par_items (k := 1) h h0 (by omega) (by omega) (by rw [hk] at hfit; omega) (fun _ _ => rfl)
      (fun p hp hpk hp0 _ _ => key p hp (hpk.trans hk) hp0) (by omega) hr

example := (C107_items (s := (⟨[1, 2, 3, 4, 5, 6], 2, 3, 3⟩ : Serie ℚ)) (by decide) (by decide) (n := 2) (by decide) (fun _ => 5)
  (.ok ⟨[4, 10], 2, 1, 3⟩)).2 [1, 0, 1] rfl rfl

/-- C107: the parts of a Serie have dimension 3, whatever the dimension of the Serie: determinants of 2D matrices cannot be
computed in parallel, although `det(s)` returns. -/
theorem C107_det_2d_violated [CommRing α] {s : Serie α} (h : WF s) (h0 : 0 < s.count) (hk : s.itemSize = 4) (hd : s.dimension = 2)
    {n : Nat} (hn : 2 ≤ n) (dur : Nat → Nat) :
    (∃ t, det s = .ok t) ∧ ∀ r, ParallelExecute det s n dur r → r = .throw .invalidArgument := by
  refine ⟨⟨_, det_run2 h h0 hk hd⟩, fun r hr => ?_⟩
  exact par_throws h h0 hn (e := .invalidArgument) (by intro m h; cases h) (fun p hp hpk hp0 hd => C50_throws hp hp0 (by omega) (by omega)) hr

example := C107_det_2d_violated (s := (⟨[1, 2, 3, 4, 5, 6, 7, 8], 2, 4, 2⟩ : Serie ℚ)) (by decide) (by decide) rfl rfl (n := 2) (by decide)
  (fun _ => 5)

/-- C107: normalizing vectors gives the same result in parallel. -/
theorem C107_normalize_items [Zero α] [One α] [Add α] [Sub α] [Mul α] [Div α] [LT α] [DecidableLT α] [Limits α] [Sqrt α]
    {s : Serie α} (h : WF s) (h0 : 0 < s.count) (h1 : s.itemSize ≠ 1) {n : Nat} (hn : 0 < n) {dur : Nat → Nat} {r : Res (Serie α)}
    (hr : ParallelExecute normalize s n dur r) : r = normalize s := by
  by_cases hn1 : n = 1
  · subst hn1; exact hr
  let g : List α → List α := fun v =>
    let l := 1 / Sqrt.sqrt (v.foldl (fun acc v => acc + v * v) 0)
    v.map (fun x => x * l)
  have key : ∀ p : Serie α, WF p → p.itemSize = s.itemSize → 0 < p.count → normalize p = .ok (ofItems s.itemSize ((items p).map g)) := by
    intro p hp hk hp0
    have := hp.fits
    have := hp.small
    unfold normalize
    rw [hp.valid, if_neg (by simp), if_neg (by rw [hk]; exact h1), ← hk]
    refine mapArr_ok hp hp0 (AllReturn_map (fun v _ i => rfl)) hp.pos hp.int (fun v hv => ?_) (by simp; omega)
    obtain ⟨u, hu, rfl⟩ := List.mem_map.1 hv
    simp only [g, List.length_map]
    exact hp.item_length hu
  rw [key s h rfl h0]
  exact par_items h h0 h.pos h.int (Nat.lt_of_le_of_lt h.fits h.small)
    (fun v hv => by simp only [g, List.length_map]; exact h.item_length hv)
    (fun p hp hpk hp0 _ _ => key p hp hpk hp0) (by omega) hr

example := @C107_normalize_items ℚ _ _ _ _ _ _ _ _ ⟨1000, -1000⟩ ⟨id⟩ ⟨[3, 4, 0, 1], 2, 2, 3⟩ (by decide) (by decide) (by decide) 2
  (by decide) (fun _ => 5) (.ok ⟨[3 / 25, 4 / 25, 0, 1], 2, 2, 3⟩)

/-- C107: normalizing numbers does not: each part is brought to [0, 1] on its own. -/
theorem C107_normalize_numbers_violated : letI : Limits ℚ := ⟨1000, -1000⟩; letI : Sqrt ℚ := ⟨id⟩
    normalize (⟨[0, 1, 2, 3], 4, 1, 3⟩ : Serie ℚ) = .ok ⟨[0, 1 / 3, 2 / 3, 1], 4, 1, 3⟩ ∧
    ∀ (dur : Nat → Nat) (r : Res (Serie ℚ)), ParallelExecute normalize ⟨[0, 1, 2, 3], 4, 1, 3⟩ 2 dur r →
      r = .ok ⟨[0, 1, 0, 1], 4, 1, 3⟩ := by
  let _ : Limits ℚ := ⟨1000, -1000⟩
  let _ : Sqrt ℚ := ⟨id⟩
  refine ⟨by decide +kernel, fun dur r hr => ?_⟩
  have hp : partitionN 2 (⟨[0, 1, 2, 3], 4, 1, 3⟩ : Serie ℚ) = .ok [⟨[0, 1], 2, 1, 3⟩, ⟨[2, 3], 2, 1, 3⟩] := by decide +kernel
  rw [par_outcome (by omega) hp hr (by
    intro p hm
    simp only [List.mem_cons, List.not_mem_nil, or_false] at hm
    rcases hm with rfl | rfl <;> decide +kernel)]
  decide +kernel

/-- C107: the eigen values and vectors of symmetric 3D matrices are the same in parallel. -/
theorem C107_eigen [Trig ℝ] (ht : ExactTrig) {s : Serie ℝ} (h : WF s) (h0 : 0 < s.count) (hs : EigenShape 3 s)
    (hfit : s.count * 9 < 2 ^ 32) {n : Nat} (hn : 0 < n) (dur : Nat → Nat) (r : Res (Serie ℝ)) :
    (ParallelExecute eigenValues s n dur r → r = eigenValues s) ∧ (ParallelExecute eigenVectors s n dur r → r = eigenVectors s) := by
  by_cases hn1 : n = 1
  · subst hn1; exact ⟨id, id⟩
  have hk : s.itemSize = 6 := by rcases hs.2 with ⟨h, _⟩ | ⟨_, h⟩; exact absurd h (by decide); exact h
  -- parts are small enough as well
  have key : ∀ p : Serie ℝ, WF p → p.itemSize = s.itemSize → 0 < p.count → p.dimension = 3 → p.count ≤ s.count →
      eigenValues p = .ok (ofItems 3 ((items p).map fun t => (eigOf 3 t).1)) ∧
      eigenVectors p = .ok (ofItems 9 ((items p).map fun t => (eigOf 3 t).2)) := fun p hp hpk hp0 hd hle =>
    eigenFun_run (hpk ▸ eigen_returns ht hs) hp hp0 ⟨hd, .inr ⟨rfl, hpk.trans hk⟩⟩ (by omega)
  have hlen : ∀ v ∈ items s, (eigOf 3 v).1.length = 3 ∧ (eigOf 3 v).2.length = 9 := fun v hv =>
    (eigen_returns ht hs v (h.item_length hv)).2
  obtain ⟨k1, k2⟩ := key s h rfl h0 hs.1 (Nat.le_refl _)
  rw [k1, k2]
  exact ⟨par_items (k := 3) h h0 (by omega) (by omega) (by omega) (fun v hv => (hlen v hv).1)
      (fun p hp hpk hp0 hd hle => (key p hp hpk hp0 hd hle).1) (by omega),
    par_items (k := 9) h h0 (by omega) (by omega) (by omega) (fun v hv => (hlen v hv).2)
      (fun p hp hpk hp0 hd hle => (key p hp hpk hp0 hd hle).2) (by omega)⟩

example := @C107_eigen realTrig exactTrig exEig3 exEig3_WF (by decide) exEig3_shape (by decide) 2 (by decide) (fun _ => 5)

/-- C107: those of 2D matrices cannot be computed in parallel. -/
theorem C107_eigen_2d_violated [Trig ℝ] (ht : ExactTrig) {s : Serie ℝ} (h : WF s) (h0 : 0 < s.count) (hs : EigenShape 2 s)
    (hfit : s.count * 4 < 2 ^ 32) {n : Nat} (hn : 2 ≤ n) (dur : Nat → Nat) :
    (∃ t, eigenValues s = .ok t) ∧ ∀ r, ParallelExecute eigenValues s n dur r → r = .throw .invalidArgument := by
  refine ⟨⟨_, (eigenFun_run (eigen_returns ht hs) h h0 hs hfit).1⟩, fun r hr => ?_⟩
  have hk : s.itemSize = 3 := by rcases hs.2 with ⟨_, h⟩ | ⟨h, _⟩; exact h; exact absurd h (by decide)
  exact par_throws h h0 hn (e := .runtimeError) (by intro m h; cases h) (fun p hp hpk _ hd => (C79_throws (.inr ⟨hd, by omega⟩)).1) hr

example := @C107_eigen_2d_violated realTrig exactTrig exEig2 exEig2_WF (by decide) exEig2_shape (by decide) 2 (by decide) (fun _ => 5)

/-- C107: a `filter` that drops an item is refused in parallel: every job must return as many items as it gets. -/
theorem C107_filter_throws [Zero α] {s : Serie α} (h : WF s) (p : List α → Bool) (hd : ∃ v ∈ items s, p v = false) {n : Nat} (hn : 2 ≤ n)
    {dur : Nat → Nat} {r : Res (Serie α)}
    (hr : ParallelExecute (fun s => (filterV (σ := Unit) (pureCb fun v _ => p v) s ()).1) s n dur r) : r = .throw .invalidArgument := by
  obtain ⟨v, hv, hpv⟩ := hd
  have h0 : 0 < s.count := by rw [← items_length s]; exact List.length_pos_of_mem hv
  obtain ⟨parts, p1, p2, p3, _, p5⟩ := par_parts h h0 (n := n) (by omega)
  have hrun : ∀ q ∈ parts, (filterV (σ := Unit) (pureCb fun v _ => p v) q ()).1 = .ok (ofItems q.itemSize ((items q).filter p)) :=
    fun q hq => by rw [filterV_free (p5 q hq).1]; rfl
  have hub : ∀ q ∈ parts, (filterV (σ := Unit) (pureCb fun v _ => p v) q ()).1 ≠ .ub := fun q hq => by rw [hrun q hq]; simp
  rw [← p3] at hv
  obtain ⟨_, hl, hv⟩ := List.mem_flatten.1 hv
  obtain ⟨q, hq, rfl⟩ := List.mem_map.1 hl
  -- the first part that loses an item
  have hex : ∃ i, ∃ hi : i < parts.length, ((items parts[i]).filter p).length ≠ parts[i].count := by
    obtain ⟨i, hi, rfl⟩ := List.getElem_of_mem hq
    refine ⟨i, hi, ?_⟩
    rw [← items_length]
    have := List.length_filter_lt_length_iff_exists (p := p).2 ⟨v, hv, by simp [hpv]⟩
    omega
  classical
  obtain ⟨hk, hne⟩ := Nat.find_spec hex
  refine (C25_first_failure hn p1 hr hub hk (fun i hi hik => ⟨_, hrun _ (List.getElem_mem hi), ?_⟩)).2.2 _
    (hrun _ (List.getElem_mem hk)) hne
  have := Nat.find_min hex hik
  by_contra hc
  exact this ⟨hi, hc⟩

example := C107_filter_throws (s := ex23) ex23_WF (fun v => decide (v.sum < 10)) (by decide) (n := 2) (by decide) (dur := fun _ => 5)
  (r := .throw .invalidArgument)

/-- C107: the index seen by a callback is the position in the part: the outcome of a `map` using the index. -/
theorem C107_index [Zero α] {s : Serie α} (h : WF s) (h0 : 0 < s.count) (f : α → Nat → α) {n : Nat} (hn : 2 ≤ n)
    {dur : Nat → Nat} {r : Res (Serie α)} (hr : ParallelExecute (fun s => (mapSS (σ := Unit) (pureCb f) s ()).1) s n dur r) :
    ∃ parts, partitionN n s = .ok parts ∧
      r = .ok (ofScalars (parts.map fun p => (scalars p).mapIdx fun i x => f x i).flatten) := by
  obtain ⟨parts, p1, p2, p3, _, p5⟩ := par_parts h h0 (n := n) (by omega)
  have hrun : ∀ q ∈ parts, (mapSS (σ := Unit) (pureCb f) q ()).1 = .ok (ofScalars ((scalars q).mapIdx fun i x => f x i)) :=
    fun q hq => by rw [mapSS_eq (p5 q hq).1, callAll_pure, pure_bind]; rfl
  refine ⟨parts, p1, ?_⟩
  rw [par_outcome hn p1 hr (fun q hq => by rw [hrun q hq]; simp),
    mapM_ok (g := fun q => ofScalars ((scalars q).mapIdx fun i x => f x i)) parts (fun q hq => by
      unfold parJob
      simp only [hrun q hq]
      simp [ofScalars, (p5 q hq).1.scalars_length]), Res.ok_bind]
  have hcount : ((parts.map fun q => ofScalars ((scalars q).mapIdx fun i x => f x i)).map (·.count)).sum = s.count := by
    rw [List.map_map, ← items_length s, ← p3, flatten_items_length]
    exact congrArg _ (List.map_congr_left fun q hq => by simp [ofScalars, (p5 q hq).1.scalars_length])
  unfold parFinish
  rw [if_neg (by rw [hcount]; simp), concat_scalars]
  · rw [List.map_map]
    congr 3
    exact List.map_congr_left fun q _ => scalars_ofScalars _ _
  · intro he
    rw [List.map_eq_nil_iff] at he
    subst he; simp at p2; omega
  · intro t ht
    obtain ⟨q, hq, rfl⟩ := List.mem_map.1 ht
    exact ⟨WF_ofScalars (by rw [List.length_mapIdx, (p5 q hq).1.scalars_length]; exact (p5 q hq).1.count_lt), rfl⟩
  · rw [hcount]; exact h.count_lt

example := C107_index (s := ex41) ex41_WF (by decide) (fun x i => x * i) (n := 2) (by decide) (dur := fun _ => 5)
  (r := .ok ⟨[0, 1, 0, 1], 4, 1, 3⟩)

/-- C107: so a `map` that writes down the index gives another result in parallel, as soon as there are two items and two cores. -/
theorem C107_index_violated [AddMonoidWithOne α] [CharZero α] {s : Serie α} (h : WF s) (h2 : 2 ≤ s.count)
    {n : Nat} (hn : 2 ≤ n) {dur : Nat → Nat} {r : Res (Serie α)}
    (hr : ParallelExecute (fun s => (mapSS (σ := Unit) (pureCb fun _ i => (i : α)) s ()).1) s n dur r) :
    r ≠ (mapSS (σ := Unit) (pureCb fun _ i => (i : α)) s ()).1 := by
  obtain ⟨parts, p1, rfl⟩ := C107_index h (by omega) (fun _ i => (i : α)) hn hr
  obtain ⟨parts', p1', p2, p3, _, p5⟩ := par_parts h (by omega) (n := n) (by omega)
  rw [p1] at p1'
  cases p1'
  rw [mapSS_eq h, callAll_pure, pure_bind]
  intro he
  have he := congrArg scalars (Res.ok.inj (show Res.ok _ = Res.ok _ from he))
  rw [scalars_ofScalars, scalars_ofScalars] at he
  match parts, p2, p5, he with
  | [], p2, _, _ => simp at p2; omega
  | [_], p2, _, _ => simp at p2; omega
  | a :: b :: rest, _, p5, he =>
    have ha := p5 a (by simp)
    have hb := p5 b (by simp)
    have hb0 : 0 < (scalars b).length := by rw [hb.1.scalars_length]; exact hb.2.2.1
    have := congrArg (·[a.count]?) he
    simp only [List.map_cons, List.flatten_cons] at this
    rw [List.getElem?_append_right (by simp [ha.1.scalars_length]), List.getElem?_append_left (by
      simp [ha.1.scalars_length]; exact hb0)] at this
    simp only [List.length_mapIdx, ha.1.scalars_length, Nat.sub_self, List.getElem?_mapIdx] at this
    have hin : a.count < (scalars s).length := by
      have := p3
      have hl := congrArg List.length this
      rw [flatten_items_length, items_length] at hl
      simp only [List.map_cons, List.sum_cons] at hl
      rw [h.scalars_length]
      have := hb.2.2.1
      omega
    rw [List.getElem?_eq_getElem hb0, List.getElem?_eq_getElem hin] at this
    simp only [Option.map_some, Option.some.injEq, Nat.cast_zero] at this
    have := Nat.cast_eq_zero.1 this.symm
    have := ha.2.2.1
    omega

example := C107_index_violated (s := ex41) ex41_WF (by decide) (n := 2) (by decide) (dur := fun _ => 5)
  (r := .ok ⟨[0, 1, 0, 1], 4, 1, 3⟩)

end DF
