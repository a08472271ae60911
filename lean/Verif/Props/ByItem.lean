import Verif.Lemmas.ByItem
import Verif.Props.ParallelOps

/-!
# C153: pipelines of functions that work item by item

Such a pipeline can be run on the pieces of a Serie, in parallel, or on a selection of its items: the results are the same.
-/

namespace DF

open Spec

variable {α : Type}

/-! ## the functions of the library -/

/-- C153: scaling, negating, multiplying and dividing by a number work item by item, whatever the item size. -/
theorem C153_numbers [DivisionRing α] {k B : Nat} (hk : 0 < k) (hk' : k < 2 ^ 31) (hB : k ≤ B) (x : α) (xs : List α) (hx : xs.length = k) :
    ItemByItem B k k (fun s => scale s x) ∧ ItemByItem B k k (fun s => scaleBy s xs) ∧ ItemByItem B k k (negate (α := α)) ∧
    ItemByItem B k k (fun s => mult s x) ∧ ItemByItem B k k (fun s => divNum x s) := by
  have key : ∀ {f : Serie α → Res (Serie α)} (g : α → α), (∀ s, WF s → 0 < s.count → f s = .ok (onNumbers g s)) → ItemByItem B k k f :=
    fun g hf => ⟨hk, hB, hk', _, fun v hv => .inl ⟨v.map g, rfl, by rw [List.length_map, hv]⟩,
      Spec.Applies.ofRun fun s h hk _ h0 _ => by rw [hf s h h0, ← hk]; rfl⟩
  refine ⟨key _ fun s h h0 => C36_scale h h0 x, ?_, key _ fun s h h0 => C36_negate h h0, key _ fun s h h0 => C36_mult h h0 x,
    key _ fun s h h0 => C36_div h h0 x⟩
  exact ⟨hk, hB, hk', _, fun v hv => .inl ⟨List.zipWith (· * ·) v xs, rfl, by simp [hv, hx]⟩,
    Spec.Applies.ofRun fun s h hk _ h0 _ => by rw [(C36_scale_by h h0 xs).1 (hx.trans hk.symm), hk]⟩

example := C153_numbers (α := ℚ) (k := 3) (B := 9) (by decide) (by decide) (by decide) 2 [1, 2, 3] rfl

/-- C153: so do transposing matrices stored in full, the determinants of 3D matrices stored in full, and inverting 3D matrices, which
throws on an item whose determinant is too small. -/
theorem C153_matrices [Field α] [LinearOrder α] [IsStrictOrderedRing α] {B : Nat} (hB : 9 ≤ B) :
    ItemByItem B 4 4 (transpose (α := α)) ∧ ItemByItem B 9 9 (transpose (α := α)) ∧ ItemByItem B 9 1 (det (α := α)) ∧
    ItemByItem B 6 6 (inv (α := α)) ∧ ItemByItem B 9 9 (inv (α := α)) := by
  refine ⟨⟨by decide, by omega, by decide, _, fun v hv => .inl ⟨_, rfl, rfl⟩,
      Spec.Applies.ofRun fun s h hk _ h0 _ => transpose_run2 h h0 hk⟩,
    ⟨by decide, by omega, by decide, _, fun v hv => .inl ⟨_, rfl, rfl⟩,
      Spec.Applies.ofRun fun s h hk _ h0 _ => transpose_run3 h h0 hk⟩,
    ⟨by decide, by omega, by decide, _, fun v hv => .inl ⟨_, rfl, rfl⟩,
      Spec.Applies.ofRun fun s h hk hd h0 _ => det_run3 h h0 hk hd⟩,
    ⟨by decide, by omega, by decide, invSym, ?_, Spec.Applies.ofMap ?_ (by decide) (by decide) ?_⟩,
    ⟨by decide, by omega, by decide, invFull, ?_, Spec.Applies.ofMap ?_ (by decide) (by decide) ?_⟩⟩
  all_goals first
    | (intro s h hk hd h0 _
       refine ⟨fun t _ => _, ?_, fun v _ i => rfl⟩
       unfold inv
       rw [h.valid, if_neg (by simp), if_neg (by omega)]
       first | rw [if_pos hk] | rw [if_neg (by omega)])
    | skip
  all_goals
    intro v hv
    first
    | (have h6 : v.length = 6 := hv
       by_cases hd : |(symMatrix3 v).det| < 1 / 10 ^ 10
       · exact .inr ⟨_, stdError_iff.2 rfl, invSym_small h6 hd⟩
       · exact .inl ⟨_, invSym_ok h6 hd, rfl⟩)
    | (have h9 : v.length = 9 := hv
       by_cases hd : |(fullMatrix 3 v).det| < 1 / 10 ^ 10
       · exact .inr ⟨_, stdError_iff.2 rfl, invFull_small h9 hd⟩
       · exact .inl ⟨_, invFull_ok h9 hd, rfl⟩)

example := C153_matrices (α := ℚ) (B := 9) (by decide)

/-- C153: so do projecting on a direction, projecting displacements on the line of sight, and normalizing vectors (items of at least
two numbers). -/
theorem C153_vectors [Field α] [LinearOrder α] [Limits α] [Sqrt α] {k B : Nat} (hk1 : 1 < k) (hk' : k < 2 ^ 31) (hB : k ≤ B) (b los : List α)
    (hb : b.length = k) (hl : los.length = 3) :
    ItemByItem B k 1 (fun s => dotArray s b) ∧ (k = 3 → ItemByItem B k 1 (fun s => insar s los)) ∧ ItemByItem B k k (normalize (α := α)) := by
  have key : ∀ b : List α, b.length = k → ∀ s : Serie α, WF s → s.itemSize = k → 0 < s.count →
      dotArray s b = .ok (ofItems 1 ((items s).map fun v => [dotL v b])) := by
    intro b hb p hp hpk hp0
    unfold dotArray
    rw [Serie.value_eq hp hp0, Res.ok_bind, chunk_length (hp.item_fits hp0), if_neg (by simp [hb, hpk])]
    exact mapArr_items hp hp0 (by omega) (by omega) (fun _ _ => rfl) (fun u hu i => dotItem_eq hu (hb.trans hpk.symm))
  refine ⟨⟨by decide, by omega, by decide, _, fun v hv => .inl ⟨_, rfl, rfl⟩, Spec.Applies.ofRun fun s h hk _ h0 _ => key b hb s h hk h0⟩,
    fun h3 => ⟨by decide, by omega, by decide, fun v => .ok [dotL v los], fun v hv => .inl ⟨_, rfl, rfl⟩, Spec.Applies.ofRun fun s h hk _ h0 _ => ?_⟩,
    ⟨by omega, hB, hk', fun v => .ok (v.map fun x => x * (1 / Sqrt.sqrt (v.foldl (fun acc v => acc + v * v) 0))), ?_,
      Spec.Applies.ofMap ?_ (by omega) hk' fun s h hk _ h0 _ => ⟨_, ?_, fun v _ i => rfl⟩⟩⟩
  · unfold insar
    rw [h.valid, if_neg (by simp; omega), if_neg (by simp [hl])]
    exact key los (hl.trans h3.symm) s h hk h0
  · exact fun v hv => .inl ⟨_, rfl, by rw [List.length_map, hv]⟩
  · exact fun v hv => .inl ⟨_, rfl, by rw [List.length_map, hv]⟩
  · unfold normalize
    rw [h.valid, if_neg (by simp), if_neg (by omega)]
    rfl

example := @C153_vectors ℚ _ _ ⟨1000, -1000⟩ ⟨id⟩ 3 9 (by decide) (by decide) (by decide) [1, 0, 1] [0, 0, 1] rfl rfl

/-- C153: so do the eigen values and the eigen vectors of symmetric 3D matrices. -/
theorem C153_eigen [Trig ℝ] (ht : ExactTrig) {B : Nat} (hB : 9 ≤ B) :
    ItemByItem B 6 3 (eigenValues (α := ℝ)) ∧ ItemByItem B 6 9 (eigenVectors (α := ℝ)) := by
  have hret : Returns 3 6 (α := ℝ) := eigen_returns ht (s := ⟨[], 0, 6, 3⟩) ⟨rfl, .inr ⟨rfl, rfl⟩⟩
  have key : ∀ s : Serie ℝ, WF s → s.itemSize = 6 → s.dimension = 3 → 0 < s.count → s.count * B < 2 ^ 32 →
      eigenValues s = .ok (ofItems 3 ((items s).map fun t => (eigOf 3 t).1)) ∧
      eigenVectors s = .ok (ofItems 9 ((items s).map fun t => (eigOf 3 t).2)) := fun s h hk hd h0 hb =>
    eigenFun_run (hk ▸ hret) h h0 ⟨hd, .inr ⟨rfl, hk⟩⟩ (Nat.lt_of_le_of_lt (Nat.mul_le_mul_left _ hB) hb)
  exact ⟨⟨by decide, by omega, by decide, _, fun v hv => .inl ⟨_, rfl, (hret v hv).2.1⟩,
      Spec.Applies.ofRun fun s h hk hd h0 hb => (key s h hk hd h0 hb).1⟩,
    ⟨by decide, by omega, by decide, _, fun v hv => .inl ⟨_, rfl, (hret v hv).2.2⟩,
      Spec.Applies.ofRun fun s h hk hd h0 hb => (key s h hk hd h0 hb).2⟩⟩

example := @C153_eigen realTrig exactTrig 9 (by decide)

/-- C153: so does `map`, with any callback that is the same recipe for every index; the recipe may throw
exceptions derived from `std::exception`. -/
theorem C153_map [Zero α] {k m B : Nat} (hm : 0 < m) (hm' : m < 2 ^ 31) (hB : m ≤ B) {g : List α → Res (List α)} (hg : Recipe k m g) :
    ItemByItem B k m (mapArr fun v _ => g v) :=
  ⟨hm, hB, hm', g, hg, Spec.Applies.ofMap hg hm hm' fun _ _ _ _ _ _ => ⟨_, rfl, fun _ _ _ => rfl⟩⟩

example := C153_map (α := ℚ) (k := 2) (m := 1) (B := 2) (by decide) (by decide) (by decide)
  (g := fun v => if v.sum < 0 then .throw .runtimeError else .ok [v.sum]) (fun v _ => by
    by_cases h : v.sum < 0
    · exact .inr ⟨_, stdError_iff.2 rfl, if_pos h⟩
    · exact .inl ⟨_, if_neg h, rfl⟩)

/-! ## what it brings -/

/-- C153: a pipeline of functions that work item by item works item by item. -/
theorem C153_pipe {B k m : Nat} {ops : Ops Res (Serie α) (Serie α)} (h : Chain B k m ops) : ItemByItem B k m (makePipe ops) := h.byItem

/-- Transpose, invert, take the determinants, scale them. -/
private theorem exChain : Chain 9 9 1 (.cons transpose (.cons inv (.cons det (.one fun s => scale s (2 : ℚ))))) :=
  .cons (C153_matrices (by decide)).2.1 (.cons (C153_matrices (by decide)).2.2.2.2 (.cons (C153_matrices (by decide)).2.2.1
    (.one (C153_numbers (by decide) (by decide) (by decide) 2 [2] rfl).1)))

example := C153_pipe exChain

/-- C153: such a function returns, or throws; it has no undefined behaviour. -/
theorem C153_defined {B k m : Nat} {f : Serie α → Res (Serie α)} (hf : ItemByItem B k m f) {s : Serie α} (h : WF s) (hk : s.itemSize = k)
    (hd : s.dimension = 3) (h0 : 0 < s.count) (hB : s.count * B < 2 ^ 32) :
    (∃ t, f s = .ok t ∧ WF t ∧ t.itemSize = m ∧ t.count = s.count ∧ t.dimension = 3) ∨
      ∃ e, StdError e ∧ f s = .throw e := by
  obtain ⟨hm, hmB, hm', g, hg, hf⟩ := hf
  have hlen : ∀ v ∈ items s, v.length = k := fun v hv => (h.item_length hv).trans hk
  obtain ⟨r1, r2⟩ := hf s h hk hd h0 hB
  rcases Spec.Recipe.run hg hlen with ⟨ws, _, hw⟩ | ⟨v, hv, e, he, _⟩
  · obtain ⟨l1, l2⟩ := hw.lengths hg hlen
    rw [items_length] at l1
    exact .inl ⟨_, r1 ws hw, WF_recipe hm hm' l2 hmB (by rw [l1]; exact hB), rfl, l1, rfl⟩
  · obtain ⟨u, hu, e, he, hr⟩ := r2 ⟨v, hv, e, he⟩
    exact .inr ⟨e, Spec.Recipe.std hg (hlen u hu) he, hr⟩

example := C153_defined (C153_pipe exChain) (s := ⟨[1, 0, 0, 0, 2, 0, 0, 0, 1, 1, 0, 0, 0, 1, 0, 0, 0, 1], 2, 9, 3⟩) (by decide) rfl rfl
  (by decide) (by decide)

/-- C153: such a function can be run on the pieces of a Serie: it returns on the whole exactly when it returns on every piece, and the
result is then the concatenation of the results. -/
theorem C153_pieces [Zero α] {B k m : Nat} {f : Serie α → Res (Serie α)} (hf : ItemByItem B k m f) {ps : List (Serie α)} (hne : ps ≠ [])
    (hp : ∀ p ∈ ps, WF p ∧ p.itemSize = k ∧ p.dimension = 3 ∧ 0 < p.count) (hk : k ≤ B) (hB : (ps.map (·.count)).sum * B < 2 ^ 32) (t : Serie α) :
    (concat ps >>= f) = .ok t ↔ (ps.mapM f >>= concat) = .ok t := by
  obtain ⟨hm, hmB, hm', g, hg, hf⟩ := hf
  have hp' : ∀ p ∈ ps, p.count * B < 2 ^ 32 := fun p hq => Nat.lt_of_le_of_lt (Nat.mul_le_mul_right _
    (List.single_le_sum (by simp) _ (List.mem_map.2 ⟨p, hq, rfl⟩))) hB
  have hlen : ∀ v ∈ (ps.map items).flatten, v.length = k := by
    intro v hv
    obtain ⟨l, hl, hv⟩ := List.mem_flatten.1 hv
    obtain ⟨p, hq, rfl⟩ := List.mem_map.1 hl
    exact ((hp p hq).1.item_length hv).trans (hp p hq).2.1
  have hcount : ((ps.map items).flatten).length = (ps.map (·.count)).sum := flatten_items_length ps
  have hk0 : 0 < k ∧ k < 2 ^ 31 := by
    obtain ⟨p, q, rfl⟩ := List.exists_cons_of_ne_nil hne
    obtain ⟨h1, h2, _⟩ := hp p (by simp)
    exact ⟨h2 ▸ h1.pos, h2 ▸ h1.int⟩
  have hc : concat ps = .ok (ofItems k (ps.map items).flatten) := concat_eq hne (fun p hq => ⟨(hp p hq).1, (hp p hq).2.1⟩)
    (Nat.lt_of_le_of_lt (Nat.mul_le_mul_left _ hk) hB)
  have hw : WF (ofItems k (ps.map items).flatten) := WF_recipe hk0.1 hk0.2 hlen hk (by rw [hcount]; exact hB)
  have h0 : 0 < ((ps.map items).flatten).length := by
    obtain ⟨p, q, rfl⟩ := List.exists_cons_of_ne_nil hne
    obtain ⟨_, _, _, h4⟩ := hp p (by simp)
    rw [hcount, List.map_cons, List.sum_cons]
    omega
  obtain ⟨r1, r2⟩ := hf _ hw rfl rfl h0 (by show (ps.map items).flatten.length * B < _; rw [hcount]; exact hB)
  rw [items_ofItems hlen] at r1 r2
  rw [hc, Res.ok_bind]
  rcases Spec.Recipe.run hg hlen with ⟨ws, _, hw⟩ | ⟨v, hv, e, he, _⟩
  · obtain ⟨l1, l2⟩ := hw.lengths hg hlen
    obtain ⟨wss, rfl, hwss⟩ := hw.parts
    rw [r1 _ hw, mapM_parts (m := m) (fun p hq us hus => (hf p (hp p hq).1 (hp p hq).2.1 (hp p hq).2.2.1 (hp p hq).2.2.2 (hp' p hq)).1 us hus)
      hwss, Res.ok_bind, concat_parts hm hm' hmB (fun he => by subst he; cases hwss; exact hne rfl) l2 (by rw [l1, hcount]; exact hB)]
  · obtain ⟨_, _, e', _, hr⟩ := r2 ⟨v, hv, e, he⟩
    rw [hr]
    refine ⟨fun h => (by cases h), fun h => ?_⟩
    -- the piece with that item throws
    obtain ⟨l, hl, hv⟩ := List.mem_flatten.1 hv
    obtain ⟨p, hq, rfl⟩ := List.mem_map.1 hl
    obtain ⟨_, _, e'', _, hr'⟩ := (hf p (hp p hq).1 (hp p hq).2.1 (hp p hq).2.2.1 (hp p hq).2.2.2 (hp' p hq)).2 ⟨v, hv, e, he⟩
    exfalso
    cases hM : ps.mapM f with
    | ok ts =>
      have : ∃ y, f p = .ok y := by
        clear * - hM hq
        induction ps generalizing ts with
        | nil => simp at hq
        | cons q ps ih =>
          rw [List.mapM_cons] at hM
          cases hfq : f q with
          | ok y =>
            rw [hfq, Res.ok_bind] at hM
            rcases List.mem_cons.1 hq with rfl | hq
            · exact ⟨y, hfq⟩
            · cases hps : ps.mapM f with
              | ok ys => exact ih hq _ hps
              | throw e => rw [hps] at hM; cases hM
              | ub => rw [hps] at hM; cases hM
          | throw e => rw [hfq] at hM; cases hM
          | ub => rw [hfq] at hM; cases hM
      obtain ⟨y, hy⟩ := this
      rw [hy] at hr'; cases hr'
    | throw e => rw [hM] at h; cases h
    | ub => rw [hM] at h; cases h

example := C153_pieces (C153_pipe exChain) (ps := [⟨[1, 0, 0, 0, 2, 0, 0, 0, 1], 1, 9, 3⟩, ⟨[1, 0, 0, 0, 1, 0, 0, 0, 1], 1, 9, 3⟩]) (by decide)
  (by decide) (by decide) (by decide) ⟨[1, 2], 2, 1, 3⟩

theorem mapM_one_error {β γ : Type} {f : β → Res γ} {e : Err} : ∀ {l : List β}, (∀ x ∈ l, (∃ y, f x = .ok y) ∨ f x = .throw e) →
    (∃ x ∈ l, f x = .throw e) → l.mapM f = .throw e
  | [], _, h => by obtain ⟨x, hx, _⟩ := h; simp at hx
  | a :: l, h, h' => by
    rw [List.mapM_cons]
    rcases h a (by simp) with ⟨y, hy⟩ | hy
    · rw [hy, Res.ok_bind, mapM_one_error fun x hx => h x (List.mem_cons_of_mem _ hx)]
      · rfl
      · obtain ⟨x, hx, hf⟩ := h'
        rcases List.mem_cons.1 hx with rfl | hx
        · rw [hy] at hf; cases hf
        · exact ⟨x, hx, hf⟩
    · rw [hy]; rfl

/-- C153: and in parallel, on any number of cores and under every schedule: `parallel_execute` returns what the pipeline returns on the
whole Serie, and throws `invalid_argument` when the pipeline throws. -/
theorem C153_parallel [Zero α] {B k m : Nat} {f : Serie α → Res (Serie α)} (hf : ItemByItem B k m f) {s : Serie α} (h : WF s)
    (hs : s.itemSize = k) (hd : s.dimension = 3) (h0 : 0 < s.count) (hB : s.count * B < 2 ^ 32) {n : Nat} (hn : 2 ≤ n) {dur : Nat → Nat}
    {r : Res (Serie α)} (hr : ParallelExecute f s n dur r) :
    (∀ t, f s = .ok t → r = .ok t) ∧ (∀ e, f s = .throw e → r = .throw .invalidArgument) := by
  obtain ⟨parts, p1, p2, p3, _, p5⟩ := par_parts h h0 (n := n) (by omega)
  have hpB : ∀ p ∈ parts, p.count * B < 2 ^ 32 := fun p hp => Nat.lt_of_le_of_lt (Nat.mul_le_mul_right _ (p5 p hp).2.2.2.1) hB
  have hpd : ∀ p ∈ parts, (∃ t, f p = .ok t ∧ parJob f p = .ok t) ∨ (∃ e, f p = .throw e) ∧ parJob f p = .throw .invalidArgument := by
    intro p hp
    obtain ⟨q1, q2, q3, _, q5⟩ := p5 p hp
    rcases C153_defined hf q1 (q2.trans hs) q5 q3 (hpB p hp) with ⟨t, h1, _, _, h2, _⟩ | ⟨e, hse, h1⟩
    · exact .inl ⟨t, h1, by simp [parJob, h1, h2]⟩
    · exact .inr ⟨⟨e, h1⟩, by simp [parJob, h1, stdError_iff.1 hse]⟩
  obtain ⟨hm, hmB, hm', g, hg, hf⟩ := hf
  have hlen : ∀ v ∈ items s, v.length = k := fun v hv => (h.item_length hv).trans hs
  obtain ⟨r1, r2⟩ := hf s h hs hd h0 hB
  have hub : ∀ p ∈ parts, f p ≠ .ub := fun p hp => by
    rcases hpd p hp with ⟨t, h1, _⟩ | ⟨⟨e, h1⟩, _⟩ <;> rw [h1] <;> simp
  rw [par_outcome hn p1 hr hub]
  have hfp : ∀ p ∈ parts, _ := fun p hp => hf p (p5 p hp).1 ((p5 p hp).2.1.trans hs) (p5 p hp).2.2.2.2 (p5 p hp).2.2.1 (hpB p hp)
  rcases Spec.Recipe.run hg hlen with ⟨ws, _, hw⟩ | ⟨v, hv, e, he, _⟩
  · rw [r1 ws hw]
    refine ⟨fun t ht => ?_, fun e he => by cases he⟩
    cases ht
    obtain ⟨l1, l2⟩ := hw.lengths hg hlen
    rw [items_length] at l1
    rw [← p3] at hw
    obtain ⟨wss, rfl, hwss⟩ := hw.parts
    rw [mapM_parts (m := m) (fun p hp us hus => by
      rcases hpd p hp with ⟨t, h1, h2⟩ | ⟨⟨e, h1⟩, _⟩
      · rw [h2, ← h1]; exact (hfp p hp).1 us hus
      · have := (hfp p hp).1 us hus; rw [h1] at this; cases this) hwss, Res.ok_bind]
    unfold parFinish
    have hcount : ((wss.map fun us => ofItems m us).map (·.count)).sum = s.count := by
      rw [← l1, List.length_flatten, List.map_map]; rfl
    rw [if_neg (by rw [hcount]; simp)]
    exact concat_parts hm hm' hmB (fun he => by subst he; cases hwss; simp at p2; omega) l2 (by rw [l1]; exact hB)
  · obtain ⟨_, _, e', _, hr⟩ := r2 ⟨v, hv, e, he⟩
    rw [hr]
    refine ⟨fun t ht => (by cases ht), fun _ _ => ?_⟩
    rw [← p3] at hv
    obtain ⟨l, hl, hv⟩ := List.mem_flatten.1 hv
    obtain ⟨p, hp, rfl⟩ := List.mem_map.1 hl
    obtain ⟨_, _, e'', _, hr'⟩ := (hfp p hp).2 ⟨v, hv, e, he⟩
    have h1 : parJob f p = .throw .invalidArgument := by
      rcases hpd p hp with ⟨t, h1, _⟩ | ⟨_, h2⟩
      · rw [hr'] at h1; cases h1
      · exact h2
    rw [mapM_one_error (e := .invalidArgument) (fun q hq => by
      rcases hpd q hq with ⟨t, _, h2⟩ | ⟨_, h2⟩
      · exact .inl ⟨t, h2⟩
      · exact .inr h2) ⟨p, hp, h1⟩]
    rfl

example := fun dur => C153_parallel (C153_pipe exChain) (s := ⟨[1, 0, 0, 0, 2, 0, 0, 0, 1, 1, 0, 0, 0, 1, 0, 0, 0, 1], 2, 9, 3⟩) (by decide)
  rfl rfl (by decide) (by decide) (n := 2) (by decide) (dur := dur) (r := .ok ⟨[1, 2], 2, 1, 3⟩)

/-- C153: and on a selection of the items, in any order, with repetitions: the result is the same selection of the results. -/
theorem C153_select {B k m : Nat} {f : Serie α → Res (Serie α)} (hf : ItemByItem B k m f) {s t : Serie α} (h : WF s)
    (hs : s.itemSize = k) (hd : s.dimension = 3) (h0 : 0 < s.count) (hB : s.count * B < 2 ^ 32) (ht : f s = .ok t)
    {ps : List Nat} (hne : ps ≠ []) (hin : ∀ i ∈ ps, i < s.count) (hk : k ≤ B) (hps : ps.length * B < 2 ^ 32) :
    f (ofItems k (select ps (items s))) = .ok (ofItems m (select ps (items t))) := by
  obtain ⟨hm, hmB, hm', g, hg, hf⟩ := hf
  have hlen : ∀ v ∈ items s, v.length = k := fun v hv => (h.item_length hv).trans hs
  obtain ⟨r1, r2⟩ := hf s h hs hd h0 hB
  rcases Spec.Recipe.run hg hlen with ⟨ws, _, hw⟩ | ⟨v, hv, e, he, _⟩
  · obtain ⟨l1, l2⟩ := hw.lengths hg hlen
    rw [r1 ws hw] at ht
    cases ht
    rw [items_ofItems l2]
    have hsel : Gives g (select ps (items s)) (select ps ws) ∧ (select ps (items s)).length = ps.length := by
      clear * - hin hw l1
      induction ps with
      | nil => exact ⟨.nil, rfl⟩
      | cons i ps ih =>
        obtain ⟨h1, h2⟩ := ih fun j hj => hin j (List.mem_cons_of_mem _ hj)
        have hi : i < (items s).length := by rw [items_length]; exact hin i (by simp)
        have hi' : i < ws.length := by omega
        have e1 : select (i :: ps) (items s) = (items s)[i] :: select ps (items s) := by
          unfold select; rw [List.filterMap_cons, List.getElem?_eq_getElem hi]
        have e2 : select (i :: ps) ws = ws[i] :: select ps ws := by
          unfold select; rw [List.filterMap_cons, List.getElem?_eq_getElem hi']
        rw [e1, e2]
        exact ⟨.cons (List.Forall₂.get hw hi hi') h1, by simp [h2]⟩
    have hl' : ∀ v ∈ select ps (items s), v.length = k := by
      intro v hv
      obtain ⟨i, _, hi⟩ := List.mem_filterMap.1 hv
      exact hlen v (List.mem_of_getElem? hi)
    have hwf : WF (ofItems k (select ps (items s))) :=
      WF_recipe (hs ▸ h.pos) (hs ▸ h.int) hl' hk (by rw [hsel.2]; exact hps)
    refine (hf _ hwf rfl rfl ?_ ?_).1 _ ?_
    · show 0 < (select ps (items s)).length
      rw [hsel.2]; exact List.length_pos_iff.2 hne
    · show (select ps (items s)).length * B < _
      rw [hsel.2]; exact hps
    · rw [items_ofItems hl']; exact hsel.1
  · obtain ⟨_, _, e, _, hr⟩ := r2 ⟨v, hv, e, he⟩
    rw [hr] at ht; cases ht

example := C153_select (α := ℚ) (C153_numbers (k := 2) (B := 2) (by decide) (by decide) (by decide) 2 [1, 1] rfl).1
  (s := ⟨[1, 2, 3, 4, 5, 6], 3, 2, 3⟩) (t := ⟨[2, 4, 6, 8, 10, 12], 3, 2, 3⟩) (by decide) rfl rfl (by decide) (by decide) (by decide +kernel)
  (ps := [2, 0, 0]) (by decide) (by decide) (by decide) (by decide)

end DF
