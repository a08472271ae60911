import Verif.Spec.ByItem
import Verif.Lemmas.Algebra
import Verif.Props.ParallelOps

/-!
# Functions that work item by item
-/

namespace DF

open Spec

variable {α β γ δ : Type}

theorem mapM_congr' {m : Type → Type} [Monad m] [LawfulMonad m] {f g : γ → m β} : ∀ {l : List γ}, (∀ x ∈ l, f x = g x) → l.mapM f = l.mapM g
  | [], _ => rfl
  | x :: l, h => by
    rw [List.mapM_cons, List.mapM_cons, h x (by simp), mapM_congr' fun y hy => h y (by simp [hy])]

/-- The two outcomes of a recipe on several items. -/
theorem Spec.Recipe.run {k m : Nat} {g : List α → Res (List α)} (hg : Recipe k m g) : ∀ {l : List (List α)}, (∀ v ∈ l, v.length = k) →
    (∃ ws, l.mapM g = .ok ws ∧ Gives g l ws) ∨ ∃ v ∈ l, ∃ e, g v = .throw e ∧ l.mapM g = .throw e
  | [], _ => .inl ⟨[], rfl, .nil⟩
  | v :: l, h => by
    rw [List.mapM_cons]
    rcases hg v (h v (by simp)) with ⟨w, h1, h2⟩ | ⟨e, hse, h1⟩
    · rw [h1]
      rcases Recipe.run hg fun u hu => h u (List.mem_cons_of_mem _ hu) with ⟨ws, h3, h4⟩ | ⟨u, hu, e, h3, h4⟩
      · exact .inl ⟨w :: ws, by rw [h3]; rfl, .cons h1 h4⟩
      · exact .inr ⟨u, List.mem_cons_of_mem _ hu, e, h3, by rw [h4]; rfl⟩
    · exact .inr ⟨v, by simp, e, h1, by rw [h1]; rfl⟩

theorem Spec.Gives.unique {g : β → Res γ} : ∀ {l : List β} {ws ws' : List γ}, Gives g l ws → Gives g l ws' → ws = ws'
  | _, _, _, .nil, .nil => rfl
  | _, _, _, .cons h hs, .cons h' hs' => by
    rw [h] at h'
    rw [Res.ok.inj h', Gives.unique hs hs']

theorem Spec.Gives.no_throw {g : β → Res γ} {l : List β} {ws : List γ} (h : Gives g l ws) {v : β} (hv : v ∈ l) {e : Err}
    (he : g v = .throw e) : False := by
  induction h with
  | nil => simp at hv
  | cons h1 _ ih =>
    rcases List.mem_cons.1 hv with rfl | hv
    · rw [h1] at he; cases he
    · exact ih hv

theorem Spec.Gives.lengths {k m : Nat} {g : List α → Res (List α)} (hg : Recipe k m g) {l ws : List (List α)} (h : Gives g l ws)
    (hl : ∀ v ∈ l, v.length = k) : ws.length = l.length ∧ ∀ w ∈ ws, w.length = m := by
  refine ⟨(List.Forall₂.length_eq h).symm, ?_⟩
  induction h with
  | nil => simp
  | cons h1 _ ih =>
    intro u hu
    rcases List.mem_cons.1 hu with rfl | hu
    · rcases hg _ (hl _ List.mem_cons_self) with ⟨w, h2, h3⟩ | ⟨e, hse, h2⟩
      · rw [h1] at h2; cases h2; exact h3
      · rw [h1] at h2; cases h2
    · exact ih (fun v hv => hl v (List.mem_cons_of_mem _ hv)) u hu

theorem callAll_recipe {k m : Nat} {g : List α → Res (List α)} (hg : Recipe k m g) : ∀ {l : List (List α)} (lo : Nat), (∀ v ∈ l, v.length = k) →
    callAll (m := Eff Unit) (fun x _ => Eff.lift (g x) >>= fun y => if y.length ≠ m then Eff.throw .runtimeError else pure y) l lo =
      Eff.lift (l.mapM g)
  | [], lo, _ => by rw [callAll_nil]; rfl
  | v :: l, lo, h => by
    rw [callAll_cons, callAll_recipe hg (lo + 1) fun u hu => h u (List.mem_cons_of_mem _ hu), List.mapM_cons]
    rcases hg v (h v (by simp)) with ⟨w, h1, h2⟩ | ⟨e, hse, h1⟩
    · rw [h1, Eff.lift_ok, pure_bind, if_neg (by simp [h2]), pure_bind, Res.ok_bind, Eff.lift_bind]
      rfl
    · rw [h1]; rfl

/-- `map` with a recipe as callback. -/
theorem mapArr_recipe [Zero α] {k m : Nat} {g : List α → Res (List α)} (hg : Recipe k m g) (hm : 0 < m) (hm' : m < 2 ^ 31) {s : Serie α}
    (h : WF s) (hk : s.itemSize = k) (h0 : 0 < s.count) {cb : List α → Nat → Res (List α)}
    (hcb : ∀ v ∈ items s, ∀ i, cb v i = g v) : mapArr cb s = (items s).mapM g >>= fun ws => .ok (ofItems m ws) := by
  have hlen : ∀ v ∈ items s, v.length = k := fun v hv => (h.item_length hv).trans hk
  have hc := h.count_lt
  rw [← items_length s] at h0 hc
  unfold mapArr
  rw [mapVV_eq h]
  revert hlen h0 hc hcb
  generalize items s = l
  intro h0 hcb hlen hc
  obtain ⟨v, l, rfl⟩ := List.exists_cons_of_length_pos h0
  rw [sizedMap_cons, List.mapM_cons]
  rw [hcb v (by simp) 0]
  rcases hg v (hlen v (by simp)) with ⟨w, h1, h2⟩ | ⟨e, hse, h1⟩
  · rw [h1, Eff.lift_ok, pure_bind, h2, Res.ok_bind]
    have e1 : callAll (m := Eff Unit) (fun x i => Eff.lift (cb x i) >>= fun y =>
        if y.length ≠ m then Eff.throw .runtimeError else pure y) l 1 = Eff.lift (l.mapM g) := by
      rw [← callAll_recipe hg 1 fun u hu => hlen u (List.mem_cons_of_mem _ hu)]
      unfold callAll
      exact mapM_congr' fun p hp => by
        beta_reduce
        rw [hcb p.1 (List.mem_cons_of_mem _ (List.fst_mem_of_mem_zipIdx hp))]
    rw [e1]
    have hl' : ∀ u ∈ l, u.length = k := fun u hu => hlen u (List.mem_cons_of_mem _ hu)
    rcases Recipe.run hg hl' with ⟨ws, h3, h4⟩ | ⟨u, hu, e, _, h3⟩
    · obtain ⟨h4, h5⟩ := h4.lengths hg hl'
      rw [h3, Eff.lift_ok, pure_bind, u32_of_lt (by omega), Res.ok_bind]
      have := ofArray_rows' (its := w :: ws) hm hm' (by simpa [h2] using h5) (by simpa [h4] using hc)
      rw [List.flatten_cons] at this
      rw [this]
      rfl
    · rw [h3]; rfl
  · rw [h1]; rfl

/-- The facts about a Serie made by a recipe. -/
theorem WF_recipe {m : Nat} {ws : List (List α)} (hm : 0 < m) (hm' : m < 2 ^ 31) (hw : ∀ w ∈ ws, w.length = m) {B : Nat} (hB : m ≤ B)
    (hfit : ws.length * B < 2 ^ 32) : WF (ofItems m ws) :=
  WF_ofItems hm hm' hw (Nat.lt_of_le_of_lt (Nat.mul_le_mul_left _ hB) hfit)

/-- A function that is `map` with a recipe works item by item. -/
theorem Spec.Applies.ofMap [Zero α] {B k m : Nat} {g : List α → Res (List α)} (hg : Recipe k m g) (hm : 0 < m) (hm' : m < 2 ^ 31)
    {f : Serie α → Res (Serie α)}
    (hf : ∀ s, WF s → s.itemSize = k → s.dimension = 3 → 0 < s.count → s.count * B < 2 ^ 32 → ∃ cb : List α → Nat → Res (List α),
      f s = mapArr cb s ∧ ∀ v ∈ items s, ∀ i, cb v i = g v) : Applies B k m g f := by
  intro s h hk hd h0 hB
  obtain ⟨cb, h1, h2⟩ := hf s h hk hd h0 hB
  rw [h1, mapArr_recipe hg hm hm' h hk h0 h2]
  rcases Recipe.run hg fun v hv => (h.item_length hv).trans hk with ⟨ws, h3, h4⟩ | ⟨v, hv, e, h3, h4⟩
  · exact ⟨fun ws' h' => by rw [h3, h4.unique h']; rfl, fun ⟨v, hv, e, he⟩ => (h4.no_throw hv he).elim⟩
  · exact ⟨fun ws' h' => (h'.no_throw hv h3).elim, fun _ => ⟨v, hv, e, h3, by rw [h4]; rfl⟩⟩

/-- The same when the function is known to return. -/
theorem Spec.Applies.ofRun {B k m : Nat} {g : List α → List α} {f : Serie α → Res (Serie α)}
    (hf : ∀ s, WF s → s.itemSize = k → s.dimension = 3 → 0 < s.count → s.count * B < 2 ^ 32 → f s = .ok (ofItems m ((items s).map g))) :
    Applies B k m (fun v => .ok (g v)) f := by
  intro s h hk hd h0 hB
  have hgive : ∀ l : List (List α), Gives (fun v => .ok (g v)) l (l.map g) := fun l => by
    induction l with
    | nil => exact .nil
    | cons v l ih => exact .cons rfl ih
  exact ⟨fun ws hw => by rw [hf s h hk hd h0 hB, (hgive _).unique hw], fun ⟨v, _, e, he⟩ => by cases he⟩

/-- One recipe after another. -/
theorem stdError_iff {e : Err} : StdError e ↔ e.isStd = true := by
  constructor
  · intro h
    cases e <;> first | rfl | exact absurd rfl (h _)
  · rintro h n rfl
    cases h

theorem Spec.Recipe.comp {k l m : Nat} {g g' : List α → Res (List α)} (h : Recipe k l g) (h' : Recipe l m g') : Recipe k m (fun v => g v >>= g') := by
  intro v hv
  show (∃ w, (g v >>= g') = .ok w ∧ w.length = m) ∨ ∃ e, StdError e ∧ (g v >>= g') = .throw e
  rcases h v hv with ⟨w, h1, h2⟩ | ⟨e, hse, h1⟩
  · rw [h1]
    exact h' w h2
  · exact .inr ⟨e, hse, by rw [h1]; rfl⟩

theorem Spec.Recipe.std {k m : Nat} {g : List α → Res (List α)} (h : Recipe k m g) {v : List α} (hv : v.length = k) {e : Err}
    (he : g v = .throw e) : StdError e := by
  rcases h v hv with ⟨w, h1, _⟩ | ⟨e', h1, h2⟩
  · rw [he] at h1; cases h1
  · rw [he] at h2; cases h2; exact h1

theorem Spec.Gives.split {k l m : Nat} {g g' : List α → Res (List α)} (h : Recipe k l g) (h' : Recipe l m g') : ∀ {its ws : List (List α)},
    (∀ v ∈ its, v.length = k) → Gives (fun v => g v >>= g') its ws → ∃ us, Gives g its us ∧ Gives g' us ws
  | [], _, _, .nil => ⟨[], .nil, .nil⟩
  | v :: its, _, hl, .cons (b := w) h1 hs => by
    obtain ⟨us, h2, h3⟩ := Gives.split h h' (fun u hu => hl u (List.mem_cons_of_mem _ hu)) hs
    have h1 : (g v >>= g') = .ok w := h1
    rcases h v (hl v (by simp)) with ⟨u, h4, h5⟩ | ⟨e, hse, h4⟩
    · rw [h4] at h1
      exact ⟨u :: us, .cons h4 h2, .cons h1 h3⟩
    · rw [h4] at h1; cases h1

theorem Spec.Gives.mem {g : β → Res γ} {l : List β} {ws : List γ} (h : Gives g l ws) {w : γ} (hw : w ∈ ws) : ∃ v ∈ l, g v = .ok w := by
  induction h with
  | nil => simp at hw
  | cons h1 _ ih =>
    rcases List.mem_cons.1 hw with rfl | hw
    · exact ⟨_, by simp, h1⟩
    · obtain ⟨v, hv, h⟩ := ih hw; exact ⟨v, List.mem_cons_of_mem _ hv, h⟩

theorem Spec.Gives.mem' {g : β → Res γ} {l : List β} {ws : List γ} (h : Gives g l ws) {v : β} (hv : v ∈ l) : ∃ w ∈ ws, g v = .ok w := by
  induction h with
  | nil => simp at hv
  | cons h1 _ ih =>
    rcases List.mem_cons.1 hv with rfl | hv
    · exact ⟨_, by simp, h1⟩
    · obtain ⟨w, hw, h⟩ := ih hv; exact ⟨w, List.mem_cons_of_mem _ hw, h⟩

/-- One function after another. -/
theorem Spec.ItemByItem.comp {B k l m : Nat} {f f' : Serie α → Res (Serie α)} (h : ItemByItem B k l f) (h' : ItemByItem B l m f') :
    ItemByItem B k m (fun s => f s >>= f') := by
  obtain ⟨hl, hlB, hl', g, hg, hf⟩ := h
  obtain ⟨hm, hmB, hm', g', hg', hf'⟩ := h'
  refine ⟨hm, hmB, hm', _, Spec.Recipe.comp hg hg', ?_⟩
  intro s hs hk hd h0 hB
  have hlen : ∀ v ∈ items s, v.length = k := fun v hv => (hs.item_length hv).trans hk
  obtain ⟨r1, r2⟩ := hf s hs hk hd h0 hB
  rcases Recipe.run hg hlen with ⟨us, _, hu⟩ | ⟨v, hv, e, he, _⟩
  · obtain ⟨u1, u2⟩ := hu.lengths hg hlen
    rw [items_length] at u1
    have hw : WF (ofItems l us) := WF_recipe hl hl' u2 hlB (by rw [u1]; exact hB)
    have hi : items (ofItems l us) = us := items_ofItems u2
    obtain ⟨q1, q2⟩ := hf' _ hw rfl rfl (by show 0 < us.length; omega) (by show us.length * B < _; rw [u1]; exact hB)
    rw [hi] at q1 q2
    beta_reduce
    rw [r1 us hu, Res.ok_bind]
    constructor
    · intro ws hws
      obtain ⟨us', h1, h2⟩ := hws.split hg hg' hlen
      rw [h1.unique hu] at h2
      exact q1 ws h2
    · rintro ⟨v, hv, e, he⟩
      obtain ⟨u, hu', h1⟩ := hu.mem' hv
      have he : g' u = .throw e := by simpa only [h1, Res.ok_bind] using he
      obtain ⟨u, hu', e, he, hr⟩ := q2 ⟨u, hu', e, he⟩
      obtain ⟨v, hv, h1⟩ := hu.mem hu'
      exact ⟨v, hv, e, by simp only [h1, Res.ok_bind, he], hr⟩
  · obtain ⟨v, hv, e, he, hr⟩ := r2 ⟨v, hv, e, he⟩
    have hg2 : (g v >>= g') = .throw e := by rw [he]; rfl
    beta_reduce
    rw [hr]
    refine ⟨fun ws hws => (hws.no_throw hv hg2).elim, fun _ => ⟨v, hv, e, hg2, rfl⟩⟩

theorem Spec.Chain.byItem {B k m : Nat} {ops : Ops Res (Serie α) (Serie α)} (h : Chain B k m ops) : ItemByItem B k m (makePipe ops) := by
  induction h with
  | one h => exact h
  | cons h _ ih => exact h.comp ih

theorem Spec.Gives.append {g : β → Res γ} : ∀ {a b : List β} {ws : List γ}, Gives g (a ++ b) ws →
    ∃ us vs, ws = us ++ vs ∧ Gives g a us ∧ Gives g b vs
  | [], _, ws, h => ⟨[], ws, rfl, .nil, h⟩
  | _ :: a, _, _, .cons (b := w) h hs => by
    obtain ⟨us, vs, e, h1, h2⟩ := Spec.Gives.append (a := a) hs
    exact ⟨w :: us, vs, by rw [e]; rfl, .cons h h1, h2⟩

/-- The results on the items of several Series. -/
theorem Spec.Gives.parts {g : List α → Res (List α)} : ∀ {ps : List (Serie α)} {ws : List (List α)}, Gives g (ps.map items).flatten ws →
    ∃ wss : List (List (List α)), wss.flatten = ws ∧ List.Forall₂ (fun p us => Gives g (items p) us) ps wss
  | [], _, h => by cases h; exact ⟨[], rfl, .nil⟩
  | p :: ps, _, h => by
    rw [List.map_cons, List.flatten_cons] at h
    obtain ⟨us, vs, e, h1, h2⟩ := h.append
    obtain ⟨wss, e', h3⟩ := h2.parts
    exact ⟨us :: wss, by rw [List.flatten_cons, e', e], .cons h1 h3⟩

/-- Several Series on which every item has a result. -/
theorem mapM_parts {m : Nat} {g : List α → Res (List α)} {job : Serie α → Res (Serie α)} : ∀ {ps : List (Serie α)} {wss : List (List (List α))},
    (∀ p ∈ ps, ∀ us, Gives g (items p) us → job p = .ok (ofItems m us)) → List.Forall₂ (fun p us => Gives g (items p) us) ps wss →
      ps.mapM job = .ok (wss.map (ofItems m ·))
  | _, _, _, .nil => rfl
  | _, _, hj, .cons h hs => by
    rw [List.mapM_cons, hj _ List.mem_cons_self _ h, Res.ok_bind, mapM_parts (fun p hp => hj p (List.mem_cons_of_mem _ hp)) hs]
    rfl

/-- The results put together. -/
theorem concat_parts [Zero α] {B m : Nat} (hm : 0 < m) (hm' : m < 2 ^ 31) (hB : m ≤ B) {wss : List (List (List α))} (hne : wss ≠ [])
    (hl : ∀ w ∈ wss.flatten, w.length = m) (hfit : wss.flatten.length * B < 2 ^ 32) :
    concat (wss.map (ofItems m ·)) = .ok (ofItems m wss.flatten) := by
  have hin : ∀ us ∈ wss, ∀ w ∈ us, w.length = m := fun us hu w hw => hl w (List.mem_flatten.2 ⟨us, hu, hw⟩)
  have hfit' : wss.flatten.length * m < 2 ^ 32 := Nat.lt_of_le_of_lt (Nat.mul_le_mul_left _ hB) hfit
  rw [concat_eq (k := m)]
  · rw [List.map_map]
    congr 3
    rw [List.map_congr_left (g := id) fun us hu => by exact items_ofItems (hin us hu), List.map_id]
  · simpa using hne
  · intro t ht
    obtain ⟨us, hu, rfl⟩ := List.mem_map.1 ht
    refine ⟨WF_ofItems hm hm' (hin us hu) (Nat.lt_of_le_of_lt (Nat.mul_le_mul_right _ ?_) hfit'), rfl⟩
    rw [List.length_flatten]
    exact List.single_le_sum (by simp) _ (List.mem_map.2 ⟨us, hu, rfl⟩)
  · rw [List.map_map]
    have : (wss.map ((·.count) ∘ fun us => ofItems m us)).sum = wss.flatten.length := by rw [List.length_flatten]; rfl
    rw [this]
    exact hfit'

end DF
