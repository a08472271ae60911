import Verif.Model.Geo
import Verif.Spec.Geo
import Verif.Lemmas.Algebra
import Verif.Lemmas.Stats

/-! # Lemmas on normals, fringes and grids -/

namespace DF

open Spec

variable {α : Type}

/-! ## normals -/

section normals

/-- The numbers of the points are converted without change. -/
class NatExact (α : Type) [NatCast α] [Trunc α] : Prop where
  toU32 : ∀ a : Nat, a < 2 ^ 32 → Trunc.toU32 (a : α) = .ok a
  inj : ∀ a b : Nat, a < 2 ^ 32 → (a : α) = (b : α) → a = b

instance [Field α] [LinearOrder α] [IsStrictOrderedRing α] [FloorRing α] : NatExact α where
  toU32 _ h := toU32_nat h
  inj _ _ _ h := Nat.cast_injective h

/-- The normal of a triangle. -/
def normalL [Sub α] [Mul α] (A B C : Fin 3 → α) : List α :=
  [(B 1 - A 1) * (C 2 - A 2) - (B 2 - A 2) * (C 1 - A 1), (B 2 - A 2) * (C 0 - A 0) - (B 0 - A 0) * (C 2 - A 2),
   (B 0 - A 0) * (C 1 - A 1) - (B 1 - A 1) * (C 0 - A 0)]

theorem normalL_cross [CommRing α] (A B C : Fin 3 → α) : vec 3 (normalL A B C) = crossProduct (B - A) (C - A) := by
  rw [cross_apply]
  funext i
  fin_cases i <;> rfl

variable [Zero α] [Sub α] [Mul α] [NatCast α] [Trunc α] [NatExact α]

omit [Sub α] [Mul α] in
theorem vertex_eq {P : Serie α} (h : WF P) (h3 : P.itemSize = 3) {t : List α} {k a : Nat} (ht : t[k]? = some (a : α))
    (ha : a < P.count) : ∃ x y z, vertex P t k = .ok [x, y, z] ∧ pointAt P a = ![x, y, z] := by
  have hl : a < (items P).length := by simpa using ha
  obtain ⟨x, y, z, hx⟩ := len3 ((h.item_length (List.getElem_mem hl)).trans h3)
  obtain ⟨hk, hk'⟩ := List.getElem?_eq_some_iff.1 ht
  have := h.count_lt
  refine ⟨x, y, z, ?_, ?_⟩
  · unfold vertex
    rw [rd_of_lt hk, Res.ok_bind, hk', NatExact.toU32 _ (by omega), Res.ok_bind, Serie.value_eq h ha, ← items_getElem P a hl, hx]
  · unfold pointAt
    rw [List.getElem?_eq_getElem hl, hx]
    funext i
    fin_cases i <;> rfl

theorem normalOf_eq {P : Serie α} (h : WF P) (h3 : P.itemSize = 3) {a b c : Nat} (ha : a < P.count) (hb : b < P.count)
    (hc : c < P.count) :
    normalOf P [(a : α), (b : α), (c : α)] = .ok (normalL (pointAt P a) (pointAt P b) (pointAt P c)) := by
  obtain ⟨x, y, z, h1, h1'⟩ := vertex_eq h h3 (t := [(a : α), (b : α), (c : α)]) (k := 0) rfl ha
  obtain ⟨x', y', z', h2, h2'⟩ := vertex_eq h h3 (t := [(a : α), (b : α), (c : α)]) (k := 1) rfl hb
  obtain ⟨x'', y'', z'', h4, h4'⟩ := vertex_eq h h3 (t := [(a : α), (b : α), (c : α)]) (k := 2) rfl hc
  unfold normalOf
  rw [h1, Res.ok_bind, h2, Res.ok_bind, h4, Res.ok_bind, h1', h2', h4']
  rfl

/-- The vertices of a triangle of a mesh. -/
noncomputable def normalAt (P : Serie α) (t : List α) : List α :=
  match normalOf P t with
  | .ok n => n
  | _ => []

theorem normalAt_eq {P I : Serie α} (h : Mesh P I) {t : List α} (ht : t ∈ items I) :
    normalOf P t = .ok (normalAt P t) ∧ (normalAt P t).length = 3 ∧
      ∀ a b c, Triangle t a b c → normalAt P t = normalL (pointAt P a) (pointAt P b) (pointAt P c) := by
  obtain ⟨a, b, c, rfl, ha, hb, hc⟩ := h.inRange t ht
  have := normalOf_eq h.pos h.pos3 ha hb hc
  have he : normalAt P [(a : α), (b : α), (c : α)] = normalL (pointAt P a) (pointAt P b) (pointAt P c) := by
    unfold normalAt; rw [this]
  refine ⟨by rw [this, he], by rw [he]; rfl, fun a' b' c' ht' => ?_⟩
  unfold Triangle at ht'
  simp only [List.cons.injEq, and_true] at ht'
  have := h.pos.count_lt
  obtain rfl := NatExact.inj _ _ (by omega) ht'.1
  obtain rfl := NatExact.inj _ _ (by omega) ht'.2.1
  obtain rfl := NatExact.inj _ _ (by omega) ht'.2.2
  exact he

omit [NatCast α] [NatExact α] in
theorem normalStep_eq {P : Serie α} {t : List α} {n0 n1 n2 : α} (hn : normalOf P t = .ok [n0, n1, n2]) (pre : List α)
    (m : Nat) (hs : pre.length + (m + 3) < 2 ^ 32) :
    normalStep P t (pre ++ List.replicate (m + 3) 0, pre.length) =
      .ok ((pre ++ [n0, n1, n2]) ++ List.replicate m 0, (pre ++ [n0, n1, n2]).length) := by
  unfold normalStep
  rw [hn, Res.ok_bind]
  have e : List.replicate (m + 3) (0 : α) = 0 :: 0 :: 0 :: List.replicate m 0 := rfl
  simp only [e]
  rw [show rd [n0, n1, n2] 0 = .ok n0 from rfl, Res.ok_bind, wr_of_lt (by simp), Res.ok_bind,
    show rd [n0, n1, n2] 1 = .ok n1 from rfl, Res.ok_bind, u32_of_lt (by omega), wr_of_lt (by simp), Res.ok_bind,
    show rd [n0, n1, n2] 2 = .ok n2 from rfl, Res.ok_bind, u32_of_lt (by omega), wr_of_lt (by simp; omega), Res.ok_bind,
    u32_of_lt (by omega)]
  show Res.ok _ = Res.ok _
  congr 2
  · rw [List.set_append_right _ _ (by omega), List.set_append_right _ _ (by omega),
      List.set_append_right _ _ (by omega), Nat.sub_self, Nat.add_sub_cancel_left,
      show pre.length + 1 + 1 - pre.length = 2 by omega, List.append_assoc]
    rfl
  · simp

theorem normals_run {P I : Serie α} (h : Mesh P I) :
    normals P I = .ok (ofItems 3 ((items I).map (normalAt P))) := by
  unfold normals
  rw [h.pos.valid, h.tri.valid, if_neg (by simp), if_neg (by simp [h.pos3, h.tri3])]
  have hfit := h.tri.fits
  have hsm := h.tri.small
  rw [h.tri3] at hfit
  have key : ∀ (l : List (List α)) (lo : Nat) (pre : List α), (∀ t ∈ l, t ∈ items I) →
      pre.length + l.length * 3 < 2 ^ 32 →
      ∃ us, callAll (m := Eff (List α × Nat)) (fun t _ => Eff.update (normalStep P t)) l lo
        (pre ++ List.replicate (l.length * 3) 0, pre.length) =
        (.ok us, (pre ++ (l.map (normalAt P)).flatten, (pre ++ (l.map (normalAt P)).flatten).length)) := by
    intro l
    induction l with
    | nil => intro lo pre _ _; exact ⟨[], by simp [callAll]; rfl⟩
    | cons t l ih =>
      intro lo pre hm hs
      obtain ⟨h1, h2, _⟩ := normalAt_eq h (hm t (by simp))
      obtain ⟨n0, n1, n2, hn⟩ := len3 h2
      rw [hn] at h1
      simp only [List.length_cons] at hs
      have e1 := normalStep_eq h1 pre (l.length * 3) (by omega)
      obtain ⟨us, h3⟩ := ih (lo + 1) (pre ++ [n0, n1, n2]) (fun u hu => hm u (by simp [hu])) (by simp; omega)
      refine ⟨() :: us, ?_⟩
      rw [callAll_cons, List.length_cons, show (l.length + 1) * 3 = l.length * 3 + 3 by omega]
      refine (Eff.bind_ok (Eff.update_ok e1)).trans ((Eff.bind_ok h3).trans ?_)
      rw [List.map_cons, List.flatten_cons, hn, List.append_assoc]
      rfl
  obtain ⟨us, h3⟩ := key (items I) 0 [] (fun _ h => h) (by simp; omega)
  unfold Eff.exec forEachV
  rw [if_neg (by rw [h.tri3]; decide), forLoop_unit _ (items I) I.count (items_length I).symm (getA_hyp h.tri)]
  have e : (callAll (m := Eff (List α × Nat)) (fun t _ => Eff.update (normalStep P t)) (items I) >>= fun _ => pure ())
      (List.replicate (u32 (I.count * 3)) 0, 0) = (.ok (), (((items I).map (normalAt P)).flatten,
        (((items I).map (normalAt P)).flatten).length)) := by
    rw [u32_of_lt (by omega)]
    simp only [items_length, List.nil_append, List.length_nil] at h3
    exact (Eff.bind_ok h3).trans rfl
  rw [e]
  show Serie.ofArray 3 _ = _
  refine ofArray_rows (by omega) (by omega) ?_ (by simp; omega)
  intro v hv
  obtain ⟨t, ht, rfl⟩ := List.mem_map.1 hv
  exact (normalAt_eq h ht).2.1

end normals

/-! ## grids -/

theorem forLoop_range {σ : Type} (f : Nat → σ → Res σ) : ∀ (n lo : Nat) (b : σ),
    forLoop f lo n b = (List.range' lo n).foldlM (fun b i => f i b) b := by
  intro n
  induction n with
  | zero => intros; rfl
  | succ n ih =>
    intro lo b
    rw [forLoop_succ, List.range'_succ, List.foldlM_cons]
    congr 1
    funext b'
    exact ih (lo + 1) b'

theorem foldlM_flatMap' {σ β γ : Type} (f : σ → β → Res σ) (g : γ → List β) : ∀ (l : List γ) (b : σ),
    (l.flatMap g).foldlM f b = l.foldlM (fun b x => (g x).foldlM f b) b := by
  intro l
  induction l with
  | nil => intros; rfl
  | cons x l ih =>
    intro b
    rw [List.flatMap_cons, List.foldlM_append, List.foldlM_cons]
    congr 1
    funext b'
    exact ih b'

/-- The points of a grid in order. -/
def gridList (n0 n1 n2 : Nat) (pt : Nat → Nat → Nat → List α) : List (List α) :=
  (List.range n2).flatMap fun k => (List.range n1).flatMap fun j => (List.range n0).map fun i => pt i j k

theorem flatMap_range_get {β : Type} {m : Nat} {g : Nat → List β} (hg : ∀ k, (g k).length = m) (n : Nat) :
    ((List.range n).flatMap g).length = n * m ∧
      ∀ k j, k < n → j < m → ((List.range n).flatMap g)[k * m + j]? = (g k)[j]? := by
  induction n with
  | zero => exact ⟨by simp, fun k j h => by omega⟩
  | succ n ih =>
    rw [List.range_succ, List.flatMap_append]
    refine ⟨by simp [ih.1, hg, Nat.add_mul], fun k j hk hj => ?_⟩
    rcases Nat.lt_or_ge k n with h | h
    · rw [List.getElem?_append_left (by rw [ih.1]; exact lt_mul_of_lt h hj)]
      exact ih.2 k j h hj
    · obtain rfl : k = n := by omega
      rw [List.getElem?_append_right (by rw [ih.1]; omega), ih.1, Nat.add_sub_cancel_left]
      simp

theorem gridList_facts (n0 n1 n2 : Nat) (pt : Nat → Nat → Nat → List α) :
    (gridList n0 n1 n2 pt).length = n0 * n1 * n2 ∧
      ∀ i j k, i < n0 → j < n1 → k < n2 → (gridList n0 n1 n2 pt)[i + n0 * (j + n1 * k)]? = some (pt i j k) := by
  have h1 := fun k => flatMap_range_get (m := n0) (g := fun j => (List.range n0).map fun i => pt i j k) (fun j => by simp) n1
  have h2 := flatMap_range_get (m := n1 * n0) (fun k => (h1 k).1) n2
  unfold gridList
  refine ⟨by rw [h2.1, Nat.mul_comm n2, Nat.mul_comm n1], fun i j k hi hj hk => ?_⟩
  have := h2.2 k (j * n0 + i) hk (lt_mul_of_lt hj hi)
  rw [show i + n0 * (j + n1 * k) = k * (n1 * n0) + (j * n0 + i) by ring, this, (h1 k).2 j i hj hi]
  simp [hi]

theorem gridList_mem {n0 n1 n2 : Nat} {pt : Nat → Nat → Nat → List α} {v : List α} (h : v ∈ gridList n0 n1 n2 pt) :
    ∃ i j k, i < n0 ∧ j < n1 ∧ k < n2 ∧ v = pt i j k := by
  unfold gridList at h
  simp only [List.mem_flatMap, List.mem_map, List.mem_range] at h
  obtain ⟨k, hk, j, hj, i, hi, rfl⟩ := h
  exact ⟨i, j, k, hi, hj, hk, rfl⟩

/-- `result.set(index++, v)`. -/
def gridPut (p : Serie α × Nat) (v : List α) : Res (Serie α × Nat) := do
  let result ← p.1.putA p.2 v
  pure (result, u32 (p.2 + 1))

theorem gridFill_eq {n0 n1 n2 : Nat} {point : Nat → Nat → Nat → Res (List α)} {pt : Nat → Nat → Nat → List α}
    (hp : ∀ i j k, point i j k = .ok (pt i j k)) (p : Serie α × Nat) :
    gridFill [n0, n1, n2] point p = (gridList n0 n1 n2 pt).foldlM gridPut p := by
  unfold gridFill
  rw [show rd [n0, n1, n2] 0 = .ok n0 from rfl, Res.ok_bind, show rd [n0, n1, n2] 1 = .ok n1 from rfl, Res.ok_bind,
    show rd [n0, n1, n2] 2 = .ok n2 from rfl, Res.ok_bind]
  simp only [forLoop_range, ← List.range_eq_range']
  unfold gridList
  rw [foldlM_flatMap']
  congr 1
  funext b k
  rw [foldlM_flatMap']
  congr 1
  funext b j
  rw [List.foldlM_map]
  congr 1
  funext b i
  rw [hp, Res.ok_bind]
  rfl

theorem gridPut_all [Zero α] {n : Nat} (hn : n * 3 < 2 ^ 32) : ∀ (its done : List (List α)),
    (∀ v ∈ its, v.length = 3) → (∀ v ∈ done, v.length = 3) → done.length + its.length = n →
    its.foldlM gridPut (partialS 3 n 3 done, done.length) = .ok (ofItems 3 (done ++ its), n) := by
  intro its
  induction its with
  | nil =>
    intro done _ _ hl
    obtain rfl : done.length = n := by simpa using hl
    rw [partialS_done, List.append_nil]
    rfl
  | cons v its ih =>
    intro done hi hd hl
    simp only [List.length_cons] at hl
    rw [List.foldlM_cons]
    unfold gridPut
    rw [putA_partialS (by omega) (by omega) hd (by omega) hn (hi v (by simp)), Res.ok_bind]
    show List.foldlM gridPut _ its = _
    have := ih (done ++ [v]) (fun u hu => hi u (by simp [hu]))
      (fun u hu => (List.mem_append.1 hu).elim (hd u) (fun h => by
        rw [List.mem_singleton.1 h]; exact hi v (by simp))) (by simp; omega)
    rw [List.length_append, List.length_singleton] at this
    rw [u32_of_lt (by omega), this]
    simp

theorem gridTotal_eq (npts : List Nat) : gridTotal npts = u32 npts.prod := by
  have : ∀ (l : List Nat) (t : Nat), l.foldl (fun total n => u32 (total * n)) (u32 t) = u32 (t * l.prod) := by
    intro l
    induction l with
    | nil => intro t; simp
    | cons n l ih =>
      intro t
      rw [List.foldl_cons, show u32 (u32 t * n) = u32 (t * n) from Nat.mod_mul_mod .., ih, List.prod_cons, Nat.mul_assoc]
  have h := this npts 1
  rw [Nat.one_mul] at h
  exact h

/-- Writes past the end. -/
theorem Serie.writeLoop_ub {v : List α} {p : Nat} (n : Nat) : ∀ (lo : Nat) (s : Serie α), lo + n = v.length →
    p + lo ≤ s.data.length → s.data.length < p + v.length → s.data.length < 2 ^ 32 →
    (forLoop (m := Eff (Serie α)) (fun j _ => do
      let x ← Eff.lift (rd v j)
      Serie.write (u32 (p + j)) x) lo n () s).1 = .ub := by
  induction n with
  | zero => intro lo s h1 h2 h3 _; omega
  | succ n ih =>
    intro lo s h1 h2 h3 h4
    rw [forLoop_succ, rd_of_lt (show lo < v.length by omega)]
    simp only [Eff.lift_ok, pure_bind]
    rw [u32_of_lt (show p + lo < 2 ^ 32 by omega)]
    rcases Nat.lt_or_ge (p + lo) s.data.length with h | h
    · rw [Eff.bind_ok (Serie.write_eq h)]
      exact ih (lo + 1) _ (by omega) (by simp; omega) (by simpa using h3) (by simpa using h4)
    · rw [Eff.bind_ub (s' := s) (by simp [Serie.write, wr_of_ge h])]

theorem gridPut_ub {n L : Nat} (hL : L < 2 ^ 32) (hn : L < n * 3) : ∀ (its : List (List α)) (s : Serie α) (idx : Nat),
    (∀ v ∈ its, v.length = 3) → s.data.length = L → s.count = n → s.itemSize = 3 → idx + its.length = n → n < 2 ^ 32 →
    idx * 3 ≤ L → its.foldlM gridPut (s, idx) = .ub := by
  intro its
  induction its with
  | nil => intro s idx _ _ _ _ h5 _ h6; simp at h5; omega
  | cons v its ih =>
    intro s idx hv h1 h2 h3 h5 h7 h6
    simp only [List.length_cons] at h5
    have hl := hv v (by simp)
    rw [List.foldlM_cons]
    unfold gridPut Serie.putA Eff.exec Serie.setA
    simp only [h2, h3]
    rw [if_neg (by omega), if_neg (by rw [hl]; decide)]
    rcases Nat.lt_or_ge L (idx * 3 + 3) with h | h
    · have := Serie.writeLoop_ub (v := v) (p := idx * 3) 3 0 s (by omega) (by omega) (by omega) (by omega)
      rw [show forLoop (m := Eff (Serie α)) (fun j _ => do
        let x ← Eff.lift (rd v j)
        Serie.write (u32 (idx * 3 + j)) x) 0 3 () s = (.ub, _) from Prod.ext this rfl]
      rfl
    · rw [Serie.writeLoop (v := v) (p := idx * 3) 3 0 s (by omega) (by omega) (by omega)]
      rw [u32_of_lt (by omega)]
      exact ih _ (idx + 1) (fun u hu => hv u (by simp [hu])) (by simp; omega) h2 h3 (by omega) h7 (by omega)

end DF
