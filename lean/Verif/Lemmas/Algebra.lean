import Verif.Model.Algebra
import Verif.Spec.Algebra
import Verif.Lemmas.MathMore
import Mathlib.Tactic.Ring
import Mathlib.Tactic.LinearCombination

/-! # Lemmas on transpose, det, inv, cross, dot, norm -/

namespace DF

open Spec

variable {α : Type}

/-! ## map item by item -/

theorem mapArr_items [Zero α] {s : Serie α} (h : WF s) (h0 : 0 < s.count) {cb : List α → Nat → Res (List α)} {k : Nat}
    {g : List α → List α} (hk : 0 < k) (hk' : k ≤ s.itemSize)
    (hg : ∀ v, v.length = s.itemSize → (g v).length = k)
    (hcb : ∀ v, v.length = s.itemSize → ∀ i, cb v i = .ok (g v)) :
    mapArr cb s = .ok (ofItems k ((items s).map g)) := by
  have hfit := h.fits
  have hsm := h.small
  have hint := h.int
  have : s.count * k ≤ s.count * s.itemSize := Nat.mul_le_mul_left _ hk'
  refine mapArr_ok h h0 (AllReturn_map (fun v hv i => hcb v (h.item_length hv) i)) hk (by omega) ?_ (by omega)
  intro v hv
  obtain ⟨u, hu, rfl⟩ := List.mem_map.1 hv
  exact hg u (h.item_length hu)

theorem ofItems_map_facts {s : Serie α} (h : WF s) {k : Nat} {g : List α → List α} (hk : 0 < k) (hk' : k ≤ s.itemSize)
    (hg : ∀ v, v.length = s.itemSize → (g v).length = k) :
    WF (ofItems k ((items s).map g)) ∧ (ofItems k ((items s).map g)).itemSize = k ∧
      (ofItems k ((items s).map g)).count = s.count ∧ items (ofItems k ((items s).map g)) = (items s).map g := by
  have hfit := h.fits
  have hsm := h.small
  have hint := h.int
  have hle : s.count * k ≤ s.count * s.itemSize := Nat.mul_le_mul_left _ hk'
  have hl : ∀ v ∈ (items s).map g, v.length = k := by
    intro v hv
    obtain ⟨u, hu, rfl⟩ := List.mem_map.1 hv
    exact hg u (h.item_length hu)
  have hlen : ((items s).map g).length = s.count := by simp
  exact ⟨WF_ofItems hk (by omega) hl (by rw [hlen]; omega), rfl, hlen, items_ofItems hl⟩

theorem mapArr_items2 [Zero α] {a b : Serie α} (ha : WF a) (hb : WF b) (hc : a.count = b.count) (h0 : 0 < a.count)
    {f : List α → List α → Res (List α)} {k : Nat} {g : List α → List α → List α} (hk : 0 < k) (hk' : k ≤ a.itemSize)
    (hg : ∀ u v, u.length = a.itemSize → v.length = b.itemSize → (g u v).length = k)
    (hf : ∀ u v, u.length = a.itemSize → v.length = b.itemSize → f u v = .ok (g u v)) :
    mapArr (fun u i => b.value i >>= f u) a = .ok (ofItems k (List.zipWith g (items a) (items b))) := by
  have hfit := ha.fits
  have hsm := ha.small
  have hint := ha.int
  have hle : a.count * k ≤ a.count * a.itemSize := Nat.mul_le_mul_left _ hk'
  refine mapArr_ok ha h0 ⟨by simp [hc], fun i h1 h2 => ?_⟩ hk (by omega) ?_ (by omega)
  · have h3 : i < (items b).length := by simp only [items_length] at h1 ⊢; omega
    have h4 : i < b.count := by simpa using h3
    simp only [List.getElem_zipWith]
    rw [Serie.value_eq hb h4, Res.ok_bind, hf _ _ (ha.item_length (List.getElem_mem _)) (chunk_length (hb.item_fits h4)),
      items_getElem b i h3]
  · intro v hv
    obtain ⟨i, hi, rfl⟩ := List.mem_iff_getElem.1 hv
    simp only [List.length_zipWith] at hi
    rw [List.getElem_zipWith]
    exact hg _ _ (ha.item_length (List.getElem_mem _)) (hb.item_length (List.getElem_mem _))

theorem ofItems_zip_facts {a b : Serie α} (ha : WF a) (hb : WF b) (hc : a.count = b.count) {k : Nat}
    {g : List α → List α → List α} (hk : 0 < k) (hk' : k ≤ a.itemSize)
    (hg : ∀ u v, u.length = a.itemSize → v.length = b.itemSize → (g u v).length = k) :
    let r := ofItems k (List.zipWith g (items a) (items b))
    WF r ∧ r.itemSize = k ∧ r.count = a.count ∧ items r = List.zipWith g (items a) (items b) := by
  have hfit := ha.fits
  have hsm := ha.small
  have hint := ha.int
  have hle : a.count * k ≤ a.count * a.itemSize := Nat.mul_le_mul_left _ hk'
  have hl : ∀ v ∈ List.zipWith g (items a) (items b), v.length = k := by
    intro v hv
    obtain ⟨i, hi, rfl⟩ := List.mem_iff_getElem.1 hv
    rw [List.getElem_zipWith]
    exact hg _ _ (ha.item_length (List.getElem_mem _)) (hb.item_length (List.getElem_mem _))
  have hlen : (List.zipWith g (items a) (items b)).length = a.count := by simp [hc]
  exact ⟨WF_ofItems hk (by omega) hl (by rw [hlen]; omega), rfl, hlen, items_ofItems hl⟩

theorem forall₂_map {R : List α → List α → Prop} {g : List α → List α} {l : List (List α)}
    (h : ∀ v ∈ l, R v (g v)) : List.Forall₂ R l (l.map g) := by
  induction l with
  | nil => exact .nil
  | cons a l ih => exact .cons (h a (by simp)) (ih (fun v hv => h v (by simp [hv])))

theorem forall₂_zip {R : List α → List α → List α → Prop} {g : List α → List α → List α} {l m : List (List α)}
    (hlm : l.length = m.length) (h : ∀ u ∈ l, ∀ v ∈ m, R u v (g u v)) :
    List.Forall₂ (fun p w => R p.1 p.2 w) (l.zip m) (List.zipWith g l m) := by
  induction l generalizing m with
  | nil => simp
  | cons a l ih =>
    cases m with
    | nil => simp at hlm
    | cons b m =>
      exact .cons (h a (by simp) b (by simp)) (ih (by simpa using hlm) (fun u hu v hv => h u (by simp [hu]) v (by simp [hv])))

theorem ItemWise3_zip {a b r : Serie α} {R : List α → List α → List α → Prop} {g : List α → List α → List α}
    (hc : a.count = b.count) (hr : items r = List.zipWith g (items a) (items b))
    (h : ∀ u ∈ items a, ∀ v ∈ items b, R u v (g u v)) : ItemWise3 R a b r := by
  refine ⟨hc, ?_⟩
  rw [hr]
  exact forall₂_zip (R := R) (by simp [hc]) h

theorem ItemWise_map {s r : Serie α} {R : List α → List α → Prop} {g : List α → List α}
    (hr : items r = (items s).map g) (h : ∀ u ∈ items s, R u (g u)) : ItemWise R s r := by
  unfold ItemWise
  rw [hr]
  exact forall₂_map h

/-! ## map with callbacks that may throw -/

theorem callAll_lift_throw {σ β γ : Type} {f : γ → Nat → Res β} {e : Err} : ∀ (l : List γ) (lo : Nat),
    (∀ x ∈ l, ∀ i, f x i = .throw e ∨ ∃ y, f x i = .ok y) → (∃ x ∈ l, ∀ i, f x i = .throw e) →
    ∀ st : σ, (callAll (m := Eff σ) (fun x i => Eff.lift (f x i)) l lo st).1 = .throw e := by
  intro l
  induction l with
  | nil => intro _ _ h; obtain ⟨x, hx, _⟩ := h; simp at hx
  | cons a l ih =>
    intro lo h1 h2 st
    rw [callAll_cons]
    rcases h1 a (by simp) lo with h | ⟨y, h⟩
    · rw [Eff.bind_throw (s' := st) (e := e) (by rw [h]; rfl)]
    · rw [Eff.bind_ok (s' := st) (b := y) (by rw [h]; rfl)]
      have := ih (lo + 1) (fun x hx i => h1 x (by simp [hx]) i) (by
        obtain ⟨x, hx, hx'⟩ := h2
        rcases List.mem_cons.1 hx with rfl | hx
        · rw [hx' lo] at h; simp at h
        · exact ⟨x, hx, hx'⟩) st
      rw [Eff.bind_throw (e := e) (s' := (callAll (m := Eff σ) (fun x i => Eff.lift (f x i)) l (lo + 1) st).2)
        (Prod.ext this rfl)]

theorem sizedMap_throwSome {γ : Type} {f : γ → Nat → Res (List α)} {e : Err} {k : Nat} {l : List γ}
    (h1 : ∀ v ∈ l, ∀ i, f v i = .throw e ∨ ∃ y, f v i = .ok y ∧ y.length = k) (h2 : ∃ v ∈ l, ∀ i, f v i = .throw e) :
    (sizedMap (σ := Unit) (fun x i => Eff.lift (f x i)) l ()).1 = .throw e := by
  cases l with
  | nil => obtain ⟨v, hv, _⟩ := h2; simp at hv
  | cons x l =>
    rw [sizedMap_cons]
    rcases h1 x (by simp) 0 with h | ⟨y, h, hy⟩
    · rw [Eff.bind_throw (s' := ()) (e := e) (by rw [h]; rfl)]
    · rw [Eff.bind_ok (s' := ()) (b := y) (by rw [h]; rfl)]
      have hcall : callAll (m := Eff Unit) (fun x i => Eff.lift (f x i) >>= fun z =>
          if z.length ≠ y.length then Eff.throw .runtimeError else pure z) l 1 =
          callAll (fun x i => Eff.lift ((fun x i => f x i >>= fun z =>
            if z.length ≠ y.length then .throw .runtimeError else .ok z) x i)) l 1 := by
        congr 1; funext x i st
        simp only [Eff.bind_def, Eff.lift]
        cases f x i with
        | ok z => simp only [Res.ok_bind]; split <;> rfl
        | throw e => rfl
        | ub => rfl
      rw [hcall]
      have := callAll_lift_throw (σ := Unit) (f := fun x i => f x i >>= fun z =>
            if z.length ≠ y.length then .throw .runtimeError else .ok z) (e := e) l 1
        (fun x hx i => by
          rcases h1 x (by simp [hx]) i with h' | ⟨z, h', hz⟩
          · left; simp only [h']; rfl
          · right; exact ⟨z, by simp only [h', Res.ok_bind]; rw [if_neg (by simp [hy, hz])]⟩)
        (by
          obtain ⟨v, hv, hv'⟩ := h2
          rcases List.mem_cons.1 hv with rfl | hv
          · rw [hv' 0] at h; simp at h
          · exact ⟨v, hv, fun i => by simp only [hv']; rfl⟩) ()
      rw [Eff.bind_throw (e := e) (Prod.ext this rfl)]

theorem mapArr_throw [Zero α] {s : Serie α} (h : WF s) {cb : List α → Nat → Res (List α)} {e : Err} {k : Nat}
    (h1 : ∀ v ∈ items s, ∀ i, cb v i = .throw e ∨ ∃ y, cb v i = .ok y ∧ y.length = k)
    (h2 : ∃ v ∈ items s, ∀ i, cb v i = .throw e) : mapArr cb s = .throw e := by
  unfold mapArr
  rw [mapVV_eq h]
  exact sizedMap_throwSome h1 h2

theorem mapArr_ub0 [Zero α] {s : Serie α} (h : WF s) (h0 : 0 < s.count) {cb : List α → Nat → Res (List α)}
    (hcb : ∀ v, v.length = s.itemSize → cb v 0 = .ub) : mapArr cb s = .ub := by
  unfold mapArr
  rw [mapVV_eq h]
  have hl := items_length s
  cases hs : items s with
  | nil => rw [hs] at hl; simp at hl; omega
  | cons x l => rw [sizedMap_cons, hcb x (h.item_length (by simp [hs]))]; rfl

/-! ## arrays of known lengths -/

theorem len3 {t : List α} (h : t.length = 3) : ∃ a b c, t = [a, b, c] := by
  match t, h with
  | [a, b, c], _ => exact ⟨a, b, c, rfl⟩

theorem len4 {t : List α} (h : t.length = 4) : ∃ a b c d, t = [a, b, c, d] := by
  match t, h with
  | [a, b, c, d], _ => exact ⟨a, b, c, d, rfl⟩

theorem len6 {t : List α} (h : t.length = 6) : ∃ a b c d e f, t = [a, b, c, d, e, f] := by
  match t, h with
  | [a, b, c, d, e, f], _ => exact ⟨a, b, c, d, e, f, rfl⟩

theorem len9 {t : List α} (h : t.length = 9) : ∃ a b c d e f g i j, t = [a, b, c, d, e, f, g, i, j] := by
  match t, h with
  | [a, b, c, d, e, f, g, i, j], _ => exact ⟨a, b, c, d, e, f, g, i, j, rfl⟩

/-! ## views -/

theorem squaredMatrix_two {v : List α} (h : v.length = 4) : squaredMatrix v = ⟨some v, 2⟩ := by
  unfold squaredMatrix MatView.of
  rw [h, show (4 : Nat) = 2 * 2 by rfl, Nat.sqrt_eq]

theorem squaredMatrix_three {v : List α} (h : v.length = 9) : squaredMatrix v = ⟨some v, 3⟩ := by
  unfold squaredMatrix MatView.of
  rw [h, show (9 : Nat) = 3 * 3 by rfl, Nat.sqrt_eq]

theorem symDim_three : symDim 3 = 2 := by
  unfold symDim
  rw [show 8 * 3 + 1 = 5 * 5 by rfl, Nat.sqrt_eq]

theorem symDim_six : symDim 6 = 3 := by
  unfold symDim
  rw [show 8 * 6 + 1 = 7 * 7 by rfl, Nat.sqrt_eq]

theorem symSquaredMatrix_two [Zero α] {v : List α} (h : v.length = 3) : symSquaredMatrix v = .ok ⟨none, 2⟩ := by
  obtain ⟨a, b, c, rfl⟩ := len3 h
  unfold symSquaredMatrix symBound
  simp only [List.length_cons, List.length_nil, Nat.zero_add, Nat.reduceAdd, symDim_three]
  rfl

theorem symSquaredMatrix_three [Zero α] {v : List α} (h : v.length = 6) : symSquaredMatrix v = .ok ⟨none, 3⟩ := by
  obtain ⟨a, b, c, d, e, f, rfl⟩ := len6 h
  unfold symSquaredMatrix symBound
  simp only [List.length_cons, List.length_nil, Nat.zero_add, Nat.reduceAdd, symDim_six]
  rfl

end DF
