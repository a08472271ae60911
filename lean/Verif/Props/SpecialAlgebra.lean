import Verif.Props.Geo
import Verif.Props.Special

/-!
# NaN in the vector and matrix functions: C145

`Ext α` are the numbers of `α`, the infinities and NaN.
-/

namespace DF

open Spec

variable {α : Type}

section

variable [Field α] [LinearOrder α]

/-! ## C145: cross, det -/

/-- Component `k` of a cross product is NaN as soon as one of the four numbers it is computed from is NaN, and finite when these are
finite, whatever the two other numbers are. -/
theorem C145_cross {a b : Serie (Ext α)} (ha : WF a) (hb : WF b) (h3 : a.itemSize = 3) (h3' : b.itemSize = 3)
    (hc : a.count = b.count) (h0 : 0 < a.count) :
    ∃ r, cross a b = .ok r ∧ WF r ∧ SameShape r a ∧ ItemWise3 (fun u v w => ∀ k < 3,
      ((∀ i < 3, i ≠ k → ∃ x y, u[i]? = some (.fin x) ∧ v[i]? = some (.fin y)) → ∃ z, w[k]? = some (.fin z)) ∧
      ((∃ i < 3, i ≠ k ∧ (u[i]? = some .nan ∨ v[i]? = some .nan)) → w[k]? = some .nan)) a b r := by
  have hf := ofItems_zip_facts ha hb hc (k := 3) (g := fun u v => [num u 1 * num v 2 - num u 2 * num v 1,
      num u 2 * num v 0 - num u 0 * num v 2, num u 0 * num v 1 - num u 1 * num v 0]) (by omega) (by omega) (fun _ _ _ _ => rfl)
  refine ⟨_, cross_run ha hb h3 h3' hc h0, hf.1, ⟨hf.2.1.trans h3.symm, hf.2.2.1⟩, ItemWise3_zip hc hf.2.2.2 fun u hu v hv => ?_⟩
  obtain ⟨a0, a1, a2, rfl⟩ := len3 ((ha.item_length hu).trans h3)
  obtain ⟨b0, b1, b2, rfl⟩ := len3 ((hb.item_length hv).trans h3')
  have fin : ∀ x y z t : α, ∃ w, (Ext.fin x * .fin y - .fin z * .fin t : Ext α) = .fin w := fun x y z t => ⟨x * y - z * t, rfl⟩
  intro k hk
  refine ⟨fun h => ?_, ?_⟩
  · match k, hk with
    | 0, _ =>
      obtain ⟨x1, y1, e1, f1⟩ := h 1 (by omega) (by omega)
      obtain ⟨x2, y2, e2, f2⟩ := h 2 (by omega) (by omega)
      simp at e1 f1 e2 f2
      subst e1 f1 e2 f2
      obtain ⟨w, hw⟩ := fin x1 y2 x2 y1
      exact ⟨w, congrArg some hw⟩
    | 1, _ =>
      obtain ⟨x1, y1, e1, f1⟩ := h 2 (by omega) (by omega)
      obtain ⟨x2, y2, e2, f2⟩ := h 0 (by omega) (by omega)
      simp at e1 f1 e2 f2
      subst e1 f1 e2 f2
      obtain ⟨w, hw⟩ := fin x1 y2 x2 y1
      exact ⟨w, congrArg some hw⟩
    | 2, _ =>
      obtain ⟨x1, y1, e1, f1⟩ := h 0 (by omega) (by omega)
      obtain ⟨x2, y2, e2, f2⟩ := h 1 (by omega) (by omega)
      simp at e1 f1 e2 f2
      subst e1 f1 e2 f2
      obtain ⟨w, hw⟩ := fin x1 y2 x2 y1
      exact ⟨w, congrArg some hw⟩
  · rintro ⟨i, hi, hne, h⟩
    match k, hk, i, hi with
    | 0, _, 1, _ | 0, _, 2, _ | 1, _, 0, _ | 1, _, 2, _ | 2, _, 0, _ | 2, _, 1, _ =>
      rcases h with h | h <;> simp at h <;> subst h <;> simp [num, Ext.nan_mul, Ext.mul_nan, Ext.nan_sub, Ext.sub_nan]
    | 0, _, 0, _ | 1, _, 1, _ | 2, _, 2, _ => exact absurd rfl hne

/-- The determinant of a matrix of dimension 2 or 3 with a NaN is NaN, and the one of a finite matrix is finite. -/
theorem C145_det {s : Serie (Ext α)} (h : WF s) (h0 : 0 < s.count)
    (hs : (s.itemSize = 4 ∧ s.dimension = 2) ∨ (s.itemSize = 9 ∧ s.dimension = 3)) :
    ∃ r, det s = .ok r ∧ WF r ∧ r.itemSize = 1 ∧ ItemWise (fun t w => (Ext.nan ∈ t → w = [.nan]) ∧
      ((∀ x ∈ t, IsFinite x) → ∃ z, w = [.fin z])) s r := by
  rcases hs with ⟨hk, hd⟩ | ⟨hk, hd⟩
  · have hf := ofItems_map_facts h (k := 1) (g := fun t => [num t 0 * num t 3 - num t 1 * num t 2]) (by omega) (by omega)
      (fun _ _ => rfl)
    refine ⟨_, det_run2 h h0 hk hd, hf.1, hf.2.1, ItemWise_map hf.2.2.2 fun t ht => ?_⟩
    obtain ⟨a, b, c, d, rfl⟩ := len4 ((h.item_length ht).trans hk)
    refine ⟨fun hn => ?_, fun hx => ?_⟩
    · simp only [List.mem_cons, List.not_mem_nil, or_false] at hn
      rcases hn with rfl | rfl | rfl | rfl <;> simp [num, Ext.nan_mul, Ext.mul_nan, Ext.nan_sub, Ext.sub_nan]
    · obtain ⟨a, rfl⟩ := hx a (by simp)
      obtain ⟨b, rfl⟩ := hx b (by simp)
      obtain ⟨c, rfl⟩ := hx c (by simp)
      obtain ⟨d, rfl⟩ := hx d (by simp)
      exact ⟨a * d - b * c, rfl⟩
  · have hf := ofItems_map_facts h (k := 1) (g := fun t => [num t 0 * num t 4 * num t 8 - num t 0 * num t 5 * num t 7 -
      num t 1 * num t 3 * num t 8 + num t 1 * num t 5 * num t 6 + num t 2 * num t 3 * num t 7 -
      num t 2 * num t 4 * num t 6]) (by omega) (by omega) (fun _ _ => rfl)
    refine ⟨_, det_run3 h h0 hk hd, hf.1, hf.2.1, ItemWise_map hf.2.2.2 fun t ht => ?_⟩
    obtain ⟨a, b, c, d, e, f, g, i, j, rfl⟩ := len9 ((h.item_length ht).trans hk)
    refine ⟨fun hn => ?_, fun hx => ?_⟩
    · simp only [List.mem_cons, List.not_mem_nil, or_false] at hn
      rcases hn with rfl | rfl | rfl | rfl | rfl | rfl | rfl | rfl | rfl <;>
        simp [num, Ext.nan_mul, Ext.mul_nan, Ext.nan_sub, Ext.sub_nan, Ext.nan_add, Ext.add_nan]
    · obtain ⟨a, rfl⟩ := hx a (by simp)
      obtain ⟨b, rfl⟩ := hx b (by simp)
      obtain ⟨c, rfl⟩ := hx c (by simp)
      obtain ⟨d, rfl⟩ := hx d (by simp)
      obtain ⟨e, rfl⟩ := hx e (by simp)
      obtain ⟨f, rfl⟩ := hx f (by simp)
      obtain ⟨g, rfl⟩ := hx g (by simp)
      obtain ⟨i, rfl⟩ := hx i (by simp)
      obtain ⟨j, rfl⟩ := hx j (by simp)
      exact ⟨_, rfl⟩

/-- The first component of the second item only uses finite numbers; the other ones are NaN. -/
example := C145_cross (a := (⟨[.fin 1, .fin 2, .fin 3, .nan, .fin 5, .fin 6], 2, 3, 3⟩ : Serie (Ext ℚ)))
  (b := ⟨[.fin 1, .pinf, .fin 3, .fin 4, .fin 5, .fin 7], 2, 3, 3⟩) ⟨by decide, by decide, by decide, by decide⟩
  ⟨by decide, by decide, by decide, by decide⟩ rfl rfl rfl (by decide)

example := C145_det (s := (⟨[.fin 1, .fin 2, .fin 3, .nan, .fin 5, .fin 6, .fin 7, .fin 8], 2, 4, 2⟩ : Serie (Ext ℚ)))
  ⟨by decide, by decide, by decide, by decide⟩ (by decide) (.inl ⟨rfl, rfl⟩)

/-! ## C145: inv -/

section

variable [IsStrictOrderedRing α]

omit [IsStrictOrderedRing α] in
private theorem invSym_nan {t : List (Ext α)} (hl : t.length = 6) (hn : Ext.nan ∈ t) :
    invSym t = .ok (List.replicate 6 .nan) := by
  obtain ⟨a, b, c, d, e, f, rfl⟩ := len6 hl
  have hdet : a * (d * f - e * e) - b * (b * f - e * c) + c * (b * e - d * c) = Ext.nan := by
    simp only [List.mem_cons, List.not_mem_nil, or_false] at hn
    rcases hn with rfl | rfl | rfl | rfl | rfl | rfl <;>
      simp only [Ext.nan_mul, Ext.mul_nan, Ext.nan_sub, Ext.sub_nan, Ext.nan_add, Ext.add_nan]
  show (if absv (a * (d * f - e * e) - b * (b * f - e * c) + c * (b * e - d * c)) < (1e-10 : Ext α) then Res.throw Err.runtimeError
    else _) = _
  rw [hdet, if_neg (by intro h; exact h.elim)]
  simp only [Ext.div_nan, Ext.mul_nan]
  rfl

omit [IsStrictOrderedRing α] in
private theorem invFull_nan {t : List (Ext α)} (hl : t.length = 9) (hn : Ext.nan ∈ t) :
    invFull t = .ok (List.replicate 9 .nan) := by
  obtain ⟨a, b, c, d, e, f, g, i, j, rfl⟩ := len9 hl
  have hdet : a * (e * j - f * i) - b * (d * j - f * g) + c * (d * i - e * g) = Ext.nan := by
    simp only [List.mem_cons, List.not_mem_nil, or_false] at hn
    rcases hn with rfl | rfl | rfl | rfl | rfl | rfl | rfl | rfl | rfl <;>
      simp only [Ext.nan_mul, Ext.mul_nan, Ext.nan_sub, Ext.sub_nan, Ext.nan_add, Ext.add_nan]
  show (if absv (a * (e * j - f * i) - b * (d * j - f * g) + c * (d * i - e * g)) < (1e-10 : Ext α) then Res.throw Err.runtimeError
    else _) = _
  rw [hdet, if_neg (by intro h; exact h.elim)]
  simp only [Ext.div_nan, Ext.mul_nan]
  rfl

omit [IsStrictOrderedRing α] in
private theorem absv_fin (x : α) : absv (Ext.fin x) = .fin (absv x) := by
  unfold absv
  show (if x < 0 then Ext.fin (-x) else Ext.fin x) = _
  split <;> rfl

omit [IsStrictOrderedRing α] in
private theorem one_div_fin {x : α} (hx : x ≠ 0) : (1 / Ext.fin x : Ext α) = .fin (1 / x) := Ext.fin_div hx

omit [IsStrictOrderedRing α] in
private theorem invSym_fin {t : List α} (hl : t.length = 6) (hz : (symMatrix3 t).det ≠ 0) :
    invSym (t.map Ext.fin) = match invSym t with
      | .ok w => .ok (w.map Ext.fin)
      | .throw e => .throw e
      | .ub => .ub := by
  obtain ⟨a, b, c, d, e, f, rfl⟩ := len6 hl
  rw [det_sym] at hz
  show (if absv (Ext.fin (a * (d * f - e * e) - b * (b * f - e * c) + c * (b * e - d * c))) < Ext.fin (1e-10 : α)
    then Res.throw Err.runtimeError else _) = _
  have h2 : invSym [a, b, c, d, e, f] = if absv (a * (d * f - e * e) - b * (b * f - e * c) + c * (b * e - d * c)) < (1e-10 : α)
    then Res.throw Err.runtimeError else _ := rfl
  rw [h2, absv_fin]
  by_cases hlt : absv (a * (d * f - e * e) - b * (b * f - e * c) + c * (b * e - d * c)) < (1e-10 : α)
  · rw [if_pos hlt]
    exact if_pos hlt
  · rw [if_neg hlt]
    refine (if_neg (c := Ext.fin (absv _) < Ext.fin (1e-10 : α)) hlt).trans ?_
    show Res.ok [_, _, _, _, _, _] = Res.ok (List.map Ext.fin [_, _, _, _, _, _])
    have := one_div_fin hz
    simp only [List.map_cons, List.map_nil]
    simp only [Ext.fin_mul, Ext.fin_sub, Ext.fin_add] at this ⊢
    rw [this]
    rfl

omit [IsStrictOrderedRing α] in
private theorem invFull_fin {t : List α} (hl : t.length = 9) (hz : (fullMatrix 3 t).det ≠ 0) :
    invFull (t.map Ext.fin) = match invFull t with
      | .ok w => .ok (w.map Ext.fin)
      | .throw e => .throw e
      | .ub => .ub := by
  obtain ⟨a, b, c, d, e, f, g, i, j, rfl⟩ := len9 hl
  rw [det_full] at hz
  show (if absv (Ext.fin (a * (e * j - f * i) - b * (d * j - f * g) + c * (d * i - e * g))) < Ext.fin (1e-10 : α)
    then Res.throw Err.runtimeError else _) = _
  have h2 : invFull [a, b, c, d, e, f, g, i, j] = if absv (a * (e * j - f * i) - b * (d * j - f * g) + c * (d * i - e * g)) <
    (1e-10 : α) then Res.throw Err.runtimeError else _ := rfl
  rw [h2, absv_fin]
  by_cases hlt : absv (a * (e * j - f * i) - b * (d * j - f * g) + c * (d * i - e * g)) < (1e-10 : α)
  · rw [if_pos hlt]
    exact if_pos hlt
  · rw [if_neg hlt]
    refine (if_neg (c := Ext.fin (absv _) < Ext.fin (1e-10 : α)) hlt).trans ?_
    show Res.ok [_, _, _, _, _, _, _, _, _] = Res.ok (List.map Ext.fin [_, _, _, _, _, _, _, _, _])
    have := one_div_fin hz
    simp only [List.map_cons, List.map_nil]
    simp only [Ext.fin_mul, Ext.fin_sub, Ext.fin_add] at this ⊢
    rw [this]
    rfl

/-- A matrix with a NaN among matrices that are finite: its inverse is made of NaN only, no exception is thrown for it, and the
other matrices have the inverse they have in a Serie without NaN. (`det` is the determinant of the matrix of the item.) -/
theorem C145_inv {s : Serie (Ext α)} (h : WF s) (h0 : 0 < s.count) (hd : s.dimension = 3)
    {det : List α → α} (hk : (s.itemSize = 6 ∧ det = fun t => (symMatrix3 t).det) ∨ (s.itemSize = 9 ∧ det = fun t => (fullMatrix 3 t).det))
    (hs : ∀ t ∈ items s, Ext.nan ∈ t ∨ ∃ t', t = t'.map .fin ∧ 1 / 10 ^ 10 ≤ |det t'|) :
    ∃ r, inv s = .ok r ∧ WF r ∧ SameShape r s ∧ ItemWise (fun t w =>
      (Ext.nan ∈ t → w = List.replicate s.itemSize .nan) ∧
      ∀ t', t = t'.map .fin → ∃ q, inv ⟨t', 1, s.itemSize, 3⟩ = .ok q ∧ w = q.data.map .fin) s r := by
  have hfit := h.fits
  have hsm := h.small
  have hint := h.int
  have pos : ∀ x : α, 1 / 10 ^ 10 ≤ |x| → x ≠ 0 := fun x hx hz => by
    rw [hz, abs_zero] at hx
    exact absurd hx (not_le.2 (by positivity))
  have notnan : ∀ t' : List α, Ext.nan ∉ t'.map Ext.fin := fun t' hm => by
    obtain ⟨x, _, hx⟩ := List.mem_map.1 hm
    cases hx
  have mapfin : ∀ t t' : List α, t.map Ext.fin = t'.map Ext.fin → t = t' := fun t t' e =>
    List.map_injective_iff.2 (fun x y hxy => by cases hxy; rfl) e
  have main : ∀ (cb : List (Ext α) → Res (List (Ext α))) (cb' : List α → Res (List α)) (g : List α → List α) (k : Nat),
      s.itemSize = k → (∀ t : List (Ext α), t.length = k → Ext.nan ∈ t → cb t = .ok (List.replicate k .nan)) →
      (∀ t : List α, t.length = k → 1 / 10 ^ 10 ≤ |det t| → cb' t = .ok (g t) ∧ (g t).length = k ∧ cb (t.map .fin) = .ok ((g t).map .fin)) →
      (inv s = mapArr (fun t _ => cb t) s) → (∀ t, t.length = k → inv (⟨t, 1, k, 3⟩ : Serie α) = mapArr (fun t _ => cb' t) ⟨t, 1, k, 3⟩) →
      ∃ r, inv s = .ok r ∧ WF r ∧ SameShape r s ∧ ItemWise (fun t w =>
        (Ext.nan ∈ t → w = List.replicate s.itemSize .nan) ∧
        ∀ t', t = t'.map .fin → ∃ q, inv ⟨t', 1, s.itemSize, 3⟩ = .ok q ∧ w = q.data.map .fin) s r := by
    intro cb cb' g k hk hnan hfin hrun hrun'
    have hall : ∀ t ∈ items s, ∃ w, cb t = .ok w ∧ w.length = k := by
      intro t ht
      have hl := (h.item_length ht).trans hk
      rcases hs t ht with hn | ⟨t', rfl, hdet⟩
      · exact ⟨_, hnan t hl hn, by simp⟩
      · obtain ⟨_, b, c⟩ := hfin t' (by simpa using hl) hdet
        exact ⟨_, c, by simpa using b⟩
    classical
    let G : List (Ext α) → List (Ext α) := fun t => match cb t with
      | .ok w => w
      | _ => []
    have hG : ∀ t ∈ items s, cb t = .ok (G t) ∧ (G t).length = k := fun t ht => by
      obtain ⟨w, hw, hl⟩ := hall t ht
      have : G t = w := by show (match cb t with | .ok w => w | _ => []) = w; rw [hw]
      rw [this]; exact ⟨hw, hl⟩
    have hGl : ∀ y ∈ (items s).map G, y.length = k := by
      intro y hy
      obtain ⟨t, ht, rfl⟩ := List.mem_map.1 hy
      exact (hG t ht).2
    have hkp := h.pos
    have hn : s.count * k < 2 ^ 32 := by rw [← hk]; omega
    have hw := WF_ofItems (k := k) (d := 3) (its := (items s).map G) (by omega) (by omega) hGl (by simpa using hn)
    have hi := items_ofItems (k := k) (d := 3) (its := (items s).map G) hGl
    refine ⟨_, hrun.trans (mapArr_ok h h0 (AllReturn_map fun t ht i => (hG t ht).1) (by omega) (by omega) hGl hn), hw,
      ⟨hk.symm, by simp [ofItems]⟩, ItemWise_map hi fun t ht => ?_⟩
    have hl := (h.item_length ht).trans hk
    refine ⟨fun hnn => ?_, ?_⟩
    · have := (hG t ht).1
      rw [hnan t hl hnn] at this
      rw [hk]
      exact (Res.ok.inj this).symm
    · rintro t' rfl
      have hl' : t'.length = k := by simpa using hl
      have hdet : 1 / 10 ^ 10 ≤ |det t'| := by
        rcases hs _ ht with hn | ⟨t'', e, hdet⟩
        · exact absurd hn (notnan t')
        · rw [mapfin t' t'' e]; exact hdet
      obtain ⟨a, b, c⟩ := hfin t' hl' hdet
      have hwf : WF (⟨t', 1, k, 3⟩ : Serie α) := by
        constructor <;> simp only [hl', one_mul] <;> omega
      have hit : items (⟨t', 1, k, 3⟩ : Serie α) = [t'] := by
        simp [items, chunk, ← hl']
      refine ⟨ofItems k [g t'], ?_, ?_⟩
      · rw [hk, hrun' t' hl']
        refine mapArr_ok hwf Nat.one_pos ?_ (by omega) (by omega) (by simpa using b) (by simp; omega)
        rw [hit]
        exact AllReturn_map (g := g) (l := [t']) fun x hx i => by
          rw [List.mem_singleton.1 hx]; exact a
      · have := (hG _ ht).1
        rw [c] at this
        rw [← Res.ok.inj this]
        simp [ofItems]
  rcases hk with ⟨hk, rfl⟩ | ⟨hk, rfl⟩
  · refine main invSym invSym symInverse 6 hk (fun t hl hn => invSym_nan hl hn) (fun t hl hdet => ?_) ?_ ?_
    · have hok := invSym_ok hl (not_lt.2 hdet)
      exact ⟨hok, rfl, by rw [invSym_fin hl (pos _ hdet), hok]⟩
    · unfold inv
      rw [h.valid, if_neg (by simp), if_neg (by simp [hk, hd]), if_pos hk]
    · intro t hl
      unfold inv
      rw [if_neg (by simp [Serie.isValid]), if_neg (by simp), if_pos rfl]
  · refine main invFull invFull fullInverse 9 hk (fun t hl hn => invFull_nan hl hn) (fun t hl hdet => ?_) ?_ ?_
    · have hok := invFull_ok hl (not_lt.2 hdet)
      exact ⟨hok, rfl, by rw [invFull_fin hl (pos _ hdet), hok]⟩
    · unfold inv
      rw [h.valid, if_neg (by simp), if_neg (by simp [hk, hd]), if_neg (by omega)]
    · intro t hl
      unfold inv
      rw [if_neg (by simp [Serie.isValid]), if_neg (by simp), if_neg (by simp)]

/-- A matrix with a NaN does not hide a singular one: `inv` throws. -/
theorem C145_inv_throws {s : Serie (Ext α)} (h : WF s) (hd : s.dimension = 3)
    {det : List α → α} (hk : (s.itemSize = 6 ∧ det = fun t => (symMatrix3 t).det) ∨ (s.itemSize = 9 ∧ det = fun t => (fullMatrix 3 t).det))
    (hs : ∀ t ∈ items s, Ext.nan ∈ t ∨ ∃ t' : List α, t = t'.map .fin)
    (hz : ∃ t', t'.map .fin ∈ items s ∧ |det t'| < 1 / 10 ^ 10) : inv s = .throw .runtimeError := by
  obtain ⟨z, hz, hdz⟩ := hz
  have main : ∀ (cb : List (Ext α) → Res (List (Ext α))) (k : Nat), s.itemSize = k →
      (∀ t : List (Ext α), t.length = k → Ext.nan ∈ t → cb t = .ok (List.replicate k .nan)) →
      (∀ t : List α, t.length = k → (|det t| < 1 / 10 ^ 10 → cb (t.map .fin) = .throw .runtimeError) ∧
        (¬ |det t| < 1 / 10 ^ 10 → ∃ w, cb (t.map .fin) = .ok w ∧ w.length = k)) →
      mapArr (fun t _ => cb t) s = .throw .runtimeError := by
    intro cb k hk hnan hfin
    refine mapArr_throw h (k := k) (fun t ht i => ?_) ⟨_, hz, fun i => ?_⟩
    · have hl := (h.item_length ht).trans hk
      rcases hs t ht with hn | ⟨t', rfl⟩
      · exact .inr ⟨_, hnan t hl hn, by simp⟩
      · by_cases hd : |det t'| < 1 / 10 ^ 10
        · exact .inl ((hfin t' (by simpa using hl)).1 hd)
        · exact .inr ((hfin t' (by simpa using hl)).2 hd)
    · exact (hfin z (by simpa using (h.item_length hz).trans hk)).1 hdz
  have pos : ∀ x : α, ¬ |x| < 1 / 10 ^ 10 → x ≠ 0 := fun x hx hz => by
    rw [hz, abs_zero] at hx
    exact hx (by positivity)
  rcases hk with ⟨hk, rfl⟩ | ⟨hk, rfl⟩
  · unfold inv
    rw [h.valid, if_neg (by simp), if_neg (by simp [hk, hd]), if_pos hk]
    refine main invSym 6 hk (fun t hl hn => invSym_nan hl hn) fun t hl => ⟨fun hlt => ?_, fun hlt => ?_⟩
    · obtain ⟨a, b, c, d, e, f, rfl⟩ := len6 hl
      simp only [det_sym] at hlt
      refine if_pos ?_
      show absv (Ext.fin (a * (d * f - e * e) - b * (b * f - e * c) + c * (b * e - d * c))) < Ext.fin (1e-10 : α)
      rw [absv_fin]
      exact (absv_lt_eps _).2 hlt
    · exact ⟨_, by rw [invSym_fin hl (pos _ hlt), invSym_ok hl hlt], by simp [symInverse]⟩
  · unfold inv
    rw [h.valid, if_neg (by simp), if_neg (by simp [hk, hd]), if_neg (by omega)]
    refine main invFull 9 hk (fun t hl hn => invFull_nan hl hn) fun t hl => ⟨fun hlt => ?_, fun hlt => ?_⟩
    · obtain ⟨a, b, c, d, e, f, g, i, j, rfl⟩ := len9 hl
      simp only [det_full] at hlt
      refine if_pos ?_
      show absv (Ext.fin (a * (e * j - f * i) - b * (d * j - f * g) + c * (d * i - e * g))) < Ext.fin (1e-10 : α)
      rw [absv_fin]
      exact (absv_lt_eps _).2 hlt
    · exact ⟨_, by rw [invFull_fin hl (pos _ hlt), invFull_ok hl hlt], by simp [fullInverse]⟩

/-- A matrix of zeros and a matrix with a NaN. -/
example := C145_inv_throws (s := (⟨[0, 0, 0, 0, 0, 0, 2, 1, 0, .nan, 1, 2], 2, 6, 3⟩ : Serie (Ext ℚ)))
  ⟨by decide, by decide, by decide, by decide⟩ rfl (.inl ⟨rfl, rfl⟩) (by
    intro t ht
    have e : items (⟨[0, 0, 0, 0, 0, 0, 2, 1, 0, .nan, 1, 2], 2, 6, 3⟩ : Serie (Ext ℚ)) =
      [[0, 0, 0, 0, 0, 0].map Ext.fin, [2, 1, 0, .nan, 1, 2]] := rfl
    rw [e, List.mem_pair] at ht
    rcases ht with rfl | rfl
    · exact .inr ⟨_, rfl⟩
    · exact .inl (by simp))
  ⟨[0, 0, 0, 0, 0, 0], List.mem_cons_self, by simp only [det_sym]; norm_num⟩

/-- A diagonal matrix and a matrix with a NaN. -/
example := C145_inv (s := (⟨[2, 0, 0, 1, 0, 4, 2, 1, 0, .nan, 1, 2], 2, 6, 3⟩ : Serie (Ext ℚ))) ⟨by decide, by decide, by decide, by decide⟩
  (by decide) rfl (.inl ⟨rfl, rfl⟩) (by
    intro t ht
    have e : items (⟨[2, 0, 0, 1, 0, 4, 2, 1, 0, .nan, 1, 2], 2, 6, 3⟩ : Serie (Ext ℚ)) =
      [[2, 0, 0, 1, 0, 4].map Ext.fin, [2, 1, 0, .nan, 1, 2]] := rfl
    rw [e, List.mem_pair] at ht
    rcases ht with rfl | rfl
    · exact .inr ⟨_, rfl, by simp only [det_sym]; norm_num⟩
    · exact .inl (by simp))

end

end

/-! ## C145: normals -/

instance [Field α] [LinearOrder α] [IsStrictOrderedRing α] [FloorRing α] : NatExact (Ext α) where
  toU32 _ h := toU32_nat h
  inj _ _ _ h := Nat.cast_injective (R := α) (Ext.fin.inj h)

/-- The normal of a triangle has a NaN when one of its points has one; it is finite when its points are, whatever the other points of
the mesh are. -/
theorem C145_normals [Field α] [LinearOrder α] [IsStrictOrderedRing α] [FloorRing α] {P I : Serie (Ext α)} (h : Mesh P I) :
    ∃ r, normals P I = .ok r ∧ WF r ∧ r.itemSize = 3 ∧ ItemWise (fun t n => ∀ a b c, Triangle t a b c →
      ((∃ k, pointAt P a k = .nan ∨ pointAt P b k = .nan ∨ pointAt P c k = .nan) → Ext.nan ∈ n) ∧
      ((∀ k, IsFinite (pointAt P a k) ∧ IsFinite (pointAt P b k) ∧ IsFinite (pointAt P c k)) → ∀ x ∈ n, IsFinite x)) I r := by
  have hl : ∀ w ∈ (items I).map (normalAt P), w.length = 3 := by
    intro w hw
    obtain ⟨t, ht, rfl⟩ := List.mem_map.1 hw
    exact (normalAt_eq h ht).2.1
  have hfit := h.tri.fits
  have hsm := h.tri.small
  rw [h.tri3] at hfit
  have hi := items_ofItems (d := 3) hl
  refine ⟨_, normals_run h, WF_ofItems (by omega) (by omega) hl (by simp; omega), rfl, ItemWise_map hi fun t ht a b c htr => ?_⟩
  rw [(normalAt_eq h ht).2.2 a b c htr]
  generalize pointAt P a = A
  generalize pointAt P b = B
  generalize pointAt P c = C
  unfold normalL
  constructor
  · rintro ⟨k, hk⟩
    fin_cases k <;> rcases hk with hk | hk | hk <;> simp only [Fin.zero_eta, Fin.mk_one, Fin.reduceFinMk] at hk <;>
      simp [hk, Ext.nan_mul, Ext.mul_nan, Ext.nan_sub, Ext.sub_nan]
  · intro hk
    obtain ⟨⟨a0, e0⟩, ⟨b0, f0⟩, ⟨c0, g0⟩⟩ := hk 0
    obtain ⟨⟨a1, e1⟩, ⟨b1, f1⟩, ⟨c1, g1⟩⟩ := hk 1
    obtain ⟨⟨a2, e2⟩, ⟨b2, f2⟩, ⟨c2, g2⟩⟩ := hk 2
    rw [e0, e1, e2, f0, f1, f2, g0, g1, g2]
    intro x hx
    simp only [List.mem_cons, List.not_mem_nil, or_false] at hx
    rcases hx with rfl | rfl | rfl <;> exact ⟨_, rfl⟩

/-- Two triangles; the point with a NaN belongs to the second one. -/
example := C145_normals (P := (⟨[.fin 0, .fin 0, .fin 0, .fin 1, .fin 0, .fin 0, .fin 0, .fin 1, .fin 0, .nan, .fin 1, .fin 0], 4, 3, 3⟩ :
  Serie (Ext ℚ))) (I := ⟨[.fin 0, .fin 1, .fin 2, .fin 1, .fin 2, .fin 3], 2, 3, 3⟩) ⟨⟨by decide, by decide, by decide, by decide⟩,
  ⟨by decide, by decide, by decide, by decide⟩, rfl, rfl, by
    intro t ht
    have e : items (⟨[.fin 0, .fin 1, .fin 2, .fin 1, .fin 2, .fin 3], 2, 3, 3⟩ : Serie (Ext ℚ)) =
      [[.fin 0, .fin 1, .fin 2], [.fin 1, .fin 2, .fin 3]] := rfl
    rw [e, List.mem_pair] at ht
    rcases ht with rfl | rfl
    · exact ⟨0, 1, 2, rfl, by decide, by decide, by decide⟩
    · exact ⟨1, 2, 3, rfl, by decide, by decide, by decide⟩⟩

end DF
