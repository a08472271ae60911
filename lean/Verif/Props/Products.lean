import Verif.Props.Algebra
import Verif.Props.Combine
import Verif.Props.Math

/-!
# Properties that relate several vector and matrix functions (C133, C134)

Both sides are programs calling the functions of the library one after the other; the same Serie is returned.
-/

namespace DF

open Spec

variable {α : Type}

/-- The cross product of two items, as computed. -/
def crossL [Zero α] [Sub α] [Mul α] (u v : List α) : List α :=
  [num u 1 * num v 2 - num u 2 * num v 1, num u 2 * num v 0 - num u 0 * num v 2, num u 0 * num v 1 - num u 1 * num v 0]

theorem bind_ok {β γ : Type} {m : Res β} {f : β → Res γ} {x : β} {y : γ} (h : m = .ok x) (h' : f x = .ok y) : (m >>= f) = .ok y := by
  rw [h]; exact h'

section vectors

variable [CommRing α] {a b c : Serie α}

theorem crossFacts (ha : WF a) (hb : WF b) (h3 : a.itemSize = 3) (hc : a.count = b.count) :
    WF (ofItems 3 (List.zipWith crossL (items a) (items b))) ∧ (ofItems 3 (List.zipWith crossL (items a) (items b))).itemSize = 3 ∧
      (ofItems 3 (List.zipWith crossL (items a) (items b))).count = a.count ∧
      items (ofItems 3 (List.zipWith crossL (items a) (items b))) = List.zipWith crossL (items a) (items b) :=
  ofItems_zip_facts ha hb hc (k := 3) (g := crossL) (by omega) (by omega) (fun _ _ _ _ => rfl)

theorem crossRun (ha : WF a) (hb : WF b) (h3 : a.itemSize = 3) (h3' : b.itemSize = 3) (hc : a.count = b.count) (h0 : 0 < a.count) :
    cross a b = .ok (ofItems 3 (List.zipWith crossL (items a) (items b))) := cross_run ha hb h3 h3' hc h0

omit [CommRing α] in
theorem item_len {s : Serie α} (h : WF s) {k : Nat} (hk : s.itemSize = k) {i : Nat} (hi : i < (items s).length) :
    ((items s)[i]).length = k := (h.item_length (List.getElem_mem hi)).trans hk

/-- C133: the cross product of a sum is the sum of the cross products. -/
theorem C133_cross_add (ha : WF a) (hb : WF b) (hc : WF c) (a3 : a.itemSize = 3) (b3 : b.itemSize = 3) (c3 : c.itemSize = 3)
    (hab : a.count = b.count) (hac : a.count = c.count) (h0 : 0 < a.count) :
    ∃ r, (do let x ← add2 a b; cross x c) = .ok r ∧ (do let x ← cross a c; let y ← cross b c; add2 x y) = .ok r := by
  have sab : SameShape a b := ⟨a3.trans b3.symm, hab⟩
  obtain ⟨w1, s1, i1⟩ := WF_pointwise (op := (· + ·)) ha hb sab
  obtain ⟨w2, k2, n2, i2⟩ := crossFacts ha hc a3 hac
  obtain ⟨w3, k3, n3, i3⟩ := crossFacts hb hc b3 (hab ▸ hac)
  refine ⟨_, bind_ok (binOp_eq ha hb sab) (crossRun w1 hc (s1.1.trans a3) c3 (s1.2.trans hac) (by rw [s1.2]; exact h0)), ?_⟩
  · rw [crossRun ha hc a3 c3 hac h0, Res.ok_bind, crossRun hb hc b3 c3 (hab ▸ hac) (hab ▸ h0), Res.ok_bind,
      show add2 _ _ = Res.ok _ from binOp_eq w2 w3 ⟨k2.trans k3.symm, n2.trans (hab.trans n3.symm)⟩]
    rw [i1]
    unfold pointwise
    rw [k2, i2, i3]
    congr 2
    refine List.ext_getElem (by simp [hab]) fun i h1 h2 => ?_
    simp only [List.getElem_zipWith]
    obtain ⟨x, y, z, e⟩ := len3 (item_len ha a3 (i := i) (by simp at h1 ⊢; omega))
    obtain ⟨x', y', z', e'⟩ := len3 (item_len hb b3 (i := i) (by simp at h1 ⊢; omega))
    rw [e, e']
    simp only [crossL, num, List.zipWith_cons_cons, List.zipWith_nil_right, List.getElem?_cons_zero, List.getElem?_cons_succ, Option.getD_some,
      List.cons.injEq, and_true]
    exact ⟨by ring, by ring, by ring⟩

example := C133_cross_add exU_WF exV_WF exU_WF rfl rfl rfl rfl rfl (by decide)

/-- C133: the cross product of a multiple is the multiple of the cross product. -/
theorem C133_cross_scale (ha : WF a) (hb : WF b) (a3 : a.itemSize = 3) (b3 : b.itemSize = 3)
    (hab : a.count = b.count) (h0 : 0 < a.count) (k : α) :
    ∃ r, (do let x ← scale a k; cross x b) = .ok r ∧ (do let x ← cross a b; scale x k) = .ok r := by
  obtain ⟨w2, k2, n2, i2⟩ := crossFacts ha hb a3 hab
  have hl : ∀ v : List α, v.length = a.itemSize → (v.map (· * k)).length = a.itemSize := fun v hv => by simpa using hv
  obtain ⟨w1, k1, n1, i1⟩ := ofItems_map_facts ha (k := a.itemSize) (g := List.map (· * k)) ha.pos (le_refl _) hl
  refine ⟨_, bind_ok (C36_scale ha h0 k) (crossRun w1 hb (k1.trans a3) b3 (n1.trans hab) (h0.trans_eq n1.symm)), ?_⟩
  · rw [crossRun ha hb a3 b3 hab h0, Res.ok_bind, C36_scale w2 (by rw [n2]; exact h0)]
    unfold onNumbers
    rw [k2, i2, i1]
    congr 2
    refine List.ext_getElem (by simp [hab]) fun i h1 h2 => ?_
    simp only [List.getElem_zipWith, List.getElem_map]
    obtain ⟨x, y, z, e⟩ := len3 (item_len ha a3 (i := i) (by simp at h1 ⊢; omega))
    rw [e]
    simp only [crossL, num, List.map_cons, List.map_nil, List.getElem?_cons_zero, List.getElem?_cons_succ, Option.getD_some,
      List.cons.injEq, and_true]
    exact ⟨by ring, by ring, by ring⟩

example := C133_cross_scale exU_WF exV_WF rfl rfl rfl (by decide) 7

/-- C133: `(a × b) · c = a · (b × c)`. -/
theorem C133_triple (ha : WF a) (hb : WF b) (hc : WF c) (a3 : a.itemSize = 3) (b3 : b.itemSize = 3) (c3 : c.itemSize = 3)
    (hab : a.count = b.count) (hac : a.count = c.count) (h0 : 0 < a.count) :
    ∃ r, (do let x ← cross a b; dot x c) = .ok r ∧ (do let x ← cross b c; dot a x) = .ok r := by
  obtain ⟨w1, k1, n1, i1⟩ := crossFacts ha hb a3 hab
  obtain ⟨w2, k2, n2, i2⟩ := crossFacts hb hc b3 (hab ▸ hac)
  refine ⟨_, bind_ok (crossRun ha hb a3 b3 hab h0) (dot_run w1 hc ⟨k1.trans c3.symm, n1.trans hac⟩ (by rw [n1]; exact h0)), ?_⟩
  · rw [crossRun hb hc b3 c3 (hab ▸ hac) (hab ▸ h0), Res.ok_bind, dot_run ha w2 ⟨a3.trans k2.symm, hab.trans n2.symm⟩ h0, i1, i2]
    congr 2
    refine List.ext_getElem (by simp [hab]) fun i h1 h2 => ?_
    simp only [List.getElem_zipWith]
    obtain ⟨x, y, z, e⟩ := len3 (item_len ha a3 (i := i) (by simp at h1 ⊢; omega))
    obtain ⟨x', y', z', e'⟩ := len3 (item_len hb b3 (i := i) (by simp at h1 ⊢; omega))
    obtain ⟨x'', y'', z'', e''⟩ := len3 (item_len hc c3 (i := i) (by simp at h1 ⊢; omega))
    rw [e, e', e'']
    simp only [crossL, dotL, num, List.zipWith_cons_cons, List.zipWith_nil_right, List.getElem?_cons_zero, List.getElem?_cons_succ,
      Option.getD_some, List.sum_cons, List.sum_nil, List.cons.injEq, and_true]
    ring

example := C133_triple exU_WF exV_WF exU_WF rfl rfl rfl rfl rfl (by decide)

/-- C133: it is the determinant of the matrices with these rows, which `zip` builds. -/
theorem C133_triple_det (ha : WF a) (hb : WF b) (hc : WF c) (a3 : a.itemSize = 3) (b3 : b.itemSize = 3) (c3 : c.itemSize = 3)
    (hab : a.count = b.count) (hac : a.count = c.count) (h0 : 0 < a.count) (hfit : a.count * 9 < 2 ^ 32) :
    ∃ r, (do let x ← cross a b; dot x c) = .ok r ∧ (do let m ← zip [a, b, c]; det m) = .ok r := by
  obtain ⟨w1, k1, n1, i1⟩ := crossFacts ha hb a3 hab
  have hsum : ([a, b, c].map (·.itemSize)).sum = 9 := by simp [a3, b3, c3]
  have hw : ∀ s ∈ [a, b, c], WF s := by simp [ha, hb, hc]
  have hn : ∀ s ∈ [a, b, c], s.count = a.count := by simp [← hab, ← hac]
  have hz := (zip_eq (ss := [a, b, c]) (n := a.count) (by simp) hw hn (by rw [hsum]; norm_num) (by rw [hsum]; exact hfit)).1
  obtain ⟨z, z1, _, z2, z3, z4, z5⟩ := C28_zip (ss := [a, b, c]) (n := a.count) (by simp) hw hn (by rw [hsum]; norm_num) (by rw [hsum]; exact hfit)
  have hd : z.dimension = 3 := by rw [hz] at z1; cases z1; rfl
  refine ⟨_, bind_ok (crossRun ha hb a3 b3 hab h0) (dot_run w1 hc ⟨k1.trans c3.symm, n1.trans hac⟩ (by rw [n1]; exact h0)), ?_⟩
  · rw [z1, Res.ok_bind, det_run3 z2 (by rw [z4]; exact h0) (z3.trans hsum) hd, z5, i1]
    congr 2
    refine List.ext_getElem (by simp [rows]; omega) fun i h1 h2 => ?_
    have hi : i < a.count := by simpa [rows] using h1
    simp only [List.getElem_zipWith, List.getElem_map, rows, List.getElem_range]
    have hrow : row [a, b, c] i = [(items a)[i]'(by simpa using hi), (items b)[i]'(by simp; omega), (items c)[i]'(by simp; omega)] := by
      simp [row, items]
    rw [hrow]
    obtain ⟨x, y, z, e⟩ := len3 (item_len ha a3 (i := i) (by simpa using hi))
    obtain ⟨x', y', z', e'⟩ := len3 (item_len hb b3 (i := i) (by simp; omega))
    obtain ⟨x'', y'', z'', e''⟩ := len3 (item_len hc c3 (i := i) (by simp; omega))
    rw [e, e', e'']
    simp only [crossL, dotL, num, List.zipWith_cons_cons, List.zipWith_nil_right, List.getElem?_cons_zero, List.getElem?_cons_succ,
      Option.getD_some, List.sum_cons, List.sum_nil, List.cons.injEq, and_true, List.flatten_cons, List.flatten_nil, List.cons_append,
      List.nil_append]
    ring

example := C133_triple_det exU_WF exV_WF exU_WF rfl rfl rfl rfl rfl (by decide) (by decide)

/-- C133: `a × (b × c) = (a · c) b - (a · b) c`. -/
theorem C133_cross_cross (ha : WF a) (hb : WF b) (hc : WF c) (a3 : a.itemSize = 3) (b3 : b.itemSize = 3) (c3 : c.itemSize = 3)
    (hab : a.count = b.count) (hac : a.count = c.count) (h0 : 0 < a.count) :
    ∃ r, (do let x ← cross b c; cross a x) = .ok r ∧ r.count = a.count ∧
      ∀ (i : Nat) u v w t, (items a)[i]? = some u → (items b)[i]? = some v → (items c)[i]? = some w → (items r)[i]? = some t →
        vec 3 t = dotL u w • vec 3 v - dotL u v • vec 3 w := by
  obtain ⟨w2, k2, n2, i2⟩ := crossFacts hb hc b3 (hab ▸ hac)
  obtain ⟨w3, k3, n3, i3⟩ := crossFacts ha w2 a3 (hab.trans n2.symm)
  refine ⟨_, bind_ok (crossRun hb hc b3 c3 (hab ▸ hac) (hab ▸ h0)) (crossRun ha w2 a3 k2 (hab.trans n2.symm) h0), n3, ?_⟩
  · intro i u v w t hu hv hw ht
    rw [i3, i2, List.getElem?_zipWith, List.getElem?_zipWith, hu, hv, hw] at ht
    cases ht
    obtain ⟨x, y, z, rfl⟩ := len3 ((ha.item_length (List.mem_of_getElem? hu)).trans a3)
    obtain ⟨x', y', z', rfl⟩ := len3 ((hb.item_length (List.mem_of_getElem? hv)).trans b3)
    obtain ⟨x'', y'', z'', rfl⟩ := len3 ((hc.item_length (List.mem_of_getElem? hw)).trans c3)
    funext j
    fin_cases j <;> simp [vec, crossL, dotL, num] <;> ring

example := C133_cross_cross exU_WF exV_WF exU_WF rfl rfl rfl rfl rfl (by decide)

end vectors

section matrices

/-- C134: the transpose of a sum is the sum of the transposes. -/
theorem C134_transpose_add [CommRing α] {a b : Serie α} (ha : WF a) (hb : WF b) (hk : a.itemSize = 4 ∨ a.itemSize = 9)
    (hs : SameShape a b) (h0 : 0 < a.count) :
    ∃ r, (do let x ← add2 a b; transpose x) = .ok r ∧ (do let x ← transpose a; let y ← transpose b; add2 x y) = .ok r := by
  obtain ⟨w1, s1, i1⟩ := WF_pointwise (op := (· + ·)) ha hb hs
  have run : add2 a b = .ok (pointwise (· + ·) a b) := binOp_eq ha hb hs
  rcases hk with hk | hk
  · have hkb := hs.1.symm.trans hk
    obtain ⟨v2, k2, n2, i2⟩ := ofItems_map_facts ha (k := 4) (g := fun t => [num t 0, num t 2, num t 1, num t 3]) (by omega) (by omega) (fun v _ => rfl)
    obtain ⟨v3, k3, n3, i3⟩ := ofItems_map_facts hb (k := 4) (g := fun t => [num t 0, num t 2, num t 1, num t 3]) (by omega) (by omega) (fun v _ => rfl)
    refine ⟨_, bind_ok run (transpose_run2 w1 (by rw [s1.2]; exact h0) (s1.1.trans hk)), ?_⟩
    rw [transpose_run2 ha h0 hk, Res.ok_bind, transpose_run2 hb (hs.2 ▸ h0) hkb, Res.ok_bind,
      show add2 _ _ = Res.ok _ from binOp_eq v2 v3 ⟨k2.trans k3.symm, n2.trans (hs.2.trans n3.symm)⟩]
    rw [i1]
    unfold pointwise
    rw [k2, i2, i3]
    congr 2
    refine List.ext_getElem (by simp) fun i h1 h2 => ?_
    simp only [List.getElem_zipWith, List.getElem_map]
    obtain ⟨x0, x1, x2, x3, e⟩ := len4 (item_len ha hk (i := i) (by simp at h1 ⊢; omega))
    obtain ⟨y0, y1, y2, y3, e'⟩ := len4 (item_len hb hkb (i := i) (by simp at h1 ⊢; omega))
    rw [e, e']
    simp [num]
  · have hkb := hs.1.symm.trans hk
    obtain ⟨v2, k2, n2, i2⟩ := ofItems_map_facts ha (k := 9) (g := fun t =>
      [num t 0, num t 3, num t 6, num t 1, num t 4, num t 7, num t 2, num t 5, num t 8]) (by omega) (by omega) (fun v _ => rfl)
    obtain ⟨v3, k3, n3, i3⟩ := ofItems_map_facts hb (k := 9) (g := fun t =>
      [num t 0, num t 3, num t 6, num t 1, num t 4, num t 7, num t 2, num t 5, num t 8]) (by omega) (by omega) (fun v _ => rfl)
    refine ⟨_, bind_ok run (transpose_run3 w1 (by rw [s1.2]; exact h0) (s1.1.trans hk)), ?_⟩
    rw [transpose_run3 ha h0 hk, Res.ok_bind, transpose_run3 hb (hs.2 ▸ h0) hkb, Res.ok_bind,
      show add2 _ _ = Res.ok _ from binOp_eq v2 v3 ⟨k2.trans k3.symm, n2.trans (hs.2.trans n3.symm)⟩]
    rw [i1]
    unfold pointwise
    rw [k2, i2, i3]
    congr 2
    refine List.ext_getElem (by simp) fun i h1 h2 => ?_
    simp only [List.getElem_zipWith, List.getElem_map]
    obtain ⟨x0, x1, x2, x3, x4, x5, x6, x7, x8, e⟩ := len9 (item_len ha hk (i := i) (by simp at h1 ⊢; omega))
    obtain ⟨y0, y1, y2, y3, y4, y5, y6, y7, y8, e'⟩ := len9 (item_len hb hkb (i := i) (by simp at h1 ⊢; omega))
    rw [e, e']
    simp [num]

example := C134_transpose_add exT4_WF exT4_WF (.inl rfl) ⟨rfl, rfl⟩ (by decide)

/-- C134: the determinant of a multiple of 3D matrices is the determinant times the cube of the factor. -/
theorem C134_det_scale [CommRing α] {s : Serie α} (h : WF s) (h0 : 0 < s.count) (hk : s.itemSize = 9) (hd : s.dimension = 3) (k : α) :
    ∃ r, (do let x ← scale s k; det x) = .ok r ∧ (do let x ← det s; scale x (k ^ 3)) = .ok r := by
  have hl : ∀ v : List α, v.length = s.itemSize → (v.map (· * k)).length = s.itemSize := fun v hv => by simpa using hv
  obtain ⟨w1, k1, n1, i1⟩ := ofItems_map_facts h (k := s.itemSize) (g := List.map (· * k)) h.pos (le_refl _) hl
  have hf := ofItems_map_facts h (k := 1) (g := fun t => [num t 0 * num t 4 * num t 8 - num t 0 * num t 5 * num t 7 -
      num t 1 * num t 3 * num t 8 + num t 1 * num t 5 * num t 6 + num t 2 * num t 3 * num t 7 -
      num t 2 * num t 4 * num t 6]) (by omega) (by omega) (fun v _ => rfl)
  refine ⟨_, bind_ok (C36_scale h h0 k) (det_run3 w1 (h0.trans_eq n1.symm) (k1.trans hk) rfl), ?_⟩
  · rw [det_run3 h h0 hk hd, Res.ok_bind, C36_scale hf.1 (by rw [hf.2.2.1]; exact h0)]
    unfold onNumbers
    rw [hf.2.1, hf.2.2.2, i1, List.map_map, List.map_map]
    congr 2
    refine List.map_congr_left fun t ht => ?_
    obtain ⟨x0, x1, x2, x3, x4, x5, x6, x7, x8, rfl⟩ := len9 ((h.item_length ht).trans hk)
    simp [num]
    ring

example := C134_det_scale (s := (⟨[2, 1, 0, 1, 2, 1, 0, 1, 2], 1, 9, 3⟩ : Serie ℤ)) (by decide) (by decide) rfl rfl 5

/-- C134 does not hold for 2D matrices: `scale` loses their dimension. -/
theorem C134_det_scale_2d_violated [CommRing α] {s : Serie α} (h : WF s) (h0 : 0 < s.count) (hk : s.itemSize = 4) (hd : s.dimension = 2) (k : α) :
    (∃ r, det s = .ok r) ∧ (do let x ← scale s k; det x) = .throw .invalidArgument := by
  have hl : ∀ v : List α, v.length = s.itemSize → (v.map (· * k)).length = s.itemSize := fun v hv => by simpa using hv
  obtain ⟨w1, k1, n1, i1⟩ := ofItems_map_facts h (k := s.itemSize) (g := List.map (· * k)) h.pos (le_refl _) hl
  refine ⟨⟨_, det_run2 h h0 hk hd⟩, ?_⟩
  rw [C36_scale h h0, Res.ok_bind]
  exact C50_throws w1 (h0.trans_eq n1.symm) (by simp [onNumbers, ofItems]) (by simp [onNumbers, ofItems]; omega)

example := C134_det_scale_2d_violated (s := (⟨[2, 1, 0, 1], 1, 4, 2⟩ : Serie ℤ)) (by decide) (by decide) rfl rfl 5

variable [Field α] [LinearOrder α] [IsStrictOrderedRing α]

omit [LinearOrder α] [IsStrictOrderedRing α] in
theorem symInverse_det {t : List α} (h : t.length = 6) (hd : (symMatrix3 t).det ≠ 0) :
    (symMatrix3 (symInverse t)).det = 1 / (symMatrix3 t).det := by
  have := congrArg Matrix.det (symInverse_mul h hd)
  rw [Matrix.det_mul, Matrix.det_one] at this
  rw [eq_div_iff hd, mul_comm]
  exact this

omit [LinearOrder α] [IsStrictOrderedRing α] in
theorem symInverse_twice {t : List α} (h : t.length = 6) (hd : (symMatrix3 t).det ≠ 0) : symInverse (symInverse t) = t := by
  have h1 := symInverse_mul h hd
  have hd' : (symMatrix3 (symInverse t)).det ≠ 0 := by rw [symInverse_det h hd]; exact one_div_ne_zero hd
  have h2 := symInverse_mul (t := symInverse t) rfl hd'
  have e : symMatrix3 t = symMatrix3 (symInverse (symInverse t)) := by
    calc symMatrix3 t = symMatrix3 t * (symMatrix3 (symInverse t) * symMatrix3 (symInverse (symInverse t))) := by rw [h2, Matrix.mul_one]
      _ = _ := by rw [← Matrix.mul_assoc, h1, Matrix.one_mul]
  generalize hu : symInverse (symInverse t) = u at e
  have hul : u.length = 6 := by rw [← hu]; rfl
  obtain ⟨a, b, c, d, e', f, rfl⟩ := len6 h
  obtain ⟨a', b', c', d', e'', f', rfl⟩ := len6 hul
  have g : ∀ i j, symMatrix3 [a, b, c, d, e', f] i j = symMatrix3 [a', b', c', d', e'', f'] i j := fun i j => by rw [e]
  have g00 := g 0 0; have g01 := g 0 1; have g02 := g 0 2; have g11 := g 1 1; have g12 := g 1 2; have g22 := g 2 2
  simp [symMatrix3, num] at g00 g01 g02 g11 g12 g22
  rw [g00, g01, g02, g11, g12, g22]

theorem invSym_items {s : Serie α} (h : WF s) (h0 : 0 < s.count) (hk : s.itemSize = 6) (hd : s.dimension = 3)
    (hdet : ∀ t ∈ items s, 1 / 10 ^ 10 ≤ |(symMatrix3 t).det|) : inv s = .ok (ofItems 6 ((items s).map symInverse)) := by
  unfold inv
  rw [h.valid, if_neg (by simp), if_neg (by simp [hk, hd]), if_pos hk]
  have hfit := h.fits
  have hsm := h.small
  rw [hk] at hfit
  refine mapArr_ok h h0 (AllReturn_map (fun v hv i => invSym_ok ((h.item_length hv).trans hk) (not_lt.2 (hdet v hv))))
    (by omega) (by omega) ?_ (by omega)
  intro v hv
  obtain ⟨u, hu, rfl⟩ := List.mem_map.1 hv
  rfl

/-- C134: the inverse of the inverse of symmetric 3D matrices is the matrix, when its determinant is at most `10^10`. -/
theorem C134_inv_inv_partial {s : Serie α} (h : WF s) (h0 : 0 < s.count) (hk : s.itemSize = 6) (hd : s.dimension = 3)
    (hdet : ∀ t ∈ items s, 1 / 10 ^ 10 ≤ |(symMatrix3 t).det| ∧ |(symMatrix3 t).det| ≤ 10 ^ 10) :
    ∃ r, (do let x ← inv s; inv x) = .ok r ∧ WF r ∧ SameShape r s ∧ items r = items s := by
  have hf := ofItems_map_facts h (k := 6) (g := symInverse) (by omega) (by omega) (fun v _ => rfl)
  have hf' := ofItems_map_facts hf.1 (k := 6) (g := symInverse) (by omega) (by rw [hf.2.1]) (fun v _ => rfl)
  have hne : ∀ t ∈ items s, (symMatrix3 t).det ≠ 0 := fun t ht => ne_zero_of_not_small (not_lt.2 (hdet t ht).1)
  refine ⟨_, bind_ok (invSym_items h h0 hk hd fun t ht => (hdet t ht).1) (invSym_items hf.1 (by rw [hf.2.2.1]; exact h0) hf.2.1 rfl ?_), hf'.1,
    ⟨hf'.2.1.trans hk.symm, hf'.2.2.1.trans hf.2.2.1⟩, ?_⟩
  · rw [hf.2.2.2]
    intro u hu
    obtain ⟨t, ht, rfl⟩ := List.mem_map.1 hu
    rw [symInverse_det ((h.item_length ht).trans hk) (hne t ht), abs_div, abs_one]
    exact one_div_le_one_div_of_le (abs_pos.2 (hne t ht)) (hdet t ht).2
  · rw [hf'.2.2.2, hf.2.2.2, List.map_map]
    conv_rhs => rw [← List.map_id (items s)]
    exact List.map_congr_left fun t ht => symInverse_twice ((h.item_length ht).trans hk) (hne t ht)

theorem exMid : ∀ t ∈ items (⟨[2, 1, 0, 3, 1, 5], 1, 6, 3⟩ : Serie ℚ), 1 / 10 ^ 10 ≤ |(symMatrix3 t).det| ∧ |(symMatrix3 t).det| ≤ 10 ^ 10 := by
  intro t ht
  obtain rfl : t = [2, 1, 0, 3, 1, 5] := List.mem_singleton.1 ht
  rw [det_sym]; norm_num

example := C134_inv_inv_partial (s := (⟨[2, 1, 0, 3, 1, 5], 1, 6, 3⟩ : Serie ℚ)) (by decide) (by decide) rfl rfl exMid

/-- C134 is violated by matrices with a larger determinant: their inverse is taken for a singular matrix. -/
theorem C134_inv_inv_violated {s : Serie α} (h : WF s) (h0 : 0 < s.count) (hk : s.itemSize = 6) (hd : s.dimension = 3)
    (hdet : ∀ t ∈ items s, 1 / 10 ^ 10 ≤ |(symMatrix3 t).det|) (hbig : ∃ t ∈ items s, 10 ^ 10 < |(symMatrix3 t).det|) :
    ∃ r, inv s = .ok r ∧ inv r = .throw .runtimeError := by
  have hf := ofItems_map_facts h (k := 6) (g := symInverse) (by omega) (by omega) (fun v _ => rfl)
  refine ⟨_, invSym_items h h0 hk hd hdet, C51_throws hf.1 hf.2.1 rfl ?_⟩
  obtain ⟨t, ht, hb⟩ := hbig
  have hne := ne_zero_of_not_small (not_lt.2 (hdet t ht))
  refine ⟨symInverse t, by rw [hf.2.2.2]; exact List.mem_map_of_mem ht, ?_⟩
  rw [symInverse_det ((h.item_length ht).trans hk) hne, abs_div, abs_one]
  exact one_div_lt_one_div_of_lt (by positivity) hb

example := C134_inv_inv_violated (s := (⟨[10000, 0, 0, 10000, 0, 1000], 1, 6, 3⟩ : Serie ℚ)) (by decide) (by decide) rfl rfl
  (by
    intro t ht
    obtain rfl : t = [10000, 0, 0, 10000, 0, 1000] := List.mem_singleton.1 ht
    rw [det_sym]; norm_num)
  ⟨[10000, 0, 0, 10000, 0, 1000], List.mem_singleton.2 rfl, by rw [det_sym]; norm_num⟩

/-- C134: the determinants of symmetric matrices (stored in full) and of their inverses are inverse numbers. -/
theorem C134_det_inv {s : Serie α} (h : WF s) (h0 : 0 < s.count) (hk : s.itemSize = 9) (hd : s.dimension = 3)
    (hdet : ∀ t ∈ items s, 1 / 10 ^ 10 ≤ |(fullMatrix 3 t).det|) (hs : ∀ t ∈ items s, (fullMatrix 3 t).IsSymm) :
    ∃ d e, det s = .ok d ∧ (do let r ← inv s; det r) = .ok e ∧ d.itemSize = 1 ∧ e.itemSize = 1 ∧
      ItemWise (fun u v => ∃ x y, u = [x] ∧ v = [y] ∧ x * y = 1) d e := by
  obtain ⟨r, r1, r2, r3, r4⟩ := C52_symmetric_partial h h0 hk hd hdet hs
  have hrd : r.dimension = 3 := by
    rw [inv_full_run h h0 hk hd hdet] at r1; cases r1; rfl
  obtain ⟨d, d1, _, d3, d4⟩ := C50_full_partial h h0 (n := 3) (.inr rfl) hk hd
  obtain ⟨e, e1, _, e3, e4⟩ := C50_full_partial r2 (r3.2 ▸ h0) (n := 3) (.inr rfl) (r3.1.trans hk) hrd
  refine ⟨d, e, d1, bind_ok r1 e1, d3, e3, ?_⟩
  unfold ItemWise at d4 e4 r4 ⊢
  refine List.forall₂_iff_get.2 ⟨by rw [← d4.length_eq, r4.length_eq, e4.length_eq], fun i h1 h2 => ?_⟩
  have i1 : i < (items s).length := by rw [d4.length_eq]; exact h1
  have i2 : i < (items r).length := by rw [e4.length_eq]; exact h2
  refine ⟨_, _, (List.forall₂_iff_get.1 d4).2 i i1 h1, (List.forall₂_iff_get.1 e4).2 i i2 h2, ?_⟩
  rw [← Matrix.det_mul, ((List.forall₂_iff_get.1 r4).2 i i1 i2).1, Matrix.det_one]

example := C134_det_inv (s := (⟨[2, 1, 0, 1, 2, 1, 0, 1, 2], 1, 9, 3⟩ : Serie ℚ)) (by decide) (by decide) rfl rfl
  (by
    intro t ht
    obtain rfl : t = [2, 1, 0, 1, 2, 1, 0, 1, 2] := List.mem_singleton.1 ht
    rw [det_full]; norm_num)
  (by
    intro t ht
    obtain rfl : t = [2, 1, 0, 1, 2, 1, 0, 1, 2] := List.mem_singleton.1 ht
    ext i j; fin_cases i <;> fin_cases j <;> rfl)

end matrices

end DF
