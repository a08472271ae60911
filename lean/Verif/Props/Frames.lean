import Verif.Spec.Frames
import Verif.Props.Motion
import Verif.Props.Insar

/-!
# Results do not depend on the frame (C161)
-/

namespace DF

open Spec

variable {α : Type}

section ring

variable [CommRing α] {A : Matrix (Fin 3) (Fin 3) α} {n : Nat}

/-! ## the numbers of an item -/

private theorem num_zip {op : α → α → α} (h0 : op 0 0 = 0) {u v : List α} (h : u.length = v.length) (i : Nat) :
    num (List.zipWith op u v) i = op (num u i) (num v i) := by
  unfold num
  rw [List.getElem?_zipWith]
  by_cases hi : i < u.length
  · rw [List.getElem?_eq_getElem hi, List.getElem?_eq_getElem (h ▸ hi)]
    rfl
  · rw [List.getElem?_eq_none (by omega), List.getElem?_eq_none (by omega)]
    exact h0.symm

private theorem num_map {f : α → α} (h0 : f 0 = 0) (u : List α) (i : Nat) : num (u.map f) i = f (num u i) := by
  unfold num
  rw [List.getElem?_map]
  cases u[i]? with
  | none => exact h0.symm
  | some x => rfl

private theorem inFrame_add {k : Kind} {u v u' v' : List α} (h : u.length = v.length) (h' : u'.length = v'.length)
    (hu : InFrame A k u u') (hv : InFrame A k v v') : InFrame A k (List.zipWith (· + ·) u v) (List.zipWith (· + ·) u' v') := by
  have e : ∀ {a b : List α}, a.length = b.length → ∀ i, num (List.zipWith (· + ·) a b) i = num a i + num b i := fun hab i =>
    num_zip (add_zero 0) hab i
  cases k with
  | scalar => simp only [InFrame] at *; rw [hu, hv]
  | vector =>
    have e' : ∀ {a b : List α}, a.length = b.length → vec 3 (List.zipWith (· + ·) a b) = vec 3 a + vec 3 b := fun hab => by
      funext i; exact e hab i
    simp only [InFrame] at *
    rw [e' h', e' h, hu, hv, Matrix.mulVec_add]
  | matrix =>
    have e' : ∀ {a b : List α}, a.length = b.length → fullMatrix 3 (List.zipWith (· + ·) a b) = fullMatrix 3 a + fullMatrix 3 b := fun hab => by
      ext i j; exact e hab _
    simp only [InFrame] at *
    rw [e' h', e' h, hu, hv, Matrix.mul_add, Matrix.add_mul]
  | symmetric =>
    have e' : ∀ {a b : List α}, a.length = b.length → symMatrix3 (List.zipWith (· + ·) a b) = symMatrix3 a + symMatrix3 b := fun hab => by
      ext i j; fin_cases i <;> fin_cases j <;> exact e hab _
    simp only [InFrame] at *
    rw [e' h', e' h, hu, hv, Matrix.mul_add, Matrix.add_mul]

private theorem inFrame_sub {k : Kind} {u v u' v' : List α} (h : u.length = v.length) (h' : u'.length = v'.length)
    (hu : InFrame A k u u') (hv : InFrame A k v v') : InFrame A k (List.zipWith (· - ·) u v) (List.zipWith (· - ·) u' v') := by
  have e : ∀ {a b : List α}, a.length = b.length → ∀ i, num (List.zipWith (· - ·) a b) i = num a i - num b i := fun hab i =>
    num_zip (sub_zero 0) hab i
  cases k with
  | scalar => simp only [InFrame] at *; rw [hu, hv]
  | vector =>
    have e' : ∀ {a b : List α}, a.length = b.length → vec 3 (List.zipWith (· - ·) a b) = vec 3 a - vec 3 b := fun hab => by
      funext i; exact e hab i
    simp only [InFrame] at *
    rw [e' h', e' h, hu, hv, Matrix.mulVec_sub]
  | matrix =>
    have e' : ∀ {a b : List α}, a.length = b.length → fullMatrix 3 (List.zipWith (· - ·) a b) = fullMatrix 3 a - fullMatrix 3 b := fun hab => by
      ext i j; exact e hab _
    simp only [InFrame] at *
    rw [e' h', e' h, hu, hv, Matrix.mul_sub, Matrix.sub_mul]
  | symmetric =>
    have e' : ∀ {a b : List α}, a.length = b.length → symMatrix3 (List.zipWith (· - ·) a b) = symMatrix3 a - symMatrix3 b := fun hab => by
      ext i j; fin_cases i <;> fin_cases j <;> exact e hab _
    simp only [InFrame] at *
    rw [e' h', e' h, hu, hv, Matrix.mul_sub, Matrix.sub_mul]

private theorem inFrame_scale {k : Kind} {u u' : List α} (c : α) (hu : InFrame A k u u') :
    InFrame A k (u.map (· * c)) (u'.map (· * c)) := by
  have e : ∀ (a : List α) i, num (a.map (· * c)) i = c * num a i := fun a i => by rw [num_map (zero_mul c), mul_comm]
  cases k with
  | scalar => simp only [InFrame] at *; rw [hu]
  | vector =>
    have e' : ∀ a : List α, vec 3 (a.map (· * c)) = c • vec 3 a := fun a => by funext i; exact e a i
    simp only [InFrame] at *
    rw [e', e', hu, Matrix.mulVec_smul]
  | matrix =>
    have e' : ∀ a : List α, fullMatrix 3 (a.map (· * c)) = c • fullMatrix 3 a := fun a => by ext i j; exact e a _
    simp only [InFrame] at *
    rw [e', e', hu, Matrix.mul_smul, Matrix.smul_mul]
  | symmetric =>
    have e' : ∀ a : List α, symMatrix3 (a.map (· * c)) = c • symMatrix3 a := fun a => by
      ext i j; fin_cases i <;> fin_cases j <;> exact e a _
    simp only [InFrame] at *
    rw [e', e', hu, Matrix.mul_smul, Matrix.smul_mul]

private theorem dotL_vec {u v : List α} (hu : u.length = 3) (hv : v.length = 3) : dotL u v = vec 3 u ⬝ᵥ vec 3 v := by
  obtain ⟨x, y, z, rfl⟩ := len3 hu
  obtain ⟨a, b, c, rfl⟩ := len3 hv
  simp [dotL, vec, num, dotProduct, Fin.sum_univ_three, add_assoc]

private theorem dot_frame (hA : A.transpose * A = 1) (u v : Fin 3 → α) : A.mulVec u ⬝ᵥ A.mulVec v = u ⬝ᵥ v := by
  rw [Matrix.dotProduct_mulVec, Matrix.vecMul_mulVec, hA, Matrix.vecMul_one]

private theorem det_sq (hA : A.transpose * A = 1) : A.det * A.det = 1 := by
  have := congrArg Matrix.det hA
  rwa [Matrix.det_mul, Matrix.det_transpose, Matrix.det_one] at this

private theorem det_frame (hA : A.transpose * A = 1) (M : Matrix (Fin 3) (Fin 3) α) : (A * M * A.transpose).det = M.det := by
  rw [Matrix.det_mul, Matrix.det_mul, Matrix.det_transpose]
  linear_combination M.det * det_sq hA

private theorem cross_frame (hA : A.transpose * A = 1) (u v : Fin 3 → α) :
    crossProduct (A.mulVec u) (A.mulVec v) = A.det • A.mulVec (crossProduct u v) := by
  have hadj : A.adjugate.transpose = A.det • A := by
    have : A.adjugate = A.det • A.transpose := by
      calc A.adjugate = A.adjugate * (A * A.transpose) := by rw [mul_eq_one_comm.1 hA, mul_one]
        _ = A.det • A.transpose := by rw [← mul_assoc, Matrix.adjugate_mul, Matrix.smul_mul, one_mul]
    rw [this, Matrix.transpose_smul, Matrix.transpose_transpose]
  rw [← Matrix.smul_mulVec, ← hadj, Matrix.adjugate_fin_three]
  funext i
  fin_cases i <;> simp [cross_apply, Matrix.mulVec, dotProduct, Fin.sum_univ_three] <;> ring

/-! ## Series -/

omit [CommRing α] in
private theorem forall₂_zipWith {R1 R2 R : List α → List α → Prop} {g : List α → List α → List α} {a a' b b' : List (List α)}
    (ha : List.Forall₂ R1 a a') (hb : List.Forall₂ R2 b b')
    (h : ∀ u ∈ a, ∀ u' ∈ a', ∀ v ∈ b, ∀ v' ∈ b', R1 u u' → R2 v v' → R (g u v) (g u' v')) :
    List.Forall₂ R (List.zipWith g a b) (List.zipWith g a' b') := by
  induction ha generalizing b b' with
  | nil => simp
  | cons h1 _ ih =>
    cases hb with
    | nil => simp
    | cons h2 h3 =>
      exact .cons (h _ (by simp) _ (by simp) _ (by simp) _ (by simp) h1 h2)
        (ih h3 fun u hu u' hu' v hv v' hv' => h u (by simp [hu]) u' (by simp [hu']) v (by simp [hv]) v' (by simp [hv']))

private theorem size_pos (k : Kind) : 0 < k.size := by cases k <;> decide

private theorem reframed_zip {k1 k2 k : Kind} {a a' b b' : Serie α} (ha : Reframed A k1 n a a') (hb : Reframed A k2 n b b')
    (hkk : k.size ≤ k1.size) {g : List α → List α → List α} (hg : ∀ u v, u.length = k1.size → v.length = k2.size → (g u v).length = k.size)
    (h : ∀ u v u' v', u.length = k1.size → v.length = k2.size → u'.length = k1.size → v'.length = k2.size →
      InFrame A k1 u u' → InFrame A k2 v v' → InFrame A k (g u v) (g u' v')) :
    Reframed A k n (ofItems k.size (List.zipWith g (items a) (items b))) (ofItems k.size (List.zipWith g (items a') (items b'))) := by
  have key : ∀ {a b : Serie α}, HasKind k1 n a → HasKind k2 n b →
      HasKind k n (ofItems k.size (List.zipWith g (items a) (items b))) ∧
        items (ofItems k.size (List.zipWith g (items a) (items b))) = List.zipWith g (items a) (items b) := by
    intro a b ha hb
    have hf := ofItems_zip_facts ha.wf hb.wf (ha.count.trans hb.count.symm) (k := k.size) (g := g) (size_pos k) (by rw [ha.size]; exact hkk)
      (fun u v hu hv => hg u v (hu.trans ha.size) (hv.trans hb.size))
    refine ⟨⟨hf.1, rfl, rfl, hf.2.2.1.trans ha.count, ?_⟩, hf.2.2.2⟩
    show (List.zipWith g (items a) (items b)).flatten.length = (List.zipWith g (items a) (items b)).length * k.size
    refine flatten_length fun w hw => ?_
    rw [List.mem_iff_getElem] at hw
    obtain ⟨i, hi, rfl⟩ := hw
    rw [List.getElem_zipWith]
    exact hg _ _ ((ha.wf.item_length (List.getElem_mem _)).trans ha.size) ((hb.wf.item_length (List.getElem_mem _)).trans hb.size)
  obtain ⟨f1, i1⟩ := key ha.old hb.old
  obtain ⟨f2, i2⟩ := key ha.new hb.new
  refine ⟨f1, f2, ?_⟩
  unfold ItemWise
  rw [i1, i2]
  exact forall₂_zipWith ha.each hb.each fun u hu u' hu' v hv v' hv' h1 h2 =>
    h u v u' v' ((ha.old.wf.item_length hu).trans ha.old.size) ((hb.old.wf.item_length hv).trans hb.old.size)
      ((ha.new.wf.item_length hu').trans ha.new.size) ((hb.new.wf.item_length hv').trans hb.new.size) h1 h2

private theorem reframed_map {k1 k : Kind} {a a' : Serie α} (ha : Reframed A k1 n a a') (hkk : k.size ≤ k1.size) {g : List α → List α}
    (hg : ∀ u, u.length = k1.size → (g u).length = k.size)
    (h : ∀ u u', u ∈ items a → u' ∈ items a' → u.length = k1.size → u'.length = k1.size → InFrame A k1 u u' → InFrame A k (g u) (g u')) :
    Reframed A k n (ofItems k.size ((items a).map g)) (ofItems k.size ((items a').map g)) := by
  have key : ∀ {a : Serie α}, HasKind k1 n a → HasKind k n (ofItems k.size ((items a).map g)) ∧
      items (ofItems k.size ((items a).map g)) = (items a).map g := by
    intro a ha
    have hf := ofItems_map_facts ha.wf (k := k.size) (g := g) (size_pos k) (by rw [ha.size]; exact hkk) (fun u hu => hg u (hu.trans ha.size))
    refine ⟨⟨hf.1, rfl, rfl, hf.2.2.1.trans ha.count, ?_⟩, hf.2.2.2⟩
    refine flatten_length fun w hw => ?_
    obtain ⟨u, hu, rfl⟩ := List.mem_map.1 hw
    exact hg _ ((ha.wf.item_length hu).trans ha.size)
  obtain ⟨f1, i1⟩ := key ha.old
  obtain ⟨f2, i2⟩ := key ha.new
  refine ⟨f1, f2, ?_⟩
  unfold ItemWise
  rw [i1, i2, List.forall₂_map_left_iff, List.forall₂_map_right_iff]
  have hl : ∀ u ∈ items a, u.length = k1.size := fun u hu => (ha.old.wf.item_length hu).trans ha.old.size
  have hl' : ∀ u ∈ items a', u.length = k1.size := fun u hu => (ha.new.wf.item_length hu).trans ha.new.size
  have he := ha.each
  unfold ItemWise at he
  revert h hl hl'
  generalize items a = l at he
  generalize items a' = m at he
  clear key f1 i1 f2 i2
  intro h hl hl'
  induction he with
  | nil => exact .nil
  | @cons u u' l m h1 _ ih =>
    refine .cons (h u u' (by simp) (by simp) (hl u (by simp)) (hl' u' (by simp)) h1)
      (ih (fun u u' hu hu' => h u u' (by simp [hu]) (by simp [hu'])) (fun u hu => hl u (by simp [hu])) (fun u hu => hl' u (by simp [hu])))

private theorem mult_run {k : Kind} {a b : Serie α} (h0 : 0 < n) (ha : HasKind k n a) (hb : HasKind .scalar n b) :
    multSerie a b = .ok (ofItems k.size (List.zipWith (fun u v => u.map (· * num v 0)) (items a) (items b))) := by
  have hm := C36_mult_serie ha.wf hb.wf (by rw [ha.count]; exact h0)
  have hc : a.count = b.count := ha.count.trans hb.count.symm
  rw [items_scalar hb.size hb.wf.count_le, List.zipWith_map_right]
  by_cases h1 : a.itemSize = 1
  · rw [hm.2.2.2.2 hc h1 hb.size (by rw [ha.full, h1, Nat.mul_one]), ofScalars_eq_ofItems, ← ha.size, h1, items_scalar h1 ha.wf.count_le,
      List.zipWith_map_left, List.map_zipWith]
    rfl
  · rw [hm.2.2.1 hc hb.size h1, ha.size]
    rfl

private theorem crossL_vec (u v : List α) :
    vec 3 [num u 1 * num v 2 - num u 2 * num v 1, num u 2 * num v 0 - num u 0 * num v 2, num u 0 * num v 1 - num u 1 * num v 0] =
      crossProduct (vec 3 u) (vec 3 v) := by
  funext i
  fin_cases i <;> simp [cross_apply, vec, num]

private theorem transposeL (t : List α) :
    fullMatrix 3 [num t 0, num t 3, num t 6, num t 1, num t 4, num t 7, num t 2, num t 5, num t 8] = (fullMatrix 3 t).transpose := by
  ext i j
  fin_cases i <;> fin_cases j <;> rfl

/-- C161: in a frame given by an isometry the cross products are those of the first frame, with the opposite sign when the frame is reflected. -/
theorem C161_cross (hA : A.transpose * A = 1) {a b a' b' : Serie α} (h0 : 0 < n) (ha : Reframed A .vector n a a') (hb : Reframed A .vector n b b') :
    ∃ r r', cross a b = .ok r ∧ cross a' b' = .ok r' ∧ ItemWise (fun w w' => vec 3 w' = A.det • A.mulVec (vec 3 w)) r r' := by
  have hc : a.count = b.count := ha.old.count.trans hb.old.count.symm
  have hc' : a'.count = b'.count := ha.new.count.trans hb.new.count.symm
  refine ⟨_, _, cross_run ha.old.wf hb.old.wf ha.old.size hb.old.size hc (by rw [ha.old.count]; exact h0),
    cross_run ha.new.wf hb.new.wf ha.new.size hb.new.size hc' (by rw [ha.new.count]; exact h0), ?_⟩
  unfold ItemWise
  rw [items_ofItems, items_ofItems]
  · refine forall₂_zipWith ha.each hb.each fun u _ u' _ v _ v' _ h1 h2 => ?_
    rw [crossL_vec, crossL_vec]
    simp only [InFrame] at h1 h2
    rw [h1, h2, cross_frame hA]
  all_goals
    intro w hw
    rw [List.mem_iff_getElem] at hw
    obtain ⟨i, hi, rfl⟩ := hw
    rw [List.getElem_zipWith]
    rfl

/-- C161: what is seen along the line of sight does not depend on the frame. -/
theorem C161_insar (hA : A.transpose * A = 1) {u u' : Serie α} (h0 : 0 < n) (hu : Reframed A .vector n u u') {los los' : List α}
    (hl : los.length = 3) (hl' : los'.length = 3) (hs : vec 3 los' = A.mulVec (vec 3 los)) : insar u' los' = insar u los := by
  rw [insar_run hu.old.wf (by rw [hu.old.count]; exact h0) hu.old.size hl, insar_run hu.new.wf (by rw [hu.new.count]; exact h0) hu.new.size hl']
  congr 2
  have : List.Forall₂ (fun v v' => [dotL v' los'] = [dotL v los]) (items u) (items u') := by
    refine List.Forall₂.imp (R := fun v v' => (v.length = 3 ∧ v'.length = 3) ∧ InFrame A .vector v v') (fun v v' h => ?_) ?_
    · obtain ⟨⟨l1, l2⟩, h⟩ := h
      rw [dotL_vec l2 hl', dotL_vec l1 hl, hs, h, dot_frame hA]
    · have he := hu.each
      rw [ItemWise, List.forall₂_iff_get] at he
      rw [List.forall₂_iff_get]
      exact ⟨he.1, fun i h1 h2 => ⟨⟨(hu.old.wf.item_length (List.get_mem _ _)).trans hu.old.size,
        (hu.new.wf.item_length (List.get_mem _ _)).trans hu.new.size⟩, he.2 i h1 h2⟩⟩
  generalize items u = l at this ⊢
  generalize items u' = m at this ⊢
  induction this with
  | nil => rfl
  | cons h _ ih => rw [List.map_cons, List.map_cons, h, ih]

end ring

section field

variable [Field α] [LinearOrder α] [IsStrictOrderedRing α] {A : Matrix (Fin 3) (Fin 3) α} {n : Nat}

private theorem inv_run {s : Serie α} (h : HasKind .symmetric n s) (h0 : 0 < n) (hdet : ∀ t ∈ items s, 1 / 10 ^ 10 ≤ |(symMatrix3 t).det|) :
    inv s = .ok (ofItems 6 ((items s).map symInverse)) := by
  have hk : s.itemSize = 6 := h.size
  unfold inv
  rw [h.wf.valid, if_neg (by simp), if_neg (by simp [hk, h.dim]), if_pos hk]
  have hfit := h.wf.fits
  have hsm := h.wf.small
  rw [hk] at hfit
  refine mapArr_ok h.wf (by rw [h.count]; exact h0)
    (AllReturn_map (fun v hv i => invSym_ok ((h.wf.item_length hv).trans hk) (not_lt.2 (hdet v hv)))) (by omega) (by omega) ?_ (by omega)
  intro v hv
  obtain ⟨u, hu, rfl⟩ := List.mem_map.1 hv
  rfl

omit [LinearOrder α] [IsStrictOrderedRing α] in
private theorem inverse_frame (hA : A.transpose * A = 1) {u u' : List α} (hu : u.length = 6) (hu' : u'.length = 6)
    (hd : (symMatrix3 u).det ≠ 0) (h : InFrame A .symmetric u u') : InFrame A .symmetric (symInverse u) (symInverse u') := by
  simp only [InFrame] at *
  have hA' : A * A.transpose = 1 := mul_eq_one_comm.1 hA
  have hd' : (symMatrix3 u').det ≠ 0 := by rw [h, det_frame hA]; exact hd
  have e1 := symInverse_mul hu hd
  have e2 := mul_eq_one_comm.1 (symInverse_mul hu' hd')
  have e3 : symMatrix3 u' * (A * symMatrix3 (symInverse u) * A.transpose) = 1 := by
    rw [h]
    calc A * symMatrix3 u * A.transpose * (A * symMatrix3 (symInverse u) * A.transpose)
        = A * symMatrix3 u * (A.transpose * A) * symMatrix3 (symInverse u) * A.transpose := by simp only [mul_assoc]
      _ = A * (symMatrix3 u * symMatrix3 (symInverse u)) * A.transpose := by rw [hA, mul_one]; simp only [mul_assoc]
      _ = 1 := by rw [e1, mul_one, hA']
  exact left_inv_eq_right_inv e2 e3

omit [LinearOrder α] [IsStrictOrderedRing α] in
private theorem Alike.bind {k k1 : Kind} {x y : Res (Serie α)} (h : Alike A k1 n x y) {f f' : Serie α → Res (Serie α)}
    (hf : ∀ r r', Reframed A k1 n r r' → Alike A k n (f r) (f' r')) : Alike A k n (x >>= f) (y >>= f') := by
  rcases h with ⟨r, r', rfl, rfl, h⟩ | ⟨e, rfl, rfl⟩
  · exact hf r r' h
  · exact .inr ⟨e, rfl, rfl⟩

omit [LinearOrder α] [IsStrictOrderedRing α] in
private theorem Alike.bind2 {k k1 k2 : Kind} {x y z w : Res (Serie α)} (h : Alike A k1 n x y) (h' : Alike A k2 n z w)
    {f : Serie α → Serie α → Res (Serie α)} (hf : ∀ a a' b b', Reframed A k1 n a a' → Reframed A k2 n b b' → Alike A k n (f a b) (f a' b')) :
    Alike A k n (x >>= fun a => z >>= fun b => f a b) (y >>= fun a => w >>= fun b => f a b) :=
  Alike.bind h fun a a' ha => Alike.bind h' fun b b' hb => hf a a' b b' ha hb

/-- C161: a formula made of sums, differences, multiples, products by scalars, dot and cross products, determinants and transposes of matrices, and
inverses of symmetric matrices gives the same result in all orthonormal frames: scalars are the same, vectors and matrices are written in the new frame, and
what throws in a frame throws in the other. A frame can be reflected when the formula has no cross product. Missing: the inverses of matrices stored in
full, for which this does not hold (`C161_inverse_violated`). -/
theorem C161_formulas_partial (hA : A.transpose * A = 1) (h0 : 0 < n) {inputs inputs' : Kind → Nat → Serie α}
    (hi : ∀ k i, Reframed A k n (inputs k i) (inputs' k i)) {k : Kind} (e : Formula α k) (hx : e.NoCross ∨ A.det = 1) :
    Alike A k n (e.value inputs) (e.value inputs') := by
  induction e with
  | input k i => exact .inl ⟨_, _, rfl, rfl, hi k i⟩
  | @add k e f ihe ihf =>
    refine Alike.bind2 (ihe (hx.imp (·.1) id)) (ihf (hx.imp (·.2) id)) fun a a' b b' ha hb => .inl ⟨_, _,
      binOp_eq ha.old.wf hb.old.wf ⟨ha.old.size.trans hb.old.size.symm, ha.old.count.trans hb.old.count.symm⟩,
      binOp_eq ha.new.wf hb.new.wf ⟨ha.new.size.trans hb.new.size.symm, ha.new.count.trans hb.new.count.symm⟩, ?_⟩
    unfold pointwise
    rw [ha.old.size, ha.new.size]
    exact reframed_zip ha hb (le_refl _) (fun u v hu hv => by simp [hu, hv]) fun u v u' v' h1 h2 h3 h4 =>
      inFrame_add (h1.trans h2.symm) (h3.trans h4.symm)
  | @sub k e f ihe ihf =>
    refine Alike.bind2 (ihe (hx.imp (·.1) id)) (ihf (hx.imp (·.2) id)) fun a a' b b' ha hb => .inl ⟨_, _,
      binOp_eq ha.old.wf hb.old.wf ⟨ha.old.size.trans hb.old.size.symm, ha.old.count.trans hb.old.count.symm⟩,
      binOp_eq ha.new.wf hb.new.wf ⟨ha.new.size.trans hb.new.size.symm, ha.new.count.trans hb.new.count.symm⟩, ?_⟩
    unfold pointwise
    rw [ha.old.size, ha.new.size]
    exact reframed_zip ha hb (le_refl _) (fun u v hu hv => by simp [hu, hv]) fun u v u' v' h1 h2 h3 h4 =>
      inFrame_sub (h1.trans h2.symm) (h3.trans h4.symm)
  | @scale k e c ih =>
    refine Alike.bind (ih hx) fun a a' ha => .inl ⟨_, _, C36_scale ha.old.wf (by rw [ha.old.count]; exact h0) c,
      C36_scale ha.new.wf (by rw [ha.new.count]; exact h0) c, ?_⟩
    unfold onNumbers
    rw [ha.old.size, ha.new.size]
    exact reframed_map ha (le_refl _) (fun u hu => by simp [hu]) fun u u' _ _ _ _ => inFrame_scale c
  | @negate k e ih =>
    refine Alike.bind (ih hx) fun a a' ha => .inl ⟨_, _, C36_negate ha.old.wf (by rw [ha.old.count]; exact h0),
      C36_negate ha.new.wf (by rw [ha.new.count]; exact h0), ?_⟩
    unfold onNumbers
    rw [ha.old.size, ha.new.size]
    refine reframed_map ha (le_refl _) (fun u hu => by simp [hu]) fun u u' _ _ _ _ h => ?_
    have := inFrame_scale (-1) h
    simpa using this
  | @mult k e f ihe ihf =>
    refine Alike.bind2 (ihe (hx.imp (·.1) id)) (ihf (hx.imp (·.2) id)) fun a a' b b' ha hb => .inl ⟨_, _,
      mult_run h0 ha.old hb.old, mult_run h0 ha.new hb.new, ?_⟩
    refine reframed_zip ha hb (le_refl _) (fun u v hu hv => by simp [hu]) fun u v u' v' h1 h2 h3 h4 h5 h6 => ?_
    simp only [InFrame] at h6
    rw [h6]
    exact inFrame_scale _ h5
  | dot e f ihe ihf =>
    refine Alike.bind2 (ihe (hx.imp (·.1) id)) (ihf (hx.imp (·.2) id)) fun a a' b b' ha hb => .inl ⟨_, _,
      dot_run ha.old.wf hb.old.wf ⟨ha.old.size.trans hb.old.size.symm, ha.old.count.trans hb.old.count.symm⟩ (by rw [ha.old.count]; exact h0),
      dot_run ha.new.wf hb.new.wf ⟨ha.new.size.trans hb.new.size.symm, ha.new.count.trans hb.new.count.symm⟩ (by rw [ha.new.count]; exact h0), ?_⟩
    refine reframed_zip (k := .scalar) ha hb (by decide) (fun u v hu hv => rfl) fun u v u' v' h1 h2 h3 h4 h5 h6 => ?_
    simp only [InFrame] at *
    rw [dotL_vec h3 h4, dotL_vec h1 h2, h5, h6, dot_frame hA]
  | cross e f ihe ihf =>
    have hd : A.det = 1 := hx.resolve_left id
    refine Alike.bind2 (ihe (.inr hd)) (ihf (.inr hd)) fun a a' b b' ha hb => .inl ⟨_, _,
      cross_run ha.old.wf hb.old.wf ha.old.size hb.old.size (ha.old.count.trans hb.old.count.symm) (by rw [ha.old.count]; exact h0),
      cross_run ha.new.wf hb.new.wf ha.new.size hb.new.size (ha.new.count.trans hb.new.count.symm) (by rw [ha.new.count]; exact h0), ?_⟩
    refine reframed_zip (k := .vector) ha hb (by decide) (fun u v hu hv => rfl) fun u v u' v' h1 h2 h3 h4 h5 h6 => ?_
    simp only [InFrame] at *
    rw [crossL_vec, crossL_vec, h5, h6, cross_frame hA, hd, one_smul]
  | det e ih =>
    refine Alike.bind (ih hx) fun a a' ha => .inl ⟨_, _, det_run3 ha.old.wf (by rw [ha.old.count]; exact h0) ha.old.size ha.old.dim,
      det_run3 ha.new.wf (by rw [ha.new.count]; exact h0) ha.new.size ha.new.dim, ?_⟩
    refine reframed_map (k := .scalar) ha (by decide) (fun u hu => rfl) fun u u' _ _ h1 h2 h => ?_
    have e : ∀ t : List α, [num t 0 * num t 4 * num t 8 - num t 0 * num t 5 * num t 7 - num t 1 * num t 3 * num t 8 + num t 1 * num t 5 * num t 6 +
        num t 2 * num t 3 * num t 7 - num t 2 * num t 4 * num t 6] = [(fullMatrix 3 t).det] := by
      intro t
      rw [Matrix.det_fin_three]
      simp [fullMatrix]
    simp only [InFrame] at *
    rw [e, e, h, det_frame hA]
  | transpose e ih =>
    refine Alike.bind (ih hx) fun a a' ha => .inl ⟨_, _, transpose_run3 ha.old.wf (by rw [ha.old.count]; exact h0) ha.old.size,
      transpose_run3 ha.new.wf (by rw [ha.new.count]; exact h0) ha.new.size, ?_⟩
    refine reframed_map (k := .matrix) ha (by decide) (fun u hu => rfl) fun u u' _ _ h1 h2 h => ?_
    simp only [InFrame] at *
    rw [transposeL, transposeL, h, Matrix.transpose_mul, Matrix.transpose_mul, Matrix.transpose_transpose, mul_assoc]
  | inv e ih =>
    refine Alike.bind (ih hx) fun a a' ha => ?_
    have hdet : List.Forall₂ (fun t u => (symMatrix3 u).det = (symMatrix3 t).det) (items a) (items a') :=
      List.Forall₂.imp (fun t u h => by simp only [InFrame] at h; rw [h, det_frame hA]) ha.each
    by_cases hs : ∀ t ∈ items a, 1 / 10 ^ 10 ≤ |(symMatrix3 t).det|
    · have hs' : ∀ t ∈ items a', 1 / 10 ^ 10 ≤ |(symMatrix3 t).det| := by
        intro u hu
        obtain ⟨i, hi, rfl⟩ := List.getElem_of_mem hu
        rw [List.forall₂_iff_get] at hdet
        have := hdet.2 i (hdet.1 ▸ hi) hi
        simp only [List.get_eq_getElem] at this
        rw [this]
        exact hs _ (List.getElem_mem _)
      refine .inl ⟨_, _, inv_run ha.old h0 hs, inv_run ha.new h0 hs', ?_⟩
      refine reframed_map (k := .symmetric) ha (by decide) (fun u hu => rfl) fun u u' hu hu' h1 h2 h => ?_
      exact inverse_frame hA h1 h2 (ne_zero_of_not_small (not_lt.2 (hs u hu))) h
    · push Not at hs
      obtain ⟨t, ht, hlt⟩ := hs
      refine .inr ⟨_, C51_throws ha.old.wf ha.old.size ha.old.dim ⟨t, ht, hlt⟩, C51_throws ha.new.wf ha.new.size ha.new.dim ?_⟩
      obtain ⟨i, hi, rfl⟩ := List.getElem_of_mem ht
      rw [List.forall₂_iff_get] at hdet
      have := hdet.2 i hi (hdet.1 ▸ hi)
      simp only [List.get_eq_getElem] at this
      exact ⟨_, List.getElem_mem (hdet.1 ▸ hi), by rw [this]; exact hlt⟩

omit [LinearOrder α] [IsStrictOrderedRing α] in
private theorem sumItems_length {k : Nat} {l : List (List α)} (h : ∀ v ∈ l, v.length = k) :
    (l.foldr (List.zipWith (· + ·)) (List.replicate k (0 : α))).length = k := by
  induction l with
  | nil => simp
  | cons a l ih => simp [ih fun v hv => h v (by simp [hv]), h a (by simp)]

omit [LinearOrder α] [IsStrictOrderedRing α] in
private theorem sumItems_num {k j : Nat} (hj : j < k) {l : List (List α)} (h : ∀ v ∈ l, v.length = k) :
    (l.filterMap (·[j]?)).sum = num (l.foldr (List.zipWith (· + ·)) (List.replicate k (0 : α))) j := by
  induction l with
  | nil => simp [num, hj]
  | cons a l ih =>
    have ha : a.length = k := h a (by simp)
    have hl := ih fun v hv => h v (by simp [hv])
    rw [List.foldr_cons, num_zip (add_zero 0) (by rw [ha, sumItems_length fun v hv => h v (by simp [hv])]), ← hl,
      List.filterMap_cons_some (b := num a j), List.sum_cons]
    simp [num, List.getElem?_eq_getElem (ha ▸ hj)]

omit [LinearOrder α] [IsStrictOrderedRing α] in
/-- C161: the mean of vectors or matrices is the same in all frames, also when the frame is not orthonormal. -/
theorem C161_mean {k : Kind} (hk : k ≠ .scalar) {s s' : Serie α} (_h0 : 0 < n) (h : Reframed A k n s s') :
    ∃ b b', mean s = .ok (.array b) ∧ mean s' = .ok (.array b') ∧ b.length = k.size ∧ b'.length = k.size ∧ InFrame A k b b' := by
  have key : ∀ {s : Serie α}, HasKind k n s → ∃ b, mean s = .ok (.array b) ∧ b.length = k.size ∧
      b = ((items s).foldr (List.zipWith (· + ·)) (List.replicate k.size (0 : α))).map (· * (1 / (n : α))) := by
    intro s hs
    have hl : ∀ v ∈ items s, v.length = k.size := fun v hv => (hs.wf.item_length hv).trans hs.size
    obtain ⟨b, e, hb, hj⟩ := mean_items hs.wf (by rw [hs.size]; cases k <;> first | exact absurd rfl hk | decide)
    rw [hs.size] at hb hj
    refine ⟨b, e, hb, List.ext_getElem (by simp [hb, sumItems_length hl]) fun i h1 h2 => ?_⟩
    have h3 := hj i (by omega)
    rw [List.getElem?_eq_getElem h1, Option.some.injEq] at h3
    have h4 := sumItems_num (hb ▸ h1) hl
    rw [h3, List.getElem_map, hs.count]
    unfold component
    rw [h4]
    unfold num
    rw [List.getElem?_eq_getElem (by simpa using h2), Option.getD_some, mul_one_div]
  obtain ⟨b, e, hb, rfl⟩ := key h.old
  obtain ⟨b', e', hb', rfl⟩ := key h.new
  refine ⟨_, _, e, e', hb, hb', inFrame_scale _ ?_⟩
  have hl : ∀ v ∈ items s, v.length = k.size := fun v hv => (h.old.wf.item_length hv).trans h.old.size
  have hl' : ∀ v ∈ items s', v.length = k.size := fun v hv => (h.new.wf.item_length hv).trans h.new.size
  have he := h.each
  unfold ItemWise at he
  clear key e hb e' hb' h
  revert hl hl'
  generalize items s = l at he
  generalize items s' = m at he
  intro hl hl'
  have hz : InFrame A k (List.replicate k.size 0) (List.replicate k.size 0) := by
    have z : ∀ m i, num (List.replicate m (0 : α)) i = 0 := fun m i => by
      unfold num
      rw [List.getElem?_replicate]
      split <;> rfl
    cases k with
    | scalar => rfl
    | vector =>
      have : vec 3 (List.replicate Kind.vector.size (0 : α)) = 0 := by funext i; exact z _ _
      simp only [InFrame]; rw [this, Matrix.mulVec_zero]
    | matrix =>
      have : fullMatrix 3 (List.replicate Kind.matrix.size (0 : α)) = 0 := by ext i j; exact z _ _
      simp only [InFrame]; rw [this, Matrix.mul_zero, Matrix.zero_mul]
    | symmetric =>
      have : symMatrix3 (List.replicate Kind.symmetric.size (0 : α)) = 0 := by
        ext i j; fin_cases i <;> fin_cases j <;> simp [symMatrix3, z]
      simp only [InFrame]; rw [this, Matrix.mul_zero, Matrix.zero_mul]
  induction he with
  | nil => exact hz
  | @cons u u' l m h1 _ ih =>
    have a1 : ∀ v ∈ l, v.length = k.size := fun v hv => hl v (List.mem_cons_of_mem _ hv)
    have a2 : ∀ v ∈ m, v.length = k.size := fun v hv => hl' v (List.mem_cons_of_mem _ hv)
    exact inFrame_add (by rw [hl _ (by simp), sumItems_length a1]) (by rw [hl' _ (by simp), sumItems_length a2]) h1 (ih a1 a2)

/-- A quarter of a turn about the third axis. -/
def exTurn : Matrix (Fin 3) (Fin 3) ℚ := !![0, -1, 0; 1, 0, 0; 0, 0, 1]

/-- One Serie of each kind: two scalars, two vectors, two matrices and two symmetric matrices. -/
def exOld : Kind → Nat → Serie ℚ
  | .scalar, _ => ⟨[5, 7], 2, 1, 3⟩
  | .vector, 0 => ⟨[1, 2, 3, 4, 5, 6], 2, 3, 3⟩
  | .vector, _ => ⟨[0, 1, 1, 2, 0, 1], 2, 3, 3⟩
  | .matrix, _ => ⟨[1, 2, 3, 4, 5, 6, 7, 8, 9, 1, 1, 0, 0, 1, 0, 0, 0, 1], 2, 9, 3⟩
  | .symmetric, _ => ⟨[1, 2, 3, 4, 5, 6, 2, 0, 0, 1, 0, 1], 2, 6, 3⟩

/-- The Series of `exOld` in the frame of `exTurn`. -/
def exNew : Kind → Nat → Serie ℚ
  | .scalar, _ => ⟨[5, 7], 2, 1, 3⟩
  | .vector, 0 => ⟨[-2, 1, 3, -5, 4, 6], 2, 3, 3⟩
  | .vector, _ => ⟨[-1, 0, 1, 0, 2, 1], 2, 3, 3⟩
  | .matrix, _ => ⟨[5, -4, -6, -2, 1, 3, -8, 7, 9, 1, 0, 0, -1, 1, 0, 0, 0, 1], 2, 9, 3⟩
  | .symmetric, _ => ⟨[4, -2, -5, 1, 3, 6, 1, 0, 0, 2, 0, 1], 2, 6, 3⟩

theorem exReframed (k : Kind) (i : Nat) : Reframed exTurn k 2 (exOld k i) (exNew k i) := by
  have v : ∀ i < 2, Reframed exTurn .vector 2 (exOld .vector i) (exNew .vector i) := by
    intro i hi
    obtain rfl | rfl : i = 0 ∨ i = 1 := by omega
    all_goals
      refine ⟨⟨by decide, rfl, rfl, rfl, rfl⟩, ⟨by decide, rfl, rfl, rfl, rfl⟩, .cons ?_ (.cons ?_ .nil)⟩ <;>
        (simp only [InFrame]; decide +kernel)
  cases k
  · show Reframed exTurn .scalar 2 (exOld .scalar 0) (exNew .scalar 0)
    exact ⟨⟨by decide, rfl, rfl, rfl, rfl⟩, ⟨by decide, rfl, rfl, rfl, rfl⟩, .cons rfl (.cons rfl .nil)⟩
  · cases i with
    | zero => exact v 0 (by decide)
    | succ i => exact v 1 (by decide)
  · show Reframed exTurn .matrix 2 (exOld .matrix 0) (exNew .matrix 0)
    refine ⟨⟨by decide, rfl, rfl, rfl, rfl⟩, ⟨by decide, rfl, rfl, rfl, rfl⟩, .cons ?_ (.cons ?_ .nil)⟩ <;>
      (simp only [InFrame]; decide +kernel)
  · show Reframed exTurn .symmetric 2 (exOld .symmetric 0) (exNew .symmetric 0)
    refine ⟨⟨by decide, rfl, rfl, rfl, rfl⟩, ⟨by decide, rfl, rfl, rfl, rfl⟩, .cons ?_ (.cons ?_ .nil)⟩ <;>
      (simp only [InFrame]; decide +kernel)

example := C161_cross (by decide +kernel) (by decide) (exReframed .vector 0) (exReframed .vector 1)
example := C161_mean (by decide) (by decide) (exReframed .symmetric 0)
example := C161_insar (by decide +kernel) (by decide) (exReframed .vector 0) (los := [1, 0, 2]) (los' := [0, 1, 2]) rfl rfl (by decide +kernel)
example := C161_formulas_partial (by decide +kernel) (by decide) exReframed (.mult (.cross (.input .vector 0) (.input .vector 1)) (.det (.input .matrix 0)))
  (.inr (by decide +kernel))
example := C161_formulas_partial (by decide +kernel) (by decide) exReframed (.inv (.input .symmetric 0)) (.inl trivial)

/-- C161 is violated by the inverse of matrices stored in full: in two frames it gives different matrices. -/
theorem C161_inverse_violated : ∃ (A : Matrix (Fin 3) (Fin 3) ℚ) (s s' r r' : Serie ℚ), A.transpose * A = 1 ∧ A.det = 1 ∧ Reframed A .matrix 1 s s' ∧
    inv s = .ok r ∧ inv s' = .ok r' ∧ ¬ ItemWise (InFrame A .matrix) r r' := by
  refine ⟨!![0, 1, 0; 0, 0, 1; 1, 0, 0], ⟨[1, 0, 0, 0, 1, 1, 0, 0, 1], 1, 9, 3⟩, ⟨[1, 1, 0, 0, 1, 0, 0, 0, 1], 1, 9, 3⟩,
    ⟨[1, 0, 0, 0, 1, 0, 0, 0, 1], 1, 9, 3⟩, ⟨[1, -1, 0, 0, 1, 0, 0, 0, 1], 1, 9, 3⟩, by decide +kernel, by decide +kernel,
    ⟨⟨by decide, rfl, rfl, rfl, rfl⟩, ⟨by decide, rfl, rfl, rfl, rfl⟩, .cons ?_ .nil⟩, by decide +kernel, by decide +kernel, ?_⟩
  · simp only [InFrame]; decide +kernel
  · rintro (_ | ⟨h, _⟩)
    revert h
    simp only [InFrame]; decide +kernel

/-- C161: in particular a formula for scalars gives the same Serie in all frames. -/
theorem C161_scalars_partial (hA : A.transpose * A = 1) (h0 : 0 < n) {inputs inputs' : Kind → Nat → Serie α}
    (hi : ∀ k i, Reframed A k n (inputs k i) (inputs' k i)) (e : Formula α .scalar) (hx : e.NoCross ∨ A.det = 1) :
    e.value inputs' = e.value inputs := by
  rcases C161_formulas_partial hA h0 hi e hx with ⟨r, r', h1, h2, h⟩ | ⟨x, h1, h2⟩
  · rw [h1, h2]
    have he : items r = items r' := by
      have := h.each
      unfold ItemWise at this
      generalize items r = l at this ⊢
      generalize items r' = m at this ⊢
      induction this with
      | nil => rfl
      | cons h _ ih => simp only [InFrame] at h; rw [h, ih]
    rw [← ofItems_items h.old.full, ← ofItems_items h.new.full, he, h.old.size, h.new.size, h.old.dim, h.new.dim]
  · rw [h1, h2]

example := C161_scalars_partial (by decide +kernel) (by decide) exReframed (.dot (.cross (.input .vector 0) (.input .vector 1)) (.input .vector 2))
  (.inr (by decide +kernel))

end field

end DF
