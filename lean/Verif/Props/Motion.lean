import Verif.Spec.Motion
import Verif.Props.Geo
import Verif.Props.Math
import Verif.Props.Products
import Verif.Props.Stats
import Mathlib.LinearAlgebra.Matrix.NonsingularInverse

/-!
# Properties of the normals of meshes that are moved, renumbered or closed (C140)
-/

namespace DF

open Spec

variable {α : Type}

section motion

variable [Field α] [LinearOrder α] [IsStrictOrderedRing α] [FloorRing α]

theorem pointAt_moved {A : Matrix (Fin 3) (Fin 3) α} {b : Fin 3 → α} {P Q : Serie α} (hm : Moved A b P Q) {i : Nat} (hi : i < P.count) :
    pointAt Q i = A.mulVec (pointAt P i) + b := by
  have hl := hm.2.2
  have h1 : i < (items P).length := by rw [items_length]; exact hi
  have h2 : i < (items Q).length := by rw [← hl.length_eq]; exact h1
  unfold pointAt
  rw [List.getElem?_eq_getElem h1, List.getElem?_eq_getElem h2]
  exact (List.forall₂_iff_get.1 hl).2 i h1 h2

theorem mesh_moved {A : Matrix (Fin 3) (Fin 3) α} {b : Fin 3 → α} {P Q I : Serie α} (h : Mesh P I) (hm : Moved A b P Q) : Mesh Q I := by
  have hc : Q.count = P.count := by
    have := hm.2.2.length_eq
    rw [items_length, items_length] at this
    exact this.symm
  exact ⟨hm.1, h.tri, hm.2.1, h.tri3, fun t ht => by rw [hc]; exact h.inRange t ht⟩

/-- Two meshes whose triangles correspond. -/
theorem normals_related {P I Q J : Serie α} (hI : Mesh P I) (hJ : Mesh Q J) (R : List α → List α → Prop)
    (S : List α → List α → Prop) (hR : ItemWise R I J)
    (hS : ∀ t u, t ∈ items I → u ∈ items J → R t u → S (normalAt P t) (normalAt Q u)) :
    ∃ r q, normals P I = .ok r ∧ normals Q J = .ok q ∧ WF r ∧ WF q ∧ r.itemSize = 3 ∧ q.itemSize = 3 ∧ ItemWise S r q := by
  have fact : ∀ {P K : Serie α}, Mesh P K → WF (ofItems 3 ((items K).map (normalAt P))) ∧
      items (ofItems 3 ((items K).map (normalAt P))) = (items K).map (normalAt P) := by
    intro P K hK
    have hl : ∀ v ∈ (items K).map (normalAt P), v.length = 3 := by
      intro v hv
      obtain ⟨t, ht, rfl⟩ := List.mem_map.1 hv
      exact (normalAt_eq hK ht).2.1
    refine ⟨WF_ofItems (by omega) (by omega) hl ?_, items_ofItems hl⟩
    rw [List.length_map, items_length]
    have := hK.tri.fits
    rw [hK.tri3] at this
    exact Nat.lt_of_le_of_lt this hK.tri.small
  refine ⟨_, _, normals_run hI, normals_run hJ, (fact hI).1, (fact hJ).1, rfl, rfl, ?_⟩
  unfold ItemWise at hR ⊢
  rw [(fact hI).2, (fact hJ).2, List.forall₂_map_left_iff, List.forall₂_map_right_iff]
  clear fact
  revert hS
  generalize items I = l at hR
  generalize items J = m at hR
  intro hin
  induction hR with
  | nil => exact .nil
  | cons h1 _ ih =>
    exact .cons (hin _ _ (by simp) (by simp) h1) (ih fun t u ht hu => hin t u (by simp [ht]) (by simp [hu]))

theorem normals_equal {P I Q J : Serie α} (hI : Mesh P I) (hJ : Mesh Q J) (R : List α → List α → Prop) (hR : ItemWise R I J)
    (hS : ∀ t u, t ∈ items I → u ∈ items J → R t u → normalAt P t = normalAt Q u) : normals P I = normals Q J := by
  rw [normals_run hI, normals_run hJ]
  congr 2
  unfold ItemWise at hR
  revert hS
  generalize items I = l at hR
  generalize items J = m at hR
  intro hin
  induction hR with
  | nil => rfl
  | cons h1 _ ih =>
    rw [List.map_cons, List.map_cons, hin _ _ (by simp) (by simp) h1, ih fun t u ht hu => hin t u (by simp [ht]) (by simp [hu])]

theorem itemWise_refl (I : Serie α) : ItemWise (fun t u => t = u) I I := by
  unfold ItemWise
  rw [List.forall₂_eq_eq_eq]

omit [LinearOrder α] [IsStrictOrderedRing α] [FloorRing α] in
theorem cross_mulVec (A : Matrix (Fin 3) (Fin 3) α) (u v : Fin 3 → α) :
    crossProduct (A.mulVec u) (A.mulVec v) = A.adjugate.transpose.mulVec (crossProduct u v) := by
  rw [Matrix.adjugate_fin_three]
  funext i
  fin_cases i <;> simp [cross_apply, Matrix.mulVec, dotProduct, Fin.sum_univ_three] <;> ring

/-- C140: when the points are moved by `x ↦ A x + b` the normals are multiplied by the transposed adjugate of `A`. -/
theorem C140_affine {A : Matrix (Fin 3) (Fin 3) α} {b : Fin 3 → α} {P Q I : Serie α} (h : Mesh P I) (hm : Moved A b P Q) :
    ∃ r q, normals P I = .ok r ∧ normals Q I = .ok q ∧
      ItemWise (fun n m => vec 3 m = A.adjugate.transpose.mulVec (vec 3 n)) r q := by
  obtain ⟨r, q, hr, hq, _, _, _, _, hi⟩ := normals_related h (mesh_moved h hm) (fun t u => t = u)
    (fun n m => vec 3 m = A.adjugate.transpose.mulVec (vec 3 n)) (itemWise_refl I) (by
      rintro t _ ht hu rfl
      obtain ⟨x, y, z, hxyz, hx, hy, hz⟩ := h.inRange t ht
      rw [(normalAt_eq (mesh_moved h hm) hu).2.2 x y z hxyz, (normalAt_eq h ht).2.2 x y z hxyz, normalL_cross, normalL_cross,
        pointAt_moved hm hx, pointAt_moved hm hy, pointAt_moved hm hz, add_sub_add_right_eq_sub, add_sub_add_right_eq_sub,
        ← Matrix.mulVec_sub, ← Matrix.mulVec_sub, cross_mulVec])
  exact ⟨r, q, hr, hq, hi⟩

/-- Points of `exPts` sheared and shifted. -/
def exPts' : Serie ℚ := ⟨[1, 2, 3, 2, 2, 3, 1, 3, 3, 3, 2, 5], 4, 3, 3⟩

theorem exMoved : Moved !![1, 0, 1; 0, 1, 0; 0, 0, 1] ![1, 2, 3] exPts exPts' := by
  refine ⟨by decide, rfl, ?_⟩
  have e1 : items exPts = [[0, 0, 0], [1, 0, 0], [0, 1, 0], [0, 0, 2]] := rfl
  have e2 : items exPts' = [[1, 2, 3], [2, 2, 3], [1, 3, 3], [3, 2, 5]] := rfl
  unfold ItemWise
  rw [e1, e2]
  refine .cons ?_ (.cons ?_ (.cons ?_ (.cons ?_ .nil))) <;>
    · funext i
      fin_cases i <;> simp [vec, num, Matrix.mulVec, dotProduct, Fin.sum_univ_three] <;> norm_num

example := C140_affine exMesh exMoved

/-- C140: a rotation of the points rotates the normals, a reflection also reverses them; their lengths are unchanged. -/
theorem C140_isometry {A : Matrix (Fin 3) (Fin 3) α} (hA : A.transpose * A = 1) {b : Fin 3 → α} {P Q I : Serie α} (h : Mesh P I)
    (hm : Moved A b P Q) :
    ∃ r q, normals P I = .ok r ∧ normals Q I = .ok q ∧
      ItemWise (fun n m => vec 3 m = A.det • A.mulVec (vec 3 n) ∧ vec 3 m ⬝ᵥ vec 3 m = vec 3 n ⬝ᵥ vec 3 n) r q := by
  obtain ⟨r, q, hr, hq, hi⟩ := C140_affine h hm
  have hadj : A.adjugate.transpose = A.det • A := by
    have : A.adjugate = A.det • A.transpose := by
      calc A.adjugate = A.adjugate * (A * A.transpose) := by rw [mul_eq_one_comm.1 hA, mul_one]
        _ = A.det • A.transpose := by rw [← mul_assoc, Matrix.adjugate_mul, Matrix.smul_mul, one_mul]
    rw [this, Matrix.transpose_smul, Matrix.transpose_transpose]
  have hdet : A.det * A.det = 1 := by
    have := congrArg Matrix.det hA
    rwa [Matrix.det_mul, Matrix.det_transpose, Matrix.det_one] at this
  refine ⟨r, q, hr, hq, hi.imp fun n m hnm => ?_⟩
  have e : vec 3 m = A.det • A.mulVec (vec 3 n) := by rw [hnm, hadj, Matrix.smul_mulVec]
  refine ⟨e, ?_⟩
  rw [e, smul_dotProduct, dotProduct_smul, smul_smul, hdet, one_smul, Matrix.dotProduct_mulVec, Matrix.vecMul_mulVec, hA,
    Matrix.vecMul_one]

/-- Points of `exPts` turned by a quarter of a turn about the third axis, and shifted. -/
def exPtsTurned : Serie ℚ := ⟨[1, 2, 3, 1, 3, 3, 0, 2, 3, 1, 2, 5], 4, 3, 3⟩

theorem exRotated : Moved !![0, -1, 0; 1, 0, 0; 0, 0, 1] ![1, 2, 3] exPts exPtsTurned := by
  refine ⟨by decide, rfl, ?_⟩
  have e1 : items exPts = [[0, 0, 0], [1, 0, 0], [0, 1, 0], [0, 0, 2]] := rfl
  have e2 : items exPtsTurned = [[1, 2, 3], [1, 3, 3], [0, 2, 3], [1, 2, 5]] := rfl
  unfold ItemWise
  rw [e1, e2]
  refine .cons ?_ (.cons ?_ (.cons ?_ (.cons ?_ .nil))) <;>
    · funext i
      fin_cases i <;> simp [vec, num, Matrix.mulVec, dotProduct, Fin.sum_univ_three] <;> norm_num

example := C140_isometry (by decide +kernel) exMesh exRotated

/-- C140: adding the same vector to every point changes nothing. -/
theorem C140_translate {P T I : Serie α} (h : Mesh P I) (hT : WF T) (hs : SameShape P T) {b : List α} (hb : ∀ v ∈ items T, v = b) :
    (do let Q ← add2 P T; normals Q I) = normals P I := by
  obtain ⟨w, ⟨k, c⟩, it⟩ := WF_pointwise (op := (· + ·)) h.pos hT hs
  have run : add2 P T = .ok (pointwise (· + ·) P T) := binOp_eq h.pos hT hs
  rw [run, Res.ok_bind]
  have hm : Mesh (pointwise (· + ·) P T) I := ⟨w, h.tri, k.trans h.pos3, h.tri3, fun t ht => by rw [c]; exact h.inRange t ht⟩
  have hp : ∀ i, i < P.count → pointAt (pointwise (· + ·) P T) i = pointAt P i + vec 3 b := by
    intro i hi
    have h1 : i < (items P).length := by rw [items_length]; exact hi
    have h2 : i < (items T).length := by rw [items_length, ← hs.2]; exact hi
    unfold pointAt
    rw [it, List.getElem?_zipWith, List.getElem?_eq_getElem h1, List.getElem?_eq_getElem h2]
    obtain ⟨x, y, z, e⟩ := len3 ((h.pos.item_length (List.getElem_mem h1)).trans h.pos3)
    obtain ⟨x', y', z', e'⟩ := len3 ((hT.item_length (List.getElem_mem h2)).trans (hs.1.symm.trans h.pos3))
    have eb := hb _ (List.getElem_mem h2)
    rw [e'] at eb
    rw [← eb, e, e']
    funext i
    fin_cases i <;> rfl
  refine normals_equal hm h (fun t u => t = u) (itemWise_refl I) ?_
  rintro t _ ht hu rfl
  obtain ⟨x, y, z, hxyz, hx, hy, hz⟩ := h.inRange t ht
  rw [(normalAt_eq hm ht).2.2 x y z hxyz, (normalAt_eq h ht).2.2 x y z hxyz, hp x hx, hp y hy, hp z hz]
  simp [normalL]

example := C140_translate exMesh (T := ⟨[1, 2, 3, 1, 2, 3, 1, 2, 3, 1, 2, 3], 4, 3, 3⟩) (by decide) ⟨rfl, rfl⟩ (b := [1, 2, 3])
  (by decide)

/-- C140: scaling the points by `k` scales the normals by `k ^ 2`. -/
theorem C140_scale {P I : Serie α} (h : Mesh P I) (h0 : 0 < I.count) (k : α) :
    (do let Q ← scale P k; normals Q I) = (do let n ← normals P I; scale n (k ^ 2)) := by
  have hP0 : 0 < P.count := by
    have : (items I) ≠ [] := by
      intro e
      have := congrArg List.length e
      rw [items_length] at this
      simp at this
      omega
    obtain ⟨t, ht⟩ := List.exists_mem_of_ne_nil _ this
    obtain ⟨x, _, _, _, hx, _, _⟩ := h.inRange t ht
    omega
  have hl : ∀ v : List α, v.length = P.itemSize → (v.map (· * k)).length = P.itemSize := fun v hv => by simpa using hv
  obtain ⟨w, kk, c, it⟩ := ofItems_map_facts h.pos (k := P.itemSize) (g := List.map (· * k)) h.pos.pos (le_refl _) hl
  have hm : Mesh (onNumbers (· * k) P) I := ⟨w, h.tri, kk.trans h.pos3, h.tri3, fun t ht => by
    have : (onNumbers (· * k) P).count = P.count := c
    rw [this]; exact h.inRange t ht⟩
  have hp : ∀ i, i < P.count → pointAt (onNumbers (· * k) P) i = k • pointAt P i := by
    intro i hi
    have h1 : i < (items P).length := by rw [items_length]; exact hi
    unfold pointAt
    have it' : items (onNumbers (· * k) P) = (items P).map (List.map (· * k)) := it
    rw [it', List.getElem?_map, List.getElem?_eq_getElem h1]
    obtain ⟨x, y, z, e⟩ := len3 ((h.pos.item_length (List.getElem_mem h1)).trans h.pos3)
    rw [Option.map_some, e]
    funext i
    fin_cases i <;> simp [vec, num, mul_comm]
  rw [C36_scale h.pos hP0, Res.ok_bind, normals_run hm, normals_run h, Res.ok_bind]
  have hl3 : ∀ v ∈ (items I).map (normalAt P), v.length = 3 := by
    intro v hv
    obtain ⟨t, ht, rfl⟩ := List.mem_map.1 hv
    exact (normalAt_eq h ht).2.1
  have hw : WF (ofItems 3 ((items I).map (normalAt P))) := by
    refine WF_ofItems (by omega) (by omega) hl3 ?_
    rw [List.length_map, items_length]
    have := h.tri.fits
    rw [h.tri3] at this
    exact Nat.lt_of_le_of_lt this h.tri.small
  rw [C36_scale hw (by simpa [ofItems, items_length] using h0)]
  congr 1
  unfold onNumbers
  rw [items_ofItems hl3, List.map_map]
  refine congrArg (ofItems 3) (List.map_congr_left fun t ht => ?_)
  obtain ⟨x, y, z, hxyz, hx, hy, hz⟩ := h.inRange t ht
  change normalAt (onNumbers (· * k) P) t = _
  rw [Function.comp, (normalAt_eq hm ht).2.2 x y z hxyz, (normalAt_eq h ht).2.2 x y z hxyz, hp x hx, hp y hy, hp z hz]
  simp only [normalL, List.map_cons, List.map_nil, Pi.smul_apply, smul_eq_mul, List.cons.injEq, and_true]
  refine ⟨?_, ?_, ?_⟩ <;> ring

example := C140_scale exMesh (by decide) 3

/-- C140: writing the points in another order, or several times, changes nothing when the numbers of the vertices follow. -/
theorem C140_renumber {P I Q J : Serie α} (hI : Mesh P I) (hJ : Mesh Q J) (f : Nat → Nat)
    (hp : ∀ i, i < P.count → pointAt Q (f i) = pointAt P i)
    (ht : ItemWise (fun t u => ∀ a b c, Triangle t a b c → Triangle u (f a) (f b) (f c)) I J) : normals P I = normals Q J := by
  refine normals_equal hI hJ _ ht fun t u h1 h2 h3 => ?_
  obtain ⟨x, y, z, hxyz, hx, hy, hz⟩ := hI.inRange t h1
  rw [(normalAt_eq hI h1).2.2 x y z hxyz, (normalAt_eq hJ h2).2.2 _ _ _ (h3 x y z hxyz), hp x hx, hp y hy, hp z hz]

/-- The points of `exPts` in reverse order. -/
def exPtsReversed : Serie ℚ := ⟨[0, 0, 2, 0, 1, 0, 1, 0, 0, 0, 0, 0], 4, 3, 3⟩

/-- The triangles of `exTri` for `exPtsReversed`. -/
def exTriRev : Serie ℚ := ⟨[3, 2, 1, 3, 0, 2], 2, 3, 3⟩

theorem exMeshRev : Mesh exPtsReversed exTriRev where
  pos := by decide
  tri := by decide
  pos3 := rfl
  tri3 := rfl
  inRange := by
    intro t ht
    have : t = [3, 2, 1] ∨ t = [3, 0, 2] := by
      have e : items exTriRev = [[3, 2, 1], [3, 0, 2]] := rfl
      simpa [e] using ht
    rcases this with rfl | rfl
    · exact ⟨3, 2, 1, by simp [Triangle], by decide, by decide, by decide⟩
    · exact ⟨3, 0, 2, by simp [Triangle], by decide, by decide, by decide⟩

example : normals exPts exTri = normals exPtsReversed exTriRev := by
  refine C140_renumber exMesh exMeshRev (fun i => 3 - i) ?_ (.cons ?_ (.cons ?_ .nil))
  · intro i hi
    have : i = 0 ∨ i = 1 ∨ i = 2 ∨ i = 3 := by
      have : exPts.count = 4 := rfl
      omega
    rcases this with rfl | rfl | rfl | rfl <;> rfl
  · intro a b c (h : [0, 1, 2] = [(a : ℚ), (b : ℚ), (c : ℚ)])
    simp only [List.cons.injEq, and_true] at h
    obtain ⟨h1, h2, h3⟩ := h
    obtain rfl : a = 0 := by exact_mod_cast h1.symm
    obtain rfl : b = 1 := by exact_mod_cast h2.symm
    obtain rfl : c = 2 := by exact_mod_cast h3.symm
    show [3, 2, 1] = _
    simp
  · intro a b c (h : [0, 3, 1] = [(a : ℚ), (b : ℚ), (c : ℚ)])
    simp only [List.cons.injEq, and_true] at h
    obtain ⟨h1, h2, h3⟩ := h
    obtain rfl : a = 0 := by exact_mod_cast h1.symm
    obtain rfl : b = 3 := by exact_mod_cast h2.symm
    obtain rfl : c = 1 := by exact_mod_cast h3.symm
    show [3, 0, 2] = _
    simp

/-- C140: starting a triangle at another of its vertices changes nothing. -/
theorem C140_turned {P I J : Serie α} (hI : Mesh P I) (hJ : Mesh P J)
    (ht : ItemWise (fun t u => ∃ a b c, t = [a, b, c] ∧ (u = [b, c, a] ∨ u = [c, a, b])) I J) : normals P I = normals P J := by
  refine normals_equal hI hJ _ ht fun t u h1 h2 h3 => ?_
  obtain ⟨x, y, z, hxyz, hx, hy, hz⟩ := hI.inRange t h1
  obtain ⟨a, b, c, rfl, hu⟩ := h3
  unfold Triangle at hxyz
  simp only [List.cons.injEq, and_true] at hxyz
  obtain ⟨rfl, rfl, rfl⟩ := hxyz
  rw [(normalAt_eq hI h1).2.2 x y z rfl]
  rcases hu with rfl | rfl
  · rw [(normalAt_eq hJ h2).2.2 y z x rfl]
    simp only [normalL, List.cons.injEq, and_true]
    refine ⟨?_, ?_, ?_⟩ <;> ring
  · rw [(normalAt_eq hJ h2).2.2 z x y rfl]
    simp only [normalL, List.cons.injEq, and_true]
    refine ⟨?_, ?_, ?_⟩ <;> ring

theorem exMeshTurned : Mesh exPts ⟨[1, 2, 0, 1, 0, 3], 2, 3, 3⟩ where
  pos := by decide
  tri := by decide
  pos3 := rfl
  tri3 := rfl
  inRange := by
    intro t ht
    have : t = [1, 2, 0] ∨ t = [1, 0, 3] := by
      have e : items (⟨[1, 2, 0, 1, 0, 3], 2, 3, 3⟩ : Serie ℚ) = [[1, 2, 0], [1, 0, 3]] := rfl
      simpa [e] using ht
    rcases this with rfl | rfl
    · exact ⟨1, 2, 0, by simp [Triangle], by decide, by decide, by decide⟩
    · exact ⟨1, 0, 3, by simp [Triangle], by decide, by decide, by decide⟩

example := C140_turned exMesh exMeshTurned
  (.cons ⟨0, 1, 2, rfl, .inl rfl⟩ (.cons ⟨0, 3, 1, rfl, .inr rfl⟩ .nil))

theorem filterMap_num {β γ : Type} {f : β → Option γ} {g : β → γ} : ∀ {l : List β}, (∀ x ∈ l, f x = some (g x)) → l.filterMap f = l.map g
  | [], _ => rfl
  | x :: l, h => by
    rw [List.filterMap_cons, h x (by simp), List.map_cons, filterMap_num fun y hy => h y (by simp [hy])]

theorem sum_antisymm {γ : Type} {l : List (γ × γ)} (h : l.Perm (l.map Prod.swap)) (F : γ → γ → α) (hF : ∀ x y, F y x = - F x y) :
    (l.map fun e => F e.1 e.2).sum = 0 := by
  have h1 : (l.map fun e => F e.1 e.2).sum = ((l.map Prod.swap).map fun e => F e.1 e.2).sum := (h.map _).sum_eq
  have h2 : ((l.map Prod.swap).map fun e => F e.1 e.2).sum = - (l.map fun e => F e.1 e.2).sum := by
    rw [List.map_map]
    clear h h1
    induction l with
    | nil => simp
    | cons e l ih => rw [List.map_cons, List.sum_cons, ih, List.map_cons, List.sum_cons, neg_add]; simp [hF e.1 e.2]
  linarith

/-- C140: the normals of a closed surface add up to zero, so that their mean is the zero vector. -/
theorem C140_closed {P I : Serie α} (h : Mesh P I) (hc : Closed I) : (normals P I >>= mean) = .ok (.array [0, 0, 0]) := by
  rw [normals_run h, Res.ok_bind]
  have hl3 : ∀ v ∈ (items I).map (normalAt P), v.length = 3 := by
    intro v hv
    obtain ⟨t, ht, rfl⟩ := List.mem_map.1 hv
    exact (normalAt_eq h ht).2.1
  have hw : WF (ofItems 3 ((items I).map (normalAt P))) := by
    refine WF_ofItems (by omega) (by omega) hl3 ?_
    rw [List.length_map, items_length]
    have := h.tri.fits
    rw [h.tri3] at this
    exact Nat.lt_of_le_of_lt this h.tri.small
  obtain ⟨b, e, lb, fb⟩ := mean_items hw (by simp [ofItems])
  have hz : ∀ j : Fin 3, (component (ofItems 3 ((items I).map (normalAt P))) j).sum = 0 := by
    intro j
    have key := sum_antisymm hc (fun x y => crossProduct (pointAt P ⌊x⌋₊) (pointAt P ⌊y⌋₊) j) (fun x y => by
      rw [← cross_anticomm]; rfl)
    rw [← key]
    unfold component directedEdges
    rw [items_ofItems hl3, List.filterMap_map, filterMap_num (f := (fun v : List α => v[(j : Nat)]?) ∘ normalAt P)
      (g := fun t => num (normalAt P t) j) (fun t ht => ?_), List.map_flatMap, List.flatMap, List.sum_flatten, List.map_map]
    swap
    · obtain ⟨x, y, z, hx⟩ := len3 (normalAt_eq h ht).2.1
      rw [Function.comp, hx]
      fin_cases j <;> rfl
    refine congrArg List.sum (List.map_congr_left fun t ht => ?_)
    obtain ⟨x, y, z, hxyz, hx, hy, hz⟩ := h.inRange t ht
    rw [(normalAt_eq h ht).2.2 x y z hxyz]
    unfold Triangle at hxyz
    subst hxyz
    fin_cases j <;> simp [normalL, num, cross_apply] <;> ring
  rw [e]
  have k3 : (ofItems 3 ((items I).map (normalAt P))).itemSize = 3 := rfl
  rw [k3] at lb fb
  obtain ⟨x, y, z, rfl⟩ := len3 lb
  have f0 := fb 0 (by omega)
  have f1 := fb 1 (by omega)
  have f2 := fb 2 (by omega)
  rw [show component _ 0 = component _ ((0 : Fin 3) : Nat) from rfl, hz 0] at f0
  rw [show component _ 1 = component _ ((1 : Fin 3) : Nat) from rfl, hz 1] at f1
  rw [show component _ 2 = component _ ((2 : Fin 3) : Nat) from rfl, hz 2] at f2
  simp at f0 f1 f2
  rw [f0, f1, f2]

/-- The surface of a tetrahedron. -/
def exTetra : Serie ℚ := ⟨[0, 2, 1, 0, 1, 3, 0, 3, 2, 1, 2, 3], 4, 3, 3⟩

theorem exTetra_mesh : Mesh exPts exTetra where
  pos := by decide
  tri := by decide
  pos3 := rfl
  tri3 := rfl
  inRange := by
    intro t ht
    have : t = [0, 2, 1] ∨ t = [0, 1, 3] ∨ t = [0, 3, 2] ∨ t = [1, 2, 3] := by
      have e : items exTetra = [[0, 2, 1], [0, 1, 3], [0, 3, 2], [1, 2, 3]] := rfl
      simpa [e] using ht
    rcases this with rfl | rfl | rfl | rfl
    · exact ⟨0, 2, 1, by simp [Triangle], by decide, by decide, by decide⟩
    · exact ⟨0, 1, 3, by simp [Triangle], by decide, by decide, by decide⟩
    · exact ⟨0, 3, 2, by simp [Triangle], by decide, by decide, by decide⟩
    · exact ⟨1, 2, 3, by simp [Triangle], by decide, by decide, by decide⟩

example := C140_closed exTetra_mesh (by decide +kernel)

end motion

end DF
