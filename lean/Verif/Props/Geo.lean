import Verif.Lemmas.Geo
import Verif.Props.Algebra

/-!
# Properties of normals, areas, insar, fringes and grids: C59 - C62, C80
-/

namespace DF

open Spec

variable {α : Type}

/-! ## C59: normals -/

section normals

variable [Field α] [LinearOrder α] [IsStrictOrderedRing α] [FloorRing α]

/-- C59: one vector per triangle, the cross product of two edges. -/
theorem C59_normals {P I : Serie α} (h : Mesh P I) :
    ∃ r, normals P I = .ok r ∧ WF r ∧ r.itemSize = 3 ∧ r.count = I.count ∧
      ItemWise (fun t n => n.length = 3 ∧ ∀ a b c, Triangle t a b c →
        vec 3 n = crossProduct (pointAt P b - pointAt P a) (pointAt P c - pointAt P a)) I r := by
  have hf := ofItems_map_facts h.tri (k := 3) (g := fun t => [num (normalAt P t) 0, num (normalAt P t) 1, num (normalAt P t) 2])
    (by omega) (by rw [h.tri3]) (fun _ _ => rfl)
  have he : (items I).map (normalAt P) = (items I).map
      (fun t => [num (normalAt P t) 0, num (normalAt P t) 1, num (normalAt P t) 2]) := by
    refine List.map_congr_left fun t ht => ?_
    obtain ⟨x, y, z, hx⟩ := len3 (normalAt_eq h ht).2.1
    rw [hx]
    rfl
  refine ⟨_, normals_run h, ?_⟩
  rw [he]
  refine ⟨hf.1, hf.2.1, hf.2.2.1, ItemWise_map hf.2.2.2 fun t ht => ⟨rfl, fun a b c hab => ?_⟩⟩
  rw [← normalL_cross, ← (normalAt_eq h ht).2.2 a b c hab]
  funext i
  fin_cases i <;> rfl

/-- Four points. -/
def exPts : Serie ℚ := ⟨[0, 0, 0, 1, 0, 0, 0, 1, 0, 0, 0, 2], 4, 3, 3⟩

/-- Two triangles. -/
def exTri : Serie ℚ := ⟨[0, 1, 2, 0, 3, 1], 2, 3, 3⟩

/-- The same triangles, two vertices of each exchanged. -/
def exTri' : Serie ℚ := ⟨[1, 0, 2, 0, 1, 3], 2, 3, 3⟩

theorem exMesh : Mesh exPts exTri where
  pos := by decide
  tri := by decide
  pos3 := rfl
  tri3 := rfl
  inRange := by
    intro t ht
    have : t = [0, 1, 2] ∨ t = [0, 3, 1] := by
      have e : items exTri = [[0, 1, 2], [0, 3, 1]] := rfl
      simpa [e] using ht
    rcases this with rfl | rfl
    · exact ⟨0, 1, 2, by simp [Triangle], by decide, by decide, by decide⟩
    · exact ⟨0, 3, 1, by simp [Triangle], by decide, by decide, by decide⟩

theorem exMesh' : Mesh exPts exTri' where
  pos := by decide
  tri := by decide
  pos3 := rfl
  tri3 := rfl
  inRange := by
    intro t ht
    have : t = [1, 0, 2] ∨ t = [0, 1, 3] := by
      have e : items exTri' = [[1, 0, 2], [0, 1, 3]] := rfl
      simpa [e] using ht
    rcases this with rfl | rfl
    · exact ⟨1, 0, 2, by simp [Triangle], by decide, by decide, by decide⟩
    · exact ⟨0, 1, 3, by simp [Triangle], by decide, by decide, by decide⟩

example := C59_normals exMesh

/-- C59: the vector is perpendicular to the three edges. -/
theorem C59_perpendicular {P I : Serie α} (h : Mesh P I) :
    ∃ r, normals P I = .ok r ∧ ItemWise (fun t n => ∀ a b c, Triangle t a b c →
      vec 3 n ⬝ᵥ (pointAt P b - pointAt P a) = 0 ∧ vec 3 n ⬝ᵥ (pointAt P c - pointAt P a) = 0 ∧
        vec 3 n ⬝ᵥ (pointAt P c - pointAt P b) = 0) I r := by
  obtain ⟨r, h1, _, _, _, h2⟩ := C59_normals h
  refine ⟨r, h1, h2.imp fun t n hn a b c ht => ?_⟩
  rw [hn.2 a b c ht]
  have e1 : crossProduct (pointAt P b - pointAt P a) (pointAt P c - pointAt P a) ⬝ᵥ (pointAt P b - pointAt P a) = 0 := by
    rw [dotProduct_comm]; exact dot_self_cross _ _
  have e2 : crossProduct (pointAt P b - pointAt P a) (pointAt P c - pointAt P a) ⬝ᵥ (pointAt P c - pointAt P a) = 0 := by
    rw [dotProduct_comm]; exact dot_cross_self _ _
  refine ⟨e1, e2, ?_⟩
  rw [show pointAt P c - pointAt P b = (pointAt P c - pointAt P a) - (pointAt P b - pointAt P a) by
    funext i; simp, dotProduct_sub, e1, e2, sub_zero]

example := C59_perpendicular exMesh

/-- `u` is `t` with two vertices exchanged. -/
def Swapped (t u : List α) : Prop :=
  ∃ a b c, t = [a, b, c] ∧ (u = [b, a, c] ∨ u = [c, b, a] ∨ u = [a, c, b])

/-- C59: exchanging two vertices of each triangle reverses the normals. -/
theorem C59_swapped {P I J : Serie α} (hI : Mesh P I) (hJ : Mesh P J) (hs : ItemWise Swapped I J) :
    ∃ r q, normals P I = .ok r ∧ normals P J = .ok q ∧ ItemWise (fun n m => vec 3 m = - vec 3 n) r q := by
  have fact : ∀ {K : Serie α}, Mesh P K → items (ofItems 3 ((items K).map (normalAt P))) = (items K).map (normalAt P) := by
    intro K hK
    refine items_ofItems fun v hv => ?_
    obtain ⟨t, ht, rfl⟩ := List.mem_map.1 hv
    exact (normalAt_eq hK ht).2.1
  refine ⟨_, _, normals_run hI, normals_run hJ, ?_⟩
  unfold ItemWise at hs ⊢
  rw [fact hI, fact hJ, List.forall₂_map_left_iff, List.forall₂_map_right_iff]
  have hin : ∀ t u, t ∈ items I → u ∈ items J → Swapped t u → vec 3 (normalAt P u) = - vec 3 (normalAt P t) := by
    intro t u ht hu hsw
    obtain ⟨a, b, c, htr, _, _, _⟩ := hI.inRange t ht
    obtain ⟨x, y, z, hx, hu'⟩ := hsw
    unfold Triangle at htr
    rw [hx] at htr
    simp only [List.cons.injEq, and_true] at htr
    obtain ⟨rfl, rfl, rfl⟩ := htr
    rw [(normalAt_eq hI ht).2.2 a b c hx]
    rcases hu' with rfl | rfl | rfl
    · rw [(normalAt_eq hJ hu).2.2 b a c rfl]
      funext i
      fin_cases i <;> simp [vec, normalL, num] <;> ring
    · rw [(normalAt_eq hJ hu).2.2 c b a rfl]
      funext i
      fin_cases i <;> simp [vec, normalL, num] <;> ring
    · rw [(normalAt_eq hJ hu).2.2 a c b rfl]
      funext i
      fin_cases i <;> simp [vec, normalL, num] <;> ring
  clear fact
  revert hin
  generalize items I = l at hs
  generalize items J = m at hs
  intro hin
  induction hs with
  | nil => exact .nil
  | cons h1 _ ih =>
    exact .cons (hin _ _ (by simp) (by simp) h1) (ih fun t u ht hu => hin t u (by simp [ht]) (by simp [hu]))

example := C59_swapped exMesh exMesh'
  (.cons ⟨0, 1, 2, rfl, .inl rfl⟩ (.cons ⟨0, 3, 1, rfl, .inr (.inr rfl)⟩ .nil))

omit [IsStrictOrderedRing α] in
/-- C59: other shapes give an invalid Serie. -/
theorem C59_shape {P I : Serie α} (h : P.isValid = false ∨ I.isValid = false ∨ P.itemSize ≠ 3 ∨ I.itemSize ≠ 3) :
    ∃ r, normals P I = .ok r ∧ r.isValid = false := by
  refine ⟨Serie.empty, ?_, rfl⟩
  unfold normals
  split
  · rfl
  · rename_i hv
    simp only [Bool.or_eq_true, Bool.not_eq_true', not_or, Bool.not_eq_false] at hv
    rw [if_pos (by simpa [hv] using h)]
    rfl

example := C59_shape (P := exPts) (I := ⟨[0, 1], 1, 2, 3⟩) (.inr (.inr (.inr (by decide))))

end normals

/-- C59: the length of the vector is twice the area of the triangle. -/
theorem C59_area {P I : Serie ℝ} (h : Mesh P I) :
    ∃ r, normals P I = .ok r ∧ ItemWise (fun t n => ∀ a b c, Triangle t a b c →
      Real.sqrt (vec 3 n ⬝ᵥ vec 3 n) = 2 * triangleArea (WithLp.toLp 2 (pointAt P a)) (WithLp.toLp 2 (pointAt P b))
        (WithLp.toLp 2 (pointAt P c))) I r := by
  obtain ⟨r, h1, _, _, _, h2⟩ := C59_normals h
  refine ⟨r, h1, h2.imp fun t n hn a b c ht => ?_⟩
  rw [hn.2 a b c ht]
  generalize pointAt P a = A
  generalize pointAt P b = B
  generalize pointAt P c = C
  have hin : ∀ u v : Fin 3 → ℝ, inner ℝ (WithLp.toLp 2 u) (WithLp.toLp 2 v : EuclideanSpace ℝ (Fin 3)) = u ⬝ᵥ v := by
    intro u v
    rw [EuclideanSpace.inner_toLp_toLp, dotProduct_comm]
    simp
  unfold triangleArea EuclideanGeometry.angle
  rw [dist_comm, dist_comm (WithLp.toLp 2 A), dist_eq_norm_vsub (EuclideanSpace ℝ (Fin 3)),
    dist_eq_norm_vsub (EuclideanSpace ℝ (Fin 3)), vsub_eq_sub, vsub_eq_sub]
  have := InnerProductGeometry.sin_angle_mul_norm_mul_norm (WithLp.toLp 2 B - WithLp.toLp 2 A)
    (WithLp.toLp 2 C - WithLp.toLp 2 A : EuclideanSpace ℝ (Fin 3))
  rw [show 2 * (1 / 2 * (‖(WithLp.toLp 2 B - WithLp.toLp 2 A : EuclideanSpace ℝ (Fin 3))‖ *
    ‖(WithLp.toLp 2 C - WithLp.toLp 2 A : EuclideanSpace ℝ (Fin 3))‖ *
    Real.sin (InnerProductGeometry.angle (WithLp.toLp 2 B - WithLp.toLp 2 A) (WithLp.toLp 2 C - WithLp.toLp 2 A)))) =
    Real.sin (InnerProductGeometry.angle (WithLp.toLp 2 B - WithLp.toLp 2 A) (WithLp.toLp 2 C - WithLp.toLp 2 A)) *
    (‖(WithLp.toLp 2 B - WithLp.toLp 2 A : EuclideanSpace ℝ (Fin 3))‖ *
      ‖(WithLp.toLp 2 C - WithLp.toLp 2 A : EuclideanSpace ℝ (Fin 3))‖) by ring, this,
    ← WithLp.toLp_sub, ← WithLp.toLp_sub, hin, hin, hin, cross_dot_cross, dotProduct_comm (C - A) (B - A)]

example := C59_area (P := ⟨[0, 0, 0, 1, 0, 0, 0, 1, 0], 3, 3, 3⟩) (I := ⟨[0, 1, 2], 1, 3, 3⟩)
  ⟨by decide, by decide, rfl, rfl, fun t ht => ⟨0, 1, 2, by
    obtain rfl : t = [0, 1, 2] := List.mem_singleton.1 ht
    simp [Triangle], by decide, by decide, by decide⟩⟩

/-- A mesh of two triangles. -/
example : normals (⟨[0, 0, 0, 1, 0, 0, 0, 1, 0, 0, 0, 2], 4, 3, 3⟩ : Serie ℚ) ⟨[0, 1, 2, 0, 3, 1], 2, 3, 3⟩ =
    .ok ⟨[0, 0, 1, 0, 2, 0], 2, 3, 3⟩ := by decide +kernel

/-! ## C60: areas -/

/-- C60 is violated for every mesh: `areas` throws when there is at most one triangle, and writes out of bounds
otherwise. -/
theorem C60_violated [Field α] [LinearOrder α] [IsStrictOrderedRing α] [FloorRing α] [Sqrt α] {P I : Serie α}
    (h : Mesh P I) :
    (I.count ≤ 1 → areas P I = .throw .invalidArgument) ∧ (2 ≤ I.count → areas P I = .ub) := by
  obtain ⟨r, h1, h2, h3, h4, _⟩ := C59_normals h
  have hthrow : ∀ n : Serie α, n.count = 1 → divSerie n (Serie.zeros 2 0) = .throw .invalidArgument := by
    intro n hn
    unfold divSerie
    split
    · rfl
    · rw [if_pos (by rw [hn]; exact Nat.one_ne_zero)]
  unfold areas
  rw [h.pos.valid, h.tri.valid, if_neg (by simp), h1, Res.ok_bind]
  constructor
  · intro hc
    rcases (show r.count = 0 ∨ r.count = 1 by omega) with h0 | h0
    · obtain ⟨n, hn, hn1⟩ := C55_empty_violated h2 (by omega) h0
      rw [hn, Res.ok_bind]
      exact hthrow n hn1
    · obtain ⟨u, hu, hn⟩ := norm2_one h2 (by omega) h0
      rw [norm_of_norm2 hn (WF_one _) rfl (by simp [ofScalars]), Res.ok_bind]
      exact hthrow _ (by simp [ofItems, ofScalars])
  · intro hc
    rw [(C55_vectors_violated h2 (by omega) (by omega)).1]
    rfl

example := @C60_violated ℚ _ _ _ _ ⟨id⟩ exPts exTri exMesh

/-- C60: items of other sizes are refused (with an exception, where `normals` gives an invalid Serie). -/
theorem C60_shape_partial [Field α] [LinearOrder α] [IsStrictOrderedRing α] [FloorRing α] [Sqrt α] {P I : Serie α}
    (hP : WF P) (hI : WF I) (h : P.itemSize ≠ 3 ∨ I.itemSize ≠ 3) : areas P I = .throw .invalidArgument := by
  have hn : normals P I = .ok Serie.empty := by
    unfold normals
    rw [hP.valid, hI.valid, if_neg (by simp), if_pos h]
    rfl
  unfold areas
  rw [hP.valid, hI.valid, if_neg (by simp), hn, Res.ok_bind]
  have : norm (Serie.empty : Serie α) = .ok Serie.empty := rfl
  rw [this]
  rfl

example := @C60_shape_partial ℚ _ _ _ _ ⟨id⟩ exPts ⟨[0, 1], 1, 2, 3⟩ exMesh.pos (by decide) (.inr (by decide))

/-! ## C61: insar and fringes -/

/-- C61: `insar` is the projection of each vector on the line of sight. -/
theorem C61_insar [CommRing α] {u : Serie α} (h : WF u) (h0 : 0 < u.count) (h3 : u.itemSize = 3) {los : List α}
    (hl : los.length = 3) :
    ∃ r, insar u los = .ok r ∧ WF r ∧ r.itemSize = 1 ∧ ItemWise (fun v w => w = [vec 3 v ⬝ᵥ vec 3 los]) u r := by
  have hf := ofItems_map_facts h (k := 1) (g := fun v => [dotL v los]) (by omega) (by omega) (fun _ _ => rfl)
  refine ⟨_, ?_, hf.1, hf.2.1, ItemWise_map hf.2.2.2 fun v hv => ?_⟩
  · unfold insar dotArray
    rw [h.valid, if_neg (by simp [h3]), if_neg (by simp [hl]), Serie.value_eq h h0, Res.ok_bind,
      chunk_length (h.item_fits h0), if_neg (by simp [hl, h3])]
    exact mapArr_items h h0 (by omega) (by omega) (fun _ _ => rfl) (fun u hu i => dotItem_eq hu (hl.trans h3.symm))
  · obtain ⟨x, y, z, rfl⟩ := len3 ((h.item_length hv).trans h3)
    obtain ⟨a, b, c, rfl⟩ := len3 hl
    simp [dotL, vec, num, dotProduct, Fin.sum_univ_three, add_assoc]

example := C61_insar ex23_WF (by decide) rfl (los := [1, 0, 2]) rfl

example : insar (⟨[1, 2, 3, 4, 5, 6], 2, 3, 3⟩ : Serie Int) [1, 0, 2] = .ok ⟨[7, 16], 2, 1, 3⟩ := by decide +kernel

/-- C61: other shapes give an invalid Serie. -/
theorem C61_insar_shape [CommRing α] {u : Serie α} {los : List α}
    (h : u.isValid = false ∨ u.itemSize ≠ 3 ∨ los.length ≠ 3) : ∃ r, insar u los = .ok r ∧ r.isValid = false := by
  refine ⟨Serie.empty, ?_, rfl⟩
  unfold insar
  split
  · rfl
  · rename_i hv
    simp only [Bool.or_eq_true, Bool.not_eq_true', not_or, Bool.not_eq_false, decide_eq_true_eq] at hv
    rw [if_pos (by simpa [hv] using h)]
    rfl

example := C61_insar_shape (u := ex23) (los := [1, 0]) (.inr (.inr (by decide)))

/-- C61 is violated for an empty Serie of vectors: `insar` reads its first item. -/
theorem C61_insar_empty_violated [CommRing α] {los : List α} (hl : los.length = 3) :
    WF (⟨[], 0, 3, 3⟩ : Serie α) ∧ insar (⟨[], 0, 3, 3⟩ : Serie α) los = .ub := by
  refine ⟨⟨by simp, by simp, by simp, by simp⟩, ?_⟩
  unfold insar
  rw [if_neg (by simp [Serie.isValid]), if_neg (by simp [hl])]
  rfl

example := C61_insar_empty_violated (los := ([1, 0, 2] : List Int)) rfl

theorem fringes_run [Zero α] [Sub α] [Mul α] [Div α] [Neg α] [LT α] [DecidableLT α] [Trunc α] {s : Serie α}
    (h : WF s) (h0 : 0 < s.count) (h1 : s.itemSize = 1) (w : α) :
    fringes s w = .ok (ofItems 1 ((items s).map fun v => [absv (w * frac (num v 0 / w))])) := by
  unfold fringes
  rw [h.valid, if_neg (by simp [h1])]
  refine mapArr_items h h0 (by omega) (by omega) (fun _ _ => rfl) (fun v hv i => ?_)
  rw [h1] at hv
  obtain ⟨x, rfl⟩ := List.length_eq_one_iff.1 hv
  rfl

section fringes

variable [Field α] [LinearOrder α] [IsStrictOrderedRing α] [FloorRing α]

omit [IsStrictOrderedRing α] in
theorem frac_eq (x : α) : frac x = Int.fract x := rfl

/-- C61: each fringe is the number plus or minus an integer number of spacings, and lies in `[0, |spacing|)`. -/
theorem C61_fringes {s : Serie α} (h : WF s) (h0 : 0 < s.count) (h1 : s.itemSize = 1) {w : α} (hw : w ≠ 0) :
    ∃ r, fringes s w = .ok r ∧ WF r ∧ r.itemSize = 1 ∧
      ItemWise (fun v u => ∃ x y, v = [x] ∧ u = [y] ∧ 0 ≤ y ∧ y < |w| ∧
        ∃ m : ℤ, (0 < w → x = y + m * w) ∧ (w < 0 → x = -y + m * w)) s r := by
  have hf := ofItems_map_facts h (k := 1) (g := fun v => [absv (w * frac (num v 0 / w))]) (by omega) (by omega)
    (fun _ _ => rfl)
  refine ⟨_, fringes_run h h0 h1 w, hf.1, hf.2.1, ItemWise_map hf.2.2.2 fun v hv => ?_⟩
  have hl := h.item_length hv
  rw [h1] at hl
  obtain ⟨x, rfl⟩ := List.length_eq_one_iff.1 hl
  have hx : (⌊x / w⌋ : α) + Int.fract (x / w) = x / w := Int.floor_add_fract _
  have hx' : x = (⌊x / w⌋ : α) * w + Int.fract (x / w) * w := by
    rw [← add_mul, hx, div_mul_cancel₀ x hw]
  have hn := Int.fract_nonneg (x / w)
  refine ⟨x, _, rfl, rfl, ?_, ?_, ⌊x / w⌋, ?_, ?_⟩
  · rw [absv_eq]; exact abs_nonneg _
  · rw [absv_eq, frac_eq, abs_mul, show num [x] 0 = x from rfl, abs_of_nonneg hn]
    calc |w| * Int.fract (x / w) < |w| * 1 := mul_lt_mul_of_pos_left (Int.fract_lt_one _) (abs_pos.2 hw)
      _ = |w| := mul_one _
  · intro hp
    rw [absv_eq, frac_eq, show num [x] 0 = x from rfl, abs_of_nonneg (mul_nonneg hp.le hn)]
    linear_combination hx'
  · intro hp
    rw [absv_eq, frac_eq, show num [x] 0 = x from rfl, abs_of_nonpos (mul_nonpos_of_nonpos_of_nonneg hp.le hn)]
    linear_combination hx'

example := C61_fringes (s := (⟨[7, -1, 10], 3, 1, 3⟩ : Serie ℚ)) (by decide) (by decide) rfl (w := 4) (by norm_num)

example : fringes (⟨[7, -1, 10], 3, 1, 3⟩ : Serie ℚ) 4 = .ok ⟨[3, 3, 2], 3, 1, 3⟩ := by decide +kernel

/-- C61: numbers that differ by integer multiples of the spacing, and only those, have the same fringes. -/
theorem C61_periodic {s t : Serie α} (hs : WF s) (ht : WF t) (h0 : 0 < s.count) (hc : s.count = t.count)
    (h1 : s.itemSize = 1) (h1' : t.itemSize = 1) {w : α} (hw : w ≠ 0) :
    fringes s w = fringes t w ↔ ItemWise (fun u v => ∃ m : ℤ, num u 0 - num v 0 = m * w) s t := by
  have key : ∀ x y : α, absv (w * frac (x / w)) = absv (w * frac (y / w)) ↔ ∃ m : ℤ, x - y = m * w := by
    intro x y
    rw [absv_eq, absv_eq, abs_mul, abs_mul, frac_eq, frac_eq, abs_of_nonneg (Int.fract_nonneg (x / w)),
      abs_of_nonneg (Int.fract_nonneg (y / w)), mul_right_inj' (abs_ne_zero.2 hw), Int.fract_eq_fract]
    refine exists_congr fun m => ?_
    rw [← sub_div, div_eq_iff hw]
  rw [fringes_run hs h0 h1, fringes_run ht (by omega) h1']
  have hlen : (items s).length = (items t).length := by simpa using hc
  unfold ItemWise
  constructor
  · intro he
    simp only [ofItems, Res.ok.injEq, Serie.mk.injEq, List.length_map] at he
    have hf := he.1
    clear he
    revert hlen hf
    generalize items s = l
    generalize items t = m
    intro hlen hf
    induction l generalizing m with
    | nil => rw [List.length_nil] at hlen; rw [List.eq_nil_of_length_eq_zero hlen.symm]; exact .nil
    | cons u l ih =>
      cases m with
      | nil => simp at hlen
      | cons v m =>
        simp only [List.map_cons, List.flatten_cons, List.cons_append, List.nil_append, List.cons.injEq] at hf
        exact .cons ((key _ _).1 hf.1) (ih m (by simpa using hlen) hf.2)
  · intro he
    congr 2
    clear hlen
    revert he
    generalize items s = l
    generalize items t = m
    intro he
    induction he with
    | nil => rfl
    | cons hx _ ih => rw [List.map_cons, List.map_cons, (key _ _).2 hx, ih]

example := C61_periodic (s := (⟨[7, -1, 10], 3, 1, 3⟩ : Serie ℚ)) (t := ⟨[3, 3, 2], 3, 1, 3⟩) (by decide) (by decide)
  (by decide) rfl rfl rfl (w := 4) (by norm_num)

end fringes

/-! ## C62: grids -/

section grids

section runs

variable [Zero α] [Add α] [Sub α] [Mul α] [Div α] [NatCast α]

theorem three_counts {npts : List Nat} (h0 : npts ≠ []) (h3 : npts.length ≤ 3) :
    gridCounts npts = [axisCount npts 0, axisCount npts 1, axisCount npts 2] ∧
      npts.prod = axisCount npts 0 * axisCount npts 1 * axisCount npts 2 := by
  match npts, h0, h3 with
  | [a], _, _ => exact ⟨rfl, by simp [axisCount]⟩
  | [a, b], _, _ => exact ⟨rfl, by simp [axisCount]⟩
  | [a, b, c], _, _ => exact ⟨rfl, by simp [axisCount, Nat.mul_assoc]⟩

/-- The spacing along one axis. -/
def spacingL (n : Nat) (d : α) : α := if n > 1 then d / ((n - 1 : Nat) : α) else 0

omit [Add α] [Sub α] [Mul α] in
theorem gridSpacing_eq {npts : List Nat} (h0 : npts ≠ []) (h3 : npts.length ≤ 3) {size : Nat → Res α} {d0 d1 d2 : α}
    (e0 : size 0 = .ok d0) (e1 : size 1 = .ok d1) (e2 : size 2 = .ok d2) :
    gridSpacing npts size = .ok [spacingL (axisCount npts 0) d0, spacingL (axisCount npts 1) d1,
      spacingL (axisCount npts 2) d2] := by
  have step : ∀ (i n : Nat) (d : α) (sp : List α), npts[i]? = some n → size i = .ok d → i < sp.length →
      (rd npts i >>= fun n => if n > 1 then (do
        let d ← size i
        wr sp i (d / ((n - 1 : Nat) : α))) else wr sp i 0) = .ok (sp.set i (spacingL n d)) := by
    intro i n d sp hn hd hi
    obtain ⟨h, h'⟩ := List.getElem?_eq_some_iff.1 hn
    rw [rd_of_lt h, Res.ok_bind, h']
    unfold spacingL
    split
    · rw [hd, Res.ok_bind, wr_of_lt hi]
    · rw [wr_of_lt hi]
  have s1 : spacingL 1 d1 = 0 := rfl
  have s2 : spacingL 1 d2 = 0 := rfl
  unfold gridSpacing
  match npts, h0, h3 with
  | [a], _, _ =>
    rw [List.length_singleton, forLoop_succ, step 0 a d0 _ rfl e0 (by simp), Res.ok_bind]
    rfl
  | [a, b], _, _ =>
    rw [show [a, b].length = 1 + 1 from rfl, forLoop_succ, step 0 a d0 _ rfl e0 (by simp), Res.ok_bind, forLoop_succ,
      step 1 b d1 _ rfl e1 (by simp), Res.ok_bind]
    rfl
  | [a, b, c], _, _ =>
    rw [show [a, b, c].length = 1 + 1 + 1 from rfl, forLoop_succ, step 0 a d0 _ rfl e0 (by simp), Res.ok_bind,
      forLoop_succ, step 1 b d1 _ rfl e1 (by simp), Res.ok_bind, forLoop_succ, step 2 c d2 _ rfl e2 (by simp), Res.ok_bind]
    rfl

/-- The points of the grid between two corners. -/
def cornerGrid (npts : List Nat) (p1 p2 : List α) : List (List α) :=
  gridList (axisCount npts 0) (axisCount npts 1) (axisCount npts 2) fun i j k =>
    [num p1 0 + (i : α) * spacingL (axisCount npts 0) (num p2 0 - num p1 0),
     num p1 1 + (j : α) * spacingL (axisCount npts 1) (num p2 1 - num p1 1),
     num p1 2 + (k : α) * spacingL (axisCount npts 2) (num p2 2 - num p1 2)]

theorem cornerGrid_three {npts : List Nat} {p1 p2 : List α} {v : List α} (h : v ∈ cornerGrid npts p1 p2) :
    v.length = 3 := by
  obtain ⟨i, j, k, _, _, _, rfl⟩ := gridList_mem h
  rfl

theorem fromPoints_fold {npts : List Nat} (h0 : npts ≠ []) (h3 : npts.length ≤ 3) {p1 p2 : List α}
    (h1 : p1.length = 3) (h2 : p2.length = 3) :
    fromPoints npts p1 p2 = ((cornerGrid npts p1 p2).foldlM gridPut (Serie.zeros 3 (gridTotal npts), 0) >>=
      fun p => pure p.1) := by
  obtain ⟨a, b, c, rfl⟩ := len3 h1
  obtain ⟨a', b', c', rfl⟩ := len3 h2
  unfold fromPoints
  rw [if_neg (by simp [h0]; omega), if_neg (by simp), gridSpacing_eq h0 h3 (d0 := a' - a) (d1 := b' - b) (d2 := c' - c)
    rfl rfl rfl, Res.ok_bind, (three_counts h0 h3).1]
  refine congrArg (· >>= fun p => pure p.1) (gridFill_eq (fun i j k => ?_) _)
  rfl

theorem fromPoints_run {npts : List Nat} (h0 : npts ≠ []) (h3 : npts.length ≤ 3) {p1 p2 : List α}
    (h1 : p1.length = 3) (h2 : p2.length = 3) (hn : npts.prod * 3 < 2 ^ 32) :
    fromPoints npts p1 p2 = .ok (ofItems 3 (cornerGrid npts p1 p2)) := by
  rw [fromPoints_fold h0 h3 h1 h2, gridTotal_eq, u32_of_lt (by omega), zeros_eq_partialS hn]
  have := gridPut_all hn (cornerGrid npts p1 p2) [] (fun v hv => cornerGrid_three hv) (by simp) (by
    unfold cornerGrid
    rw [(gridList_facts ..).1, (three_counts h0 h3).2]
    simp)
  rw [List.length_nil] at this
  rw [this]
  rfl

end runs

variable [Field α]

theorem axisPoint_eq {n i : Nat} (hi : i < n) (lo hi' : α) :
    lo + (i : α) * spacingL n (hi' - lo) = axisPoint n lo hi' i := by
  unfold axisPoint spacingL
  split
  · rename_i h
    rw [Nat.cast_sub (by omega), Nat.cast_one]
    ring
  · obtain rfl : i = 0 := by omega
    simp

theorem fromDims_fold {npts : List Nat} (h0 : npts ≠ []) (h3 : npts.length ≤ 3) {c d : List α}
    (h1 : c.length = 3) (h2 : d.length = 3) (htwo : (2 : α) ≠ 0) :
    fromDims npts c d = ((cornerGrid npts (List.zipWith (fun x y => x - y / 2) c d)
      (List.zipWith (fun x y => x + y / 2) c d)).foldlM gridPut (Serie.zeros 3 (gridTotal npts), 0) >>=
      fun p => pure p.1) := by
  obtain ⟨a, b, c, rfl⟩ := len3 h1
  obtain ⟨a', b', c', rfl⟩ := len3 h2
  have e : ∀ x y : α, x + y / 2 - (x - y / 2) = y := by
    intro x y; field_simp; ring
  unfold fromDims
  rw [if_neg (by simp [h0]; omega), if_neg (by simp), gridSpacing_eq h0 h3 (d0 := a') (d1 := b') (d2 := c')
    rfl rfl rfl, Res.ok_bind, (three_counts h0 h3).1]
  refine congrArg (· >>= fun p => pure p.1) (gridFill_eq (fun i j k => ?_) _)
  simp only [List.zipWith_cons_cons, num, List.getElem?_cons_zero, List.getElem?_cons_succ, Option.getD_some, e]
  rfl

/-- C62: the points of `from_points`, x varying fastest. -/
theorem C62_points {npts : List Nat} (h0 : npts ≠ []) (h3 : npts.length ≤ 3) {p1 p2 : List α} (h1 : p1.length = 3)
    (h2 : p2.length = 3) (hn : npts.prod * 3 < 2 ^ 32) :
    ∃ r, fromPoints npts p1 p2 = .ok r ∧ WF r ∧ r.itemSize = 3 ∧ r.count = npts.prod ∧
      ∀ i j k, i < axisCount npts 0 → j < axisCount npts 1 → k < axisCount npts 2 →
        (items r)[i + axisCount npts 0 * (j + axisCount npts 1 * k)]? =
          some [axisPoint (axisCount npts 0) (num p1 0) (num p2 0) i, axisPoint (axisCount npts 1) (num p1 1) (num p2 1) j,
            axisPoint (axisCount npts 2) (num p1 2) (num p2 2) k] := by
  have hl : (cornerGrid npts p1 p2).length = npts.prod := by
    unfold cornerGrid
    rw [(gridList_facts ..).1, (three_counts h0 h3).2]
  refine ⟨_, fromPoints_run h0 h3 h1 h2 hn, WF_ofItems (by omega) (by omega) (fun v hv => cornerGrid_three hv)
    (by rw [hl]; exact hn), rfl, hl, fun i j k hi hj hk => ?_⟩
  rw [items_ofItems fun v hv => cornerGrid_three hv]
  unfold cornerGrid
  rw [(gridList_facts ..).2 i j k hi hj hk, axisPoint_eq hi, axisPoint_eq hj, axisPoint_eq hk]

example := C62_points (npts := [3, 2]) (by decide) (by decide) (p1 := ([0, 0, 5] : List ℚ)) (p2 := [1, 4, 7]) rfl rfl (by decide)

/-- C62: `from_dims` is `from_points` between the two corners of the box. -/
theorem C62_dims {npts : List Nat} (h0 : npts ≠ []) (h3 : npts.length ≤ 3) {c d : List α} (h1 : c.length = 3)
    (h2 : d.length = 3) (htwo : (2 : α) ≠ 0) :
    fromDims npts c d = fromPoints npts (List.zipWith (fun x y => x - y / 2) c d)
      (List.zipWith (fun x y => x + y / 2) c d) := by
  rw [fromPoints_fold h0 h3 (by simp [h1, h2]) (by simp [h1, h2]), fromDims_fold h0 h3 h1 h2 htwo]

example := C62_dims (npts := [3, 2]) (by decide) (by decide) (c := ([0, 0, 5] : List ℚ)) (d := [1, 4, 7]) rfl rfl (by norm_num)

/-- C62: the first point is the first corner, and, with at least two points along each axis, the last point is the
opposite corner. -/
theorem C62_corners [CharZero α] {npts : List Nat} (h3 : npts.length = 3) {p1 p2 : List α} (h1 : p1.length = 3)
    (h2 : p2.length = 3) (hn : npts.prod * 3 < 2 ^ 32) (hm : ∀ n ∈ npts, 2 ≤ n) :
    ∃ r, fromPoints npts p1 p2 = .ok r ∧ (items r).head? = some p1 ∧ (items r).getLast? = some p2 := by
  obtain ⟨l, m, n, rfl⟩ := len3 h3
  obtain ⟨r, hr, _, _, hc, hp⟩ := C62_points (npts := [l, m, n]) (by simp) (by simp) h1 h2 hn
  obtain ⟨a, b, c, rfl⟩ := len3 h1
  obtain ⟨a', b', c', rfl⟩ := len3 h2
  have hl : 2 ≤ l := hm l (by simp)
  have hm' : 2 ≤ m := hm m (by simp)
  have hn' : 2 ≤ n := hm n (by simp)
  refine ⟨r, hr, ?_, ?_⟩
  · have := hp 0 0 0 (by simp [axisCount]; omega) (by simp [axisCount]; omega) (by simp [axisCount]; omega)
    simp only [Nat.mul_zero, Nat.add_zero] at this
    rw [List.head?_eq_getElem?, this]
    simp [axisPoint, num]
  · have := hp (l - 1) (m - 1) (n - 1) (by simp [axisCount]; omega) (by simp [axisCount]; omega)
      (by simp [axisCount]; omega)
    have e : ∀ (q : Nat) (x y : α), 2 ≤ q → axisPoint q x y (q - 1) = y := by
      intro q x y hq
      unfold axisPoint
      rw [Nat.cast_sub (by omega), Nat.cast_one, div_self, mul_one, add_sub_cancel]
      rw [sub_ne_zero]
      exact_mod_cast (by omega : q ≠ 1)
    have hi : l - 1 + l * (m - 1 + m * (n - 1)) = l * (m * n) - 1 := by
      obtain ⟨l, rfl⟩ : ∃ x, l = x + 1 := ⟨l - 1, by omega⟩
      obtain ⟨m, rfl⟩ : ∃ x, m = x + 1 := ⟨m - 1, by omega⟩
      obtain ⟨n, rfl⟩ : ∃ x, n = x + 1 := ⟨n - 1, by omega⟩
      simp only [Nat.add_sub_cancel]
      refine (Nat.sub_eq_of_eq_add ?_).symm
      ring
    simp only [axisCount, num, List.getElem?_cons_zero, List.getElem?_cons_succ, Option.getD_some] at this
    rw [e _ _ _ hl, e _ _ _ hm', e _ _ _ hn', hi] at this
    rw [List.getLast?_eq_getElem?, items_length, hc]
    simpa using this

example := C62_corners (npts := [3, 2, 4]) rfl (p1 := ([0, 0, 5] : List ℚ)) (p2 := [1, 4, 7]) rfl rfl (by decide) (by decide)

/-- C62: all the points are in the box. -/
theorem C62_inside [LinearOrder α] [IsStrictOrderedRing α] {npts : List Nat} (h0 : npts ≠ []) (h3 : npts.length ≤ 3)
    {p1 p2 : List α} (h1 : p1.length = 3) (h2 : p2.length = 3) (hn : npts.prod * 3 < 2 ^ 32)
    (hbox : ∀ k < 3, num p1 k ≤ num p2 k) :
    ∃ r, fromPoints npts p1 p2 = .ok r ∧ ∀ v ∈ items r, ∀ k < 3, num p1 k ≤ num v k ∧ num v k ≤ num p2 k := by
  have e : ∀ (n i : Nat) (lo hi : α), lo ≤ hi → i < n → lo ≤ axisPoint n lo hi i ∧ axisPoint n lo hi i ≤ hi := by
    intro n i lo hi hle hin
    unfold axisPoint
    have hn1 : (0 : α) ≤ (n : α) - 1 := by
      rw [sub_nonneg]; exact_mod_cast (by omega : 1 ≤ n)
    have hq : 0 ≤ (i : α) / ((n : α) - 1) := div_nonneg (Nat.cast_nonneg _) hn1
    have hq' : (i : α) / ((n : α) - 1) ≤ 1 := by
      refine div_le_one_of_le₀ ?_ hn1
      rw [le_sub_iff_add_le]
      exact_mod_cast (by omega : i + 1 ≤ n)
    have hd : 0 ≤ hi - lo := sub_nonneg.2 hle
    exact ⟨le_add_of_nonneg_right (mul_nonneg hd hq), by nlinarith [mul_le_mul_of_nonneg_left hq' hd]⟩
  refine ⟨_, fromPoints_run h0 h3 h1 h2 hn, fun v hv k hk => ?_⟩
  rw [items_ofItems fun v hv => cornerGrid_three hv] at hv
  obtain ⟨i, j, m, hi, hj, hm, rfl⟩ := gridList_mem hv
  match k, hk with
  | 0, _ => rw [axisPoint_eq hi]; exact e _ _ _ _ (hbox 0 (by omega)) hi
  | 1, _ => rw [axisPoint_eq hj]; exact e _ _ _ _ (hbox 1 (by omega)) hj
  | 2, _ => rw [axisPoint_eq hm]; exact e _ _ _ _ (hbox 2 (by omega)) hm

example := C62_inside (npts := [3, 2]) (by decide) (by decide) (p1 := ([0, 0, 5] : List ℚ)) (p2 := [1, 4, 7]) rfl rfl (by decide)
  (by decide +kernel)

example : fromPoints [3, 2] ([0, 0, 5] : List ℚ) [1, 4, 7] =
    .ok ⟨[0, 0, 5, 1 / 2, 0, 5, 1, 0, 5, 0, 4, 5, 1 / 2, 4, 5, 1, 4, 5], 6, 3, 3⟩ := by decide +kernel

/-- C62: other numbers of components are refused. -/
theorem C62_throws {npts : List Nat} {p1 p2 : List α}
    (h : npts = [] ∨ 3 < npts.length ∨ p1.length ≠ 3 ∨ p2.length ≠ 3) :
    fromPoints npts p1 p2 = .throw .invalidArgument ∧ fromDims npts p1 p2 = .throw .invalidArgument := by
  unfold fromPoints fromDims
  by_cases h' : npts = [] ∨ npts.length > 3
  · rw [if_pos h', if_pos h']; exact ⟨rfl, rfl⟩
  · have h'' : p1.length ≠ 3 ∨ p2.length ≠ 3 := by
      rcases h with h | h | h
      · exact absurd (.inl h) h'
      · exact absurd (.inr h) h'
      · exact h
    rw [if_neg h', if_neg h', if_pos h'', if_pos h'']; exact ⟨rfl, rfl⟩

example := C62_throws (npts := [3, 2]) (p1 := ([0, 0] : List ℚ)) (p2 := [1, 4, 7]) (.inr (.inr (.inl (by decide))))

/-- C62 is violated for products below `2^32` but above a third of it: the 32-bit size of the data overflows, and the points
are written past its end. -/
theorem C62_overflow_violated {npts : List Nat} (h0 : npts ≠ []) (h3 : npts.length ≤ 3) {p1 p2 : List α}
    (h1 : p1.length = 3) (h2 : p2.length = 3) (hn : 2 ^ 32 ≤ npts.prod * 3) (hn' : npts.prod < 2 ^ 32) :
    fromPoints npts p1 p2 = .ub := by
  rw [fromPoints_fold h0 h3 h1 h2, gridTotal_eq, u32_of_lt hn',
    gridPut_ub (n := npts.prod) (L := u32 (npts.prod * 3)) (u32_lt _) (Nat.lt_of_lt_of_le (u32_lt _) hn) _ _ _
      (fun v hv => cornerGrid_three hv) (by simp [Serie.zeros]) rfl rfl (by
        unfold cornerGrid
        rw [(gridList_facts ..).1, (three_counts h0 h3).2]
        simp) hn' (by omega)]
  rfl

example := C62_overflow_violated (npts := [2000, 2000, 500]) (by decide) (by decide) (p1 := ([0, 0, 5] : List ℚ))
  (p2 := [1, 4, 7]) rfl rfl (by decide) (by decide)

example : [2000, 2000, 500] ≠ [] ∧ 2 ^ 32 ≤ [2000, 2000, 500].prod * 3 ∧ [2000, 2000, 500].prod < 2 ^ 32 := by decide

/-! ## C80: centred grids -/

/-- C80, what holds: when each axis has at least two points or an extent of zero, the grid of `from_dims` is symmetric about
its center. -/
theorem C80_centred_partial [CharZero α] {npts : List Nat} (h0 : npts ≠ []) (h3 : npts.length ≤ 3) {c d : List α}
    (h1 : c.length = 3) (h2 : d.length = 3) (hn : npts.prod * 3 < 2 ^ 32)
    (hax : ∀ a < 3, 2 ≤ axisCount npts a ∨ num d a = 0) :
    ∃ r, fromDims npts c d = .ok r ∧ r.count = npts.prod ∧
      ∀ i j k, i < axisCount npts 0 → j < axisCount npts 1 → k < axisCount npts 2 → ∃ u v,
        (items r)[i + axisCount npts 0 * (j + axisCount npts 1 * k)]? = some u ∧
        (items r)[(axisCount npts 0 - 1 - i) + axisCount npts 0 * ((axisCount npts 1 - 1 - j) +
          axisCount npts 1 * (axisCount npts 2 - 1 - k))]? = some v ∧
        ∀ a < 3, (num u a + num v a) / 2 = num c a := by
  obtain ⟨r, hr, _, _, hc, hp⟩ := C62_points h0 h3 (p1 := List.zipWith (fun x y => x - y / 2) c d)
    (p2 := List.zipWith (fun x y => x + y / 2) c d) (by simp [h1, h2]) (by simp [h1, h2]) hn
  refine ⟨r, by rw [C62_dims h0 h3 h1 h2 two_ne_zero]; exact hr, hc, fun i j k hi hj hk => ?_⟩
  refine ⟨_, _, hp i j k hi hj hk, hp _ _ _ (by omega) (by omega) (by omega), ?_⟩
  have e : ∀ (n i : Nat) (x y : α), i < n → (2 ≤ n ∨ y = 0) →
      (axisPoint n (x - y / 2) (x + y / 2) i + axisPoint n (x - y / 2) (x + y / 2) (n - 1 - i)) / 2 = x := by
    intro n i x y hi hny
    unfold axisPoint
    rcases hny with hn | rfl
    · have hne : (n : α) - 1 ≠ 0 := by
        rw [sub_ne_zero]; exact_mod_cast (by omega : n ≠ 1)
      rw [Nat.cast_sub (by omega), Nat.cast_sub (by omega), Nat.cast_one]
      field_simp
      ring
    · simp
  obtain ⟨x, y, z, rfl⟩ := len3 h1
  obtain ⟨x', y', z', rfl⟩ := len3 h2
  intro a ha
  match a, ha with
  | 0, _ => exact e _ _ _ _ hi (hax 0 (by omega))
  | 1, _ => exact e _ _ _ _ hj (hax 1 (by omega))
  | 2, _ => exact e _ _ _ _ hk (hax 2 (by omega))

example := C80_centred_partial (npts := [3, 2]) (by decide) (by decide) (c := ([0, 0, 5] : List ℚ)) (d := [1, 4, 0]) rfl rfl
  (by decide) (by decide +kernel)

/-- C80 is violated along an axis with a single point: a line of two points with the default box of size 1 about the origin
has all its points at `y = z = -1/2`. -/
theorem C80_one_point_violated :
    fromDims [2] ([0, 0, 0] : List ℚ) [1, 1, 1] = .ok ⟨[-1 / 2, -1 / 2, -1 / 2, 1 / 2, -1 / 2, -1 / 2], 2, 3, 3⟩ := by
  decide +kernel

end grids

end DF
