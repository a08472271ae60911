import Verif.Spec.Examples
import Verif.Props.ParallelOps
import Verif.Props.Geo
import Verif.Props.Eigen
import Verif.Props.Special

/-!
# Properties of the example programs: C115, C116, C117

Exact real arithmetic.
-/

namespace DF

open Spec Matrix

theorem three {l : List ℝ} (h : l.length = 3) : ∃ a b c, l = [a, b, c] := by
  match l, h with
  | [a, b, c], _ => exact ⟨a, b, c, rfl⟩

theorem sourceDist_eq (px py pz ux uy uz x y z : ℝ) : sourceDist ⟨[px, py, pz], [ux, uy, uz]⟩ [x, y, z] =
    √((x - px) * (x - px) + (y - py) * (y - py) + (z - pz) * (z - pz)) := by
  unfold sourceDist
  congr 1
  simp only [Fin.sum_univ_three, vec, num]
  simp [pow_two]

/-- A source and a point in space. -/
noncomputable def exSource : Source ℝ := ⟨[1, 0, -1], [1, 2, 0]⟩

theorem exSource_OK : SourceOK exSource := ⟨rfl, rfl⟩

/-- The exact square root satisfies the hypothesis of the theorems below. -/
noncomputable abbrev realSqrt : Sqrt ℝ := ⟨Real.sqrt⟩

theorem exactSqrt : ∀ x : ℝ, @Sqrt.sqrt ℝ realSqrt x = √x := fun _ => rfl

section stress
variable [Sqrt ℝ]

/-! ## C115: the stress of one source -/

/-- Closer than `1e-10` to the source the stress is zero, elsewhere it is the closed form. -/
theorem C115_stress (hsqrt : ∀ x : ℝ, Sqrt.sqrt x = √x) {src : Source ℝ} (hs : SourceOK src) {p : List ℝ} (hp : p.length = 3) :
    ∃ t, src.stress p = .ok t ∧ t.length = 6 ∧ symMatrix3 t = sourceStress src p := by
  obtain ⟨pos, U⟩ := src
  obtain ⟨px, py, pz, rfl⟩ := three hs.1
  obtain ⟨ux, uy, uz, rfl⟩ := three hs.2
  obtain ⟨x, y, z, rfl⟩ := three hp
  have e := sourceDist_eq px py pz ux uy uz x y z
  by_cases hr : sourceDist ⟨[px, py, pz], [ux, uy, uz]⟩ [x, y, z] < 1e-10
  · refine ⟨[0, 0, 0, 0, 0, 0], ?_, rfl, ?_⟩
    · simp only [Source.stress, rd, List.getElem?_cons_zero, List.getElem?_cons_succ, Res.ok_bind, hsqrt]
      rw [← e, if_pos hr]
      rfl
    · unfold sourceStress
      rw [if_pos hr]
      ext i j
      fin_cases i <;> fin_cases j <;> rfl
  · have hr' : ¬ √((x - px) * (x - px) + (y - py) * (y - py) + (z - pz) * (z - pz)) < 1e-10 := by rw [← e]; exact hr
    refine ⟨_, by
      simp only [Source.stress, rd, List.getElem?_cons_zero, List.getElem?_cons_succ, Res.ok_bind, hsqrt]
      rw [if_neg hr']
      rfl, rfl, ?_⟩
    unfold sourceStress
    rw [if_neg hr]
    have h0 : (0 : ℝ) < sourceDist ⟨[px, py, pz], [ux, uy, uz]⟩ [x, y, z] := lt_of_lt_of_le (by norm_num) (not_lt.1 hr)
    have e2 : √(∑ k, (vec 3 [x, y, z] - vec 3 [px, py, pz]) k ^ 2) = sourceDist ⟨[px, py, pz], [ux, uy, uz]⟩ [x, y, z] := rfl
    ext i j
    unfold pointStress
    rw [e2, ← e]
    generalize sourceDist ⟨[px, py, pz], [ux, uy, uz]⟩ [x, y, z] = r at h0
    have h0' := h0.ne'
    fin_cases i <;> fin_cases j <;> simp [symMatrix3, num, vec, Fin.sum_univ_three] <;> field_simp <;> norm_num <;> ring

example := @C115_stress realSqrt exactSqrt _ exSource_OK [3, 0, 1] rfl

omit [Sqrt ℝ] in
theorem sixExt {t t' : List ℝ} (h : t.length = 6) (h' : t'.length = 6) (he : symMatrix3 t = symMatrix3 t') : t = t' := by
  match t, h, t', h' with
  | [a, b, c, d, e, f], _, [a', b', c', d', e', f'], _ =>
    have h00 := congrFun (congrFun he 0) 0
    have h01 := congrFun (congrFun he 0) 1
    have h02 := congrFun (congrFun he 0) 2
    have h11 := congrFun (congrFun he 1) 1
    have h12 := congrFun (congrFun he 1) 2
    have h22 := congrFun (congrFun he 2) 2
    simp [symMatrix3, num] at h00 h01 h02 h11 h12 h22
    subst h00 h01 h02 h11 h12 h22
    rfl

theorem stress_congr (hsqrt : ∀ x : ℝ, Sqrt.sqrt x = √x) {src src' : Source ℝ} (hs : SourceOK src) (hs' : SourceOK src')
    {p p' : List ℝ} (hp : p.length = 3) (hp' : p'.length = 3) (e : sourceStress src p = sourceStress src' p') :
    src.stress p = src'.stress p' := by
  obtain ⟨t, h1, h2, h3⟩ := C115_stress hsqrt hs hp
  obtain ⟨t', h1', h2', h3'⟩ := C115_stress hsqrt hs' hp'
  rw [h1, h1', sixExt h2 h2' (by rw [h3, h3', e])]

omit [Sqrt ℝ] in
theorem vec_zipWith (f : ℝ → ℝ → ℝ) {u v : List ℝ} (hu : u.length = 3) (hv : v.length = 3) (i : Fin 3) :
    vec 3 (List.zipWith f u v) i = f (vec 3 u i) (vec 3 v i) := by
  obtain ⟨a, b, c, rfl⟩ := three hu
  obtain ⟨a', b', c', rfl⟩ := three hv
  fin_cases i <;> rfl

omit [Sqrt ℝ] in
theorem zip3 (f : ℝ → ℝ → ℝ) {u v : List ℝ} (hu : u.length = 3) (hv : v.length = 3) : (List.zipWith f u v).length = 3 := by
  simp [hu, hv]

/-- Only the position relative to the source counts: moving the source and the point by the same vector changes nothing. -/
theorem C115_translation (hsqrt : ∀ x : ℝ, Sqrt.sqrt x = √x) {src : Source ℝ} (hs : SourceOK src) {p v : List ℝ}
    (hp : p.length = 3) (hv : v.length = 3) :
    Source.stress ⟨List.zipWith (· + ·) src.pos v, src.U⟩ (List.zipWith (· + ·) p v) = src.stress p := by
  refine stress_congr hsqrt (src := ⟨List.zipWith (· + ·) src.pos v, src.U⟩) (src' := src) ⟨zip3 _ hs.1 hv, hs.2⟩ hs (zip3 _ hp hv) hp ?_
  have e : vec 3 (List.zipWith (· + ·) p v) - vec 3 (List.zipWith (· + ·) src.pos v) = vec 3 p - vec 3 src.pos := by
    funext i
    simp only [Pi.sub_apply, vec_zipWith _ hp hv, vec_zipWith _ hs.1 hv]
    ring
  have e2 : sourceDist ⟨List.zipWith (· + ·) src.pos v, src.U⟩ (List.zipWith (· + ·) p v) = sourceDist src p := by
    unfold sourceDist
    congr 1
    exact Finset.sum_congr rfl fun i _ => by rw [← Pi.sub_apply, ← Pi.sub_apply, e]
  unfold sourceStress
  rw [e2, e]

example := @C115_translation realSqrt exactSqrt _ exSource_OK [3, 0, 1] [1, -1, 5] rfl rfl

/-- Exchanging the source and the point changes nothing. -/
theorem C115_exchange (hsqrt : ∀ x : ℝ, Sqrt.sqrt x = √x) {src : Source ℝ} (hs : SourceOK src) {p : List ℝ}
    (hp : p.length = 3) : Source.stress ⟨p, src.U⟩ src.pos = src.stress p := by
  refine stress_congr hsqrt (src := ⟨p, src.U⟩) (src' := src) ⟨hp, hs.2⟩ hs hs.1 hp ?_
  have e2 : sourceDist ⟨p, src.U⟩ src.pos = sourceDist src p := by
    unfold sourceDist
    congr 1
    exact Finset.sum_congr rfl fun i _ => by ring
  unfold sourceStress
  rw [e2]
  split_ifs
  · rfl
  · have e : vec 3 src.pos - vec 3 p = -(vec 3 p - vec 3 src.pos) := by rw [neg_sub]
    simp only [e]
    generalize vec 3 p - vec 3 src.pos = d
    ext i j
    simp [pointStress]

example := @C115_exchange realSqrt exactSqrt _ exSource_OK [3, 0, 1] rfl

omit [Sqrt ℝ] in
theorem pointStress_linear (d u v : Fin 3 → ℝ) (a b : ℝ) :
    pointStress d (fun i => a * u i + b * v i) = a • pointStress d u + b • pointStress d v := by
  ext i j
  rw [Matrix.add_apply, Matrix.smul_apply, Matrix.smul_apply, smul_eq_mul, smul_eq_mul]
  unfold pointStress
  generalize √(∑ k, d k ^ 2) = r
  by_cases h : i = j
  · simp only [h, if_true, Fin.sum_univ_three]
    ring
  · simp only [h, if_false]
    ring

/-- The stress is linear in the displacement of the source. -/
theorem C115_linear (hsqrt : ∀ x : ℝ, Sqrt.sqrt x = √x) {pos U V p : List ℝ} (hpos : pos.length = 3) (hU : U.length = 3)
    (hV : V.length = 3) (hp : p.length = 3) (a b : ℝ) :
    ∃ t u v, Source.stress ⟨pos, List.zipWith (fun x y => a * x + b * y) U V⟩ p = .ok t ∧
      Source.stress ⟨pos, U⟩ p = .ok u ∧ Source.stress ⟨pos, V⟩ p = .ok v ∧
      symMatrix3 t = a • symMatrix3 u + b • symMatrix3 v := by
  obtain ⟨t, t1, _, t3⟩ := C115_stress hsqrt (src := ⟨pos, List.zipWith (fun x y => a * x + b * y) U V⟩)
    ⟨hpos, zip3 _ hU hV⟩ hp
  obtain ⟨u, u1, _, u3⟩ := C115_stress hsqrt (src := ⟨pos, U⟩) ⟨hpos, hU⟩ hp
  obtain ⟨v, v1, _, v3⟩ := C115_stress hsqrt (src := ⟨pos, V⟩) ⟨hpos, hV⟩ hp
  refine ⟨t, u, v, t1, u1, v1, ?_⟩
  rw [t3, u3, v3]
  unfold sourceStress
  simp only [sourceDist]
  split_ifs
  · simp
  · rw [show vec 3 (List.zipWith (fun x y => a * x + b * y) U V) = fun i => a * vec 3 U i + b * vec 3 V i from
      funext fun i => vec_zipWith _ hU hV i, pointStress_linear]

example := @C115_linear realSqrt exactSqrt [1, 0, -1] [1, 2, 0] [0, 1, 1] [3, 0, 1] rfl rfl rfl rfl 2 (-3)

omit [Sqrt ℝ] in
theorem pointStress_scale (d u : Fin 3 → ℝ) {c : ℝ} (hc : c ≠ 0) (hr : √(∑ k, d k ^ 2) ≠ 0)
    (h : √(∑ k, (c * d k) ^ 2) = c * √(∑ k, d k ^ 2)) : c ^ 3 • pointStress (fun i => c * d i) u = pointStress d u := by
  ext i j
  rw [Matrix.smul_apply, smul_eq_mul]
  unfold pointStress
  rw [h]
  generalize √(∑ k, d k ^ 2) = r at hr
  by_cases h : i = j
  · simp only [h, if_true, Fin.sum_univ_three]
    field_simp
  · simp only [h, if_false]
    field_simp

/-- The stress decreases as the cube of the distance: `c ≥ 1` times as far it is `c³` times as small. -/
theorem C115_scale (hsqrt : ∀ x : ℝ, Sqrt.sqrt x = √x) {src : Source ℝ} (hs : SourceOK src) {d : List ℝ} (hd : d.length = 3)
    {c : ℝ} (hc : 1 ≤ c) (hr : 1e-10 ≤ √(∑ k, vec 3 d k ^ 2)) :
    ∃ t u, src.stress (List.zipWith (fun x y => x + y) src.pos d) = .ok t ∧
      src.stress (List.zipWith (fun x y => x + c * y) src.pos d) = .ok u ∧ c ^ 3 • symMatrix3 u = symMatrix3 t := by
  obtain ⟨t, t1, _, t3⟩ := C115_stress hsqrt hs (zip3 (fun x y => x + y) hs.1 hd)
  obtain ⟨u, u1, _, u3⟩ := C115_stress hsqrt hs (zip3 (fun x y => x + c * y) hs.1 hd)
  refine ⟨t, u, t1, u1, ?_⟩
  have hc0 : 0 < c := by linarith
  have e1 : vec 3 (List.zipWith (fun x y => x + y) src.pos d) - vec 3 src.pos = vec 3 d := by
    funext i
    rw [Pi.sub_apply, vec_zipWith _ hs.1 hd]
    ring
  have e2 : vec 3 (List.zipWith (fun x y => x + c * y) src.pos d) - vec 3 src.pos = fun i => c * vec 3 d i := by
    funext i
    rw [Pi.sub_apply, vec_zipWith _ hs.1 hd]
    ring
  have r1 : sourceDist src (List.zipWith (fun x y => x + y) src.pos d) = √(∑ k, vec 3 d k ^ 2) := by
    unfold sourceDist
    congr 1
    exact Finset.sum_congr rfl fun i _ => by rw [← Pi.sub_apply, e1]
  have r3 : √(∑ k, (c * vec 3 d k) ^ 2) = c * √(∑ k, vec 3 d k ^ 2) := by
    rw [← Real.sqrt_sq hc0.le, ← Real.sqrt_mul (sq_nonneg c), Real.sqrt_sq hc0.le, Finset.mul_sum]
    congr 1
    exact Finset.sum_congr rfl fun i _ => by ring
  have r2 : sourceDist src (List.zipWith (fun x y => x + c * y) src.pos d) = c * √(∑ k, vec 3 d k ^ 2) := by
    rw [← r3]
    unfold sourceDist
    congr 1
    exact Finset.sum_congr rfl fun i _ => by rw [← Pi.sub_apply, e2]
  have hr0 : (0 : ℝ) < √(∑ k, vec 3 d k ^ 2) := lt_of_lt_of_le (by norm_num) hr
  rw [t3, u3]
  unfold sourceStress
  rw [r1, r2, e1, e2, if_neg (not_lt.2 hr), if_neg (not_lt.2 (le_trans hr (le_mul_of_one_le_left hr0.le hc)))]
  exact pointStress_scale (vec 3 d) (vec 3 src.U) hc0.ne' hr0.ne' r3

example := @C115_scale realSqrt exactSqrt _ exSource_OK [3, 0, 4] rfl 2 (by norm_num)
  (Real.le_sqrt_of_sq_le (by norm_num [vec, num, Fin.sum_univ_three]))

omit [Sqrt ℝ] in
theorem pointStress_axes (d u : Fin 3 → ℝ) (σ : Equiv.Perm (Fin 3)) :
    pointStress (d ∘ σ) (u ∘ σ) = (pointStress d u).submatrix σ σ := by
  ext i j
  rw [Matrix.submatrix_apply]
  unfold pointStress
  simp only [Function.comp_apply, EmbeddingLike.apply_eq_iff_eq]
  rw [Equiv.sum_comp σ fun k => d k ^ 2, Equiv.sum_comp σ fun k => u k * d k,
    Equiv.sum_comp σ fun k => 2 * u k / √(∑ k, d k ^ 2) ^ 3 - 3 * (∑ k, u k * d k) * d k / √(∑ k, d k ^ 2) ^ 5]

/-- No axis plays a special role: numbering the axes differently numbers the rows and columns of the stress differently. -/
theorem C115_axes (hsqrt : ∀ x : ℝ, Sqrt.sqrt x = √x) {src : Source ℝ} (hs : SourceOK src) {p : List ℝ} (hp : p.length = 3)
    (σ : Equiv.Perm (Fin 3)) :
    ∃ t u, src.stress p = .ok t ∧ Source.stress ⟨reorder σ src.pos, reorder σ src.U⟩ (reorder σ p) = .ok u ∧
      symMatrix3 u = (symMatrix3 t).submatrix σ σ := by
  obtain ⟨t, t1, _, t3⟩ := C115_stress hsqrt hs hp
  obtain ⟨u, u1, _, u3⟩ := C115_stress hsqrt (src := ⟨reorder σ src.pos, reorder σ src.U⟩) (p := reorder σ p)
    ⟨by simp [reorder], by simp [reorder]⟩ (by simp [reorder])
  refine ⟨t, u, t1, u1, ?_⟩
  have e : ∀ l i, vec 3 (reorder σ l) i = vec 3 l (σ i) := fun l i => by
    fin_cases i <;> rfl
  have r : sourceDist ⟨reorder σ src.pos, reorder σ src.U⟩ (reorder σ p) = sourceDist src p := by
    unfold sourceDist
    simp only [e]
    rw [Equiv.sum_comp σ fun k => (vec 3 p k - vec 3 src.pos k) ^ 2]
  rw [t3, u3]
  unfold sourceStress
  rw [r]
  split_ifs
  · rfl
  · rw [← pointStress_axes]
    congr 1
    · funext i
      simp only [Function.comp_apply, Pi.sub_apply, e]
    · funext i
      exact e _ i

example := @C115_axes realSqrt exactSqrt _ exSource_OK [3, 0, 1] rfl (Equiv.swap 0 2)

omit [Sqrt ℝ] in
theorem pointStress_bound (d u : Fin 3 → ℝ) (hr : 0 < √(∑ k, d k ^ 2)) (i j : Fin 3) :
    |pointStress d u i j| ≤ 21 * (∑ k, |u k|) / √(∑ k, d k ^ 2) ^ 3 := by
  have hd : ∀ k, |d k| ≤ √(∑ k, d k ^ 2) := fun k => Real.abs_le_sqrt
    (Finset.single_le_sum (f := fun k => d k ^ 2) (fun k _ => sq_nonneg _) (Finset.mem_univ k))
  unfold pointStress
  generalize √(∑ k, d k ^ 2) = r at hr hd
  set S := ∑ k, |u k| with hS
  have hS0 : 0 ≤ S := Finset.sum_nonneg fun k _ => abs_nonneg _
  have hu : ∀ k, |u k| ≤ S := fun k => Finset.single_le_sum (f := fun k => |u k|) (fun k _ => abs_nonneg _) (Finset.mem_univ k)
  have hdot : |∑ k, u k * d k| ≤ S * r := by
    refine le_trans (Finset.abs_sum_le_sum_abs _ _) ?_
    rw [hS, Finset.sum_mul]
    exact Finset.sum_le_sum fun k _ => by
      rw [abs_mul]; exact mul_le_mul_of_nonneg_left (hd k) (abs_nonneg _)
  have h3 : 0 < r ^ 3 := by positivity
  have h5 : 0 < r ^ 5 := by positivity
  have hsec : ∀ k, |3 * (∑ k, u k * d k) * d k / r ^ 5| ≤ 3 * S / r ^ 3 := fun k => by
    rw [abs_div, abs_of_pos h5, div_le_div_iff₀ h5 h3, abs_mul, abs_mul, abs_of_pos (by norm_num : (0 : ℝ) < 3)]
    have : |∑ k, u k * d k| * |d k| ≤ S * r * r := mul_le_mul hdot (hd k) (abs_nonneg _) (by positivity)
    calc 3 * |∑ k, u k * d k| * |d k| * r ^ 3 = 3 * (|∑ k, u k * d k| * |d k|) * r ^ 3 := by ring
      _ ≤ 3 * (S * r * r) * r ^ 3 := by gcongr
      _ = 3 * S * r ^ 5 := by ring
  have hfst : ∀ k, |2 * u k / r ^ 3| ≤ 2 * |u k| / r ^ 3 := fun k => by
    rw [abs_div, abs_of_pos h3, abs_mul, abs_of_pos (by norm_num : (0 : ℝ) < 2)]
  have he : ∀ k, |2 * u k / r ^ 3 - 3 * (∑ k, u k * d k) * d k / r ^ 5| ≤ 2 * |u k| / r ^ 3 + 3 * S / r ^ 3 := fun k =>
    le_trans (abs_sub _ _) (add_le_add (hfst k) (hsec k))
  by_cases h : i = j
  · simp only [h, if_true]
    have hsum : |∑ k, (2 * u k / r ^ 3 - 3 * (∑ k, u k * d k) * d k / r ^ 5)| ≤ 11 * S / r ^ 3 := by
      refine le_trans (Finset.abs_sum_le_sum_abs _ _) (le_trans (Finset.sum_le_sum fun k _ => he k) ?_)
      rw [Finset.sum_add_distrib, ← Finset.sum_div, ← Finset.mul_sum, ← hS]
      simp only [Finset.sum_const, Finset.card_univ, Fintype.card_fin, nsmul_eq_mul]
      apply le_of_eq
      push_cast
      ring
    have hj := he j
    have : 2 * |u j| / r ^ 3 ≤ 2 * S / r ^ 3 := by have := hu j; gcongr
    calc |2 * (2 * u j / r ^ 3 - 3 * (∑ k, u k * d k) * d j / r ^ 5) +
          ∑ k, (2 * u k / r ^ 3 - 3 * (∑ k, u k * d k) * d k / r ^ 5)| ≤
        2 * |2 * u j / r ^ 3 - 3 * (∑ k, u k * d k) * d j / r ^ 5| +
          |∑ k, (2 * u k / r ^ 3 - 3 * (∑ k, u k * d k) * d k / r ^ 5)| := by
          refine le_trans (abs_add_le _ _) ?_
          rw [abs_mul, abs_of_pos (by norm_num : (0 : ℝ) < 2)]
      _ ≤ 2 * (2 * S / r ^ 3 + 3 * S / r ^ 3) + 11 * S / r ^ 3 := by
          gcongr
          exact le_trans hj (by gcongr)
      _ = 21 * S / r ^ 3 := by ring
  · simp only [h, if_false]
    have h1 : |1 / r ^ 3 + 3 * d i * d j / r ^ 5| ≤ 4 / r ^ 3 := by
      refine le_trans (abs_add_le _ _) ?_
      rw [abs_of_pos (by positivity : 0 < 1 / r ^ 3)]
      have : |3 * d i * d j / r ^ 5| ≤ 3 / r ^ 3 := by
        rw [abs_div, abs_of_pos h5, div_le_div_iff₀ h5 h3, abs_mul, abs_mul, abs_of_pos (by norm_num : (0 : ℝ) < 3)]
        have : |d i| * |d j| ≤ r * r := mul_le_mul (hd i) (hd j) (abs_nonneg _) hr.le
        calc 3 * |d i| * |d j| * r ^ 3 = 3 * (|d i| * |d j|) * r ^ 3 := by ring
          _ ≤ 3 * (r * r) * r ^ 3 := by gcongr
          _ = 3 * r ^ 5 := by ring
      calc 1 / r ^ 3 + |3 * d i * d j / r ^ 5| ≤ 1 / r ^ 3 + 3 / r ^ 3 := by gcongr
        _ = 4 / r ^ 3 := by ring
    have h2 : |-(u i + u j)| ≤ 2 * S := by
      rw [abs_neg]
      have := hu i
      have := hu j
      exact le_trans (abs_add_le _ _) (by linarith)
    rw [abs_mul]
    calc |-(u i + u j)| * |1 / r ^ 3 + 3 * d i * d j / r ^ 5| ≤ 2 * S * (4 / r ^ 3) := by gcongr
      _ = 8 * S / r ^ 3 := by ring
      _ ≤ 21 * S / r ^ 3 := by gcongr; norm_num

/-- No entry of the stress at distance `r` exceeds `21 (|ux| + |uy| + |uz|) / r³`. -/
theorem C115_bound (hsqrt : ∀ x : ℝ, Sqrt.sqrt x = √x) {src : Source ℝ} (hs : SourceOK src) {p : List ℝ} (hp : p.length = 3) :
    ∃ t, src.stress p = .ok t ∧ t.length = 6 ∧
      ∀ x ∈ t, |x| * sourceDist src p ^ 3 ≤ 21 * (∑ k, |vec 3 src.U k|) := by
  obtain ⟨t, t1, t2, t3⟩ := C115_stress hsqrt hs hp
  have hS0 : 0 ≤ ∑ k, |vec 3 src.U k| := Finset.sum_nonneg fun k _ => abs_nonneg _
  have hb : ∀ i j, |symMatrix3 t i j| * sourceDist src p ^ 3 ≤ 21 * (∑ k, |vec 3 src.U k|) := fun i j => by
    rw [t3]
    unfold sourceStress
    split_ifs with hr
    · simp only [Matrix.zero_apply, abs_zero, zero_mul]
      positivity
    · have h0 : (0 : ℝ) < sourceDist src p := lt_of_lt_of_le (by norm_num) (not_lt.1 hr)
      have := pointStress_bound (vec 3 p - vec 3 src.pos) (vec 3 src.U) h0 i j
      exact (le_div_iff₀ (pow_pos h0 3)).1 this
  refine ⟨t, t1, t2, fun x hx => ?_⟩
  match t, t2 with
  | [a, b, c, d, e, f], _ =>
    simp only [List.mem_cons, List.not_mem_nil, or_false] at hx
    rcases hx with rfl | rfl | rfl | rfl | rfl | rfl
    · exact hb 0 0
    · exact hb 0 1
    · exact hb 0 2
    · exact hb 1 1
    · exact hb 1 2
    · exact hb 2 2

example := @C115_bound realSqrt exactSqrt _ exSource_OK [3, 0, 1] rfl

/-- The field does not follow the half turn about the axis of the displacement: with the displacement along `x` the entry
`xy` ought to change its sign between the points `(1, 1, 0)` and `(1, -1, 0)`, and does not. -/
theorem C115_rotation_violated (hsqrt : ∀ x : ℝ, Sqrt.sqrt x = √x) :
    ∃ t u, Source.stress ⟨[0, 0, 0], [(1 : ℝ), 0, 0]⟩ [1, 1, 0] = .ok t ∧
      Source.stress ⟨[0, 0, 0], [(1 : ℝ), 0, 0]⟩ [1, -1, 0] = .ok u ∧ num u 1 ≠ -num t 1 := by
  have ok : SourceOK ⟨[0, 0, 0], [1, 0, 0]⟩ := ⟨rfl, rfl⟩
  obtain ⟨t, t1, _, t3⟩ := C115_stress hsqrt ok (p := [1, 1, 0]) rfl
  obtain ⟨u, u1, _, u3⟩ := C115_stress hsqrt ok (p := [1, -1, 0]) rfl
  refine ⟨t, u, t1, u1, ?_⟩
  have ht : num t 1 = sourceStress ⟨[0, 0, 0], [1, 0, 0]⟩ [1, 1, 0] 0 1 := by rw [← t3]; rfl
  have hu : num u 1 = sourceStress ⟨[0, 0, 0], [1, 0, 0]⟩ [1, -1, 0] 0 1 := by rw [← u3]; rfl
  have r1 : sourceDist ⟨[0, 0, 0], [1, 0, 0]⟩ [1, 1, 0] = √2 := by rw [sourceDist_eq]; norm_num
  have r2 : sourceDist ⟨[0, 0, 0], [1, 0, 0]⟩ [1, -1, 0] = √2 := by rw [sourceDist_eq]; norm_num
  have h1 : (1 : ℝ) ≤ √2 := Real.le_sqrt_of_sq_le (by norm_num)
  have hs : ¬ √2 < (1e-10 : ℝ) := not_lt.2 (le_trans (by norm_num) h1)
  rw [ht, hu]
  unfold sourceStress
  rw [r1, r2, if_neg hs, if_neg hs]
  unfold pointStress
  have e1 : √(∑ k, (vec 3 [1, 1, 0] - vec 3 (Source.mk [0, 0, 0] [1, 0, 0]).pos : Fin 3 → ℝ) k ^ 2) = √2 := r1
  have e2 : √(∑ k, (vec 3 [1, -1, 0] - vec 3 (Source.mk [0, 0, 0] [1, 0, 0]).pos : Fin 3 → ℝ) k ^ 2) = √2 := r2
  rw [e1, e2]
  have h3 : 0 < √2 ^ 3 := by positivity
  simp [vec, num]
  intro h
  rw [neg_div] at h
  have : (√2 ^ 3)⁻¹ = 0 := by linarith
  exact absurd this (inv_pos.2 h3).ne'

example := @C115_rotation_violated realSqrt exactSqrt

/-! ## C116: the sum over the sources -/

omit [Sqrt ℝ] in
theorem six {l : List ℝ} (h : l.length = 6) : ∃ a b c d e f, l = [a, b, c, d, e, f] := by
  match l, h with
  | [a, b, c, d, e, f], _ => exact ⟨a, b, c, d, e, f, rfl⟩

omit [Sqrt ℝ] in
theorem addSix {s t : List ℝ} (hs : s.length = 6) (ht : t.length = 6) :
    forLoop (fun i s => do
      let x ← rd s i
      let y ← rd t i
      wr s i (x + y)) 0 6 s = .ok (List.zipWith (· + ·) s t) := by
  obtain ⟨a, b, c, d, e, f, rfl⟩ := six hs
  obtain ⟨a', b', c', d', e', f', rfl⟩ := six ht
  rfl

omit [Sqrt ℝ] in
theorem symMatrix3_add {s t : List ℝ} (hs : s.length = 6) (ht : t.length = 6) :
    symMatrix3 (List.zipWith (· + ·) s t) = symMatrix3 s + symMatrix3 t := by
  obtain ⟨a, b, c, d, e, f, rfl⟩ := six hs
  obtain ⟨a', b', c', d', e', f', rfl⟩ := six ht
  ext i j
  fin_cases i <;> fin_cases j <;> rfl

theorem sumStress_from (hsqrt : ∀ x : ℝ, Sqrt.sqrt x = √x) {p : List ℝ} (hp : p.length = 3) (sources : List (Source ℝ)) :
    (∀ src ∈ sources, SourceOK src) → ∀ s : List ℝ, s.length = 6 →
    ∃ t, sources.foldlM (fun s src => do
        let st ← src.stress p
        forLoop (fun i s => do
          let x ← rd s i
          let y ← rd st i
          wr s i (x + y)) 0 6 s) s = .ok t ∧ t.length = 6 ∧
      symMatrix3 t = symMatrix3 s + (sources.map fun src => sourceStress src p).sum := by
  induction sources with
  | nil => exact fun _ s hs => ⟨s, rfl, hs, by simp⟩
  | cons src sources ih =>
    intro hok s hs
    obtain ⟨u, u1, u2, u3⟩ := C115_stress hsqrt (hok src (by simp)) hp
    obtain ⟨t, t1, t2, t3⟩ := ih (fun x hx => hok x (by simp [hx])) (List.zipWith (· + ·) s u) (by simp [hs, u2])
    refine ⟨t, ?_, t2, ?_⟩
    · rw [List.foldlM_cons, u1, Res.ok_bind, addSix hs u2, Res.ok_bind]
      exact t1
    · rw [t3, symMatrix3_add hs u2, u3, List.map_cons, List.sum_cons, add_assoc]

theorem sumStress_eq (hsqrt : ∀ x : ℝ, Sqrt.sqrt x = √x) {p : List ℝ} (hp : p.length = 3) {sources : List (Source ℝ)}
    (hok : ∀ src ∈ sources, SourceOK src) :
    ∃ t, sumStress sources p = .ok t ∧ t.length = 6 ∧ symMatrix3 t = (sources.map fun src => sourceStress src p).sum := by
  obtain ⟨t, t1, t2, t3⟩ := sumStress_from hsqrt hp sources hok [0, 0, 0, 0, 0, 0] rfl
  refine ⟨t, t1, t2, ?_⟩
  rw [t3]
  have : symMatrix3 [(0 : ℝ), 0, 0, 0, 0, 0] = 0 := by
    ext i j
    fin_cases i <;> fin_cases j <;> rfl
  rw [this, zero_add]

/-- The stress at one point as a function. -/
noncomputable def totalStress (sources : List (Source ℝ)) (p : List ℝ) : List ℝ :=
  match sumStress sources p with
  | .ok t => t
  | _ => []

theorem totalStress_facts (hsqrt : ∀ x : ℝ, Sqrt.sqrt x = √x) {p : List ℝ} (hp : p.length = 3) {sources : List (Source ℝ)}
    (hok : ∀ src ∈ sources, SourceOK src) :
    sumStress sources p = .ok (totalStress sources p) ∧ (totalStress sources p).length = 6 ∧
      symMatrix3 (totalStress sources p) = (sources.map fun src => sourceStress src p).sum := by
  obtain ⟨t, t1, t2, t3⟩ := sumStress_eq hsqrt hp hok
  have : totalStress sources p = t := by unfold totalStress; rw [t1]
  rw [this]
  exact ⟨t1, t2, t3⟩

theorem stressModel_eq (hsqrt : ∀ x : ℝ, Sqrt.sqrt x = √x) {sources : List (Source ℝ)} (hok : ∀ src ∈ sources, SourceOK src)
    {points : Serie ℝ} (h : WF points) (h3 : points.itemSize = 3) (h0 : 0 < points.count) (hfit : points.count * 6 < 2 ^ 32) :
    stressModel sources points = .ok (ofItems 6 ((items points).map (totalStress sources))) := by
  unfold stressModel
  refine mapArr_ok h h0 ⟨by simp, fun i h1 h2 => ?_⟩ (by norm_num) (by norm_num) ?_ hfit
  · rw [List.getElem_map]
    exact (totalStress_facts hsqrt (by rw [h.item_length (List.getElem_mem _), h3]) hok).1
  · intro y hy
    obtain ⟨v, hv, rfl⟩ := List.mem_map.1 hy
    exact (totalStress_facts hsqrt (by rw [h.item_length hv, h3]) hok).2.1

/-- The model returns, for each point and in the order of the points, the sum of the stresses of its sources there. -/
theorem C116_sum (hsqrt : ∀ x : ℝ, Sqrt.sqrt x = √x) {sources : List (Source ℝ)} (hok : ∀ src ∈ sources, SourceOK src)
    {points : Serie ℝ} (h : WF points) (h3 : points.itemSize = 3) (h0 : 0 < points.count) (hfit : points.count * 6 < 2 ^ 32) :
    ∃ r, stressModel sources points = .ok r ∧ WF r ∧ r.itemSize = 6 ∧
      Spec.ItemWise (fun p t => symMatrix3 t = (sources.map fun src => sourceStress src p).sum) points r := by
  have hl : ∀ v ∈ (items points).map (totalStress sources), v.length = 6 := by
    intro y hy
    obtain ⟨v, hv, rfl⟩ := List.mem_map.1 hy
    exact (totalStress_facts hsqrt (by rw [h.item_length hv, h3]) hok).2.1
  refine ⟨_, stressModel_eq hsqrt hok h h3 h0 hfit, WF_ofItems (by norm_num) (by norm_num) hl (by simpa using hfit), rfl, ?_⟩
  unfold Spec.ItemWise
  rw [items_ofItems hl, List.forall₂_map_right_iff, List.forall₂_same]
  exact fun v hv => (totalStress_facts hsqrt (by rw [h.item_length hv, h3]) hok).2.2

/-- Two sources and two points. -/
noncomputable def exSources : List (Source ℝ) := [exSource, ⟨[0, 0, 0], [0, 0, 1]⟩]

def exObs : Serie ℝ := ⟨[3, 0, 1, 0, 0, 0], 2, 3, 3⟩

omit [Sqrt ℝ] in
theorem exSources_OK : ∀ src ∈ exSources, SourceOK src := by
  intro src h
  simp only [exSources, List.mem_cons, List.not_mem_nil, or_false] at h
  rcases h with rfl | rfl
  · exact exSource_OK
  · exact ⟨rfl, rfl⟩

omit [Sqrt ℝ] in
theorem exObs_WF : WF exObs := by decide

example := @C116_sum realSqrt exactSqrt _ exSources_OK _ exObs_WF rfl (by decide) (by decide)

/-- The order of the sources does not matter. -/
theorem C116_order (hsqrt : ∀ x : ℝ, Sqrt.sqrt x = √x) {sources sources' : List (Source ℝ)} (hp : sources.Perm sources')
    (hok : ∀ src ∈ sources, SourceOK src) {points : Serie ℝ} (h : WF points) (h3 : points.itemSize = 3)
    (hfit : points.count * 6 < 2 ^ 32) : stressModel sources points = stressModel sources' points := by
  rcases Nat.eq_zero_or_pos points.count with h0 | h0
  · unfold stressModel
    rw [mapArr_empty h0, mapArr_empty h0]
  have hok' : ∀ src ∈ sources', SourceOK src := fun src hs => hok src (hp.mem_iff.2 hs)
  rw [stressModel_eq hsqrt hok h h3 h0 hfit, stressModel_eq hsqrt hok' h h3 h0 hfit]
  congr 2
  refine List.map_congr_left fun v hv => ?_
  obtain ⟨_, a2, a3⟩ := totalStress_facts hsqrt (p := v) (by rw [h.item_length hv, h3]) hok
  obtain ⟨_, b2, b3⟩ := totalStress_facts hsqrt (p := v) (by rw [h.item_length hv, h3]) hok'
  exact sixExt a2 b2 (by rw [a3, b3]; exact (hp.map _).sum_eq)

example := @C116_order realSqrt exactSqrt exSources exSources.reverse (List.reverse_perm _).symm exSources_OK _ exObs_WF rfl
  (by decide)

/-- Putting the sources of two models together adds their results. -/
theorem C116_superposition (hsqrt : ∀ x : ℝ, Sqrt.sqrt x = √x) {a b : List (Source ℝ)} (ha : ∀ src ∈ a, SourceOK src)
    (hb : ∀ src ∈ b, SourceOK src) {points : Serie ℝ} (h : WF points) (h3 : points.itemSize = 3) (h0 : 0 < points.count)
    (hfit : points.count * 6 < 2 ^ 32) :
    ∃ ra rb, stressModel a points = .ok ra ∧ stressModel b points = .ok rb ∧
      add2 ra rb = stressModel (a ++ b) points := by
  have hab : ∀ src ∈ a ++ b, SourceOK src := fun src hs => (List.mem_append.1 hs).elim (ha src) (hb src)
  have hl : ∀ {l : List (Source ℝ)}, (∀ src ∈ l, SourceOK src) → ∀ v ∈ (items points).map (totalStress l), v.length = 6 := by
    intro l hl y hy
    obtain ⟨v, hv, rfl⟩ := List.mem_map.1 hy
    exact (totalStress_facts hsqrt (by rw [h.item_length hv, h3]) hl).2.1
  refine ⟨_, _, stressModel_eq hsqrt ha h h3 h0 hfit, stressModel_eq hsqrt hb h h3 h0 hfit, ?_⟩
  rw [stressModel_eq hsqrt hab h h3 h0 hfit]
  unfold add2
  rw [binOp_eq (WF_ofItems (by norm_num) (by norm_num) (hl ha) (by simpa using hfit))
    (WF_ofItems (by norm_num) (by norm_num) (hl hb) (by simpa using hfit)) ⟨rfl, by simp [ofItems]⟩]
  unfold pointwise
  rw [items_ofItems (hl ha), items_ofItems (hl hb), List.zipWith_map, List.zipWith_self]
  congr 2
  refine List.map_congr_left fun v hv => ?_
  obtain ⟨_, a2, a3⟩ := totalStress_facts hsqrt (p := v) (by rw [h.item_length hv, h3]) ha
  obtain ⟨_, b2, b3⟩ := totalStress_facts hsqrt (p := v) (by rw [h.item_length hv, h3]) hb
  obtain ⟨_, c2, c3⟩ := totalStress_facts hsqrt (p := v) (by rw [h.item_length hv, h3]) hab
  exact sixExt (by simp [a2, b2]) c2 (by rw [symMatrix3_add a2 b2, a3, b3, c3, List.map_append, List.sum_append])

example := @C116_superposition realSqrt exactSqrt _ _ exSources_OK exSources_OK _ exObs_WF rfl (by decide) (by decide)

/-- Running the model in parallel with any number of threads gives what it gives in one piece, and such a run ends. -/
theorem C116_parallel (hsqrt : ∀ x : ℝ, Sqrt.sqrt x = √x) {sources : List (Source ℝ)} (hok : ∀ src ∈ sources, SourceOK src)
    {points : Serie ℝ} (h : WF points) (h3 : points.itemSize = 3) (h0 : 0 < points.count) (hfit : points.count * 6 < 2 ^ 32)
    {n : Nat} (hn : 1 ≤ n) (dur : Nat → Nat) :
    (∃ r, ParallelExecute (stressModel sources) points n dur r) ∧
      ∀ r, ParallelExecute (stressModel sources) points n dur r → r = stressModel sources points := by
  rcases Nat.lt_or_ge 1 n with hn | hn'
  · constructor
    · obtain ⟨parts, p1, _⟩ := par_parts h h0 (n := n) (by omega)
      obtain ⟨k, jobs, r, hr⟩ := (C25_terminates (stressModel sources) points parts dur).2.2
      refine ⟨r, ?_⟩
      unfold ParallelExecute
      rw [if_neg (by omega), if_neg (by omega), p1]
      exact ⟨k, jobs, hr⟩
    · intro r hr
      rw [stressModel_eq hsqrt hok h h3 h0 hfit]
      exact par_items h h0 (by norm_num) (by norm_num) hfit
        (fun v hv => (totalStress_facts hsqrt (by rw [h.item_length hv, h3]) hok).2.1)
        (fun p hp h1 h2 _ h4 => stressModel_eq hsqrt hok hp (h1.trans h3) h2
          (lt_of_le_of_lt (Nat.mul_le_mul_right _ h4) hfit)) hn hr
  · obtain rfl : n = 1 := by omega
    exact ⟨⟨_, rfl⟩, fun r hr => hr⟩

example := @C116_parallel realSqrt exactSqrt _ exSources_OK _ exObs_WF rfl (by decide) (by decide) 12 (by decide) fun i => 7 * i

omit [Sqrt ℝ] in
theorem modelSources_eq (n : Nat) : ∃ grid : Serie ℝ, fromPoints [100, 100] [-1, -1, -1] [(1 : ℝ), 1, 1] = .ok grid ∧
    WF grid ∧ grid.itemSize = 3 ∧ grid.count = 10000 ∧
    modelSources n = .ok ((items grid).map fun pos => (⟨pos, [1, 0, 0]⟩ : Source ℝ)) := by
  obtain ⟨grid, g1, g2, g3, g4, _⟩ := C62_points (npts := [100, 100]) (by simp) (by simp) (p1 := [-1, -1, -1])
    (p2 := [(1 : ℝ), 1, 1]) rfl rfl (by norm_num)
  refine ⟨grid, g1, g2, g3, by rw [g4]; rfl, ?_⟩
  unfold modelSources
  rw [g1, Res.ok_bind]
  rw [(exec_forEachV (Inv := fun _ => True) g2 (by omega) (f := fun pos _ => Eff.update fun sources =>
    pure (sources ++ [(⟨pos, [1, 0, 0]⟩ : Source ℝ)])) (step := fun l pos => l ++ [(⟨pos, [1, 0, 0]⟩ : Source ℝ)]) trivial
    (fun x _ _ st _ => ⟨Eff.update_ok rfl, trivial⟩)).1]
  have key : ∀ (l : List (List ℝ)) (acc : List (Source ℝ)),
      l.foldl (fun l pos => l ++ [(⟨pos, [1, 0, 0]⟩ : Source ℝ)]) acc = acc ++ l.map fun pos => ⟨pos, [1, 0, 0]⟩ := by
    intro l
    induction l with
    | nil => simp
    | cons x l ih => intro acc; simp [ih]
  rw [key, List.nil_append]

omit [Sqrt ℝ] in
/-- Whatever the number that is asked for, the model has 10000 sources; their displacement is `(1, 0, 0)` and they are in the
plane `z = -1`, source `i + 100 j` being at `x = -1 + 2 i / 99`, `y = -1 + 2 j / 99`. -/
theorem C116_sources_partial (n : Nat) : ∃ l : List (Source ℝ), modelSources n = .ok l ∧ l.length = 10000 ∧
    (∀ src ∈ l, SourceOK src) ∧
    ∀ i j : Nat, i < 100 → j < 100 → l[i + 100 * j]? = some ⟨[-1 + 2 * i / 99, -1 + 2 * j / 99, -1], [1, 0, 0]⟩ := by
  obtain ⟨grid, g1, g2, g3, g4, g5⟩ := modelSources_eq n
  obtain ⟨grid', g1', _, _, _, h⟩ := C62_points (npts := [100, 100]) (by simp) (by simp) (p1 := [-1, -1, -1])
    (p2 := [(1 : ℝ), 1, 1]) rfl rfl (by norm_num)
  rw [g1] at g1'
  cases g1'
  refine ⟨_, g5, by rw [List.length_map, items_length, g4], ?_, fun i j hi hj => ?_⟩
  · intro src hs
    obtain ⟨v, hv, rfl⟩ := List.mem_map.1 hs
    exact ⟨by rw [g2.item_length hv, g3], rfl⟩
  · have := h i j 0 hi hj (by simp [axisCount])
    simp only [axisCount, List.getElem?_cons_zero, List.getElem?_cons_succ, Option.getD_some, mul_zero, add_zero] at this
    have e : ∀ i : Nat, axisPoint 100 (-1 : ℝ) 1 i = -1 + 2 * i / 99 := fun i => by
      unfold axisPoint
      norm_num
      ring
    have e' : axisPoint 1 (-1 : ℝ) 1 0 = -1 := by simp [axisPoint]
    have this : (items grid)[i + 100 * j]? = some [axisPoint 100 (-1 : ℝ) 1 i, axisPoint 100 (-1 : ℝ) 1 j,
      axisPoint 1 (-1 : ℝ) 1 0] := this
    rw [List.getElem?_map, this, Option.map_some, e, e, e']

omit [Sqrt ℝ] in
/-- Asking for 3 sources gives 10000. -/
theorem C116_sources_violated : ∃ l : List (Source ℝ), modelSources 3 = .ok l ∧ l.length ≠ 3 := by
  obtain ⟨l, h1, h2, _⟩ := C116_sources_partial 3
  exact ⟨l, h1, by rw [h2]; decide⟩

/-- The whole program: with the sources of the model and the grid of a million points, every run of the twelve threads ends
with the sums of the 10000 stresses, point after point. -/
theorem C116_program (hsqrt : ∀ x : ℝ, Sqrt.sqrt x = √x) (nbSources : Nat) (dur : Nat → Nat) :
    ∃ sources grid, modelSources nbSources = .ok sources ∧
      fromPoints [100, 100, 100] [-10, -10, -10] [(10 : ℝ), 10, 10] = .ok grid ∧ grid.count = 1000000 ∧
      (∃ r, ParallelExecute (stressModel sources) grid 12 dur r) ∧
      ∀ r, ParallelExecute (stressModel sources) grid 12 dur r → ∃ stress, r = .ok stress ∧ WF stress ∧ stress.itemSize = 6 ∧
        Spec.ItemWise (fun p t => symMatrix3 t = (sources.map fun src => sourceStress src p).sum) grid stress := by
  obtain ⟨sources, s1, _, s3, _⟩ := C116_sources_partial nbSources
  obtain ⟨grid, g1, g2, g3, g4, _⟩ := C62_points (npts := [100, 100, 100]) (by simp) (by simp) (p1 := [-10, -10, -10])
    (p2 := [(10 : ℝ), 10, 10]) rfl rfl (by norm_num)
  have g4 : grid.count = 1000000 := g4
  obtain ⟨h1, h2⟩ := C116_parallel hsqrt s3 g2 g3 (by omega) (by omega) (n := 12) (by omega) dur
  obtain ⟨stress, t1, t2, t3, t4⟩ := C116_sum hsqrt s3 g2 g3 (by omega) (by omega)
  exact ⟨sources, grid, s1, g1, g4, h1, fun r hr => ⟨stress, by rw [h2 r hr, t1], t2, t3, t4⟩⟩

example := @C116_program realSqrt exactSqrt 10000 fun i => 7 * i

end stress

/-! ## C117: critical stress -/

section select

variable {α : Type} [Zero α] [LT α] [DecidableLT α]

omit [Zero α] [LT α] [DecidableLT α] in
theorem zip_range {β γ : Type} {a : List β} {b : List γ} (x : β) (y : γ) (h : a.length ≤ b.length) :
    a.zip b = (List.range a.length).map fun i => ((a[i]?).getD x, (b[i]?).getD y) := by
  refine List.ext_getElem (by simp; omega) fun i h1 h2 => ?_
  have h3 : i < a.length := by simpa using h2
  simp [List.getElem_zip, List.getElem?_eq_getElem h3, List.getElem?_eq_getElem (show i < b.length by omega)]

/-- The pairs of an item of `vals` and an item of `positions` with the same index, for the items of `vals` whose first number is
negative. -/
def compressed (positions vals : Serie α) : List (List α × List α) :=
  ((items vals).zip (items positions)).filter fun q => num q.1 0 < 0

theorem select_indices {vals : Serie α} (h : WF vals) :
    forLoop (fun i (idx : List Nat) => do
      let v ← vals.getA i
      let x ← rd v 0
      pure (if x < 0 then idx ++ [i] else idx)) 0 vals.count [] =
    (.ok ((List.range vals.count).filter fun i => num (((items vals)[i]?).getD []) 0 < 0) : Res (List Nat)) := by
  have := forLoop_exact (m := Res) (f := fun i (idx : List Nat) => do
      let v ← vals.getA i
      let x ← rd v 0
      pure (if x < 0 then idx ++ [i] else idx))
    (fun n => (List.range n).filter fun i => num (((items vals)[i]?).getD []) 0 < 0) vals.count 0 ?_
  · rw [Nat.zero_add] at this
    exact this
  · intro i _ hi
    have hi' : i < (items vals).length := by rw [items_length]; omega
    have hl := h.item_length (List.getElem_mem hi')
    have hp := h.pos
    rw [Serie.getA_items h hi', Res.ok_bind, rd_of_lt (by omega), Res.ok_bind]
    have e : num (((items vals)[i]?).getD []) 0 = (items vals)[i][0]'(by omega) := by
      rw [List.getElem?_eq_getElem hi', Option.getD_some, num, List.getElem?_eq_getElem (by omega), Option.getD_some]
    rw [List.range_succ, List.filter_append]
    congr 1
    split_ifs with hx
    · simp [e, hx]
    · simp [e, hx]

theorem select_eq {positions vals : Serie α} (hp : WF positions) (hv : WF vals) (hc : vals.count ≤ positions.count) :
    selectCompressed positions vals = .ok (ofItems vals.itemSize ((compressed positions vals).map (·.1)),
      ofItems positions.itemSize ((compressed positions vals).map (·.2))) := by
  unfold selectCompressed
  rw [select_indices hv, Res.ok_bind]
  set idx := (List.range vals.count).filter fun i => num (((items vals)[i]?).getD []) 0 < 0 with hidx
  have hL : compressed positions vals = idx.map fun i => (((items vals)[i]?).getD [], ((items positions)[i]?).getD []) := by
    unfold compressed
    rw [zip_range [] [] (by rw [items_length, items_length]; exact hc), List.filter_map, items_length]
    rfl
  have hidxc : ∀ i ∈ idx, i < vals.count := fun i hi => List.mem_range.1 (List.mem_of_mem_filter hi)
  have hlen : idx.length ≤ vals.count := by
    have := List.length_filter_le (fun i => decide (num (((items vals)[i]?).getD []) 0 < 0)) (List.range vals.count)
    rwa [List.length_range] at this
  rw [hL]
  have hsm : vals.count < 2 ^ 32 := hv.count_lt
  have hf1 : idx.length * vals.itemSize < 2 ^ 32 :=
    Nat.lt_of_le_of_lt (Nat.le_trans (Nat.mul_le_mul_right _ hlen) hv.fits) hv.small
  have hf2 : idx.length * positions.itemSize < 2 ^ 32 :=
    Nat.lt_of_le_of_lt (Nat.le_trans (Nat.mul_le_mul_right _ (hlen.trans hc)) hp.fits) hp.small
  rw [u32_of_lt (by omega), zeros_eq_partialS hf1, zeros_eq_partialS hf2, List.map_map, List.map_map]
  set vs := idx.map ((fun q : List α × List α => q.1) ∘ fun i => (((items vals)[i]?).getD [], ((items positions)[i]?).getD []))
    with hvs
  set ps := idx.map ((fun q : List α × List α => q.2) ∘ fun i => (((items vals)[i]?).getD [], ((items positions)[i]?).getD []))
    with hps
  have lvs : vs.length = idx.length := by simp [hvs]
  have lps : ps.length = idx.length := by simp [hps]
  have hvl : ∀ v ∈ vs, v.length = vals.itemSize := by
    intro v hv'
    obtain ⟨i, hi, rfl⟩ := List.mem_map.1 hv'
    have : i < (items vals).length := by rw [items_length]; exact hidxc i hi
    simp only [Function.comp_apply, List.getElem?_eq_getElem this, Option.getD_some]
    exact hv.item_length (List.getElem_mem _)
  have hpl : ∀ v ∈ ps, v.length = positions.itemSize := by
    intro v hv'
    obtain ⟨i, hi, rfl⟩ := List.mem_map.1 hv'
    have : i < (items positions).length := by rw [items_length]; exact lt_of_lt_of_le (hidxc i hi) hc
    simp only [Function.comp_apply, List.getElem?_eq_getElem this, Option.getD_some]
    exact hp.item_length (List.getElem_mem _)
  have := forLoop_exact (m := Res) (f := fun i (p : Serie α × Serie α) => do
    let k ← rd idx i
    let pos ← positions.getA k
    let fp ← p.2.putA i pos
    let k ← rd idx i
    let val ← vals.getA k
    let fs ← p.1.putA i val
    pure (fs, fp))
    (fun i => (partialS vals.itemSize idx.length 3 (vs.take i), partialS positions.itemSize idx.length 3 (ps.take i)))
    idx.length 0 ?_
  · rw [List.take_zero, List.take_zero, Nat.zero_add, List.take_of_length_le lvs.le, List.take_of_length_le lps.le] at this
    rw [this]
    conv_lhs => rw [← lvs, partialS_done, lvs, ← lps, partialS_done]
    rfl
  · intro i _ hi
    have hi : i < idx.length := by omega
    have h1 : idx[i] < (items vals).length := by rw [items_length]; exact hidxc _ (List.getElem_mem _)
    have h2 : idx[i] < (items positions).length := by
      rw [items_length]; exact lt_of_lt_of_le (hidxc _ (List.getElem_mem _)) hc
    have e1 := putA_partialS (d := 3) (n := idx.length) (done := vs.take i) (v := (items vals)[idx[i]]) hv.pos hv.int
      (fun v hv => hvl v (List.mem_of_mem_take hv)) (by simp; omega) hf1 (hv.item_length (List.getElem_mem _))
    have e2 := putA_partialS (d := 3) (n := idx.length) (done := ps.take i) (v := (items positions)[idx[i]]) hp.pos hp.int
      (fun v hv => hpl v (List.mem_of_mem_take hv)) (by simp; omega) hf2 (hp.item_length (List.getElem_mem _))
    rw [List.length_take, Nat.min_eq_left (by omega)] at e1 e2
    rw [rd_of_lt hi, Res.ok_bind, Serie.getA_items hp h2, Res.ok_bind, e2, Res.ok_bind, Res.ok_bind, Serie.getA_items hv h1,
      Res.ok_bind, e1, Res.ok_bind, List.take_add_one, List.take_add_one, List.getElem?_eq_getElem (by omega),
      List.getElem?_eq_getElem (by omega)]
    simp [hvs, hps, List.getElem?_eq_getElem h1, List.getElem?_eq_getElem h2]

/-- The two Series that are selected hold the items with a negative first number and the positions with the same indices, in
order: item `i` of the one goes with item `i` of the other. -/
theorem C117_select_partial {positions vals : Serie α} (hp : WF positions) (hv : WF vals) (hc : vals.count ≤ positions.count) :
    ∃ fs fp, selectCompressed positions vals = .ok (fs, fp) ∧ WF fs ∧ WF fp ∧ fs.itemSize = vals.itemSize ∧
      fp.itemSize = positions.itemSize ∧ fs.count = fp.count ∧
      (items fs).zip (items fp) = ((items vals).zip (items positions)).filter fun q => num q.1 0 < 0 := by
  have hlen : (compressed positions vals).length ≤ vals.count := by
    unfold compressed
    refine le_trans (List.length_filter_le _ _) ?_
    rw [List.length_zip, items_length]
    exact Nat.min_le_left _ _
  have h1 : ∀ v ∈ (compressed positions vals).map (·.1), v.length = vals.itemSize := by
    intro v h
    obtain ⟨q, hq, rfl⟩ := List.mem_map.1 h
    exact hv.item_length (List.of_mem_zip (List.mem_of_mem_filter hq)).1
  have h2 : ∀ v ∈ (compressed positions vals).map (·.2), v.length = positions.itemSize := by
    intro v h
    obtain ⟨q, hq, rfl⟩ := List.mem_map.1 h
    exact hp.item_length (List.of_mem_zip (List.mem_of_mem_filter hq)).2
  refine ⟨_, _, select_eq hp hv hc, WF_ofItems hv.pos hv.int h1 ?_, WF_ofItems hp.pos hp.int h2 ?_, rfl, rfl,
    by simp [ofItems], ?_⟩
  · rw [List.length_map]
    exact Nat.lt_of_le_of_lt (Nat.le_trans (Nat.mul_le_mul_right _ hlen) hv.fits) hv.small
  · rw [List.length_map]
    exact Nat.lt_of_le_of_lt (Nat.le_trans (Nat.mul_le_mul_right _ (hlen.trans hc)) hp.fits) hp.small
  · rw [items_ofItems h1, items_ofItems h2, List.zip_map', compressed]
    simp

example := C117_select_partial (positions := ex23) (vals := ex23) (by decide) (by decide) (Nat.le_refl _)

example : selectCompressed (⟨[1, 2, 3, 4, 5, 6, 7, 8, 9], 3, 3, 3⟩ : Serie Int) ⟨[-1, 5, 2, 6, -3, 7], 3, 2, 3⟩ =
    .ok (⟨[-1, 5, -3, 7], 2, 2, 3⟩, ⟨[1, 2, 3, 7, 8, 9], 2, 3, 3⟩) := by decide +kernel

/-- With fewer positions than selected items the program reads outside the positions. -/
theorem C117_select_violated : selectCompressed (⟨[1, 2, 3], 1, 3, 3⟩ : Serie Int) ⟨[-1, 0, 0, -2, 0, 0], 2, 3, 3⟩ = .ub := by
  decide +kernel

end select

section index

variable {α : Type} [Zero α] [One α] [Sub α] [Neg α] [Mul α] [Div α] [OfScientific α] [Trig α] [Exp α]

/-- The index of a tensor with the given principal values at the given position. -/
def indexOf (cohesion frictionAngle : α) (values pos : List α) : α :=
  (num values 0 - num values 2) / (2.0 * cohesion * Trig.cos frictionAngle / (1 - Trig.sin frictionAngle)) *
    Exp.exp (-(-num pos 2) / 1000.0)

theorem index_eq (c φ : α) {stress positions : Serie α} (hs : WF stress) (hp : WF positions) (hc : stress.count ≤ positions.count)
    (h3 : 3 ≤ stress.itemSize) (h3' : 3 ≤ positions.itemSize) :
    criticalityIndex c φ stress positions = .ok (ofScalars (List.zipWith (indexOf c φ) (items stress) (items positions))) := by
  unfold criticalityIndex
  have hl : (List.zipWith (indexOf c φ) (items stress) (items positions)).length = stress.count := by
    rw [List.length_zipWith, items_length, items_length]; omega
  have := forLoop_putD (d := 3) (g := fun i => do
    let values ← stress.getA i
    let pos ← positions.getA i
    let sigma1 ← rd values 0
    let sigma3 ← rd values 2
    let z ← rd pos 2
    pure ((sigma1 - sigma3) / (2.0 * c * Trig.cos φ / (1 - Trig.sin φ)) * Exp.exp (-(-z) / 1000.0)))
    (List.zipWith (indexOf c φ) (items stress) (items positions)) (by rw [hl]; exact hs.count_lt) ?_
  · rw [hl] at this
    rw [← this]
    simp only [bind_assoc, pure_bind]
  · intro i hi
    have h1 : i < (items stress).length := by rw [items_length]; omega
    have h2 : i < (items positions).length := by rw [items_length]; omega
    have l1 := hs.item_length (List.getElem_mem h1)
    have l2 := hp.item_length (List.getElem_mem h2)
    rw [Serie.getA_items hs h1, Res.ok_bind, Serie.getA_items hp h2, Res.ok_bind, rd_of_lt (by omega), Res.ok_bind,
      rd_of_lt (by omega), Res.ok_bind, rd_of_lt (by omega), Res.ok_bind, List.getElem_zipWith]
    unfold indexOf num
    rw [List.getElem?_eq_getElem (show 0 < (items stress)[i].length by omega),
      List.getElem?_eq_getElem (show 2 < (items stress)[i].length by omega),
      List.getElem?_eq_getElem (show 2 < (items positions)[i].length by omega)]
    rfl

end index

section pipeline

/-- The quadratic form of a matrix is close to that of the computed values and vectors. -/
theorem quad_close {n : Nat} {A : Matrix (Fin n) (Fin n) ℝ} {e w : List ℝ} (ho : Orthonormal n w) (x : Fin n → ℝ) :
    (quad A x - ∑ k : Fin n, num e k * (∑ i, fullMatrix n w k i * x i) ^ 2) ^ 2 ≤
      residualSq A e w * (∑ i, x i ^ 2) ^ 2 := by
  have e1 : quad A x - ∑ k : Fin n, num e k * (∑ i, fullMatrix n w k i * x i) ^ 2 =
      ∑ p : Fin n × Fin n, (A p.1 p.2 - ∑ k : Fin n, num e k * fullMatrix n w k p.1 * fullMatrix n w k p.2) * (x p.1 * x p.2) := by
    rw [Fintype.sum_prod_type]
    simp only [sub_mul, Finset.sum_sub_distrib]
    congr 1
    · unfold quad
      exact Finset.sum_congr rfl fun i _ => Finset.sum_congr rfl fun j _ => by ring
    · simp only [Finset.sum_mul]
      rw [Finset.sum_congr rfl fun i (_ : i ∈ Finset.univ) => Finset.sum_comm, Finset.sum_comm]
      refine Finset.sum_congr rfl fun k _ => ?_
      rw [pow_two, Finset.sum_mul_sum, Finset.mul_sum]
      refine Finset.sum_congr rfl fun i _ => ?_
      rw [Finset.mul_sum]
      exact Finset.sum_congr rfl fun j _ => by ring
  have e2 : ∑ p : Fin n × Fin n, (x p.1 * x p.2) ^ 2 = (∑ i, x i ^ 2) ^ 2 := by
    rw [Fintype.sum_prod_type, pow_two (∑ i, x i ^ 2), Finset.sum_mul_sum]
    exact Finset.sum_congr rfl fun i _ => Finset.sum_congr rfl fun j _ => by ring
  have e3 : ∑ p : Fin n × Fin n, (A p.1 p.2 - ∑ k : Fin n, num e k * fullMatrix n w k p.1 * fullMatrix n w k p.2) ^ 2 =
      residualSq A e w := by
    rw [Fintype.sum_prod_type]
    exact rebuild_eq ho
  rw [e1, ← e2, ← e3]
  exact Finset.sum_mul_sq_le_sq_mul_sq _ _ _

theorem ItemWise3.first {R : List ℝ → List ℝ → List ℝ → Prop} {a b r : Serie ℝ} (h : ItemWise3 R a b r)
    {Q : List ℝ → List ℝ → Prop} (hi : ∀ t e w, R t e w → Q t e) : Spec.ItemWise Q a b := by
  unfold Spec.ItemWise
  rw [List.forall₂_iff_zip]
  refine ⟨by rw [items_length, items_length, h.1], fun {t e} hm => ?_⟩
  obtain ⟨i, hi', hx⟩ := List.getElem_of_mem hm
  have hlen := h.2.length_eq
  have := h.2.get (i := i) hi' (by omega)
  rw [List.get_eq_getElem, hx] at this
  exact hi _ _ _ this

variable [Trig ℝ] {n : Nat} {s : Serie ℝ}

/-- Which tensors are selected: those that are negative definite by a margin are, those that are positive by a margin in some
direction are not. The margin `δ` need only exceed the accuracy of the eigen values. -/
theorem C117_definite (ht : ExactTrig) (h : WF s) (hs : EigenShape n s) (hfit : s.count * (n * n) < 2 ^ 32) :
    ∃ val vecs, eigenSystem s = .ok (val, vecs) ∧ Spec.ItemWise (fun t e => ∀ δ, 0 < δ →
      2 * (0.00001 * offDiag (symMatrix n t)) < δ ^ 2 →
        ((∀ x, quad (symMatrix n t) x ≤ -δ * ∑ i, x i ^ 2) → num e 0 < 0) ∧
        ((∃ x, 0 < ∑ i, x i ^ 2 ∧ δ * ∑ i, x i ^ 2 ≤ quad (symMatrix n t) x) → ¬ num e 0 < 0)) s val := by
  have hn0 : 0 < n := hs.le.1
  obtain ⟨val, vecs, h1, _, _, _, _, _, _, h6, _⟩ := eigen_facts ht h hs hfit
  refine ⟨val, vecs, h1, ItemWise3.first h6 fun t e w hf δ hδ hsmall => ⟨fun hneg => ?_, ?_⟩⟩
  · have hq := quad_close hf.orth (A := symMatrix n t) (e := e) (fullMatrix n w ⟨0, hn0⟩)
    have hnorm : ∑ i, fullMatrix n w ⟨0, hn0⟩ i ^ 2 = 1 := by
      have := hf.orth.2 ⟨0, hn0⟩ ⟨0, hn0⟩
      rw [if_pos rfl] at this
      rw [← this]
      exact Finset.sum_congr rfl fun i _ => by ring
    have hsum : ∑ k : Fin n, num e k * (∑ i, fullMatrix n w k i * fullMatrix n w ⟨0, hn0⟩ i) ^ 2 = num e 0 := by
      rw [Finset.sum_eq_single ⟨0, hn0⟩]
      · rw [hf.orth.2, if_pos rfl]
        simp
      · intro k _ hk
        rw [hf.orth.2, if_neg hk]
        simp
      · intro hh
        exact absurd (Finset.mem_univ _) hh
    rw [hnorm, hsum, one_pow, mul_one] at hq
    have hb := hneg (fullMatrix n w ⟨0, hn0⟩)
    rw [hnorm, mul_one] at hb
    by_contra hc
    have hres := hf.res
    nlinarith [not_lt.1 hc]
  · rintro ⟨x, hx0, hx⟩ hc
    have hq := quad_close hf.orth (A := symMatrix n t) (e := e) x
    have hle : ∀ k : Fin n, num e k ≤ num e 0 := fun k => hf.sorted ⟨0, hn0⟩ k (Fin.mk_le_of_le_val (Nat.zero_le _))
    have hsum : ∑ k : Fin n, num e k * (∑ i, fullMatrix n w k i * x i) ^ 2 ≤ 0 :=
      Finset.sum_nonpos fun k _ => mul_nonpos_of_nonpos_of_nonneg ((hle k).trans hc.le) (sq_nonneg _)
    generalize ∑ k : Fin n, num e k * (∑ i, fullMatrix n w k i * x i) ^ 2 = S at hq hsum
    have hres := hf.res
    have h1 : (δ * ∑ i, x i ^ 2) ^ 2 ≤ (quad (symMatrix n t) x - S) ^ 2 := by
      apply pow_le_pow_left₀ (by positivity)
      linarith
    have h2 : residualSq (symMatrix n t) e w * (∑ i, x i ^ 2) ^ 2 < δ ^ 2 * (∑ i, x i ^ 2) ^ 2 :=
      mul_lt_mul_of_pos_right (lt_of_le_of_lt hres hsmall) (by positivity)
    rw [mul_pow] at h1
    linarith

example := @C117_definite realTrig _ _ exactTrig exEig3_WF exEig3_shape (by decide)

variable [Exp ℝ]

theorem pipeline_eq (ht : ExactTrig) (c φ : ℝ) {positions stress : Serie ℝ} (hp : WF positions) (hs : WF stress)
    (hsh : EigenShape 3 stress) (hc : stress.count ≤ positions.count) (h3 : 3 ≤ positions.itemSize)
    (hfit : stress.count * 9 < 2 ^ 32) :
    ∃ val vecs, eigenSystem stress = .ok (val, vecs) ∧
      criticalPipeline c φ positions stress = .ok (ofScalars ((compressed positions val).map fun q => indexOf c φ q.1 q.2)) ∧
      (compressed positions val).length ≤ stress.count ∧ Spec.ItemWise (fun _ e => num e 2 ≤ num e 0) stress val := by
  obtain ⟨val, vecs, h1, h2, _, h4, _, h5, _, h6, _⟩ := eigen_facts ht hs hsh hfit
  obtain ⟨fs, fp, e1, e2, e3, e4, e5, e6, e7⟩ := C117_select_partial hp h2 (h5.le.trans hc)
  refine ⟨val, vecs, h1, ?_, ?_, ItemWise3.first h6 fun t e w hf => hf.sorted 0 2 (by decide)⟩
  · unfold criticalPipeline
    rw [h1, Res.ok_bind, e1, Res.ok_bind, index_eq c φ e2 e3 e6.le (by omega) (by omega)]
    congr 2
    unfold compressed
    rw [← e7, List.zip, List.map_zipWith]
  · unfold compressed
    refine le_trans (List.length_filter_le _ _) ?_
    rw [List.length_zip, items_length, h5]
    exact Nat.min_le_left _ _

/-- The whole computation: one index for each tensor whose largest principal value is negative, in order, with the depth taken
from the position of the same tensor. -/
theorem C117_pipeline_partial (ht : ExactTrig) (hexp : ∀ x : ℝ, Exp.exp x = Real.exp x) {c φ : ℝ} (hc0 : c ≠ 0)
    (hφ : Real.cos φ ≠ 0) {positions stress : Serie ℝ} (hp : WF positions) (hs : WF stress)
    (hsh : EigenShape 3 stress) (hc : stress.count ≤ positions.count) (h3 : 3 ≤ positions.itemSize)
    (hfit : stress.count * 9 < 2 ^ 32) :
    ∃ val vecs r, eigenSystem stress = .ok (val, vecs) ∧ criticalPipeline c φ positions stress = .ok r ∧ WF r ∧ r.itemSize = 1 ∧
      scalars r = (((items val).zip (items positions)).filter fun q => num q.1 0 < 0).map fun q =>
        (num q.1 0 - num q.1 2) * (1 - Real.sin φ) / (2 * c * Real.cos φ) * Real.exp (num q.2 2 / 1000) := by
  obtain ⟨val, vecs, h1, h2, h4, _⟩ := pipeline_eq ht c φ hp hs hsh hc h3 hfit
  have := hs.count_lt
  refine ⟨val, vecs, _, h1, h2, WF_ofScalars (by rw [List.length_map]; omega), rfl, ?_⟩
  rw [scalars_ofScalars]
  refine List.map_congr_left fun q _ => ?_
  unfold indexOf
  rw [ht.cos, ht.sin, hexp, neg_neg]
  have hsin : 1 - Real.sin φ ≠ 0 := by
    intro h
    have := Real.sin_sq_add_cos_sq φ
    rw [← sub_eq_zero.1 h] at this
    exact hφ (pow_eq_zero_iff (two_ne_zero)|>.1 (by linarith))
  norm_num
  field_simp

/-- For a positive cohesion and a friction angle between 0 and 90 degrees no index is negative. -/
theorem C117_nonneg (ht : ExactTrig) (hexp : ∀ x : ℝ, Exp.exp x = Real.exp x) {c φ : ℝ} (hc0 : 0 < c)
    (hφ0 : 0 ≤ φ) (hφ : φ < Real.pi / 2) {positions stress : Serie ℝ} (hp : WF positions) (hs : WF stress)
    (hsh : EigenShape 3 stress) (hc : stress.count ≤ positions.count) (h3 : 3 ≤ positions.itemSize)
    (hfit : stress.count * 9 < 2 ^ 32) :
    ∃ r, criticalPipeline c φ positions stress = .ok r ∧ ∀ x ∈ scalars r, 0 ≤ x := by
  obtain ⟨val, vecs, h1, h2, _, h5⟩ := pipeline_eq ht c φ hp hs hsh hc h3 hfit
  refine ⟨_, h2, fun x hx => ?_⟩
  rw [scalars_ofScalars] at hx
  obtain ⟨q, hq, rfl⟩ := List.mem_map.1 hx
  have hm := (List.of_mem_zip (List.mem_of_mem_filter hq)).1
  obtain ⟨i, hi, e⟩ := List.getElem_of_mem hm
  have hle := h5.get (i := i) (by rw [h5.length_eq]; exact hi) hi
  simp only [List.get_eq_getElem, e] at hle
  unfold indexOf
  rw [ht.cos, ht.sin, hexp]
  have hcos : 0 < Real.cos φ := Real.cos_pos_of_mem_Ioo ⟨by linarith [Real.pi_pos], hφ⟩
  have hsin : 0 ≤ 1 - Real.sin φ := by linarith [Real.sin_le_one φ]
  have := Real.exp_pos (- -num q.2 2 / 1000.0)
  have : 0 ≤ num q.1 0 - num q.1 2 := by linarith
  have : 0 ≤ 2.0 * c * Real.cos φ / (1 - Real.sin φ) := div_nonneg (by positivity) hsin
  positivity

/-- The positions and tensors of the program. -/
def progPositions : Serie ℝ := ⟨[0, 0, 0, 1, 0, 0, 2, 0, 0], 3, 3, 3⟩

def progStress : Serie ℝ := ⟨[-2, 4, 6, -3, 6, -9, 1, 2, 3, 4, 5, 6, 9, 8, 7, 6, 5, 4], 3, 6, 3⟩

omit [Trig ℝ] [Exp ℝ] in
theorem progPositions_WF : WF progPositions := by decide

omit [Trig ℝ] [Exp ℝ] in
theorem progStress_WF : WF progStress := by decide

omit [Trig ℝ] [Exp ℝ] in
theorem progStress_shape : EigenShape 3 progStress := ⟨rfl, .inr ⟨rfl, rfl⟩⟩

noncomputable abbrev realExp : Exp ℝ := ⟨Real.exp⟩

example := @C117_pipeline_partial realTrig realExp exactTrig (fun _ => rfl) 1 0 one_ne_zero (by simp) _ _ progPositions_WF
  progStress_WF progStress_shape (Nat.le_refl _) (Nat.le_refl _) (by decide)
example := @C117_nonneg realTrig realExp exactTrig (fun _ => rfl) 1 0 one_pos le_rfl (by positivity) _ _ progPositions_WF
  progStress_WF progStress_shape (Nat.le_refl _) (Nat.le_refl _) (by decide)

/-- With the tensors of the program nothing is selected, whatever the cohesion and the angle: the result is empty. The mean that
is printed then is NaN. -/
theorem C117_program_violated (ht : ExactTrig) (c φ : ℝ) :
    criticalPipeline c φ progPositions progStress = .ok (ofScalars []) ∧
      mean (ofScalars [] : Serie (Ext ℝ)) = .ok (.number .nan) := by
  refine ⟨?_, C96_mean_empty_violated (by decide) rfl rfl⟩
  obtain ⟨val, vecs, h1, h2, _, _⟩ := pipeline_eq ht c φ progPositions_WF progStress_WF progStress_shape (Nat.le_refl _)
    (Nat.le_refl _) (by decide)
  obtain ⟨val', vecs', h1', h3⟩ := C117_definite ht progStress_WF progStress_shape (by decide)
  rw [h1] at h1'
  cases h1'
  rw [h2]
  suffices key : compressed progPositions val = [] by rw [key]; rfl
  unfold compressed
  rw [List.filter_eq_nil_iff]
  intro q hq
  rw [decide_eq_true_eq]
  obtain ⟨i, hi, e⟩ := List.getElem_of_mem (List.of_mem_zip hq).1
  have hi' : i < (items progStress).length := by rw [h3.length_eq]; exact hi
  have hd := h3.get (i := i) hi' hi
  simp only [List.get_eq_getElem, e] at hd
  have key : ∀ t ∈ items progStress, 2 * (0.00001 * offDiag (symMatrix 3 t)) < (1 : ℝ) ^ 2 ∧
      0 < ∑ i : Fin 3, (fun _ => (1 : ℝ)) i ^ 2 ∧
      1 * ∑ i : Fin 3, (fun _ => (1 : ℝ)) i ^ 2 ≤ quad (symMatrix 3 t) fun _ => 1 := by
    intro t hm
    have hit : items progStress = [[-2, 4, 6, -3, 6, -9], [1, 2, 3, 4, 5, 6], [9, 8, 7, 6, 5, 4]] := rfl
    rw [hit] at hm
    simp only [List.mem_cons, List.not_mem_nil, or_false] at hm
    rcases hm with rfl | rfl | rfl <;>
      (refine ⟨?_, by simp, ?_⟩ <;>
        simp [offDiag, quad, symMatrix, symMatrix3, num, Fin.sum_univ_three] <;> norm_num)
  obtain ⟨k1, k2, k3⟩ := key _ (List.getElem_mem hi')
  exact (hd 1 one_pos k1).2 ⟨_, k2, k3⟩

example := @C117_program_violated realTrig realExp exactTrig 0 (Real.pi / 6)

end pipeline

section cohesion

variable {α : Type} [Field α] [LinearOrder α] [IsStrictOrderedRing α]

omit [LinearOrder α] [IsStrictOrderedRing α] in
theorem num_finite {s : Serie (Ext α)} (h : WF s) (hf : ∀ x ∈ s.data, IsFinite x) {v : List (Ext α)} (hv : v ∈ items s) {k : Nat}
    (hk : k < s.itemSize) : IsFinite (num v k) := by
  have hl := h.item_length hv
  unfold num
  rw [List.getElem?_eq_getElem (by omega), Option.getD_some]
  have : v[k] ∈ (items s).flatten := List.mem_flatten.2 ⟨v, hv, List.getElem_mem _⟩
  rw [items_flatten] at this
  exact hf _ (List.mem_of_mem_take this)

/-- The cohesion of the program is zero. Then no index is a finite number: it is an infinity, or NaN where the two principal
values agree. -/
theorem C117_cohesion_violated [Trig (Ext α)] [Exp (Ext α)] {φ : Ext α} {cs sn : α} (hcos : Trig.cos φ = .fin cs)
    (hsin : Trig.sin φ = .fin sn) (hsn : sn ≠ 1) (hexp : ∀ x : α, ∃ y, 0 < y ∧ Exp.exp (.fin x : Ext α) = .fin y)
    {stress positions : Serie (Ext α)} (hs : WF stress) (hp : WF positions) (hc : stress.count ≤ positions.count)
    (h3 : 3 ≤ stress.itemSize) (h3' : 3 ≤ positions.itemSize) (hfs : ∀ x ∈ stress.data, IsFinite x)
    (hfp : ∀ x ∈ positions.data, IsFinite x) :
    ∃ r, criticalityIndex (.fin 0) φ stress positions = .ok r ∧ (scalars r).length = stress.count ∧
      ∀ x ∈ scalars r, ¬ IsFinite x := by
  have run := index_eq (.fin 0) φ hs hp hc h3 h3'
  refine ⟨_, run, ?_, fun x hx => ?_⟩
  · rw [scalars_ofScalars, List.length_zipWith, items_length, items_length]; omega
  rw [scalars_ofScalars] at hx
  obtain ⟨i, hi, rfl⟩ := List.getElem_of_mem hx
  rw [List.getElem_zipWith]
  obtain ⟨a, ha⟩ := num_finite hs hfs (List.getElem_mem (l := items stress) (n := i) (by simp at hi; simp; omega)) (k := 0) (by omega)
  obtain ⟨b, hb⟩ := num_finite hs hfs (List.getElem_mem (l := items stress) (n := i) (by simp at hi; simp; omega)) (k := 2) (by omega)
  obtain ⟨z, hz⟩ := num_finite hp hfp (List.getElem_mem (l := items positions) (n := i) (by simp at hi; simp; omega)) (k := 2)
    (by omega)
  unfold indexOf
  rw [ha, hb, hz, hcos, hsin, Ext.one_def, Ext.fin_sub, Ext.fin_sub]
  have e1 : (2.0 * .fin 0 * .fin cs / .fin (1 - sn) : Ext α) = .fin 0 := by
    show (Ext.fin (2.0 : α) * .fin 0 * .fin cs / .fin (1 - sn) : Ext α) = .fin 0
    rw [Ext.fin_mul, Ext.fin_mul, Ext.fin_div (sub_ne_zero.2 hsn.symm), mul_zero, zero_mul, zero_div]
  have e2 : (- -Ext.fin z / 1000.0 : Ext α) = .fin (z / 1000.0) := by
    show (Ext.fin (- -z) / Ext.fin (1000.0 : α) : Ext α) = .fin (z / 1000.0)
    rw [Ext.fin_div (by norm_num), neg_neg]
  obtain ⟨y, hy, e3⟩ := hexp (z / 1000.0)
  rw [e1, e2, e3, Ext.fin_div_zero]
  unfold Ext.infTimes
  rintro ⟨w, hw⟩
  split_ifs at hw
  · have : (Ext.pinf * Ext.fin y : Ext α) = Ext.infTimes y := rfl
    rw [this, Ext.infTimes, if_pos hy] at hw
    cases hw
  · have : (Ext.ninf * Ext.fin y : Ext α) = Ext.ninfTimes y := rfl
    rw [this, Ext.ninfTimes, if_pos hy] at hw
    cases hw
  · cases hw

/-- Trigonometric functions for which the hypotheses hold. -/
example := @C117_cohesion_violated ℚ _ _ _ ⟨.fin 3, id, fun _ => .fin 0, fun _ => .fin 1⟩ ⟨fun _ => .fin 1⟩ (.fin 0) 1 0 rfl rfl
  (by norm_num) (fun _ => ⟨1, one_pos, rfl⟩) ⟨[.fin (-1), .fin (-2), .fin (-3)], 1, 3, 3⟩
  ⟨[.fin 0, .fin 0, .fin 5], 1, 3, 3⟩ (by decide) (by decide) (by decide) (by decide) (by decide)
  (by simp [IsFinite]) (by simp [IsFinite])

end cohesion

end DF
