import Verif.Props.Algebra
import Verif.Props.View

/-!
# The functions of `Vector` and the functions on a Serie: C163
-/

namespace DF

open Spec

variable {α : Type}

theorem value_items {s : Serie α} (h : WF s) {i : Nat} (hi : i < s.count) : s.value i = .ok ((items s)[i]'(by simpa using hi)) := by
  rw [Serie.value_eq h hi]
  simp [items]

theorem vecZip_eq (op : α → α → α) : ∀ (u v : List α), u.length = v.length → vecZip op u v = .ok (List.zipWith op u v)
  | [], _, _ => by simp [vecZip]
  | _ :: _, [], h => by simp at h
  | x :: u, y :: v, h => by
    unfold vecZip
    rw [vecZip_eq op u v (by simpa using h), Res.ok_bind]
    rfl

theorem value_pointwise (op : α → α → α) {a b : Serie α} (ha : WF a) (hb : WF b) (hs : SameShape a b) {i : Nat} (hi : i < a.count) :
    (pointwise op a b).value i = (do let u ← a.value i
                                     let v ← b.value i
                                     vecZip op u v) := by
  obtain ⟨w, s, e⟩ := WF_pointwise (op := op) ha hb hs
  have hib : i < b.count := by have := hs.2; omega
  rw [value_items w (i := i) (by rw [s.2]; exact hi), value_items ha hi, Res.ok_bind, value_items hb hib, Res.ok_bind, vecZip_eq]
  · congr 1
    simp only [e, List.getElem_zipWith]
  · rw [ha.item_length (List.getElem_mem _), hb.item_length (List.getElem_mem _), hs.1]

/-- The sum of the products in the order of the code. -/
def dotFold [Zero α] [Add α] [Mul α] (u v : List α) (n : Nat) : α := (List.zipWith (· * ·) (u.take n) (v.take n)).foldl (· + ·) 0

theorem dotFold_succ [Zero α] [Add α] [Mul α] {u v : List α} {n : Nat} (hu : n < u.length) (hv : n < v.length) :
    dotFold u v (n + 1) = dotFold u v n + u[n] * v[n] := by
  unfold dotFold
  rw [List.take_add_one, List.take_add_one, List.getElem?_eq_getElem hu, List.getElem?_eq_getElem hv]
  rw [List.zipWith_append (by simp; omega), List.foldl_append]
  rfl

theorem vecDot_fold [Zero α] [Add α] [Mul α] {u v : List α} (h : u.length = v.length) : vecDot u v = .ok (dotFold u v u.length) := by
  unfold vecDot
  have := forLoop_exact (m := Res) (f := fun i d => rd u i >>= fun x => rd v i >>= fun y => pure (d + x * y))
    (fun n => dotFold u v n) u.length 0 (fun i _ hi => by
      rw [rd_of_lt (by omega), Res.ok_bind, rd_of_lt (by omega), Res.ok_bind, dotFold_succ])
  rw [Nat.zero_add] at this
  exact this

theorem dotItem_fold [Zero α] [Add α] [Mul α] {u v : List α} (h : u.length = v.length) : dotItem u.length u v = .ok [dotFold u v u.length] := by
  unfold dotItem
  have := forLoop_exact (m := Res) (f := fun k r => rd r 0 >>= fun r0 => rd u k >>= fun x => rd v k >>= fun y => wr r 0 (r0 + x * y))
    (fun n => [dotFold u v n]) u.length 0 (fun i _ hi => by
      rw [rd_of_lt (by simp), Res.ok_bind, rd_of_lt (by omega), Res.ok_bind, rd_of_lt (by omega), Res.ok_bind, dotFold_succ (by omega) (by omega)]
      rfl)
  rw [Nat.zero_add] at this
  exact this

/-! ## C163 -/

/-- C163: `add`, `sub` and `mult` of two Series, then item `i`: the `Vector`s of the two items added, subtracted, multiplied. The arithmetic is any arithmetic, double precision included. -/
theorem C163_add_sub_mult [Zero α] [Add α] [Sub α] [Mul α] {a b : Serie α} (ha : WF a) (hb : WF b) (hs : SameShape a b) {i : Nat} (hi : i < a.count) :
    (add2 a b >>= fun r => r.value i) = (do let u ← a.value i
                                            let v ← b.value i
                                            vecAdd u v) ∧
    (sub2 a b >>= fun r => r.value i) = (do let u ← a.value i
                                            let v ← b.value i
                                            vecSub u v) ∧
    (a.itemSize ≠ 1 → (multSerie a b >>= fun r => r.value i) = (do let u ← a.value i
                                                                   let v ← b.value i
                                                                   vecMult u v)) := by
  refine ⟨?_, ?_, fun h1 => ?_⟩
  · unfold add2
    rw [binOp_eq ha hb hs]
    exact value_pointwise _ ha hb hs hi
  · unfold sub2
    rw [binOp_eq ha hb hs]
    exact value_pointwise _ ha hb hs hi
  · rw [(C36_mult_serie ha hb (by omega)).2.2.2.1 hs.2 hs.1.symm h1]
    exact value_pointwise _ ha hb hs hi

example := C163_add_sub_mult ex23_WF exTail_WF ⟨rfl, rfl⟩ (i := 1) (by decide)

/-- C163: `scale` and `mult` by a number, then item `i`: the `Vector` of item `i` multiplied by the number. -/
theorem C163_scale [Zero α] [Mul α] {s : Serie α} (h : WF s) {i : Nat} (hi : i < s.count) (x : α) :
    (scale s x >>= fun r => r.value i) = (s.value i >>= fun u => .ok (vecScale u x)) ∧
    (mult s x >>= fun r => r.value i) = (s.value i >>= fun u => .ok (vecScale u x)) := by
  obtain ⟨w, hsh, e⟩ := onNumbers_facts (f := (· * x)) h
  have key : (onNumbers (· * x) s).value i = (s.value i >>= fun u => .ok (vecScale u x)) := by
    rw [value_items w (i := i) (by rw [hsh.2]; exact hi), value_items h hi, Res.ok_bind]
    congr 1
    simp only [e, List.getElem_map]
    rfl
  rw [C36_scale h (by omega), C36_mult h (by omega)]
  exact ⟨key, key⟩

example := C163_scale exTail_WF (i := 1) (by decide) 3

/-- C163: `dot` of two Series, then item `i`: the `dot` of the `Vector`s of the two items. -/
theorem C163_dot [Zero α] [Add α] [Mul α] {a b : Serie α} (ha : WF a) (hb : WF b) (hs : SameShape a b) {i : Nat} (hi : i < a.count) :
    (dot a b >>= fun r => r.value i) = (do let u ← a.value i
                                           let v ← b.value i
                                           let d ← vecDot u v
                                           pure [d]) := by
  have hp := ha.pos
  have hib : i < b.count := by have := hs.2; omega
  have run : dot a b = .ok (ofItems 1 (List.zipWith (fun u v => [dotFold u v u.length]) (items a) (items b))) :=
    mapArr_items2 (f := dotItem a.itemSize) ha hb hs.2 (by omega) (by omega) (by omega) (fun _ _ _ _ => rfl)
      (fun u v hu hv => by rw [← hu]; exact dotItem_fold (by rw [hu, hv, hs.1]))
  obtain ⟨w, -, c, e⟩ := ofItems_zip_facts ha hb hs.2 (k := 1) (g := fun u v => [dotFold u v u.length]) (by omega) (by omega) (fun _ _ _ _ => rfl)
  rw [run, Res.ok_bind, value_items w (i := i) (by rw [c]; exact hi), value_items ha hi, Res.ok_bind, value_items hb hib, Res.ok_bind,
    vecDot_fold (by rw [ha.item_length (List.getElem_mem _), hb.item_length (List.getElem_mem _), hs.1]), Res.ok_bind]
  refine congrArg Res.ok ?_
  simp only [e, List.getElem_zipWith]

example := C163_dot ex23_WF exTail_WF ⟨rfl, rfl⟩ (i := 1) (by decide)

/-- C163: `norm` of a Serie and `norm` of the `Vector` of its item do not agree: the second one drops the fractional parts. -/
theorem C163_norm_violated [Sqrt ℝ] (hsqrt : ∀ x : ℝ, Sqrt.sqrt x = Real.sqrt x) :
    ∃ s : Serie ℝ, WF s ∧ s.count = 1 ∧ (norm s >>= fun r => r.value 0) = .ok [1 / 2] ∧ (s.value 0 >>= fun u => vecNorm u) = .ok 0 := by
  have w : WF (⟨[1 / 2, 0], 1, 2, 3⟩ : Serie ℝ) := ⟨by decide, by decide, by simp, by decide⟩
  have v : (⟨[1 / 2, 0], 1, 2, 3⟩ : Serie ℝ).value 0 = .ok [1 / 2, 0] := by
    rw [Serie.value_eq w (by decide)]; rfl
  refine ⟨_, w, rfl, ?_, ?_⟩
  · obtain ⟨u, hu, hn⟩ := norm2_one w (by decide) rfl
    have hu' : u = [1 / 2, 0] := by
      have : items (⟨[1 / 2, 0], 1, 2, 3⟩ : Serie ℝ) = [[1 / 2, 0]] := rfl
      rw [this] at hu
      exact (List.cons.inj hu).1.symm
    subst hu'
    have h1 := norm_of_norm2 hn (WF_one _) rfl (by decide)
    rw [items_one] at h1
    rw [h1, Res.ok_bind]
    have : Sqrt.sqrt (num [([(1 / 2 : ℝ), 0].map (fun x => x * x)).sum] 0) = 1 / 2 := by
      rw [hsqrt]
      have : num [([(1 / 2 : ℝ), 0].map (fun x => x * x)).sum] 0 = (1 / 2) ^ 2 := by
        simp [num]; norm_num
      rw [this, Real.sqrt_sq (by norm_num)]
    simp only [List.map_cons, List.map_nil] at this ⊢
    rw [this]
    exact Serie.value_eq (WF_one _) (by decide)
  · rw [v, Res.ok_bind]
    unfold vecNorm
    have h1 : toI32 (((0 : Int) : ℝ) + 1 / 2 * (1 / 2)) = .ok 0 := by
      unfold toI32
      rw [if_pos (by norm_num), if_pos (by norm_num)]
      congr 1
      rw [Int.floor_eq_iff]
      norm_num
    have h2 : toI32 (((0 : Int) : ℝ) + 0 * 0) = .ok 0 := by
      unfold toI32
      rw [if_pos (by norm_num), if_pos (by norm_num)]
      simp
    rw [List.foldlM_cons, h1, Res.ok_bind, List.foldlM_cons, h2, Res.ok_bind]
    simp [hsqrt]

/-- C163: the product of a `Matrix` and a `Vector` is linear in the vector, and a symmetric matrix can be moved to the other side of a `dot`. -/
theorem C163_matrix [CommRing α] {m : List α} {n : Nat} (hm : m.length = n * n) (hn : n * n ≤ 2 ^ 32) {u v : List α} (hu : u.length = n) (hv : v.length = n) (c : α) :
    (do let w ← vecAdd (vecScale u c) v
        (MatView.of m n).multVec w) = (do let p ← (MatView.of m n).multVec u
                                          let q ← (MatView.of m n).multVec v
                                          vecAdd (vecScale p c) q) ∧
    ((fullMatrix n m).IsSymm → (do let p ← (MatView.of m n).multVec u
                                   vecDot p v) = (do let q ← (MatView.of m n).multVec v
                                                     vecDot u q)) := by
  have hlin : (List.zipWith (· + ·) (vecScale u c) v).length = n := by simp [vecScale, hu, hv]
  obtain ⟨p, p1, p2, p3⟩ := C63_multVec hm hn hu
  obtain ⟨q, q1, q2, q3⟩ := C63_multVec hm hn hv
  obtain ⟨r, r1, r2, r3⟩ := C63_multVec hm hn hlin
  have nums : ∀ {k : Nat} {x y : List α}, x.length = n → y.length = n → k < n →
      num (List.zipWith (· + ·) (vecScale x c) y) k = num x k * c + num y k := by
    intro k x y hx hy hk
    rw [num_eq (by simp [vecScale]; omega), num_eq (by omega), num_eq (by omega)]
    simp [vecScale]
  constructor
  · unfold vecAdd
    rw [vecZip_eq _ _ _ (by simp [vecScale, hu, hv]), Res.ok_bind, r1, p1, Res.ok_bind, q1, Res.ok_bind,
      vecZip_eq _ _ _ (by simp [vecScale, p2, q2])]
    congr 1
    refine List.ext_getElem (by simp [vecScale, r2, p2, q2]) fun k h1 h2 => ?_
    have hk : k < n := by omega
    have e1 := congrFun r3 ⟨k, hk⟩
    have e2 := congrFun p3 ⟨k, hk⟩
    have e3 := congrFun q3 ⟨k, hk⟩
    have hd : vec n (List.zipWith (· + ·) (vecScale u c) v) = c • vec n u + vec n v := by
      funext j
      show num _ _ = c * num _ _ + num _ _
      rw [nums hu hv j.2, mul_comm]
    rw [hd, Matrix.mulVec_add, Matrix.mulVec_smul, ← p3, ← q3] at e1
    have e4 : num r k = c * num p k + num q k := e1
    rw [← num_eq h1, ← num_eq h2, nums p2 q2 hk, e4, mul_comm]
  · intro hsym
    have dots : ∀ {x y : List α}, x.length = n → y.length = n → vecDot x y = .ok (vec n x ⬝ᵥ vec n y) := by
      intro x y hx hy
      rw [C78_dot x y (by omega)]
      have := dotL_prefix x y (n := n) (by omega) (by omega)
      rw [List.take_of_length_le (by omega), List.take_of_length_le (by omega)] at this
      rw [this, Finset.sum_range]
      rfl
    rw [p1, Res.ok_bind, q1, Res.ok_bind, dots p2 hv, dots hu q2, p3, q3, Matrix.dotProduct_mulVec, ← Matrix.mulVec_transpose, hsym.eq]

example := C163_matrix (m := ([1, 2, 2, 4] : List Int)) (n := 2) rfl (by decide) (u := [1, 2]) (v := [5, -3]) rfl rfl 7

example : (fullMatrix 2 ([1, 2, 2, 4] : List Int)).IsSymm := by unfold Matrix.IsSymm; decide +kernel

end DF
