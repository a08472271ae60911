import Verif.Lemmas.EigenAny
import Verif.Props.IeeeNorm
import Verif.Props.SpecialAlgebra

/-!
# Eigen values and vectors of matrices with special values: C146

`Ext α` are the numbers of `α`, the infinities and NaN; `Ext (Num D)` are the values of `double`.
-/

namespace DF

open Spec

/-! ## C146: any numbers -/

section any

variable {α : Type} [Zero α] [One α] [Add α] [Sub α] [Mul α] [Div α] [Neg α] [OfNat α 2] [OfNat α 4] [DecidableEq α]
  [LT α] [DecidableLT α] [NatCast α] [OfScientific α] [Trig α] {n : Nat} {s : Serie α}

/-- Whatever the numbers and the results of the operations on them are, the three eigen functions return, one item of `n` values and
one of `n` vectors for each matrix, the same for the three. -/
theorem C146_returns (h : WF s) (hs : EigenShape n s) (hfit : s.count * (n * n) < 2 ^ 32) :
    ∃ val vecs, eigenSystem s = .ok (val, vecs) ∧ WF val ∧ WF vecs ∧ val.itemSize = n ∧ vecs.itemSize = n * n ∧
      val.count = s.count ∧ vecs.count = s.count ∧
      (0 < s.count → eigenValues s = .ok val ∧ eigenVectors s = .ok vecs) := by
  obtain ⟨val, vecs, h1, h2, h3, h4, h5, h6, h7, -, h8⟩ := eigen_run (P := fun _ _ _ => True) (fun t hl => by
    rcases hs.2 with ⟨rfl, hk⟩ | ⟨rfl, hk⟩
    · obtain ⟨e, w, h1, h2, h3⟩ := eigenItem_sized (.inl rfl) (hl.trans hk)
      exact ⟨e, w, h1, h2, h3, trivial⟩
    · obtain ⟨e, w, h1, h2, h3⟩ := eigenItem_sized (.inr rfl) (hl.trans hk)
      exact ⟨e, w, h1, h2, h3, trivial⟩) h hs hfit
  exact ⟨val, vecs, h1, h2, h3, h4, h5, h6, h7, h8⟩

/-- The values and vectors of a matrix depend on that matrix only: a NaN in another item changes nothing. -/
theorem C146_items {s' : Serie α} (h : WF s) (hs : EigenShape n s) (hfit : s.count * (n * n) < 2 ^ 32) (h' : WF s')
    (hs' : EigenShape n s') (hfit' : s'.count * (n * n) < 2 ^ 32) {val vecs val' vecs' : Serie α}
    (hr : eigenSystem s = .ok (val, vecs)) (hr' : eigenSystem s' = .ok (val', vecs')) {i j : Nat}
    (he : (items s)[i]? = (items s')[j]?) :
    (items val)[i]? = (items val')[j]? ∧ (items vecs)[i]? = (items vecs')[j]? := by
  have hret : ∀ t : List α, t.length = n * (n + 1) / 2 →
      eigenItem n t = .ok (eigOf n t) ∧ (eigOf n t).1.length = n ∧ (eigOf n t).2.length = n * n := fun t hl => by
    obtain ⟨e, w, h1, h2, h3⟩ := eigenItem_sized (n := n) (by rcases hs.2 with ⟨h, _⟩ | ⟨h, _⟩ <;> simp [h]) hl
    unfold eigOf
    rw [h1]
    exact ⟨rfl, h2, h3⟩
  have key : ∀ {s : Serie α} {val vecs : Serie α}, WF s → EigenShape n s → s.count * (n * n) < 2 ^ 32 →
      eigenSystem s = .ok (val, vecs) → items val = (items s).map (fun t => (eigOf n t).1) ∧
        items vecs = (items s).map (fun t => (eigOf n t).2) := by
    intro s val vecs h hs hfit hr
    have hsz : s.itemSize = n * (n + 1) / 2 := by rcases hs.2 with ⟨rfl, hk⟩ | ⟨rfl, hk⟩ <;> simp [hk]
    rw [eigenSystem_run (fun t hl => hret t (hl.trans hsz)) h hs hfit] at hr
    cases hr
    refine ⟨items_ofItems fun v hv => ?_, items_ofItems fun v hv => ?_⟩
    · obtain ⟨t, hm, rfl⟩ := List.mem_map.1 hv
      exact (hret t ((h.item_length hm).trans hsz)).2.1
    · obtain ⟨t, hm, rfl⟩ := List.mem_map.1 hv
      exact (hret t ((h.item_length hm).trans hsz)).2.2
  obtain ⟨a1, a2⟩ := key h hs hfit hr
  obtain ⟨b1, b2⟩ := key h' hs' hfit' hr'
  rw [a1, a2, b1, b2, List.getElem?_map, List.getElem?_map, List.getElem?_map, List.getElem?_map, he]
  exact ⟨rfl, rfl⟩

end any

/-! ## Specification -/

namespace Spec

variable {β : Type}

/-- The numbers on the diagonal of a matrix stored row by row, upper part only. -/
def onDiagonal : List β → List β
  | [a, _, c] => [a, c]
  | [a, _, _, d, _, f] => [a, d, f]
  | _ => []

/-- The numbers off the diagonal. -/
def offDiagonal : List β → List β
  | [_, b, _] => [b]
  | [_, b, c, _, e, _] => [b, c, e]
  | _ => []

end Spec

theorem onDiagonal_bad {β : Type} {Bad : β → Prop} {n : Nat} {t : List β} (hn : n = 2 ∨ n = 3)
    (hl : t.length = n * (n + 1) / 2) (h : ∃ x ∈ onDiagonal t, Bad x) :
    ∃ m, eigenInput n t = .ok m ∧ m.length = n * (n + 1) / 2 ∧ BadDiagonal Bad m := by
  rcases hn with rfl | rfl
  · obtain ⟨a0, a1, a2, rfl⟩ := len3 hl
    exact ⟨_, rfl, rfl, by simpa [onDiagonal, BadDiagonal] using h⟩
  · obtain ⟨a0, a1, a2, a3, a4, a5, rfl⟩ := len6 hl
    exact ⟨_, rfl, rfl, by simpa [onDiagonal, BadDiagonal] using h⟩

/-- What cannot be got rid of on the diagonal is among the values. -/
theorem eigen_bad {α : Type} [Zero α] [One α] [Add α] [Sub α] [Mul α] [Div α] [Neg α] [OfNat α 2] [OfNat α 4] [DecidableEq α]
    [LT α] [DecidableLT α] [NatCast α] [OfScientific α] [Trig α] {n : Nat} {s : Serie α} (h : WF s) (hs : EigenShape n s)
    (hfit : s.count * (n * n) < 2 ^ 32) {Bad Bad' : α → Prop} (hb : Absorbing Bad) (hb' : Absorbing Bad') :
    ∃ val vecs, eigenSystem s = .ok (val, vecs) ∧ ItemWise3 (fun t e _ =>
      ((∃ x ∈ onDiagonal t, Bad x) → ∃ y ∈ e, Bad y) ∧ ((∃ x ∈ onDiagonal t, Bad' x) → ∃ y ∈ e, Bad' y)) s val vecs := by
  have hn : n = 2 ∨ n = 3 := by rcases hs.2 with ⟨h, _⟩ | ⟨h, _⟩ <;> simp [h]
  have hsz : s.itemSize = n * (n + 1) / 2 := by rcases hs.2 with ⟨rfl, hk⟩ | ⟨rfl, hk⟩ <;> simp [hk]
  have key : ∀ {Bad : α → Prop}, Absorbing Bad → ∀ {t e w : List α}, t.length = s.itemSize → eigenItem n t = .ok (e, w) →
      (∃ x ∈ onDiagonal t, Bad x) → ∃ y ∈ e, Bad y := by
    intro Bad hb t e w hl hr hx
    obtain ⟨m, hm, hml, hbm⟩ := onDiagonal_bad hn (hl.trans hsz) hx
    unfold eigenItem at hr
    rw [hm, Res.ok_bind] at hr
    exact symmetricEigen_bad hb hn hml hbm hr
  obtain ⟨val, vecs, h1, -, -, -, -, -, -, h8, -⟩ := eigen_run (P := fun t e _ =>
      ((∃ x ∈ onDiagonal t, Bad x) → ∃ y ∈ e, Bad y) ∧ ((∃ x ∈ onDiagonal t, Bad' x) → ∃ y ∈ e, Bad' y)) (fun t hl => by
    obtain ⟨e, w, h1, h2, h3⟩ := eigenItem_sized hn (hl.trans hsz)
    exact ⟨e, w, h1, h2, h3, key hb hl h1, key hb' hl h1⟩) h hs hfit
  exact ⟨val, vecs, h1, h8⟩

/-! ## C146: special values and exact arithmetic -/

section special

variable {α : Type} [Field α] [LinearOrder α] [IsStrictOrderedRing α] [OfNat (Ext α) 2] [OfNat (Ext α) 4] [Trig (Ext α)]

omit [IsStrictOrderedRing α] [OfNat (Ext α) 2] [OfNat (Ext α) 4] [Trig (Ext α)] in
theorem absorbing_nan : Absorbing (fun x : Ext α => x = .nan) :=
  ⟨fun x y h => by rw [h, Ext.nan_mul], fun x y h => by rw [h, Ext.nan_add], fun x y h => by rw [h, Ext.add_nan],
    fun x y h => by rw [h, Ext.nan_sub]⟩

omit [IsStrictOrderedRing α] [OfNat (Ext α) 2] [OfNat (Ext α) 4] [Trig (Ext α)] in
theorem infTimes_special (x : α) : ¬ IsFinite (Ext.infTimes x) ∧ ¬ IsFinite (Ext.ninfTimes x) := by
  unfold Ext.infTimes Ext.ninfTimes
  constructor
  · split
    · rintro ⟨_, h⟩; cases h
    · split <;> (rintro ⟨_, h⟩; cases h)
  · split
    · rintro ⟨_, h⟩; cases h
    · split <;> (rintro ⟨_, h⟩; cases h)

omit [IsStrictOrderedRing α] [OfNat (Ext α) 2] [OfNat (Ext α) 4] [Trig (Ext α)] in
theorem absorbing_special : Absorbing (fun x : Ext α => ¬ IsFinite x) := by
  have hi := infTimes_special (α := α)
  have hp : ¬ IsFinite (.pinf : Ext α) := fun ⟨_, h⟩ => nomatch h
  have hm : ¬ IsFinite (.ninf : Ext α) := fun ⟨_, h⟩ => nomatch h
  have hn : ¬ IsFinite (.nan : Ext α) := fun ⟨_, h⟩ => nomatch h
  refine ⟨fun x y h => ?_, fun x y h => ?_, fun x y h => ?_, fun x y h => ?_⟩ <;> cases x <;> cases y <;>
    first
    | exact absurd ⟨_, rfl⟩ h
    | exact hp
    | exact hm
    | exact hn
    | exact (hi _).1
    | exact (hi _).2

variable {n : Nat} {s : Serie (Ext α)}

omit [IsStrictOrderedRing α] in
/-- A special value on the diagonal shows: some value is not finite, and some value is NaN when there is a NaN on the diagonal. The
full claim would be the same of the numbers off the diagonal, see `C146_dropped_violated`. -/
theorem C146_diagonal_partial (h : WF s) (hs : EigenShape n s) (hfit : s.count * (n * n) < 2 ^ 32) :
    ∃ val vecs, eigenSystem s = .ok (val, vecs) ∧ ItemWise3 (fun t e _ =>
      ((∃ x ∈ onDiagonal t, ¬ IsFinite x) → ∃ y ∈ e, ¬ IsFinite y) ∧ (.nan ∈ onDiagonal t → .nan ∈ e)) s val vecs := by
  obtain ⟨val, vecs, h1, h2⟩ := eigen_bad h hs hfit absorbing_special absorbing_nan
  exact ⟨val, vecs, h1, h2.weaken fun t e w ⟨k1, k2⟩ => ⟨k1, fun hm => by
    obtain ⟨y, hy, rfl⟩ := k2 ⟨_, hm, rfl⟩
    exact hy⟩⟩

omit [OfNat (Ext α) 2] [OfNat (Ext α) 4] [Trig (Ext α)] in
/-- A norm that is not finite stops the iteration. -/
theorem stops_special {N : Ext α} (h : N = .nan ∨ N = .pinf) : ¬ N * (0.00001 : Ext α) < N := by
  rcases h with rfl | rfl
  · rw [Ext.nan_mul]
    exact fun h => h
  · show ¬ Ext.lt (Ext.infTimes (0.00001 : α)) .pinf
    rw [Ext.infTimes, if_pos (by norm_num)]
    exact fun h => h

omit [OfNat (Ext α) 2] [OfNat (Ext α) 4] [Trig (Ext α)] [IsStrictOrderedRing α] in
theorem square_special {x : Ext α} (h : ¬ IsFinite x) : x * x = .nan ∨ x * x = .pinf := by
  cases x with
  | fin x => exact absurd ⟨_, rfl⟩ h
  | pinf => exact .inr rfl
  | ninf => exact .inr rfl
  | nan => exact .inl rfl

omit [OfNat (Ext α) 2] [OfNat (Ext α) 4] [Trig (Ext α)] [IsStrictOrderedRing α] in
theorem square_any (x : Ext α) : IsFinite (x * x) ∨ x * x = .nan ∨ x * x = .pinf := by
  by_cases h : IsFinite x
  · obtain ⟨y, rfl⟩ := h
    exact .inl ⟨_, rfl⟩
  · exact .inr (square_special h)

omit [IsStrictOrderedRing α] [OfNat (Ext α) 2] [OfNat (Ext α) 4] [Trig (Ext α)] [LinearOrder α] in
/-- Sums of finite numbers, NaN and positive infinities. -/
theorem plus_special {x y : Ext α} (hx : IsFinite x ∨ x = .nan ∨ x = .pinf) (hy : IsFinite y ∨ y = .nan ∨ y = .pinf) :
    (IsFinite (x + y) ∨ x + y = .nan ∨ x + y = .pinf) ∧ (¬ IsFinite x ∨ ¬ IsFinite y → x + y = .nan ∨ x + y = .pinf) := by
  rcases hx with ⟨x, rfl⟩ | rfl | rfl <;> rcases hy with ⟨y, rfl⟩ | rfl | rfl
  · exact ⟨.inl ⟨_, rfl⟩, fun h => absurd (Or.imp (· ⟨_, rfl⟩) (· ⟨_, rfl⟩) h) (by simp)⟩
  · exact ⟨.inr (.inl rfl), fun _ => .inl rfl⟩
  · exact ⟨.inr (.inr rfl), fun _ => .inr rfl⟩
  · exact ⟨.inr (.inl rfl), fun _ => .inl rfl⟩
  · exact ⟨.inr (.inl rfl), fun _ => .inl rfl⟩
  · exact ⟨.inr (.inl rfl), fun _ => .inl rfl⟩
  · exact ⟨.inr (.inr rfl), fun _ => .inr rfl⟩
  · exact ⟨.inr (.inl rfl), fun _ => .inl rfl⟩
  · exact ⟨.inr (.inr rfl), fun _ => .inr rfl⟩

omit [OfNat (Ext α) 2] [OfNat (Ext α) 4] [Trig (Ext α)] [IsStrictOrderedRing α] [Field α] in
/-- Finite values are ordered. -/
theorem weak_finite {n : Nat} {f : Fin n → Ext α} (hf : ∀ k, IsFinite (f k)) : Weak (fun x y : Ext α => x ≤ y) f := by
  choose g hg using hf
  obtain rfl : f = fun k => Ext.fin (g k) := funext hg
  exact ⟨fun i => le_refl (g i), fun i j k h1 h2 => le_trans (a := g i) (b := g j) (c := g k) h1 h2,
    fun i j h => le_of_lt (a := g i) (b := g j) h, fun i j h => (not_lt (a := g i) (b := g j)).1 h⟩

omit [OfNat (Ext α) 2] [OfNat (Ext α) 4] [Trig (Ext α)] [IsStrictOrderedRing α] in
/-- From the permutation of the diagonal to the facts about the values and vectors. -/
theorem dropped_facts {n : Nat} {f : Fin n → Ext α} (σ : Equiv.Perm (Fin n)) :
    List.Perm (List.ofFn fun k => f (σ k)) (List.ofFn f) ∧
      ((∀ i j : Fin n, i ≤ j → f (σ j) ≤ f (σ i)) → (List.ofFn fun k => f (σ k)).Pairwise fun x y => y ≤ x) ∧
      ∀ y ∈ (List.ofFn fun k => List.ofFn fun i => if σ k = i then (1 : Ext α) else 0).flatten, y = .fin 0 ∨ y = .fin 1 := by
  refine ⟨Equiv.Perm.ofFn_comp_perm σ f, fun h => ?_, fun y hy => ?_⟩
  · rw [List.pairwise_ofFn]
    exact fun i j hij => h i j hij.le
  · obtain ⟨l, hl, hy⟩ := List.mem_flatten.1 hy
    obtain ⟨k, rfl⟩ := List.mem_ofFn.1 hl
    obtain ⟨i, rfl⟩ := List.mem_ofFn.1 hy
    by_cases h : σ k = i
    · exact .inr (if_pos h)
    · exact .inl (if_neg h)

/-- Dimension 3, one matrix. -/
theorem dropped3 {x0 x1 x2 x3 x4 x5 : Ext α} (hx : ¬ IsFinite x1 ∨ ¬ IsFinite x2 ∨ ¬ IsFinite x4) :
    ∃ e w, eigenItem 3 [x0, x1, x2, x3, x4, x5] = .ok (e, w) ∧ e.length = 3 ∧ w.length = 3 * 3 ∧ List.Perm e [x0, x3, x5] ∧
      ((∀ x ∈ [x0, x3, x5], IsFinite x) → e.Pairwise fun x y => y ≤ x) ∧ ∀ y ∈ w, y = .fin 0 ∨ y = .fin 1 := by
  obtain ⟨p1, q1⟩ := plus_special (x := (0 : Ext α)) (y := x1 * x1) (.inl ⟨_, rfl⟩) (square_any x1)
  obtain ⟨p2, q2⟩ := plus_special p1 (square_any x2)
  obtain ⟨-, q3⟩ := plus_special p2 (square_any x4)
  have special : ∀ {x : Ext α}, x = .nan ∨ x = .pinf → ¬ IsFinite x := by
    rintro x (rfl | rfl) ⟨_, h⟩ <;> cases h
  have hN : 0 + x1 * x1 + x2 * x2 + x4 * x4 = .nan ∨ 0 + x1 * x1 + x2 * x2 + x4 * x4 = .pinf := by
    refine q3 ?_
    rcases hx with h | h | h
    · exact .inl (special (q2 (.inl (special (q1 (.inr (special (square_special h))))))))
    · exact .inl (special (q2 (.inr (special (square_special h)))))
    · exact .inr (special (square_special h))
  by_cases hf : ∀ k, IsFinite (![x0, x3, x5] k)
  · obtain ⟨σ, h1, h2⟩ := eigen_stop3 rfl (.inr (stops_special hN)) (weak_finite hf)
    obtain ⟨f1, f2, f3⟩ := dropped_facts (f := ![x0, x3, x5]) σ
    exact ⟨_, _, h1, by simp, by simp, by simpa using f1, fun _ => f2 h2, f3⟩
  · obtain ⟨σ, h1, -⟩ := eigen_stop3 (x0 := x0) (x3 := x3) (x5 := x5) rfl (.inr (stops_special hN)) (Weak.none _)
    obtain ⟨f1, f2, f3⟩ := dropped_facts (f := ![x0, x3, x5]) σ
    refine ⟨_, _, h1, by simp, by simp, by simpa using f1, fun h => absurd (fun k => h _ ?_) hf, f3⟩
    fin_cases k <;> simp

/-- Dimension 2, one matrix. -/
theorem dropped2 {x0 x1 x2 : Ext α} (hx : ¬ IsFinite x1) :
    ∃ e w, eigenItem 2 [x0, x1, x2] = .ok (e, w) ∧ e.length = 2 ∧ w.length = 2 * 2 ∧ List.Perm e [x0, x2] ∧
      ((∀ x ∈ [x0, x2], IsFinite x) → e.Pairwise fun x y => y ≤ x) ∧ ∀ y ∈ w, y = .fin 0 ∨ y = .fin 1 := by
  obtain ⟨-, q1⟩ := plus_special (x := (0 : Ext α)) (y := x1 * x1) (.inl ⟨_, rfl⟩) (square_any x1)
  have special : ∀ {x : Ext α}, x = .nan ∨ x = .pinf → ¬ IsFinite x := by
    rintro x (rfl | rfl) ⟨_, h⟩ <;> cases h
  have hN : 0 + x1 * x1 = .nan ∨ 0 + x1 * x1 = .pinf := q1 (.inr (special (square_special hx)))
  by_cases hf : ∀ k, IsFinite (![x0, x2] k)
  · obtain ⟨σ, h1, h2⟩ := eigen_stop2 rfl (.inr (stops_special hN)) (weak_finite hf)
    obtain ⟨f1, f2, f3⟩ := dropped_facts (f := ![x0, x2]) σ
    exact ⟨_, _, h1, by simp, by simp, by simpa using f1, fun _ => f2 h2, f3⟩
  · obtain ⟨σ, h1, -⟩ := eigen_stop2 (x0 := x0) (x2 := x2) rfl (.inr (stops_special hN)) (Weak.none _)
    obtain ⟨f1, f2, f3⟩ := dropped_facts (f := ![x0, x2]) σ
    refine ⟨_, _, h1, by simp, by simp, by simpa using f1, fun h => absurd (fun k => h _ ?_) hf, f3⟩
    fin_cases k <;> simp

/-- The claim that a NaN or an infinity in a matrix shows in its eigen values is violated off the diagonal, for every such matrix: the
values are the numbers of the diagonal, in decreasing order when they are finite, and the vectors are along the axes. -/
theorem C146_dropped_violated (h : WF s) (hs : EigenShape n s) (hfit : s.count * (n * n) < 2 ^ 32) :
    ∃ val vecs, eigenSystem s = .ok (val, vecs) ∧ ItemWise3 (fun t e w => (∃ x ∈ offDiagonal t, ¬ IsFinite x) →
      List.Perm e (onDiagonal t) ∧ ((∀ x ∈ onDiagonal t, IsFinite x) → e.Pairwise fun x y => y ≤ x) ∧
      ∀ y ∈ w, y = .fin 0 ∨ y = .fin 1) s val vecs := by
  obtain ⟨val, vecs, h1, -, -, -, -, -, -, h8, -⟩ := eigen_run (P := fun t e w => (∃ x ∈ offDiagonal t, ¬ IsFinite x) →
      List.Perm e (onDiagonal t) ∧ ((∀ x ∈ onDiagonal t, IsFinite x) → e.Pairwise fun x y => y ≤ x) ∧
      ∀ y ∈ w, y = .fin 0 ∨ y = .fin 1) (fun t hl => by
    by_cases hx : ∃ x ∈ offDiagonal t, ¬ IsFinite x
    · rcases hs.2 with ⟨rfl, hk⟩ | ⟨rfl, hk⟩
      · obtain ⟨a0, a1, a2, rfl⟩ := len3 (hl.trans hk)
        obtain ⟨e, w, k1, k2, k3, k4⟩ := dropped2 (x0 := a0) (x2 := a2) (by simpa [offDiagonal] using hx)
        exact ⟨e, w, k1, k2, k3, fun _ => k4⟩
      · obtain ⟨a0, a1, a2, a3, a4, a5, rfl⟩ := len6 (hl.trans hk)
        obtain ⟨e, w, k1, k2, k3, k4⟩ := dropped3 (x0 := a0) (x3 := a3) (x5 := a5) (by simpa [offDiagonal] using hx)
        exact ⟨e, w, k1, k2, k3, fun _ => k4⟩
    · obtain ⟨e, w, k1, k2, k3⟩ := eigenItem_sized (n := n) (by rcases hs.2 with ⟨h, _⟩ | ⟨h, _⟩ <;> simp [h])
        (hl.trans (by rcases hs.2 with ⟨rfl, hk⟩ | ⟨rfl, hk⟩ <;> simp [hk]))
      exact ⟨e, w, k1, k2, k3, fun h => absurd h hx⟩) h hs hfit
  exact ⟨val, vecs, h1, h8⟩

/-- The exact functions on `Ext ℝ`. -/
noncomputable abbrev extTrig : Trig (Ext ℝ) where
  pi := .fin Real.pi
  atan | .fin x => .fin (Real.arctan x) | .pinf => .fin (Real.pi / 2) | .ninf => .fin (-(Real.pi / 2)) | .nan => .nan
  sin | .fin x => .fin (Real.sin x) | _ => .nan
  cos | .fin x => .fin (Real.cos x) | _ => .nan

/-- Two symmetric matrices of dimension 3, the first one with NaN off the diagonal and the second one with an infinity on it. -/
noncomputable def exEigNan : Serie (Ext ℝ) :=
  ⟨[.fin 2, .nan, .fin 0, .fin 3, .fin 1, .fin 5, .pinf, .fin 1, .fin 0, .fin 2, .fin 0, .fin 3], 2, 6, 3⟩

theorem exEigNan_WF : WF exEigNan := of_decide_eq_true rfl

theorem exEigNan_shape : EigenShape 3 exEigNan := ⟨rfl, .inr ⟨rfl, rfl⟩⟩

example := @C146_returns (Ext ℝ) _ _ _ _ _ _ _ ⟨.fin 2⟩ ⟨.fin 4⟩ _ _ _ _ _ extTrig 3 exEigNan exEigNan_WF exEigNan_shape
  (of_decide_eq_true rfl)
example := @C146_diagonal_partial ℝ _ _ ⟨.fin 2⟩ ⟨.fin 4⟩ extTrig 3 exEigNan exEigNan_WF exEigNan_shape (of_decide_eq_true rfl)
example := @C146_dropped_violated ℝ _ _ _ ⟨.fin 2⟩ ⟨.fin 4⟩ extTrig 3 exEigNan exEigNan_WF exEigNan_shape (of_decide_eq_true rfl)

/-- The same with another first matrix. -/
noncomputable def exEigNan' : Serie (Ext ℝ) :=
  ⟨[.fin 2, .fin 7, .fin 0, .fin 3, .fin 1, .fin 5, .pinf, .fin 1, .fin 0, .fin 2, .fin 0, .fin 3], 2, 6, 3⟩

example : True := by
  let _ : OfNat (Ext ℝ) 2 := ⟨.fin 2⟩
  let _ : OfNat (Ext ℝ) 4 := ⟨.fin 4⟩
  let _ := extTrig
  obtain ⟨val, vecs, h, -⟩ := C146_returns exEigNan_WF exEigNan_shape (of_decide_eq_true rfl)
  obtain ⟨val', vecs', h', -⟩ := C146_returns (show WF exEigNan' from of_decide_eq_true rfl)
    (show EigenShape 3 exEigNan' from ⟨rfl, .inr ⟨rfl, rfl⟩⟩) (of_decide_eq_true rfl)
  have := C146_items exEigNan_WF exEigNan_shape (of_decide_eq_true rfl) (show WF exEigNan' from of_decide_eq_true rfl)
    (show EigenShape 3 exEigNan' from ⟨rfl, .inr ⟨rfl, rfl⟩⟩) (of_decide_eq_true rfl) h h' (i := 1) (j := 1) rfl
  trivial

end special

/-! ## C146: `double` -/

section double

variable {D : Machine} [OfNat (Ext (Num D)) 2] [OfNat (Ext (Num D)) 4] [Trig (Ext (Num D))] {n : Nat}

/-- The array of one matrix of dimension 2. -/
def one2 (a b c : Ext (Num D)) : Serie (Ext (Num D)) := ⟨[a, b, c], 1, 3, 2⟩

omit [OfNat (Ext (Num D)) 2] [OfNat (Ext (Num D)) 4] [Trig (Ext (Num D))] in
theorem one2_WF (a b c : Ext (Num D)) : WF (one2 a b c) :=
  ⟨of_decide_eq_true rfl, of_decide_eq_true rfl, of_decide_eq_true rfl, of_decide_eq_true rfl⟩

/-- The values of a matrix of dimension 2 with zeros on the diagonal, where the test of the loop fails at once. -/
theorem zeros_stop {x N : Ext (Num D)} (hN : 0 + x * x = N) (hs : N = 0 ∨ ¬ N * (0.00001 : Ext (Num D)) < N) :
    ∃ val vecs, eigenSystem (one2 (.fin 0) x (.fin 0)) = .ok (val, vecs) ∧ items val = [[.fin 0, .fin 0]] := by
  obtain ⟨val, vecs, h1, h2, -, h4, -, h6, -, h8, -⟩ := eigen_run (n := 2) (s := one2 (.fin 0) x (.fin 0))
    (P := fun t e _ => t = [.fin 0, x, .fin 0] → e = [.fin 0, .fin 0]) (fun t hl => by
      by_cases ht : t = [.fin 0, x, .fin 0]
      · obtain ⟨σ, k1, -⟩ := eigen_stop2 (x0 := .fin 0) (x2 := .fin 0) hN hs (Weak.none _)
        refine ⟨_, _, by rw [ht]; exact k1, by simp, by simp, fun _ => ?_⟩
        have : (fun k : Fin 2 => ![(.fin 0 : Ext (Num D)), .fin 0] (σ k)) = fun _ => .fin 0 := by
          funext k
          generalize σ k = j
          fin_cases j <;> rfl
        rw [this]
        rfl
      · obtain ⟨e, w, k1, k2, k3⟩ := eigenItem_sized (n := 2) (.inl rfl) hl
        exact ⟨e, w, k1, k2, k3, fun h => absurd h ht⟩)
    (one2_WF _ _ _) ⟨rfl, .inl ⟨rfl, rfl⟩⟩ (of_decide_eq_true rfl)
  refine ⟨val, vecs, h1, ?_⟩
  have h9 := h8.2
  have hl : (items val).length = 1 := by rw [items_length, h6]; rfl
  obtain ⟨e, he⟩ := List.length_eq_one_iff.1 hl
  rw [show items (one2 (.fin 0) x (.fin 0)) = [[.fin 0, x, .fin 0]] from rfl, he] at h9
  generalize items vecs = ws at h9
  cases h9 with
  | cons h _ => rw [he]; exact congrArg (fun v => [v]) (h rfl)

omit [OfNat (Ext (Num D)) 2] [OfNat (Ext (Num D)) 4] [Trig (Ext (Num D))] in
/-- The literal `0.00001` is finite and positive. -/
theorem literal_pos (hD : IsDouble D) : ∃ y : Num D, 0 < y ∧ (0.00001 : Ext (Num D)) = .fin y := by
  have h1 : |(0.00001 : ℝ)| ≤ D.top := le_trans (by rw [abs_of_pos (by norm_num)]; norm_num) D.top_le
  refine ⟨_, ?_, Ext.ofReal_of_le h1⟩
  show (0 : ℝ) < D.fl 0.00001
  have h2 := D.near 0.00001 ((2 : ℝ) ^ (-17 : ℤ)) (Ext.rep_power hD (by norm_num))
  rw [abs_of_neg (show (2 : ℝ) ^ (-17 : ℤ) - 0.00001 < 0 by norm_num)] at h2
  have h3 := neg_abs_le (D.fl 0.00001 - 0.00001)
  have h4 : (0 : ℝ) < (2 : ℝ) ^ (-17 : ℤ) := by positivity
  linarith

/-- Even finite matrices are affected: the entries `2^600` off the diagonal, whose square is infinite, are lost. The values `2^600` and
`-2^600` are finite, the ones returned are zeros. -/
theorem C146_overflow_violated (hD : IsDouble D) : ∃ s : Serie (Ext (Num D)), ∃ x : Num D, WF s ∧ EigenShape 2 s ∧ x.val = 2 ^ 600 ∧
    items s = [[.fin 0, .fin x, .fin 0]] ∧
    (symMatrix2 [0, x.val, 0]).mulVec ![1, 1] = ((2 : ℝ) ^ 600) • ![1, 1] ∧
    ∃ val vecs, eigenSystem s = .ok (val, vecs) ∧ items val = [[.fin 0, .fin 0]] := by
  generalize hx : power hD 600 (by norm_num) (by norm_num) = x
  have hxv : x.val = (2 : ℝ) ^ (600 : ℤ) := by rw [← hx]; rfl
  have hxv' : x.val = (2 : ℝ) ^ 600 := by rw [hxv, zpow_ofNat]
  have e1 : (.fin x * .fin x : Ext (Num D)) = .pinf := by
    rw [Ext.fin_mul', hxv, ← zpow_add₀ (by norm_num)]
    exact Ext.ofReal_power hD (by norm_num)
  refine ⟨one2 (.fin 0) (.fin x) (.fin 0), x, one2_WF _ _ _, ⟨rfl, .inl ⟨rfl, rfl⟩⟩, hxv', rfl, ?_, zeros_stop (N := .pinf) ?_ (.inr ?_)⟩
  · rw [hxv']
    generalize (2 : ℝ) ^ 600 = c
    ext i
    fin_cases i <;> simp [symMatrix2, num]
  · rw [e1]
    rfl
  · obtain ⟨y, hy, he⟩ := literal_pos hD
    rw [he]
    show ¬ Ext.lt (Ext.infTimes y) .pinf
    rw [Ext.infTimes, if_pos hy]
    exact fun h => h

example := @C146_overflow_violated binary64 ⟨.fin 0⟩ ⟨.fin 0⟩ ⟨.fin 0, id, id, id⟩ binary64_isDouble

/-- The entries `2^-600`, whose square is zero, are lost too. -/
theorem C146_underflow_violated (hD : IsDouble D) : ∃ s : Serie (Ext (Num D)), ∃ x : Num D, WF s ∧ EigenShape 2 s ∧ x.val = 1 / 2 ^ 600 ∧
    items s = [[.fin 0, .fin x, .fin 0]] ∧
    (symMatrix2 [0, x.val, 0]).mulVec ![1, 1] = (1 / (2 : ℝ) ^ 600) • ![1, 1] ∧
    ∃ val vecs, eigenSystem s = .ok (val, vecs) ∧ items val = [[.fin 0, .fin 0]] := by
  generalize hx : power hD (-600) (by norm_num) (by norm_num) = x
  have hxv : x.val = (2 : ℝ) ^ (-600 : ℤ) := by rw [← hx]; rfl
  have hxv' : x.val = 1 / (2 : ℝ) ^ 600 := by rw [hxv, zpow_neg, one_div, zpow_ofNat]
  have e1 : (.fin x * .fin x : Ext (Num D)) = .fin 0 := by
    rw [Ext.fin_mul', hxv, ← zpow_add₀ (by norm_num)]
    exact ofReal_tiny hD
  refine ⟨one2 (.fin 0) (.fin x) (.fin 0), x, one2_WF _ _ _, ⟨rfl, .inl ⟨rfl, rfl⟩⟩, hxv', rfl, ?_, zeros_stop (N := 0) ?_ (.inl rfl)⟩
  · rw [hxv']
    generalize 1 / (2 : ℝ) ^ 600 = c
    ext i
    fin_cases i <;> simp [symMatrix2, num]
  · rw [e1]
    exact Ext.zero_plus 0

example := @C146_underflow_violated binary64 ⟨.fin 0⟩ ⟨.fin 0⟩ ⟨.fin 0, id, id, id⟩ binary64_isDouble

end double

end DF
