import Verif.Lemmas.Special
import Verif.Props.Utils
import Verif.Props.Stats
import Verif.Props.Algebra

/-!
# Properties about special values (C93-C97)

Numbers are `Ext α`: finite numbers, two infinities, NaN (see Verif/Model/Special.lean). The finite numbers are those of an
ordered field, or of any type with the operations needed.
-/

namespace DF

open Spec

variable {α : Type}

/-! ## Data used in the examples -/

deriving instance DecidableEq for Ext

instance : (x : Ext α) → Decidable (IsFinite x)
  | .fin y => .isTrue ⟨y, rfl⟩
  | .pinf => .isFalse fun h => nomatch h
  | .ninf => .isFalse fun h => nomatch h
  | .nan => .isFalse fun h => nomatch h

instance [DecidableEq α] (x : Ext α) (l : List (Ext α)) : Decidable (x ∈ l) := @List.instDecidableMemOfLawfulBEq _ instBEqOfDecidableEq _ x l

instance [DecidableEq α] (x : Ext α) : Decidable (NotInf x) := by unfold NotInf; infer_instance

local instance : Limits ℚ := ⟨2 ^ 1024, -2 ^ 1024⟩

/-- Numbers among which two are NaN. -/
def exNan : Serie (Ext ℚ) := ⟨[.nan, .fin 3, .fin (-1), .nan], 4, 1, 3⟩

/-- Finite numbers. -/
def exFin : Serie (Ext ℚ) := ⟨[.fin 2, .fin 3, .fin (-1), .fin 0], 4, 1, 3⟩

/-- Items of two numbers, the first with a NaN. -/
def exNan2 : Serie (Ext ℚ) := ⟨[.fin 5, .nan, .fin 7, .fin 8], 2, 2, 3⟩

/-- Items of two finite numbers. -/
def exFin2 : Serie (Ext ℚ) := ⟨[.fin 1, .fin 2, .fin 3, .fin (-4)], 2, 2, 3⟩

/-! ## C93: NaN and equality -/

theorem Ext.beq_nan_left [DecidableEq α] (x : Ext α) : ((Ext.nan : Ext α) == x) = false := by cases x <;> rfl
theorem Ext.beq_nan_right [DecidableEq α] (x : Ext α) : (x == (Ext.nan : Ext α)) = false := by cases x <;> rfl
theorem Ext.beq_iff [DecidableEq α] {x y : Ext α} : (x == y) = true ↔ x = y ∧ x ≠ .nan := by
  cases x <;> cases y <;> first | (simp; rfl) | simp [BEq.beq]

theorem Ext.list_beq_iff [DecidableEq α] : ∀ {l m : List (Ext α)}, (l == m) = true ↔ l = m ∧ Ext.nan ∉ l := by
  intro l
  induction l with
  | nil => intro m; cases m <;> simp
  | cons a l ih =>
    intro m
    cases m with
    | nil => simp
    | cons b m =>
      rw [List.cons_beq_cons, Bool.and_eq_true, ih, Ext.beq_iff]
      constructor
      · rintro ⟨⟨rfl, h1⟩, rfl, h2⟩
        exact ⟨rfl, by simp [h2, Ne.symm h1]⟩
      · rintro ⟨h1, h2⟩
        cases h1
        simp only [List.mem_cons, not_or] at h2
        exact ⟨⟨rfl, Ne.symm h2.1⟩, rfl, h2.2⟩

/-- C93: `equals` is true exactly when both Series are valid with the same shape, dimension and numbers, and no NaN. -/
theorem C93_equals [DecidableEq α] (a b : Serie (Ext α)) : equals a b = true ↔
    a.isValid = true ∧ b.isValid = true ∧ a.itemSize = b.itemSize ∧ a.count = b.count ∧ a.dimension = b.dimension ∧
      a.data = b.data ∧ Ext.nan ∉ a.data := by
  unfold equals
  split
  · rename_i h; simp at h ⊢; intro h1 h2; simp [h1, h2] at h
  · rename_i h
    simp at h
    split
    · rename_i h2; simp [h2]
    · split
      · rename_i h3; simp [h3]
      · split
        · rename_i h4; simp [h4]
        · rename_i h2 h3 h4
          simp only [ne_eq, Decidable.not_not] at h2 h3 h4
          rw [Ext.list_beq_iff]
          simp [h, h2, h3, h4]

/-- C93: so a Serie with a NaN is equal to no Serie, not even to itself. -/
theorem C93_not_reflexive [DecidableEq α] {a : Serie (Ext α)} (h : Ext.nan ∈ a.data) (b : Serie (Ext α)) :
    equals a a = false ∧ equals a b = false ∧ equals b a = false := by
  have key : ∀ c d : Serie (Ext α), (Ext.nan ∈ c.data ∨ Ext.nan ∈ d.data) → equals c d = false := by
    intro c d hn
    rw [Bool.eq_false_iff]
    intro e
    obtain ⟨_, _, _, _, _, h1, h2⟩ := (C93_equals c d).1 e
    rcases hn with hn | hn
    · exact h2 hn
    · rw [← h1] at hn; exact h2 hn
  exact ⟨key a a (Or.inl h), key a b (Or.inl h), key b a (Or.inr h)⟩

example := C93_not_reflexive (a := exNan) (by decide) exNan

theorem Ext.near_nan [Zero α] [Neg α] [Sub α] [LT α] [DecidableLT α] [LE α] [DecidableLE α] {eps x y : Ext α}
    (h : x = .nan ∨ y = .nan) : near eps x y = false := by
  have e : x - y = .nan := by
    rcases h with rfl | rfl
    · exact Ext.nan_sub _
    · exact Ext.sub_nan _
  unfold near absv
  rw [e, if_neg (Ext.not_nan_lt _), decide_eq_false (Ext.not_nan_le _)]

/-- C93: `approximatelyEquals` does not accept a Serie with a NaN, whatever the tolerance (even an infinite one). -/
theorem C93_approximatelyEquals [Zero α] [Neg α] [Sub α] [LT α] [DecidableLT α] [LE α] [DecidableLE α]
    {a b : Serie (Ext α)} (eps : Ext α) (hlen : a.data.length = b.data.length) (h : Ext.nan ∈ a.data ∨ Ext.nan ∈ b.data) :
    approximatelyEquals a b eps = .ok false := by
  obtain ⟨r, hr, hiff⟩ := stdEqual_eq (pred := near eps) hlen
  have hf : r = false := by
    rw [Bool.eq_false_iff]
    intro e
    have h1 := hiff.1 e
    rcases h with h | h
    · obtain ⟨i, hi, he⟩ := List.mem_iff_getElem.1 h
      have := h1 i hi (by omega)
      rw [Ext.near_nan (Or.inl he)] at this
      cases this
    · obtain ⟨i, hi, he⟩ := List.mem_iff_getElem.1 h
      have := h1 i (by omega) hi
      rw [Ext.near_nan (Or.inr he)] at this
      cases this
  unfold approximatelyEquals
  split
  · rfl
  · split
    · rfl
    · split
      · rfl
      · split
        · rfl
        · rw [hr, hf]

example := C93_approximatelyEquals (a := exNan) (b := exFin) .pinf rfl (.inl (by decide))

/-- C93: both masks have 0 for every item with a NaN. -/
theorem C93_masks [Zero α] [One α] [Neg α] [Sub α] [LT α] [DecidableLT α] [LE α] [DecidableLE α] [DecidableEq α]
    {a b : Serie (Ext α)} (ha : WF a) (hb : WF b) (hs : SameShape a b) (eps : Ext α) :
    ∃ r t, equalityMask a b = .ok r ∧ approximateEqualityMask a b eps = .ok t ∧ r.count = a.count ∧ t.count = a.count ∧
      ∀ i j, i < a.count → j < a.itemSize → (cell a i j = some .nan ∨ cell b i j = some .nan) →
        cell r i 0 = some 0 ∧ cell t i 0 = some 0 := by
  obtain ⟨r, r1, r2, r3, r4, r5⟩ := (maskWith_spec (pred := fun x y : Ext α => x == y) (P := fun x y => (x == y) = true)
    (fun _ _ => Iff.rfl) ha hb).2 hs
  obtain ⟨t, t1, t2, t3, t4, t5⟩ := (maskWith_spec (pred := near eps) (P := fun x y => near eps x y = true)
    (fun _ _ => Iff.rfl) ha hb).2 hs
  refine ⟨r, t, r1, t1, r4, t4, fun i j hi hj hn => ?_⟩
  obtain ⟨x, hx⟩ := cell_total ha hi hj
  obtain ⟨y, hy⟩ := cell_total hb (i := i) (j := j) (by rw [← hs.2]; exact hi) (by rw [← hs.1]; exact hj)
  have hn' : x = .nan ∨ y = .nan := by
    rcases hn with h | h
    · rw [hx] at h; exact Or.inl (Option.some.inj h)
    · rw [hy] at h; exact Or.inr (Option.some.inj h)
  refine ⟨(r5 i hi).2 ⟨j, x, y, hx, hy, ?_⟩, (t5 i hi).2 ⟨j, x, y, hx, hy, ?_⟩⟩
  · intro e
    rcases hn' with rfl | rfl
    · rw [Ext.beq_nan_left] at e; cases e
    · rw [Ext.beq_nan_right] at e; cases e
  · rw [Ext.near_nan hn']; simp

example := C93_masks (a := exNan2) (b := exFin2) (by decide) (by decide) ⟨rfl, rfl⟩ (.fin 1)

/-! ## C94: NaN and extremes -/

theorem component_getElem? {s : Serie α} (h : WF s) {i j : Nat} (hj : j < s.itemSize) :
    (component s j)[i]? = cell s i j := by
  have hl : ∀ v ∈ items s, j < v.length := fun v hv => by rw [h.item_length hv]; exact hj
  unfold component cell
  generalize items s = l at hl
  induction l generalizing i with
  | nil => simp
  | cons v l ih =>
    rw [List.filterMap_cons, List.getElem?_eq_getElem (hl v (by simp))]
    cases i with
    | zero => simp [hl v (by simp)]
    | succ i => simpa using ih (i := i) (fun w hw => hl w (List.mem_cons_of_mem _ hw))

/-- C94, scalar Series: `minMax` leaves NaN out, and gives the smallest and the largest finite number. -/
theorem C94_minMax_scalar [LinearOrder α] [Limits α] {s : Serie (Ext α)} (h : WF s) (h1 : s.itemSize = 1)
    (hni : ∀ x ∈ scalars s, NotInf x) (hne : finites (scalars s) ≠ [])
    (hlim : ∀ x ∈ finites (scalars s), Limits.lowest ≤ x ∧ x ≤ Limits.highest) :
    ∃ a b, minMax s = .ok ([.fin a], [.fin b]) ∧ Least a (finites (scalars s)) ∧ Greatest b (finites (scalars s)) := by
  have h0 : 0 < s.count := by
    rw [← h.scalars_length, List.length_pos_iff]
    rintro e
    rw [e] at hne
    exact hne rfl
  refine ⟨_, _, ?_, least_of_bound hne (fun x hx => (hlim x hx).2), greatest_of_bound hne (fun x hx => (hlim x hx).1)⟩
  rw [minMax_scalar_run h h0 h1]
  show Res.ok ([(scalars s).foldl minv (.fin Limits.highest)], [(scalars s).foldl maxv (.fin Limits.lowest)]) = _
  rw [Ext.foldl_minv_fin _ hni, Ext.foldl_maxv_fin _ hni]

example := C94_minMax_scalar (s := exNan) (by decide) rfl (by decide) (by decide) (by decide +kernel)

/-- C94: a scalar Serie of NaN only has the largest `double` as minimum and the lowest one as maximum. -/
theorem C94_all_nan_violated [LinearOrder α] [Limits α] {s : Serie (Ext α)} (h : WF s) (h0 : 0 < s.count) (h1 : s.itemSize = 1)
    (hn : ∀ x ∈ scalars s, x = .nan) : minMax s = .ok ([Limits.highest], [Limits.lowest]) := by
  rw [minMax_scalar_run h h0 h1]
  have key : ∀ l : List (Ext α), (∀ x ∈ l, x = .nan) → ∀ y : Ext α, l.foldl minv y = y ∧ l.foldl maxv y = y := by
    intro l
    induction l with
    | nil => intro _ y; exact ⟨rfl, rfl⟩
    | cons x l ih =>
      intro hl y
      rw [hl x (by simp), List.foldl_cons, List.foldl_cons, Ext.minv_nan_right, Ext.maxv_nan_right]
      exact ih (fun z hz => hl z (List.mem_cons_of_mem _ hz)) y
  rw [(key _ hn _).1, (key _ hn _).2]

example := C94_all_nan_violated (s := (⟨[.nan, .nan], 2, 1, 3⟩ : Serie (Ext ℚ))) (by decide) (by decide) rfl (by decide)

/-- C94, vector Series: at a component where the first item is finite, NaN is left out too. -/
theorem C94_minMax_items_partial [LinearOrder α] [Limits α] {s : Serie (Ext α)} (h : WF s) (h0 : 0 < s.count)
    (h1 : s.itemSize ≠ 1) :
    ∃ mn mx, minMax s = .ok (mn, mx) ∧ mn.length = s.itemSize ∧ mx.length = s.itemSize ∧ ∀ j, j < s.itemSize →
      (∀ x ∈ component s j, NotInf x) → (∃ x, cell s 0 j = some (.fin x)) →
      ∃ a b, mn[j]? = some (.fin a) ∧ mx[j]? = some (.fin b) ∧
        Least a (finites (component s j)) ∧ Greatest b (finites (component s j)) := by
  obtain ⟨mn, mx, h2, h3, h4, h5⟩ := minMax_items_run h h0 h1
  refine ⟨mn, mx, h2, h3, h4, fun j hj hni ⟨x, hx⟩ => ?_⟩
  obtain ⟨y, l, hc, ha, hb⟩ := h5 j hj
  have hy : y = .fin x := by
    have : (component s j)[0]? = some y := by rw [hc]; rfl
    rw [component_getElem? h hj, hx] at this
    exact (Option.some.inj this).symm
  subst hy
  rw [hc] at hni ⊢
  have hl : ∀ z ∈ l, NotInf z := fun z hz => hni z (List.mem_cons_of_mem _ hz)
  rw [Ext.foldl_minv_fin _ hl] at ha
  rw [Ext.foldl_maxv_fin _ hl] at hb
  exact ⟨_, _, ha, hb, foldl_min_least _ _, foldl_max_greatest _ _⟩

example := C94_minMax_items_partial (s := exNan2) (by decide) (by decide) (by decide)

/-- C94, vector Series: a NaN in the first item makes that component of both results NaN, whatever the other items. -/
theorem C94_first_item_violated [LT α] [DecidableLT α] [Limits α] {s : Serie (Ext α)} (h : WF s) (h0 : 0 < s.count)
    (h1 : s.itemSize ≠ 1) :
    ∃ mn mx, minMax s = .ok (mn, mx) ∧ ∀ j, cell s 0 j = some .nan → mn[j]? = some .nan ∧ mx[j]? = some .nan := by
  obtain ⟨mn, mx, h2, h3, h4, h5⟩ := minMax_items_run h h0 h1
  refine ⟨mn, mx, h2, fun j hx => ?_⟩
  have hj : j < s.itemSize := by
    unfold cell at hx
    rw [List.getElem?_eq_getElem (by rw [items_length]; exact h0), Option.bind_some] at hx
    obtain ⟨hj, _⟩ := List.getElem?_eq_some_iff.1 hx
    rwa [h.item_length (List.getElem_mem _)] at hj
  obtain ⟨y, l, hc, ha, hb⟩ := h5 j hj
  have hy : y = .nan := by
    have : (component s j)[0]? = some y := by rw [hc]; rfl
    rw [component_getElem? h hj, hx] at this
    exact (Option.some.inj this).symm
  subst hy
  rw [Ext.foldl_minv_nan] at ha
  rw [Ext.foldl_maxv_nan] at hb
  exact ⟨ha, hb⟩

example := C94_first_item_violated (s := exNan2) (by decide) (by decide) (by decide)

/-- C94: the minimum of scalar Series whose numbers are all `+inf` is the largest finite number, not `+inf`. -/
theorem C94_infinite_violated [LT α] [DecidableLT α] [Limits α] {s : Serie (Ext α)} (h : WF s) (h0 : 0 < s.count)
    (h1 : s.itemSize = 1) (hi : ∀ x ∈ scalars s, x = .pinf) : minMax s = .ok ([Limits.highest], [.pinf]) := by
  rw [minMax_scalar_run h h0 h1]
  have k1 : ∀ l : List (Ext α), (∀ x ∈ l, x = .pinf) → ∀ y : α, l.foldl minv (.fin y) = .fin y := by
    intro l
    induction l with
    | nil => intro _ y; rfl
    | cons x l ih =>
      intro hl y
      rw [hl x (by simp), List.foldl_cons]
      have : minv (.fin y) .pinf = (.fin y : Ext α) := by
        unfold minv; rw [if_neg]; exact id
      rw [this]
      exact ih (fun z hz => hl z (List.mem_cons_of_mem _ hz)) y
  have k2 : ∀ l : List (Ext α), (∀ x ∈ l, x = .pinf) → l.foldl maxv .pinf = (.pinf : Ext α) := by
    intro l
    induction l with
    | nil => intro _; rfl
    | cons x l ih =>
      intro hl
      rw [hl x (by simp), List.foldl_cons]
      have : maxv .pinf .pinf = (.pinf : Ext α) := by unfold maxv; split <;> rfl
      rw [this]
      exact ih (fun z hz => hl z (List.mem_cons_of_mem _ hz))
  have hl := h.scalars_length
  cases hsc : scalars s with
  | nil => rw [hsc] at hl; simp at hl; omega
  | cons x l =>
    rw [hsc] at hi
    have e1 : (x :: l).foldl minv (Limits.highest : Ext α) = Limits.highest := k1 _ hi _
    have e2 : (x :: l).foldl maxv (Limits.lowest : Ext α) = .pinf := by
      rw [List.foldl_cons, hi x (by simp)]
      have : maxv (Limits.lowest : Ext α) .pinf = .pinf := if_pos trivial
      rw [this]
      exact k2 l (fun z hz => hi z (List.mem_cons_of_mem _ hz))
    rw [e1, e2]

example := C94_infinite_violated (s := (⟨[.pinf, .pinf], 2, 1, 3⟩ : Serie (Ext ℚ))) (by decide) (by decide) rfl (by decide)

/-! ## C95: NaN stays where it is -/

theorem Ext.add_eq_nan [Add α] {x y : Ext α} (hx : NotInf x) (hy : NotInf y) : x + y = .nan ↔ x = .nan ∨ y = .nan := by
  rcases Ext.finite_or_nan hx with ⟨u, rfl⟩ | rfl
  · rcases Ext.finite_or_nan hy with ⟨v, rfl⟩ | rfl
    · rw [Ext.fin_add]; simp
    · rw [Ext.add_nan]; simp
  · rw [Ext.nan_add]; simp

theorem Ext.sub_eq_nan [Sub α] {x y : Ext α} (hx : NotInf x) (hy : NotInf y) : x - y = .nan ↔ x = .nan ∨ y = .nan := by
  rcases Ext.finite_or_nan hx with ⟨u, rfl⟩ | rfl
  · rcases Ext.finite_or_nan hy with ⟨v, rfl⟩ | rfl
    · rw [Ext.fin_sub]; simp
    · rw [Ext.sub_nan]; simp
  · rw [Ext.nan_sub]; simp

theorem Ext.mul_eq_nan [Zero α] [LT α] [DecidableLT α] [Mul α] {x y : Ext α} (hx : NotInf x) (hy : NotInf y) :
    (x * y = .nan ↔ x = .nan ∨ y = .nan) ∧ NotInf (x * y) := by
  rcases Ext.finite_or_nan hx with ⟨u, rfl⟩ | rfl
  · rcases Ext.finite_or_nan hy with ⟨v, rfl⟩ | rfl
    · rw [Ext.fin_mul]; simp [NotInf]
    · rw [Ext.mul_nan]; simp [NotInf]
  · rw [Ext.nan_mul]; simp [NotInf]

/-- C95: without infinities, a number of `add(a, b)` and `sub(a, b)` is NaN exactly where one of the operands has NaN at the
same place. -/
theorem C95_add_sub [Zero α] [Add α] [Sub α] {a b : Serie (Ext α)} (ha : WF a) (hb : WF b) (hs : SameShape a b) :
    ∃ r t, add2 a b = .ok r ∧ sub2 a b = .ok t ∧ ∀ i j x y, cell a i j = some x → cell b i j = some y →
      NotInf x → NotInf y → ∃ z w, cell r i j = some z ∧ cell t i j = some w ∧
        (z = .nan ↔ x = .nan ∨ y = .nan) ∧ (w = .nan ↔ x = .nan ∨ y = .nan) := by
  obtain ⟨r, h1, h2, h3, h4⟩ := (C35_add ha hb).2 hs
  obtain ⟨t, k1, k2, k3, k4⟩ := (C35_sub ha hb).2 hs
  exact ⟨r, t, h1, k1, fun i j x y hx hy nx ny => ⟨_, _, h4 i j x y hx hy, k4 i j x y hx hy, Ext.add_eq_nan nx ny,
    Ext.sub_eq_nan nx ny⟩⟩

example := C95_add_sub (a := exNan2) (b := exFin2) (by decide) (by decide) ⟨rfl, rfl⟩

theorem foldl_prod_nan [Zero α] [Add α] [LT α] [DecidableLT α] [Mul α] {u v : List (Ext α)}
    (hu : ∀ x ∈ u, NotInf x) (hv : ∀ x ∈ v, NotInf x) (hl : u.length = v.length) :
    (List.zipWith (· * ·) u v).foldl (· + ·) 0 = .nan ↔ Ext.nan ∈ u ∨ Ext.nan ∈ v := by
  have hm : ∀ {u v : List (Ext α)}, (∀ x ∈ u, NotInf x) → (∀ x ∈ v, NotInf x) → u.length = v.length →
      (∀ z ∈ List.zipWith (· * ·) u v, NotInf z) ∧
      (Ext.nan ∈ List.zipWith (· * ·) u v ↔ Ext.nan ∈ u ∨ Ext.nan ∈ v) := by
    intro u
    induction u with
    | nil => intro v _ _ hl; cases v with
      | nil => simp
      | cons _ _ => simp at hl
    | cons x u ih =>
      intro v hu hv hl
      cases v with
      | nil => simp at hl
      | cons y v =>
        obtain ⟨i1, i2⟩ := ih (fun z hz => hu z (List.mem_cons_of_mem _ hz)) (fun z hz => hv z (List.mem_cons_of_mem _ hz))
          (by simpa using hl)
        obtain ⟨m1, m2⟩ := Ext.mul_eq_nan (hu x (by simp)) (hv y (by simp))
        refine ⟨fun z hz => ?_, ?_⟩
        · rw [List.zipWith_cons_cons] at hz
          rcases List.mem_cons.1 hz with rfl | hz
          · exact m2
          · exact i1 z hz
        · rw [List.zipWith_cons_cons, List.mem_cons, List.mem_cons, List.mem_cons, i2]
          rw [eq_comm (a := Ext.nan), m1, eq_comm (a := Ext.nan), eq_comm (a := Ext.nan)]
          tauto
  obtain ⟨h1, h2⟩ := hm hu hv hl
  obtain ⟨f1, f2⟩ := Ext.foldl_add _ h1 (0 : α)
  rw [← h2]
  show (List.zipWith (· * ·) u v).foldl (· + ·) (Ext.fin 0) = .nan ↔ _
  by_cases hn : Ext.nan ∈ List.zipWith (· * ·) u v
  · exact ⟨fun _ => hn, fun _ => f1 hn⟩
  · rw [f2 hn]; simp [hn]

/-- C95: without infinities, an item of `dot(a, b)` is NaN exactly when one of the two items has a NaN: the others are not
affected. -/
theorem C95_dot [Zero α] [Add α] [LT α] [DecidableLT α] [Mul α] {a b : Serie (Ext α)} (ha : WF a) (hb : WF b)
    (hs : SameShape a b) (h0 : 0 < a.count) :
    ∃ r, dot a b = .ok r ∧ WF r ∧ r.itemSize = 1 ∧ ItemWise3 (fun u v w => (∀ x ∈ u, NotInf x) → (∀ x ∈ v, NotInf x) →
      ∃ z, w = [z] ∧ (z = .nan ↔ Ext.nan ∈ u ∨ Ext.nan ∈ v)) a b r := by
  have := ha.pos
  have hf := ofItems_zip_facts ha hb hs.2 (k := 1) (g := fun u v => [(List.zipWith (· * ·) u v).foldl (· + ·) 0])
    (by omega) (by omega) (fun _ _ _ _ => rfl)
  have hrun : dot a b =
      .ok (ofItems 1 (List.zipWith (fun u v => [(List.zipWith (· * ·) u v).foldl (· + ·) 0]) (items a) (items b))) :=
    mapArr_items2 (f := dotItem a.itemSize) ha hb hs.2 h0 (by omega) (by omega) (fun _ _ _ _ => rfl)
      (fun u v hu hv => dotItem_run hu (hv.trans hs.1.symm))
  refine ⟨_, hrun, hf.1, hf.2.1, ItemWise3_zip hs.2 hf.2.2.2 (fun u hu v hv =>
    fun nu nv => ⟨_, rfl, foldl_prod_nan nu nv ?_⟩)⟩
  rw [ha.item_length hu, hb.item_length hv, hs.1]

example := C95_dot (a := exNan2) (b := exFin2) (by decide) (by decide) ⟨rfl, rfl⟩ (by decide)

/-- C95: a NaN in one of the Series given to `weigthedSum` makes the result NaN at that place, even with weight 0; the other
places are not affected. -/
theorem C95_weightedSum [Zero α] [Add α] [LT α] [DecidableLT α] [Mul α] {series : List (Serie (Ext α))}
    {weights : List (Ext α)} {k n : Nat} (hne : series ≠ []) (hlen : series.length = weights.length)
    (hss : ∀ s ∈ series, WF s ∧ s.itemSize = k ∧ s.count = n) (h0 : 0 < n) (hw : ∀ w ∈ weights, IsFinite w) :
    ∃ r, weightedSum series weights = .ok r ∧ ∀ i j, i < n → j < k →
      (∀ s ∈ series, ∀ x, cell s i j = some x → NotInf x) →
      (cell r i j = some .nan ↔ ∃ s ∈ series, cell s i j = some .nan) := by
  obtain ⟨r, h1, h2, h3, h4, h5⟩ := weightedSum_eq hne hlen hss h0
  refine ⟨r, h1, fun i j hi hj hni => ?_⟩
  obtain ⟨xs, a, b⟩ := h5 i j hi hj
  have hmem : ∀ x, x ∈ xs ↔ ∃ s ∈ series, cell s i j = some x := by
    intro x
    have : some x ∈ series.map (fun s => cell s i j) ↔ some x ∈ xs.map some := by rw [a]
    simp only [List.mem_map, Option.some.injEq, exists_eq_right] at this
    exact this.symm
  have hwn : Ext.nan ∉ weights := fun h => by
    obtain ⟨y, hy⟩ := hw _ h
    cases hy
  have hxl : series.length = xs.length := by simpa using congrArg List.length a
  have hp := foldl_prod_nan (u := xs) (v := weights) (fun x hx => by
    obtain ⟨s, hs, hx⟩ := (hmem x).1 hx
    exact hni s hs x hx) (fun w hw' => by
    obtain ⟨y, rfl⟩ := hw w hw'
    exact Ext.notInf_fin y) (by omega)
  rw [b, Option.some.injEq, hp, hmem]
  constructor
  · rintro (h | h)
    · exact h
    · exact absurd h hwn
  · exact Or.inl

example := C95_weightedSum (series := [exNan2, exFin2]) (weights := [.fin 0, .fin 1]) (k := 2) (n := 2) (by decide) rfl (by decide)
  (by decide) (by decide)

theorem Ext.div_count_nan [Field α] [CharZero α] [LinearOrder α] {x : Ext α} (hx : NotInf x) {n : Nat} (hn : 0 < n) :
    x / ((n : Nat) : Ext α) = .nan ↔ x = .nan := by
  rcases Ext.finite_or_nan hx with ⟨u, rfl⟩ | rfl
  · rw [Ext.cast_def, Ext.fin_div (by exact_mod_cast hn.ne')]; simp
  · rw [Ext.nan_div]

theorem Ext.sum_notInf [Add α] {l : List (Ext α)} (h : ∀ x ∈ l, NotInf x) (a : α) :
    (l.foldl (· + ·) (.fin a) = .nan ↔ Ext.nan ∈ l) ∧ NotInf (l.foldl (· + ·) (.fin a)) := by
  obtain ⟨f1, f2⟩ := Ext.foldl_add l h a
  by_cases hn : Ext.nan ∈ l
  · rw [f1 hn]; simp [hn, NotInf]
  · rw [f2 hn]; simp [hn, NotInf]

/-- C95: without infinities, component `j` of `mean` is NaN exactly when some item has NaN at component `j`. -/
theorem C95_mean [Field α] [CharZero α] [LinearOrder α] {s : Serie (Ext α)} (h : WF s) (h0 : 0 < s.count) :
    ∃ m, mean s = .ok m ∧ ∀ j, j < s.itemSize → (∀ x ∈ component s j, NotInf x) →
      ∃ x, tupleAt m j = some x ∧ (x = .nan ↔ Ext.nan ∈ component s j) := by
  by_cases h1 : s.itemSize = 1
  · refine ⟨_, mean_scalar_run h h1, fun j hj hni => ?_⟩
    obtain rfl : j = 0 := by omega
    refine ⟨_, rfl, ?_⟩
    rw [component_scalar h h1] at hni ⊢
    obtain ⟨k1, k2⟩ := Ext.sum_notInf hni (0 : α)
    rw [Ext.div_count_nan (by exact k2) h0]
    exact k1
  · obtain ⟨b, h2, h3, h4⟩ := mean_items_run h h1
    refine ⟨_, h2, fun j hj hni => ⟨_, h4 j hj, ?_⟩⟩
    obtain ⟨k1, k2⟩ := Ext.sum_notInf hni (0 : α)
    rw [Ext.div_count_nan (by exact k2) h0]
    exact k1

example := C95_mean (s := exNan2) (by decide) (by decide)

/-- C95: one NaN in `x` or in `y` makes `covariance(x, y)` NaN. -/
theorem C95_covariance [Field α] [CharZero α] [LinearOrder α] {x y : Serie (Ext α)} (hx : WF x) (hy : WF y)
    (hc : x.count = y.count) (h1 : x.itemSize = 1) (h1' : y.itemSize = 1) (nx : ∀ v ∈ scalars x, NotInf v)
    (ny : ∀ v ∈ scalars y, NotInf v) (hn : Ext.nan ∈ scalars x ∨ Ext.nan ∈ scalars y) : covariance x y = .ok .nan := by
  have hl := hx.scalars_length
  have hl' := hy.scalars_length
  have h0 : 0 < x.count := by
    rcases hn with h | h
    · rw [← hl]; exact List.length_pos_of_mem h
    · rw [hc, ← hl']; exact List.length_pos_of_mem h
  rw [covariance_run hx hy hc h1 h1' (mean_scalar_run hx h1) (mean_scalar_run hy h1')]
  congr 1
  have mx : Ext.nan ∈ scalars x → (scalars x).foldl (· + ·) 0 / ((x.count : Nat) : Ext α) = .nan := fun h => by
    rw [show (scalars x).foldl (· + ·) 0 = .nan from (Ext.sum_notInf nx (0 : α)).1.2 h, Ext.nan_div]
  have my : Ext.nan ∈ scalars y → (scalars y).foldl (· + ·) 0 / ((y.count : Nat) : Ext α) = .nan := fun h => by
    rw [show (scalars y).foldl (· + ·) 0 = .nan from (Ext.sum_notInf ny (0 : α)).1.2 h, Ext.nan_div]
  have hall : ∀ z ∈ List.zipWith (fun u v => (u - (scalars x).foldl (· + ·) 0 / ((x.count : Nat) : Ext α)) *
      (v - (scalars y).foldl (· + ·) 0 / ((y.count : Nat) : Ext α)) / ((x.count : Nat) : Ext α)) (scalars x) (scalars y),
      z = .nan := by
    intro z hz
    obtain ⟨i, hi, rfl⟩ := List.mem_iff_getElem.1 hz
    rw [List.getElem_zipWith]
    generalize (scalars x)[i]'_ = u
    generalize (scalars y)[i]'_ = v
    rcases hn with h | h
    · rw [mx h, Ext.sub_nan, Ext.nan_mul, Ext.nan_div]
    · rw [my h, Ext.sub_nan, Ext.mul_nan, Ext.nan_div]
  have hpos : 0 < (List.zipWith (fun u v => (u - (scalars x).foldl (· + ·) 0 / ((x.count : Nat) : Ext α)) *
      (v - (scalars y).foldl (· + ·) 0 / ((y.count : Nat) : Ext α)) / ((x.count : Nat) : Ext α)) (scalars x) (scalars y)).length := by
    rw [List.length_zipWith]; omega
  refine (Ext.sum_notInf (fun z hz => ?_) (0 : α)).1.2 ?_
  · rw [hall z hz]; exact ⟨by simp, by simp⟩
  · obtain ⟨z, hz⟩ := List.exists_mem_of_length_pos hpos
    rw [← hall z hz]; exact hz

example := C95_covariance (x := exNan) (y := exFin) (by decide) (by decide) rfl rfl rfl (by decide) (by decide) (.inl (by decide))

/-! ## C96: divisions by zero -/

/-- C96: `normalize` of a constant scalar Serie gives NaN everywhere. -/
theorem C96_normalize_constant_violated [Field α] [LinearOrder α] [IsStrictOrderedRing α] [Limits α] [Sqrt α]
    {s : Serie (Ext α)} (h : WF s) (h0 : 0 < s.count) (h1 : s.itemSize = 1) {c : α} (hc : ∀ x ∈ scalars s, x = .fin c)
    (hlim : Limits.lowest ≤ c ∧ c ≤ Limits.highest) :
    normalize s = .ok (ofScalars (List.replicate s.count .nan)) := by
  have hf : finites (scalars s) = List.replicate s.count c := by
    rw [← h.scalars_length]
    generalize scalars s = l at hc
    induction l with
    | nil => rfl
    | cons x l ih =>
      have hx := hc x (by simp)
      subst hx
      show c :: finites l = _
      rw [ih (fun y hy => hc y (List.mem_cons_of_mem _ hy))]
      rfl
  obtain ⟨a, b, hm, ha, hb⟩ := C94_minMax_scalar h h1 (fun x hx => by rw [hc x hx]; exact Ext.notInf_fin c)
    (by rw [hf]; simp; omega) (fun x hx => by rw [hf] at hx; rw [(List.mem_replicate.1 hx).2]; exact hlim)
  have ea : a = c := by have := ha.1; rw [hf] at this; exact (List.mem_replicate.1 this).2
  have eb : b = c := by have := hb.1; rw [hf] at this; exact (List.mem_replicate.1 this).2
  subst ea eb
  unfold normalize
  rw [h.valid, if_neg (by simp), if_pos h1, hm]
  simp only [Res.ok_bind]
  rw [show rd [Ext.fin b] 0 = .ok (Ext.fin b) from rfl]
  simp only [Res.ok_bind]
  rw [mapNum_ok h (AllReturn_map (g := fun _ => Ext.nan) (fun x hx i => ?_))]
  · rw [List.map_const', h.scalars_length]
  · rw [hc x hx, Ext.fin_sub, sub_self, Ext.one_def, Ext.fin_div_zero]
    show Res.ok (Ext.infTimes (1 : α) * Ext.fin 0) = Res.ok Ext.nan
    congr 1
    unfold Ext.infTimes
    rw [if_pos one_pos]
    show Ext.infTimes (0 : α) = .nan
    unfold Ext.infTimes
    rw [if_neg (lt_irrefl _), if_neg (lt_irrefl _)]

example := @C96_normalize_constant_violated ℚ _ _ _ _ ⟨id⟩ ⟨[.fin 4, .fin 4], 2, 1, 3⟩ (by decide) (by decide) rfl 4 (by decide +kernel)
  (by decide +kernel)

theorem foldl_squares [Field α] [LinearOrder α] (l : List α) : ∀ a : α,
    (l.map Ext.fin).foldl (fun acc v => acc + v * v) (Ext.fin a) = .fin (l.foldl (fun acc v => acc + v * v) a) := by
  induction l with
  | nil => intro a; rfl
  | cons x l ih => intro a; exact ih (a + x * x)

/-- C96: `normalize` of a vector Serie of finite numbers gives NaN for all the numbers of a zero item, and finite numbers for
the other items (`sqrt` being zero only at zero). -/
theorem C96_normalize_items [Field α] [LinearOrder α] [IsStrictOrderedRing α] [Limits α] [Sqrt α]
    (hsq : ∀ x : α, 0 ≤ x → (Sqrt.sqrt x = 0 ↔ x = 0)) {s : Serie (Ext α)} (h : WF s) (h0 : 0 < s.count)
    (h1 : s.itemSize ≠ 1) (hf : ∀ v ∈ items s, ∀ x ∈ v, IsFinite x) :
    ∃ r, normalize s = .ok r ∧ WF r ∧ SameShape r s ∧ ItemWise (fun v w =>
      ((∀ x ∈ v, x = .fin 0) → ∀ y ∈ w, y = .nan) ∧ ((∃ x ∈ v, x ≠ .fin 0) → ∀ y ∈ w, IsFinite y)) s r := by
  let g : List (Ext α) → List (Ext α) := fun v =>
    v.map (· * (1 / Sqrt.sqrt (v.foldl (fun acc x => acc + x * x) 0)))
  have hfc := ofItems_map_facts h (k := s.itemSize) (g := g) h.pos le_rfl (fun v hv => by simpa [g] using hv)
  refine ⟨_, ?_, hfc.1, ⟨hfc.2.1, hfc.2.2.1⟩, ItemWise_map hfc.2.2.2 (fun v hv => ?_)⟩
  · unfold normalize
    rw [h.valid, if_neg (by simp), if_neg h1]
    exact mapArr_items h h0 h.pos le_rfl (fun v hv => by simpa [g] using hv) (fun v hv i => rfl)
  obtain ⟨l, rfl⟩ : ∃ l : List α, v = l.map Ext.fin := by
    have := hf v hv
    clear hv
    induction v with
    | nil => exact ⟨[], rfl⟩
    | cons x v ih =>
      obtain ⟨l, rfl⟩ := ih (fun y hy => this y (List.mem_cons_of_mem _ hy))
      obtain ⟨y, rfl⟩ := this x (by simp)
      exact ⟨y :: l, rfl⟩
  have hnn : ∀ (l : List α) (a : α), 0 ≤ a → 0 ≤ l.foldl (fun acc v => acc + v * v) a ∧
      (l.foldl (fun acc v => acc + v * v) a = 0 ↔ a = 0 ∧ ∀ x ∈ l, x = 0) := by
    intro l
    induction l with
    | nil => intro a ha; simp [ha]
    | cons x l ih =>
      intro a ha
      have hx := mul_self_nonneg x
      obtain ⟨i1, i2⟩ := ih (a + x * x) (add_nonneg ha hx)
      refine ⟨i1, ?_⟩
      rw [List.foldl_cons, i2, add_eq_zero_iff_of_nonneg ha hx, mul_self_eq_zero]
      simp only [List.forall_mem_cons]
      tauto
  obtain ⟨n1, n2⟩ := hnn l 0 le_rfl
  have hsum : (l.map Ext.fin).foldl (fun acc v => acc + v * v) (0 : Ext α) =
      .fin (l.foldl (fun acc v => acc + v * v) 0) := foldl_squares l 0
  have hsqrt : Sqrt.sqrt ((l.map Ext.fin).foldl (fun acc v => acc + v * v) (0 : Ext α)) =
      .fin (Sqrt.sqrt (l.foldl (fun acc v => acc + v * v) 0)) := by
    rw [hsum]; exact if_neg (not_lt.2 n1)
  constructor
  · intro hz y hy
    have hz' : ∀ x ∈ l, x = 0 := fun x hx => by
      have := hz (.fin x) (List.mem_map.2 ⟨x, hx, rfl⟩)
      exact Ext.fin.inj this
    obtain ⟨x, hx, rfl⟩ := List.mem_map.1 hy
    rw [hsqrt, (hsq _ n1).2 (n2.2 ⟨rfl, hz'⟩), Ext.one_def, Ext.fin_div_zero, hz x hx]
    unfold Ext.infTimes
    rw [if_pos one_pos]
    show Ext.infTimes (0 : α) = .nan
    unfold Ext.infTimes
    rw [if_neg (lt_irrefl _), if_neg (lt_irrefl _)]
  · rintro ⟨x, hx, hxn⟩ y hy
    obtain ⟨x', hx', rfl⟩ := List.mem_map.1 hx
    have hne : Sqrt.sqrt (l.foldl (fun acc v => acc + v * v) 0) ≠ 0 := fun e =>
      hxn (by rw [(n2.1 ((hsq _ n1).1 e)).2 x' hx'])
    obtain ⟨z, hz, rfl⟩ := List.mem_map.1 hy
    obtain ⟨z', _, rfl⟩ := List.mem_map.1 hz
    rw [hsqrt, Ext.one_def, Ext.fin_div hne, Ext.fin_mul]
    exact ⟨_, rfl⟩

example := @C96_normalize_items ℚ _ _ _ _ ⟨id⟩ (fun _ _ => Iff.rfl) exFin2 (by decide) (by decide) (by decide) (by decide)

/-- C96: the mean of an empty scalar Serie is NaN (0 / 0), not an error. -/
theorem C96_mean_empty_violated [Field α] [LinearOrder α] {s : Serie (Ext α)} (h : WF s) (h0 : s.count = 0) (h1 : s.itemSize = 1) :
    mean s = .ok (.number .nan) := by
  rw [mean_scalar_run h h1]
  have : scalars s = [] := List.length_eq_zero_iff.1 (by rw [h.scalars_length, h0])
  rw [this, h0]
  show Res.ok (Tuple.number ((Ext.fin 0 : Ext α) / ((0 : Nat) : Ext α))) = _
  rw [Ext.cast_def, Nat.cast_zero, Ext.fin_div_zero]
  unfold Ext.infTimes
  rw [if_neg (lt_irrefl _), if_neg (lt_irrefl _)]

example := C96_mean_empty_violated (s := (⟨[], 0, 1, 3⟩ : Serie (Ext ℚ))) (by decide) rfl rfl

/-- C96: `div(0, s)` is not an error: finite numbers become an infinity of the same sign, and 0 becomes NaN. -/
theorem C96_div_zero_violated [Field α] [LinearOrder α] {s : Serie (Ext α)} (h : WF s) (h0 : 0 < s.count) :
    ∃ r, divNum 0 s = .ok r ∧ WF r ∧ SameShape r s ∧ ∀ i j x, cell s i j = some (.fin x) →
      (0 < x → cell r i j = some .pinf) ∧ (x < 0 → cell r i j = some .ninf) ∧ (x = 0 → cell r i j = some .nan) := by
  have hf := onNumbers_facts (f := fun y : Ext α => y / 0) h
  refine ⟨_, C36_div h h0 0, hf.1, hf.2.1, fun i j x hx => ?_⟩
  have hc : cell (onNumbers (fun y : Ext α => y / 0) s) i j = some (Ext.infTimes x) := by
    unfold cell at hx ⊢
    rw [hf.2.2, List.getElem?_map]
    cases hv : (items s)[i]? with
    | none => rw [hv] at hx; cases hx
    | some v =>
      rw [hv] at hx
      simp only [Option.bind_some] at hx
      simp only [Option.map_some, Option.bind_some, List.getElem?_map, hx]
      rw [Ext.zero_def, Ext.fin_div_zero]
  rw [hc]
  unfold Ext.infTimes
  refine ⟨fun hp => by rw [if_pos hp], fun hn => by rw [if_neg (not_lt.2 hn.le), if_pos hn], fun e => by
    rw [if_neg (by rw [e]; exact lt_irrefl _), if_neg (by rw [e]; exact lt_irrefl _)]⟩

example := C96_div_zero_violated (s := exFin2) (by decide) (by decide)

/-- C96: `div(divider, s)` with finite numbers gives finite numbers, zero dividers included; a NaN in the divider is not taken
for a small number: the item becomes NaN. -/
theorem C96_div_serie [Field α] [LinearOrder α] [IsStrictOrderedRing α] {w s : Serie (Ext α)} (h : WF s) (hw : WF w)
    (h0 : 0 < s.count) (hc : w.count = s.count) (hw1 : w.itemSize = 1) :
    ∃ r, divSerie w s = .ok r ∧ WF r ∧ SameShape r s ∧ ∀ i j x d, cell s i j = some x → cell w i 0 = some d →
      (IsFinite x → IsFinite d → ∃ y, cell r i j = some y ∧ IsFinite y) ∧ (d = .nan → cell r i j = some .nan) := by
  obtain ⟨r, h1, h2, h3, h4⟩ := divSerie_cells h hw h0 hc hw1
  refine ⟨r, h1, h2, h3, fun i j x d hx hd => ⟨?_, ?_⟩⟩
  · rintro ⟨u, rfl⟩ ⟨v, rfl⟩
    rw [h4 i j _ _ hx hd]
    refine ⟨_, rfl, ?_⟩
    split
    · exact ⟨0, rfl⟩
    · rename_i hv
      have hv0 : v ≠ 0 := by
        rintro rfl
        apply hv
        have e : absv (Ext.fin (0 : α)) = Ext.fin 0 := by
          unfold absv
          exact if_neg (show ¬ Ext.fin (0 : α) < Ext.fin 0 from lt_irrefl _)
        rw [e]
        show (0 : α) < (1e-10 : α)
        norm_num
      rw [Ext.fin_div hv0]
      exact ⟨_, rfl⟩
  · rintro rfl
    rw [h4 i j _ _ hx hd]
    have e : absv (Ext.nan : Ext α) = Ext.nan := by
      unfold absv
      rw [if_neg (Ext.not_nan_lt _)]
    rw [e, if_neg (Ext.not_nan_lt _), Ext.div_nan]

example := C96_div_serie (w := (⟨[.fin 0, .nan], 2, 1, 3⟩ : Serie (Ext ℚ))) (s := exFin2) (by decide) (by decide) (by decide) rfl rfl

/-! ## C97: sorting with NaN -/

/-- C97: `std::sort` has a precondition that NaN breaks: with NaN and two different finite numbers, `<` is not a strict weak
order on the numbers. -/
theorem C97_not_strict_weak [LinearOrder α] {l : List (Ext α)} {x y : α} (hn : Ext.nan ∈ l) (hx : Ext.fin x ∈ l)
    (hy : Ext.fin y ∈ l) (hne : x ≠ y) : ¬ StrictWeak (fun a b : Ext α => decide (a < b)) l := by
  intro h
  have f : ∀ z : Ext α, decide (z < .nan) = false ∧ decide ((.nan : Ext α) < z) = false := fun z =>
    ⟨decide_eq_false (Ext.not_lt_nan z), decide_eq_false (Ext.not_nan_lt z)⟩
  obtain ⟨h1, h2⟩ := h.incomp _ hx _ hn _ hy (f _).1 (f _).2 (f _).2 (f _).1
  simp only [decide_eq_false_iff_not, Ext.fin_lt_fin] at h1 h2
  exact hne (le_antisymm (not_lt.1 h2) (not_lt.1 h1))

example := C97_not_strict_weak (l := scalars exNan) (x := 3) (y := -1) (by decide) (by decide) (by decide) (by norm_num)

theorem sort_values {s : Serie α} (h : WF s) : forLoop (m := Res) (fun i values => do
    let x ← s.getD i
    pure (values ++ [x])) 0 s.count [] = .ok (scalars s) := by
  have := forLoop_inv (f := fun i values => do
    let x ← s.getD i
    pure (values ++ [x])) (fun i v => v = (scalars s).take i) s.count 0 [] (by
      intro i v _ hi hv
      have hi' : i < (scalars s).length := by rw [h.scalars_length]; omega
      refine ⟨_, by rw [Serie.getD_scalars h.count_le hi', Res.ok_bind]; rfl, ?_⟩
      rw [List.take_add_one, List.getElem?_eq_getElem hi', hv]; rfl) (by simp)
  obtain ⟨v, e1, e2⟩ := this
  rw [e1, e2, Nat.zero_add, List.take_of_length_le (by rw [h.scalars_length])]

/-- C97: without NaN, infinities included, `sort` gives the numbers in ascending order. -/
theorem C97_sort_partial [LinearOrder α] [Zero α] {srt : StdSort} (hs : srt.Correct) {s : Serie (Ext α)} (h : WF s)
    (h1 : s.itemSize = 1) (hn : Ext.nan ∉ scalars s) :
    ∃ xs, sortDefault srt s = .ok (ofScalars xs) ∧ xs.Perm (scalars s) ∧ xs.Pairwise (· ≤ ·) := by
  have total : ∀ a b : Ext α, a ≠ .nan → b ≠ .nan → (decide (b < a) = false ↔ a ≤ b) := by
    intro a b ha hb
    rw [decide_eq_false_iff_not]
    cases a <;> cases b <;> simp only [ne_eq, not_true_eq_false, Ext.fin_lt_fin, Ext.fin_le_fin, not_lt] at * <;>
      first | exact Iff.rfl | exact ⟨fun _ => trivial, fun _ h => h⟩ | exact ⟨fun h => h trivial, fun h => h.elim⟩
  have letrans : ∀ a b c : Ext α, a ≤ b → b ≤ c → a ≤ c := by
    intro a b c hab hbc
    cases a <;> cases b <;> cases c <;> first | trivial | exact hab.elim | exact hbc.elim | exact le_trans (α := α) hab hbc
  have hne : ∀ x ∈ scalars s, x ≠ .nan := fun x hx e => hn (e ▸ hx)
  have hw : StrictWeak (fun a b : Ext α => decide (a < b)) (scalars s) := by
    refine ⟨fun a ha => ?_, fun a ha b hb c hc h1 h2 => ?_, fun a ha b hb c hc h1 h2 h3 h4 => ⟨?_, ?_⟩⟩
    · cases a <;> simp <;> exact id
    · by_contra h3
      have h3 := (total c a (hne c hc) (hne a ha)).1 (by simpa using h3)
      by_cases h4 : decide (c < b) = false
      · have := (total b a (hne b hb) (hne a ha)).2 (letrans _ _ _ ((total b c (hne b hb) (hne c hc)).1 h4) h3)
        rw [this] at h1; cases h1
      · have h5 : c ≤ b := by
          have h4 : decide (c < b) = true := by simpa using h4
          have h4 := of_decide_eq_true h4
          cases c <;> cases b <;> first | trivial | exact h4.elim | exact le_of_lt (α := α) h4
        have := (total c b (hne c hc) (hne b hb)).2 h5
        rw [this] at h2; cases h2
    · exact (total c a (hne c hc) (hne a ha)).2 (letrans _ _ _ ((total c b (hne c hc) (hne b hb)).1 h3)
        ((total b a (hne b hb) (hne a ha)).1 h1))
    · exact (total a c (hne a ha) (hne c hc)).2 (letrans _ _ _ ((total a b (hne a ha) (hne b hb)).1 h2)
        ((total b c (hne b hb) (hne c hc)).1 h4))
  obtain ⟨xs, e, p, o⟩ := hs _ (fun a b : Ext α => pure (decide (a < b))) _ _ (fun _ _ _ _ => rfl) hw
  refine ⟨xs, ?_, p, ?_⟩
  · unfold sortDefault sortWith
    rw [if_pos h1, h.valid, if_neg (by simp), if_pos h1, sort_values h]
    simp only [Res.ok_bind, e]
    have := p.length_eq
    rw [h.scalars_length] at this
    rw [Serie.ofArray_eq (by decide) (by decide) (by have := h.count_lt; omega)]
    simp [ofScalars]
  · refine o.imp_of_mem (fun {a b} ha hb hab => (total a b (hne a (p.mem_iff.1 ha)) (hne b (p.mem_iff.1 hb))).1 hab)

example := C97_sort_partial stdSort_exists.choose_spec (s := (⟨[.pinf, .fin 3, .ninf, .fin (-1)], 4, 1, 3⟩ : Serie (Ext ℚ))) (by decide)
  rfl (by decide)

/-- C97: so an implementation of `std::sort` that meets its contract may do anything (here: undefined behaviour) on such a
Serie. -/
theorem C97_sort_violated [LinearOrder α] [Zero α] {s : Serie (Ext α)} (h : WF s) (h1 : s.itemSize = 1) {x y : α}
    (hn : Ext.nan ∈ scalars s) (hx : Ext.fin x ∈ scalars s) (hy : Ext.fin y ∈ scalars s) (hne : x ≠ y) :
    ∃ srt : StdSort, srt.Correct ∧ sortDefault srt s = .ub := by
  classical
  obtain ⟨srt, hsrt⟩ := stdSort_exists
  let srt' : StdSort := fun {γ} comp l =>
    if ∃ lt : γ → γ → Bool, (∀ a ∈ l, ∀ b ∈ l, comp a b = .ok (lt a b)) ∧ StrictWeak lt l then srt comp l else .ub
  refine ⟨srt', ?_, ?_⟩
  · intro γ comp lt l hc hw
    have : srt' comp l = srt comp l := if_pos ⟨lt, hc, hw⟩
    show ∃ l', srt' comp l = _ ∧ _
    rw [this]
    exact hsrt γ comp lt l hc hw
  · unfold sortDefault sortWith
    rw [if_pos h1, h.valid, if_neg (by simp), if_pos h1]
    rw [sort_values h, Res.ok_bind]
    have : srt' (fun a b : Ext α => pure (decide (a < b))) (scalars s) = .ub := by
      refine if_neg ?_
      rintro ⟨lt, hc, hw⟩
      refine C97_not_strict_weak hn hx hy hne ⟨fun a ha => ?_, fun a ha b hb c hcm => ?_, fun a ha b hb c hcm => ?_⟩
      · rw [Res.ok.inj (hc a ha a ha)]; exact hw.irrefl a ha
      · rw [Res.ok.inj (hc a ha b hb), Res.ok.inj (hc b hb c hcm), Res.ok.inj (hc a ha c hcm)]
        exact hw.trans a ha b hb c hcm
      · rw [Res.ok.inj (hc a ha b hb), Res.ok.inj (hc b hb a ha), Res.ok.inj (hc b hb c hcm), Res.ok.inj (hc c hcm b hb),
          Res.ok.inj (hc a ha c hcm), Res.ok.inj (hc c hcm a ha)]
        exact hw.incomp a ha b hb c hcm
    show (srt' (fun a b : Ext α => pure (decide (a < b))) (scalars s) >>= _) = _
    rw [this]
    rfl

/-! ## The hypotheses can be met -/

example : WF (⟨[.nan, .fin 3, .fin (-1), .nan], 4, 1, 3⟩ : Serie (Ext ℚ)) := by constructor <;> decide

example : equals (⟨[.fin 1, .nan], 2, 1, 3⟩ : Serie (Ext ℚ)) ⟨[.fin 1, .nan], 2, 1, 3⟩ = false := by decide +kernel
example : equals (⟨[.fin 1, .pinf], 2, 1, 3⟩ : Serie (Ext ℚ)) ⟨[.fin 1, .pinf], 2, 1, 3⟩ = true := by decide +kernel

example : approximatelyEquals (⟨[.fin 1, .nan], 2, 1, 3⟩ : Serie (Ext ℚ)) ⟨[.fin 1, .fin 2], 2, 1, 3⟩ .pinf = .ok false := by
  decide +kernel

example : equalityMask (⟨[.fin 1, .nan, .fin 2, .fin 3], 2, 2, 3⟩ : Serie (Ext ℚ))
    ⟨[.fin 1, .nan, .fin 2, .fin 3], 2, 2, 3⟩ = .ok ⟨[.fin 0, .fin 1], 2, 1, 3⟩ := by decide +kernel

example : finites (scalars (⟨[.nan, .fin 3, .fin (-1), .nan], 4, 1, 3⟩ : Serie (Ext ℚ))) = [3, -1] := by decide +kernel
example : minMax (⟨[.nan, .fin 3, .fin (-1), .nan], 4, 1, 3⟩ : Serie (Ext ℚ)) = .ok ([.fin (-1)], [.fin 3]) := by decide +kernel
example : minMax (⟨[.nan], 1, 1, 3⟩ : Serie (Ext ℚ)) = .ok ([Limits.highest], [Limits.lowest]) := by decide +kernel
example : minMax (⟨[.pinf], 1, 1, 3⟩ : Serie (Ext ℚ)) = .ok ([Limits.highest], [.pinf]) := by decide +kernel
/-- The same numbers in another order: the result depends on where the NaN is. -/
example : minMax (⟨[.nan, .fin 3, .fin 5, .fin (-1)], 2, 2, 3⟩ : Serie (Ext ℚ)) = .ok ([.nan, .fin (-1)], [.nan, .fin 3]) ∧
    minMax (⟨[.fin 5, .fin (-1), .nan, .fin 3], 2, 2, 3⟩ : Serie (Ext ℚ)) = .ok ([.fin 5, .fin (-1)], [.fin 5, .fin 3]) := by
  decide +kernel

example : add2 (⟨[.nan, .fin 3, .fin 5], 3, 1, 3⟩ : Serie (Ext ℚ)) ⟨[.fin 1, .nan, .fin 2], 3, 1, 3⟩ =
    .ok ⟨[.nan, .nan, .fin 7], 3, 1, 3⟩ := by decide +kernel
example : dot (⟨[.nan, .fin 3, .fin 5, .fin 1], 2, 2, 3⟩ : Serie (Ext ℚ)) ⟨[.fin 0, .fin 1, .fin 2, .fin 4], 2, 2, 3⟩ =
    .ok ⟨[.nan, .fin 14], 2, 1, 3⟩ := by decide +kernel
example : weightedSum [(⟨[.nan, .fin 3], 2, 1, 3⟩ : Serie (Ext ℚ)), ⟨[.fin 1, .fin 2], 2, 1, 3⟩] [.fin 0, .fin 1] =
    .ok ⟨[.nan, .fin 2], 2, 1, 3⟩ := by decide +kernel
example : mean (⟨[.nan, .fin 3, .fin 5, .fin 1], 2, 2, 3⟩ : Serie (Ext ℚ)) = .ok (.array [.nan, .fin 2]) := by decide +kernel
example : covariance (⟨[.nan, .fin 3], 2, 1, 3⟩ : Serie (Ext ℚ)) ⟨[.fin 1, .fin 2], 2, 1, 3⟩ = .ok .nan := by decide +kernel

example : mean (⟨[], 0, 1, 3⟩ : Serie (Ext ℚ)) = .ok (.number .nan) := by decide +kernel
example : divNum 0 (⟨[.fin 2, .fin 0, .fin (-3)], 3, 1, 3⟩ : Serie (Ext ℚ)) = .ok ⟨[.pinf, .nan, .ninf], 3, 1, 3⟩ := by
  decide +kernel
example : divSerie (⟨[.fin 0, .nan, .fin 2], 3, 1, 3⟩ : Serie (Ext ℚ)) ⟨[.fin 1, .fin 1, .fin 1], 3, 1, 3⟩ =
    .ok ⟨[.fin 0, .nan, .fin (1 / 2)], 3, 1, 3⟩ := by decide +kernel

/-- A square root that is zero only at zero. -/
local instance : Sqrt ℚ := ⟨fun x => x⟩
example : normalize (⟨[.fin 4, .fin 4], 2, 1, 3⟩ : Serie (Ext ℚ)) = .ok ⟨[.nan, .nan], 2, 1, 3⟩ := by decide +kernel
example : normalize (⟨[.fin 0, .fin 0, .fin 1, .fin 0], 2, 2, 3⟩ : Serie (Ext ℚ)) =
    .ok ⟨[.nan, .nan, .fin 1, .fin 0], 2, 2, 3⟩ := by decide +kernel

/-- A Serie that `sort` cannot be given. -/
example : ∃ s : Serie (Ext ℚ), WF s ∧ s.itemSize = 1 ∧ Ext.nan ∈ scalars s ∧ Ext.fin 1 ∈ scalars s ∧ Ext.fin 0 ∈ scalars s ∧
    ∃ srt : StdSort, srt.Correct ∧ sortDefault srt s = .ub := by
  have h : WF (⟨[.fin 1, .nan, .fin 0], 3, 1, 3⟩ : Serie (Ext ℚ)) := by constructor <;> decide
  exact ⟨_, h, rfl, by simp [scalars], by simp [scalars], by simp [scalars],
    C97_sort_violated h rfl (x := 1) (y := 0) (by simp [scalars]) (by simp [scalars]) (by simp [scalars]) (by norm_num)⟩

end DF
