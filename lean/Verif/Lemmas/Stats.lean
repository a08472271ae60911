import Verif.Spec.Stats
import Verif.Lemmas.MathMore
import Verif.Lemmas.Utils
import Mathlib.Algebra.BigOperators.Group.List.Basic
import Mathlib.Algebra.Order.Floor.Ring
import Mathlib.Algebra.Order.Field.Basic
import Mathlib.Tactic.Ring
import Mathlib.Tactic.FieldSimp
import Mathlib.Tactic.Linarith

/-!
# Lemmas for the statistics
-/

namespace DF

open Spec

variable {α γ σ : Type}

/-- Calls that update the state step by step. -/
theorem callAll_states {f : γ → Nat → Eff σ Unit} {step : σ → γ → σ} {Inv : σ → Prop} :
    ∀ (l : List γ) (lo : Nat) (st : σ), Inv st →
      (∀ x ∈ l, ∀ i st, Inv st → f x i st = (.ok (), step st x) ∧ Inv (step st x)) →
      ∃ us, callAll f l lo st = (.ok us, l.foldl step st) ∧ Inv (l.foldl step st)
  | [], lo, st, hi, _ => ⟨[], rfl, hi⟩
  | x :: l, lo, st, hi, h => by
    obtain ⟨h1, h2⟩ := h x (by simp) lo st hi
    obtain ⟨us, h3, h4⟩ := callAll_states l (lo + 1) (step st x) h2 (fun y hy => h y (by simp [hy]))
    refine ⟨() :: us, ?_, h4⟩
    rw [callAll_cons]
    refine (Eff.bind_ok h1).trans ?_
    exact (Eff.bind_ok h3).trans rfl

theorem callAll_const {β : Type} (p : γ → β) (l : List γ) :
    callAll (m := Eff σ) (fun v _ => pure (p v)) l = pure (l.map p) := by
  refine (callAll_pure (fun v _ => p v) l).trans ?_
  congr 1
  exact List.ext_getElem (by simp) (by simp)

theorem exec_forEachS {s : Serie α} (h : WF s) (h1 : s.itemSize = 1) {f : α → Nat → Eff σ Unit} {step : σ → α → σ}
    {Inv : σ → Prop} {st : σ} (hi : Inv st)
    (hf : ∀ x ∈ scalars s, ∀ i st, Inv st → f x i st = (.ok (), step st x) ∧ Inv (step st x)) :
    Eff.exec (forEachS f s) st = .ok ((scalars s).foldl step st) ∧ Inv ((scalars s).foldl step st) := by
  obtain ⟨us, h3, h4⟩ := callAll_states (scalars s) 0 st hi hf
  refine ⟨?_, h4⟩
  unfold Eff.exec forEachS
  rw [if_neg (by simpa using h1), forLoop_unit _ (scalars s) s.count h.scalars_length.symm (getD_hyp h)]
  have : (callAll f (scalars s) >>= fun _ => pure ()) st = (.ok (), (scalars s).foldl step st) :=
    (Eff.bind_ok h3).trans rfl
  rw [this]

theorem exec_forEachV {s : Serie α} (h : WF s) (h1 : s.itemSize ≠ 1) {f : List α → Nat → Eff σ Unit}
    {step : σ → List α → σ} {Inv : σ → Prop} {st : σ} (hi : Inv st)
    (hf : ∀ x ∈ items s, ∀ i st, Inv st → f x i st = (.ok (), step st x) ∧ Inv (step st x)) :
    Eff.exec (forEachV f s) st = .ok ((items s).foldl step st) ∧ Inv ((items s).foldl step st) := by
  obtain ⟨us, h3, h4⟩ := callAll_states (items s) 0 st hi hf
  refine ⟨?_, h4⟩
  unfold Eff.exec forEachV
  rw [if_neg h1, forLoop_unit _ (items s) s.count (items_length s).symm (getA_hyp h)]
  have : (callAll f (items s) >>= fun _ => pure ()) st = (.ok (), (items s).foldl step st) :=
    (Eff.bind_ok h3).trans rfl
  rw [this]

theorem Eff.update_ok {f : σ → Res σ} {s s' : σ} (h : f s = .ok s') : Eff.update f s = (.ok (), s') := by
  unfold Eff.update; rw [h]

/-! ## mean -/

theorem foldl_zip_at [AddMonoid α] {k j : Nat} (hj : j < k) :
    ∀ (l : List (List α)) (b : List α), b.length = k → (∀ v ∈ l, v.length = k) → ∀ x, b[j]? = some x →
      (l.foldl (List.zipWith (· + ·)) b)[j]? = some (x + (l.filterMap (·[j]?)).sum)
  | [], b, _, _, x, hx => by simp [hx]
  | v :: l, b, hb, hv, x, hx => by
    have hvl : v.length = k := hv v (by simp)
    have hvj : v[j]? = some v[j] := List.getElem?_eq_getElem (by omega)
    rw [List.foldl_cons, foldl_zip_at hj l _ (by simp [hb, hvl]) (fun w hw => hv w (by simp [hw])) (x + v[j])
      (by rw [List.getElem?_zipWith, hx, hvj]), List.filterMap_cons]
    simp only [hvj, List.sum_cons, add_assoc]

theorem mean_scalar [AddMonoid α] [Div α] [NatCast α] {s : Serie α} (h : WF s) (h1 : s.itemSize = 1) :
    mean s = .ok (.number ((scalars s).sum / (s.count : α))) := by
  unfold mean
  rw [if_pos h1]
  have : reduceS (σ := Unit) (fun (prev cur : α) _ => pure (prev + cur)) s 0 () = (.ok ((scalars s).sum), ()) := by
    unfold reduceS
    rw [forLoop_fold _ (scalars s) s.count 0 h.scalars_length.symm (getD_hyp h), List.foldlM_pure]
    show (Res.ok _, ()) = _
    rw [List.sum_eq_foldl]
    congr 2
    generalize (0 : α) = a
    have : ∀ (l : List α) (lo : Nat) (a : α), List.foldl (fun acc (p : α × Nat) => acc + p.1) a (l.zipIdx lo) = List.foldl (· + ·) a l := by
      intro l
      induction l with
      | nil => intros; rfl
      | cons x l ih => intro lo a; simp [List.zipIdx_cons, ih]
    exact this _ _ _
  rw [this]
  rfl

theorem mean_items [AddMonoid α] [Div α] [NatCast α] {s : Serie α} (h : WF s) (h1 : s.itemSize ≠ 1) :
    ∃ b : List α, mean s = .ok (.array b) ∧ b.length = s.itemSize ∧
      ∀ j, j < s.itemSize → b[j]? = some ((component s j).sum / (s.count : α)) := by
  obtain ⟨h2, h3⟩ := exec_forEachV (σ := List α) h h1 (f := fun a _ => Eff.update (fun b => updLoop a.length (fun j x => do
      let y ← rd a j
      pure (x + y)) b)) (step := List.zipWith (· + ·)) (Inv := fun b => b.length = s.itemSize)
    (st := List.replicate s.itemSize 0) (by simp) (by
      intro a ha i b hb
      have hal := h.item_length ha
      refine ⟨Eff.update_ok (updLoop_zip (by omega) (by omega) ?_), by simp [hb, hal]⟩
      intro j hj y
      rw [rd_of_lt hj]; rfl)
  refine ⟨((items s).foldl (List.zipWith (· + ·)) (List.replicate s.itemSize 0)).map (· / (s.count : α)), ?_,
    by simpa using h3, ?_⟩
  · unfold mean
    rw [if_neg h1, h2]
    rfl
  · intro j hj
    rw [List.getElem?_map, foldl_zip_at hj (items s) _ (by simp) (fun v hv => h.item_length hv) 0
      (by simp [hj])]
    simp [component]

/-! ## covariance -/

theorem scalars_onNumbers {f : α → α} {s : Serie α} (h : WF s) (h1 : s.itemSize = 1) :
    onNumbers f s = ofScalars ((scalars s).map f) := by
  rw [ofScalars_eq_ofItems]
  unfold onNumbers
  rw [h1, items_scalar h1 h.count_le]
  simp [Function.comp_def]

theorem subNum_eq [Sub α] {s : Serie α} (h : WF s) (h1 : s.itemSize = 1) (v : α) :
    subNum s v = .ok (ofScalars ((scalars s).map (· - v))) := by
  unfold subNum
  rw [if_neg (by simpa using h1)]
  refine (mapNum_numbers h h1 (f := (· - v)) (fun _ _ => rfl)).trans ?_
  rw [scalars_onNumbers h h1]

theorem foldl_add_div [Field α] (n : α) : ∀ (l : List α) (lo : Nat) (a : α),
    List.foldl (fun acc (p : α × Nat) => acc + p.1 / n) a (l.zipIdx lo) = a + l.sum / n
  | [], _, a => by simp
  | x :: l, lo, a => by
    rw [List.zipIdx_cons, List.foldl_cons, foldl_add_div n l, List.sum_cons, add_div]; ring

/-- The covariance of two lists of numbers, as computed. -/
theorem covariance_eq [Field α] {x y : Serie α} (hx : WF x) (hy : WF y) (hc : x.count = y.count)
    (h1 : x.itemSize = 1) (h1' : y.itemSize = 1) :
    covariance x y = .ok ((List.zipWith (· * ·) ((scalars x).map (· - average (scalars x)))
      ((scalars y).map (· - average (scalars y)))).sum / ((scalars x).length : α)) := by
  have hlx := hx.scalars_length
  have hly := hy.scalars_length
  have hn := hx.count_lt
  unfold covariance
  rw [if_neg (by simpa using hc), if_neg (by simpa using h1), if_neg (by simpa using h1')]
  rw [mean_scalar hx h1, mean_scalar hy h1']
  simp only [Res.ok_bind, Tuple.getNumber]
  rw [← hlx, ← hly]
  change (do
    let dx ← subNum x (average (scalars x))
    let dy ← subNum y (average (scalars y))
    let p ← multSerie dx dy
    (reduceS (fun acc value _ => pure (acc + value / (x.size : α))) p 0 ()).1) = _
  rw [subNum_eq hx h1, subNum_eq hy h1', Res.ok_bind, Res.ok_bind]
  have hwx : WF (ofScalars ((scalars x).map (· - average (scalars x)))) := WF_ofScalars (by simpa [hlx] using hn)
  have hwy : WF (ofScalars ((scalars y).map (· - average (scalars y)))) :=
    WF_ofScalars (by simpa [hly] using hy.count_lt)
  rw [multSerie_scalar hwx hwy (by simp [ofScalars, hlx, hly, hc]) rfl rfl (by simp [ofScalars]), Res.ok_bind]
  simp only [scalars_ofScalars]
  have hwp : WF (ofScalars (List.zipWith (· * ·) ((scalars x).map (· - average (scalars x)))
      ((scalars y).map (· - average (scalars y))))) := WF_ofScalars (by simp [hlx, hly]; omega)
  unfold reduceS
  rw [forLoop_fold _ (scalars _) _ 0 hwp.scalars_length.symm (getD_hyp hwp), List.foldlM_pure]
  show Res.ok _ = _
  rw [foldl_add_div, zero_add, hx.size_eq, h1, Nat.mul_one, scalars_ofScalars, hlx]

/-! ## outliers -/

theorem keep_map_filter {γ : Type} (p : γ → Bool) : ∀ l : List γ, keep l (l.map p) = l.filter p
  | [] => rfl
  | x :: l => by
    rw [List.map_cons, keep, keep_map_filter p l, List.filter_cons]

section outliers

variable [Zero α] [One α] [Add α] [Sub α] [Mul α] [NatCast α] [LT α] [DecidableLT α] [LE α] [DecidableLE α] [BEq α] [Trunc α]
  [OfScientific α]

omit [LE α] [DecidableLE α] in
theorem outliers_run {srt : StdSort} {s : Serie α} (h : WF s) {m lo hi : α} (ho : outlierBounds srt s m = .ok (lo, hi)) :
    outliers srt s m = .ok (ofScalars ((scalars s).filter (fun v => decide (v < lo ∨ hi < v)))) := by
  unfold outliers
  rw [ho, Res.ok_bind, filterS_eq h, callAll_const, pure_bind, keep_map_filter]
  show Res.ok _ = _
  congr 3
  funext v
  rw [Bool.decide_or]

theorem notOutliers_run {srt : StdSort} {s : Serie α} (h : WF s) {m lo hi : α} (ho : outlierBounds srt s m = .ok (lo, hi)) :
    notOutliers srt s m = .ok (ofScalars ((scalars s).filter (fun v => decide (lo ≤ v ∧ v ≤ hi)))) := by
  unfold notOutliers
  rw [ho, Res.ok_bind, filterS_eq h, callAll_const, pure_bind, keep_map_filter]
  show Res.ok _ = _
  congr 3
  funext v
  rw [Bool.decide_and]

omit [LE α] [DecidableLE α] in
theorem isOutliers_run {srt : StdSort} {s : Serie α} (h : WF s) {m lo hi : α} (ho : outlierBounds srt s m = .ok (lo, hi)) :
    isOutliers srt s m = .ok (ofScalars ((scalars s).map (fun v => if v < lo ∨ hi < v then 1 else 0))) := by
  unfold isOutliers
  rw [ho, Res.ok_bind, checkS_eq h, callAll_const, pure_bind, List.map_map]
  show Res.ok _ = _
  congr 3
  funext v
  simp

end outliers

/-! ## quantile -/

section

variable [Field α] [LinearOrder α] [IsStrictOrderedRing α] [FloorRing α]

theorem toU32_nat {k : Nat} (h : k < 2 ^ 32) : toU32 (k : α) = .ok k := by
  unfold toU32
  rw [if_pos]
  · simp
  · refine ⟨lt_of_lt_of_le (by norm_num) (Nat.cast_nonneg k), ?_⟩
    exact_mod_cast h

theorem toU32_of {x : α} (h0 : 0 ≤ x) (h : x < 2 ^ 32) : toU32 x = .ok ⌊x⌋.toNat := by
  unfold toU32
  rw [if_pos ⟨lt_of_lt_of_le (by norm_num) h0, h⟩]

theorem quantile_eq {srt : StdSort} (hs : srt.Correct) {s : Serie α} (h : WF s) (h1 : s.itemSize = 1)
    (h0 : 0 < s.count) {q : α} (hq0 : 0 ≤ q) (hq1 : q ≤ 1) :
    ∃ xs v, SortedFrom xs (scalars s) ∧ quantile srt s q = .ok v ∧ Interpolates xs q v := by
  obtain ⟨xs, he, hp, ho⟩ := sortWith_scalar hs h h1 (fun _ _ => .ub)
  have hn : xs.length = s.count := by rw [hp.length_eq, h.scalars_length]
  have hn32 := h.count_lt
  unfold quantile
  simp only [Trunc.floor, Trunc.toU32]
  rw [h.valid, if_neg (by simp), if_neg (by simpa using h1), if_neg (by rw [not_or]; exact ⟨not_lt.2 hq0, not_lt.2 hq1⟩)]
  have he' : sortDefault srt s = .ok (ofScalars xs) := by unfold sortDefault; rw [if_pos h1]; exact he
  rw [he', Res.ok_bind]
  have hd : (ofScalars xs).data = xs := rfl
  simp only [hd]
  rw [if_neg (by omega)]
  have hcast : ((xs.length - 1 : Nat) : α) = (xs.length : α) - 1 := by
    rw [Nat.cast_sub (by omega), Nat.cast_one]
  rw [hcast]
  have hpos0 : 0 ≤ ((xs.length : α) - 1) * q :=
    mul_nonneg (by rw [← hcast]; exact Nat.cast_nonneg _) hq0
  have hposn : ((xs.length : α) - 1) * q ≤ (xs.length : α) - 1 :=
    mul_le_of_le_one_right (by rw [← hcast]; exact Nat.cast_nonneg _) hq1
  generalize hpos : ((xs.length : α) - 1) * q = pos at *
  have hfl0 : 0 ≤ ⌊pos⌋ := Int.floor_nonneg.2 hpos0
  obtain ⟨k, hk⟩ := Int.eq_ofNat_of_zero_le hfl0
  have hk' : ((⌊pos⌋ : Int) : α) = (k : α) := by rw [hk]; simp
  have hle : (k : α) ≤ pos := by rw [← hk']; exact Int.floor_le pos
  have hlt : pos < (k : α) + 1 := by rw [← hk']; exact Int.lt_floor_add_one pos
  have hkn : k < xs.length := by
    have : (k : α) ≤ ((xs.length - 1 : Nat) : α) := by rw [hcast]; exact hle.trans hposn
    have := Nat.cast_le.1 this
    omega
  rw [hk']
  have e1 : (k : α) + 1 = ((k + 1 : Nat) : α) := by push_cast; rfl
  rw [e1, toU32_nat (by omega), Res.ok_bind, toU32_nat (by omega), Res.ok_bind, Res.ok_bind, rd_of_lt hkn, Res.ok_bind]
  have hr0 : 0 ≤ pos - k := by linarith
  have hr1 : pos - k < 1 := by linarith
  by_cases hkn' : k + 1 < xs.length
  · rw [if_pos hkn', rd_of_lt hkn', Res.ok_bind]
    exact ⟨xs, _, ⟨hp, ho⟩, rfl, k, pos - k, xs[k], xs[k + 1], hr0, hr1, by rw [hpos]; ring, by simp [hkn], Or.inl (by simp [hkn']), rfl⟩
  · rw [if_neg hkn']
    have hr : pos - k = 0 := by
      have : (k : α) = (xs.length : α) - 1 := by
        rw [← hcast]; congr 1; omega
      linarith
    exact ⟨xs, _, ⟨hp, ho⟩, rfl, k, pos - k, xs[k], xs[k], hr0, hr1, by rw [hpos]; ring, by simp [hkn], Or.inr hr, by simp⟩

omit [Field α] [IsStrictOrderedRing α] [FloorRing α] in
theorem getElem?_le_of_sorted {xs : List α} (h : xs.Pairwise (· ≤ ·)) {i j : Nat} (hij : i ≤ j) {a b : α}
    (ha : xs[i]? = some a) (hb : xs[j]? = some b) : a ≤ b := by
  obtain ⟨hi, rfl⟩ := List.getElem?_eq_some_iff.1 ha
  obtain ⟨hj, rfl⟩ := List.getElem?_eq_some_iff.1 hb
  rcases Nat.lt_or_ge i j with hlt | hge
  · exact List.pairwise_iff_getElem.1 h i j hi hj hlt
  · have : i = j := by omega
    subst this; exact le_refl _

omit [FloorRing α] in
theorem Spec.Interpolates.mono {xs : List α} (ho : xs.Pairwise (· ≤ ·)) {q q' v v' : α} (h : Interpolates xs q v)
    (h' : Interpolates xs q' v') (hq : q ≤ q') : v ≤ v' := by
  obtain ⟨k, r, a, b, hr0, hr1, he, ha, hb, rfl⟩ := h
  obtain ⟨k', r', a', b', hr0', hr1', he', ha', hb', rfl⟩ := h'
  have hlen : 0 < xs.length := by
    obtain ⟨hi, _⟩ := List.getElem?_eq_some_iff.1 ha; omega
  have hn1 : (0 : α) ≤ (xs.length : α) - 1 := by
    have : ((1 : Nat) : α) ≤ (xs.length : α) := Nat.cast_le.2 hlen
    rw [Nat.cast_one] at this
    linarith
  have hpos : (k : α) + r ≤ (k' : α) + r' := by
    rw [← he, ← he']; exact mul_le_mul_of_nonneg_left hq hn1
  have hb0 : r ≠ 0 → xs[k + 1]? = some b := fun h => hb.resolve_right h
  have hb0' : r' ≠ 0 → xs[k' + 1]? = some b' := fun h => hb'.resolve_right h
  have hkk : k ≤ k' := by
    by_contra hlt
    have : ((k' + 1 : Nat) : α) ≤ (k : α) := Nat.cast_le.2 (by omega)
    push_cast at this
    linarith
  have hlo' : a' ≤ a' + r' * (b' - a') := by
    rcases eq_or_ne r' 0 with h0 | h0
    · simp [h0]
    · have := getElem?_le_of_sorted ho (Nat.le_succ k') ha' (hb0' h0)
      have : 0 ≤ r' * (b' - a') := mul_nonneg hr0' (by linarith)
      linarith
  rcases Nat.eq_or_lt_of_le hkk with heq | hlt
  · subst heq
    have haa : a = a' := by rw [ha] at ha'; exact Option.some.inj ha'
    subst haa
    have hrr : r ≤ r' := by linarith
    rcases eq_or_ne r 0 with h0 | h0
    · simpa [h0] using hlo'
    · have h0' : r' ≠ 0 := by
        intro h; rw [h] at hrr; exact h0 (le_antisymm hrr hr0)
      have hbb : b = b' := by
        have := (hb0 h0).symm.trans (hb0' h0'); exact Option.some.inj this
      subst hbb
      have := getElem?_le_of_sorted ho (Nat.le_succ k) ha (hb0 h0)
      have : r * (b - a) ≤ r' * (b - a) := mul_le_mul_of_nonneg_right hrr (by linarith)
      linarith
  · refine le_trans ?_ hlo'
    rcases eq_or_ne r 0 with h0 | h0
    · simpa [h0] using getElem?_le_of_sorted ho hkk ha ha'
    · have hab := getElem?_le_of_sorted ho (Nat.le_succ k) ha (hb0 h0)
      have hba := getElem?_le_of_sorted ho (Nat.succ_le_of_lt hlt) (hb0 h0) ha'
      have : r * (b - a) ≤ 1 * (b - a) := mul_le_mul_of_nonneg_right hr1.le (by linarith)
      linarith

omit [FloorRing α] in
theorem Spec.Interpolates.zero {xs : List α} {v : α} (h : Interpolates xs 0 v) : xs[0]? = some v := by
  obtain ⟨k, r, a, b, hr0, hr1, he, ha, hb, rfl⟩ := h
  rw [mul_zero] at he
  have hk : (0 : α) ≤ k := Nat.cast_nonneg k
  have hr : r = 0 := by linarith
  have hk0 : (k : α) = 0 := by linarith
  rw [Nat.cast_eq_zero] at hk0
  subst hk0
  simp [hr, ha]

omit [FloorRing α] in
theorem Spec.Interpolates.one {xs : List α} {v : α} (h : Interpolates xs 1 v) : xs[xs.length - 1]? = some v := by
  obtain ⟨k, r, a, b, hr0, hr1, he, ha, hb, rfl⟩ := h
  rw [mul_one] at he
  obtain ⟨hi, _⟩ := List.getElem?_eq_some_iff.1 ha
  have hcast : ((xs.length - 1 : Nat) : α) = (xs.length : α) - 1 := by
    rw [Nat.cast_sub (by omega), Nat.cast_one]
  have h1 : k ≤ xs.length - 1 := by omega
  have h2 : ((xs.length - 1 : Nat) : α) < ((k + 1 : Nat) : α) := by rw [hcast]; push_cast; linarith
  have h3 : xs.length - 1 < k + 1 := Nat.cast_lt.1 h2
  have h4 : k = xs.length - 1 := by omega
  have hr : r = 0 := by
    rw [← hcast, ← h4] at he; linarith
  rw [← h4, hr, ha]; simp

/-! ## bins -/

/-- The bin the code puts `v` into. -/
def binIdx (nb : Nat) (start size v : α) : Nat := min ⌊(v - start) / size⌋.toNat (nb - 1)

theorem binOne_eq {nb : Nat} (hnb : 0 < nb) {start size v : α} (hs : 0 < size) (hv : start ≤ v)
    (hv' : v < start + 2 ^ 32 * size) {b : List α} (hb : b.length = nb) :
    binOne nb start size v b = (.ok (), b.modify (binIdx nb start size v) (· + 1)) := by
  have h0 : 0 ≤ (v - start) / size := div_nonneg (by linarith) hs.le
  have h1 : (v - start) / size < 2 ^ 32 := by rw [div_lt_iff₀ hs]; linarith
  unfold binOne
  simp only [Trunc.toU32, beq_iff_eq]
  rw [if_neg hs.ne', toU32_of h0 h1, Eff.lift_ok, pure_bind]
  have hidx : (if ⌊(v - start) / size⌋.toNat ≥ nb then nb - 1 else ⌊(v - start) / size⌋.toNat) = binIdx nb start size v := by
    unfold binIdx; split <;> omega
  have hlt : binIdx nb start size v < nb := by unfold binIdx; omega
  simp only [hidx]
  rw [if_neg (by omega)]
  apply Eff.update_ok
  rw [rd_of_lt (by omega), Res.ok_bind, wr_of_lt (by omega), List.modify_eq_set_getElem?,
    List.getElem?_eq_getElem (by omega)]
  rfl

theorem modify_sum [AddCommMonoid γ] (c : γ) : ∀ (b : List γ) (i : Nat), i < b.length → (b.modify i (· + c)).sum = b.sum + c
  | [], _, h => absurd h (by simp)
  | x :: b, 0, _ => by simp [List.modify_cons, add_right_comm]
  | x :: b, i + 1, h => by
    rw [List.modify_succ_cons, List.sum_cons, List.sum_cons, modify_sum c b i (by simpa using h), add_assoc]

omit [LinearOrder α] [IsStrictOrderedRing α] [FloorRing α] in
theorem foldl_modify_facts {nb : Nat} {idx : γ → Nat} (hidx : ∀ v, idx v < nb) : ∀ (l : List γ) (b : List α), b.length = nb →
    (l.foldl (fun b v => b.modify (idx v) (· + 1)) b).length = nb ∧
    (l.foldl (fun b v => b.modify (idx v) (· + 1)) b).sum = b.sum + (l.length : α) ∧
    ∀ i x, b[i]? = some x → (l.foldl (fun b v => b.modify (idx v) (· + 1)) b)[i]? =
      some (x + (l.countP (fun v => idx v = i) : α))
  | [], b, hb => by simp [hb]
  | v :: l, b, hb => by
    obtain ⟨h1, h2, h3⟩ := foldl_modify_facts hidx l (b.modify (idx v) (· + 1)) (by simp [hb])
    refine ⟨h1, ?_, fun i x hx => ?_⟩
    · rw [List.foldl_cons, h2, modify_sum _ _ _ (by rw [hb]; exact hidx v), List.length_cons]
      push_cast; ring
    · rw [List.foldl_cons]
      by_cases hi : idx v = i
      · rw [h3 i (x + 1) (by rw [List.getElem?_modify, hx]; simp [hi]), List.countP_cons_of_pos (by simpa using hi)]
        push_cast; congr 1; ring
      · rw [h3 i x (by rw [List.getElem?_modify, hx]; simp [hi]), List.countP_cons_of_neg (by simpa using hi)]

theorem binIdx_iff {nb i : Nat} (hi : i < nb) {start size v : α} (hs : 0 < size) (hv : start ≤ v) :
    binIdx nb start size v = i ↔ InBin start size nb i v := by
  have h0 : 0 ≤ (v - start) / size := div_nonneg (by linarith) hs.le
  have e1 : start + (i : α) * size ≤ v ↔ (i : α) ≤ (v - start) / size := by
    rw [le_div_iff₀ hs]; constructor <;> intro h <;> linarith
  have e2 : v < start + ((i : α) + 1) * size ↔ (v - start) / size < (i : α) + 1 := by
    rw [div_lt_iff₀ hs]; constructor <;> intro h <;> linarith
  unfold InBin binIdx
  rw [e1, e2]
  generalize (v - start) / size = y at *
  have hf0 : 0 ≤ ⌊y⌋ := Int.floor_nonneg.2 h0
  have g1 : (i : α) ≤ y ↔ (i : Int) ≤ ⌊y⌋ := by rw [Int.le_floor]; simp
  have g2 : y < (i : α) + 1 ↔ ⌊y⌋ < (i : Int) + 1 := by rw [Int.floor_lt]; simp
  rw [g1, g2]
  constructor
  · intro h; constructor
    · omega
    · intro _; omega
  · rintro ⟨h, h'⟩
    by_cases hl : i + 1 < nb
    · have := h' hl; omega
    · omega

theorem binsIn_eq {s : Serie α} (h : WF s) (h1 : s.itemSize = 1) {nb : Nat} (hnb : 0 < nb) (hnb' : nb < 2 ^ 32)
    {start stop : α} (hss : start < stop)
    (hv : ∀ v ∈ scalars s, start ≤ v ∧ v < start + 2 ^ 32 * ((stop - start) / (nb : α))) :
    ∃ b : List α, binsIn s nb start stop = .ok (ofScalars b) ∧ b.length = nb ∧ b.sum = (s.count : α) ∧
      ∀ i, i < nb → b[i]? = some ((scalars s).countP (fun v => InBin start ((stop - start) / (nb : α)) nb i v) : α) := by
  have hsz : 0 < (stop - start) / (nb : α) := div_pos (by linarith) (Nat.cast_pos.2 hnb)
  unfold binsIn
  rw [if_neg (by simpa using h1), if_neg (by omega)]
  generalize (stop - start) / (nb : α) = size at *
  obtain ⟨e1, e2⟩ := exec_forEachS (σ := List α) h h1 (f := fun v _ => binOne nb start size v)
    (step := fun b v => b.modify (binIdx nb start size v) (· + 1)) (Inv := fun b => b.length = nb)
    (st := List.replicate nb 0) (by simp) (by
      intro v hv' i b hb
      exact ⟨binOne_eq hnb hsz (hv v hv').1 (hv v hv').2 hb, by simp [hb]⟩)
  simp only [e1, Res.ok_bind]
  obtain ⟨f1, f2, f3⟩ := foldl_modify_facts (α := α) (nb := nb) (idx := binIdx nb start size)
    (fun v => by unfold binIdx; omega) (scalars s) (List.replicate nb 0) (by simp)
  refine ⟨_, ofArray_one (by omega), f1, ?_, ?_⟩
  · rw [f2, h.scalars_length]; simp
  · intro i hi
    rw [f3 i 0 (by simp [hi]), zero_add]
    congr 2
    apply List.countP_congr
    intro v hv'
    simp only [decide_eq_true_eq]
    exact binIdx_iff hi hsz (hv v hv').1

end

end DF
