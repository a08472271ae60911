import Verif.Lemmas.Float
import Verif.Lemmas.MathMore
import Verif.Lemmas.Algebra
import Verif.Spec.Stats
import Verif.Spec.Algebra

/-!
# Error analysis of the sums
-/

namespace DF

open Spec

variable {p : Nat} {R : Rounding p}

namespace Dbl

theorem val_add (a b : Dbl R) : (a + b).val = R.fl (a.val + b.val) := rfl
theorem val_sub (a b : Dbl R) : (a - b).val = R.fl (a.val - b.val) := rfl
theorem val_mul (a b : Dbl R) : (a * b).val = R.fl (a.val * b.val) := rfl
theorem val_div (a b : Dbl R) : (a / b).val = R.fl (a.val / b.val) := rfl
theorem val_zero : (0 : Dbl R).val = 0 := rfl
theorem val_one : (1 : Dbl R).val = 1 := rfl
theorem val_neg (a : Dbl R) : (-a).val = -a.val := rfl
theorem val_sqrt (a : Dbl R) : (Sqrt.sqrt a).val = R.fl (Real.sqrt a.val) := rfl

theorem val_cast {n : Nat} (h : n ≤ 2 ^ p) : ((n : Nat) : Dbl R).val = n := by
  have : Representable p (n : ℝ) := ⟨n, 0, by simpa using by exact_mod_cast h, by simp⟩
  exact R.exact this

theorem ext {a b : Dbl R} (h : a.val = b.val) : a = b := by
  cases a; cases b; cases h; rfl

end Dbl

theorem growth_nonneg (n : Nat) : 0 ≤ growth p n := by
  unfold growth
  have := one_le_pow₀ (n := n) (show (1 : ℝ) ≤ 1 + unit p by have := unit_pos (p := p); linarith)
  linarith

theorem growth_zero : growth p 0 = 0 := by simp [growth]

theorem growth_one : growth p 1 = unit p := by simp [growth]

theorem growth_succ (n : Nat) : growth p (n + 1) = growth p n * (1 + unit p) + unit p := by
  unfold growth; rw [pow_succ]; ring

theorem growth_add (m n : Nat) : growth p (m + n) = growth p m * (1 + growth p n) + growth p n := by
  unfold growth; rw [pow_add]; ring

theorem growth_mono {m n : Nat} (h : m ≤ n) : growth p m ≤ growth p n := by
  unfold growth
  have := pow_le_pow_right₀ (show (1 : ℝ) ≤ 1 + unit p by have := unit_pos (p := p); linarith) h
  linarith

theorem absVals_nonneg (l : List (Dbl R)) : 0 ≤ (absVals l).sum := by
  apply List.sum_nonneg
  intro x hx
  obtain ⟨y, _, rfl⟩ := List.mem_map.1 hx
  exact abs_nonneg _

/-- The error of a running sum. -/
theorem fold_error : ∀ (l : List (Dbl R)) (acc : Dbl R),
    |(l.foldl (· + ·) acc).val - (acc.val + (vals l).sum)| ≤ growth p l.length * (|acc.val| + (absVals l).sum)
  | [], acc => by simp [vals, absVals, growth_zero]
  | x :: l, acc => by
    have ih := fold_error l (acc + x)
    have he := R.error (acc.val + x.val)
    have ha := R.abs_le (acc.val + x.val)
    have hab := abs_add_le acc.val x.val
    have hg := growth_nonneg (p := p) l.length
    have hu := unit_pos (p := p)
    have hT := absVals_nonneg l
    simp only [List.foldl_cons, List.length_cons, vals, absVals, List.map_cons, List.sum_cons] at ih hT ⊢
    rw [Dbl.val_add] at ih
    rw [growth_succ]
    have h1 := abs_add_le ((l.foldl (· + ·) (acc + x)).val - (R.fl (acc.val + x.val) + (l.map Dbl.val).sum))
      (R.fl (acc.val + x.val) - (acc.val + x.val))
    rw [show (l.foldl (· + ·) (acc + x)).val - (R.fl (acc.val + x.val) + (l.map Dbl.val).sum) +
      (R.fl (acc.val + x.val) - (acc.val + x.val)) =
      (l.foldl (· + ·) (acc + x)).val - (acc.val + (x.val + (l.map Dbl.val).sum)) by ring] at h1
    set T := (l.map fun x => |x.val|).sum
    set g := growth p l.length
    set u := unit p
    have h2 : g * (|R.fl (acc.val + x.val)| + T) ≤ g * ((1 + u) * (|acc.val| + |x.val|) + T) :=
      mul_le_mul_of_nonneg_left (by nlinarith) hg
    have h3 : u * |acc.val + x.val| ≤ u * (|acc.val| + |x.val|) := mul_le_mul_of_nonneg_left hab hu.le
    nlinarith [mul_nonneg hg (mul_nonneg hu.le hT), mul_nonneg hu.le hT]

/-- The error of a sum from zero. -/
theorem sum_error (l : List (Dbl R)) :
    |(l.foldl (· + ·) 0).val - (vals l).sum| ≤ growth p l.length * (absVals l).sum := by
  have := fold_error l 0
  simpa [Dbl.val_zero] using this

theorem abs_of_error {x e g A : ℝ} (h : |x - e| ≤ g * A) (he : |e| ≤ A) : |x| ≤ (1 + g) * A := by
  have h2 := abs_add_le (x - e) e
  rw [sub_add_cancel] at h2
  linarith

theorem sum_abs_le (l : List (Dbl R)) : |(vals l).sum| ≤ (absVals l).sum := by
  induction l with
  | nil => simp [vals, absVals]
  | cons x l ih =>
    simp only [vals, absVals, List.map_cons, List.sum_cons] at ih ⊢
    exact (abs_add_le _ _).trans (by linarith)

/-- One more rounding of a number known with an error. -/
theorem fl_error {x e A : ℝ} {m : Nat} (h : |x - e| ≤ growth p m * A) (he : |e| ≤ A) :
    |R.fl x - e| ≤ growth p (m + 1) * A := by
  have h1 := R.error x
  have h2 := abs_of_error h he
  have h3 := abs_add_le (R.fl x - x) (x - e)
  rw [show R.fl x - x + (x - e) = R.fl x - e by ring] at h3
  have hu := unit_pos (p := p)
  have h4 : unit p * |x| ≤ unit p * ((1 + growth p m) * A) := mul_le_mul_of_nonneg_left h2 hu.le
  rw [growth_succ]
  nlinarith

/-- A sum whose terms are themselves known with an error. -/
theorem terms_error {m : Nat} : ∀ (l : List (Dbl R)) (e A : List ℝ), l.length = e.length → l.length = A.length →
    (∀ i (h : i < l.length) (h1 : i < e.length) (h2 : i < A.length), |l[i].val - e[i]| ≤ growth p m * A[i] ∧ |e[i]| ≤ A[i]) →
    |(vals l).sum - e.sum| ≤ growth p m * A.sum ∧ |e.sum| ≤ A.sum ∧ (absVals l).sum ≤ (1 + growth p m) * A.sum
  | [], [], [], _, _, _ => by simp [vals, absVals]
  | [], _ :: _, _, h, _, _ => by simp at h
  | [], [], _ :: _, _, h, _ => by simp at h
  | _ :: _, [], _, h, _, _ => by simp at h
  | _ :: _, _ :: _, [], _, h, _ => by simp at h
  | x :: l, e :: es, A :: As, h1, h2, h => by
    obtain ⟨a, b, c⟩ := terms_error l es As (by simpa using h1) (by simpa using h2) (fun i hi hi1 hi2 => by
      have := h (i + 1) (by simpa using hi) (by simpa using hi1) (by simpa using hi2)
      simpa using this)
    obtain ⟨d, f⟩ := h 0 (by simp) (by simp) (by simp)
    simp only [List.getElem_cons_zero] at d f
    simp only [vals, absVals, List.map_cons, List.sum_cons] at a b c ⊢
    refine ⟨?_, (abs_add_le _ _).trans (by linarith), ?_⟩
    · have := abs_add_le (x.val - e) ((l.map Dbl.val).sum - es.sum)
      rw [show x.val - e + ((l.map Dbl.val).sum - es.sum) = x.val + (l.map Dbl.val).sum - (e + es.sum) by ring] at this
      linarith
    · have := abs_of_error d f
      linarith

theorem sum_terms_error {m : Nat} {l : List (Dbl R)} {e A : List ℝ} (h1 : l.length = e.length) (h2 : l.length = A.length)
    (h : ∀ i (h : i < l.length) (h1 : i < e.length) (h2 : i < A.length),
      |l[i].val - e[i]| ≤ growth p m * A[i] ∧ |e[i]| ≤ A[i]) :
    |(l.foldl (· + ·) 0).val - e.sum| ≤ growth p (l.length + m) * A.sum ∧ |e.sum| ≤ A.sum := by
  obtain ⟨a, b, c⟩ := terms_error l e A h1 h2 h
  refine ⟨?_, b⟩
  have hs := sum_error l
  have h3 := abs_add_le ((l.foldl (· + ·) 0).val - (vals l).sum) ((vals l).sum - e.sum)
  rw [sub_add_sub_cancel] at h3
  have hg := growth_nonneg (p := p) l.length
  have h4 : growth p l.length * (absVals l).sum ≤ growth p l.length * ((1 + growth p m) * A.sum) :=
    mul_le_mul_of_nonneg_left c hg
  rw [growth_add]
  nlinarith

/-! ### The functions, as running sums -/

variable {α : Type}

theorem foldl_zip_run [Add α] {k j : Nat} (hj : j < k) :
    ∀ (l : List (List α)) (b : List α), b.length = k → (∀ v ∈ l, v.length = k) → ∀ x, b[j]? = some x →
      (l.foldl (List.zipWith (· + ·)) b)[j]? = some ((l.filterMap (·[j]?)).foldl (· + ·) x)
  | [], b, _, _, x, hx => by simp [hx]
  | v :: l, b, hb, hv, x, hx => by
    have hvl : v.length = k := hv v (by simp)
    have hvj : v[j]? = some v[j] := List.getElem?_eq_getElem (by omega)
    rw [List.foldl_cons, foldl_zip_run hj l _ (by simp [hb, hvl]) (fun w hw => hv w (by simp [hw])) (x + v[j])
      (by rw [List.getElem?_zipWith, hx, hvj]), List.filterMap_cons]
    simp only [hvj, List.foldl_cons]

theorem foldl_zipIdx {β γ : Type} (f : γ → β → γ) : ∀ (l : List β) (lo : Nat) (a : γ),
    List.foldl (fun acc (q : β × Nat) => f acc q.1) a (l.zipIdx lo) = List.foldl f a l
  | [], _, _ => rfl
  | x :: l, lo, a => by simp [List.zipIdx_cons, foldl_zipIdx f l]

theorem mean_scalar_run [Zero α] [Add α] [Div α] [NatCast α] {s : Serie α} (h : WF s) (h1 : s.itemSize = 1) :
    mean s = .ok (.number ((scalars s).foldl (· + ·) 0 / (s.count : α))) := by
  unfold mean
  rw [if_pos h1]
  have : reduceS (σ := Unit) (fun (prev cur : α) _ => pure (prev + cur)) s 0 () =
      (.ok ((scalars s).foldl (· + ·) 0), ()) := by
    unfold reduceS
    rw [forLoop_fold _ (scalars s) s.count 0 h.scalars_length.symm (getD_hyp h), List.foldlM_pure]
    show (Res.ok _, ()) = _
    rw [foldl_zipIdx (fun (a b : α) => a + b)]
  rw [this]
  rfl

theorem mean_items_run [Zero α] [Add α] [Div α] [NatCast α] {s : Serie α} (h : WF s) (h1 : s.itemSize ≠ 1) :
    ∃ b : List α, mean s = .ok (.array b) ∧ b.length = s.itemSize ∧
      ∀ j, j < s.itemSize → b[j]? = some ((component s j).foldl (· + ·) 0 / (s.count : α)) := by
  obtain ⟨h2, h3⟩ := exec_forEachV (σ := List α) h h1 (f := fun a _ => Eff.update (fun b => updLoop a.length (fun j x => do
      let y ← rd a j
      pure (x + y)) b)) (step := List.zipWith (· + ·)) (Inv := fun b => b.length = s.itemSize)
    (st := List.replicate s.itemSize 0) (by simp) (by
      intro a ha i b hb
      have hal := h.item_length ha
      refine ⟨Eff.update_ok (updLoop_zip (by omega) (by omega) ?_), by simp [hb, hal]⟩
      intro j hj y
      rw [rd_of_lt hj]; rfl)
  refine ⟨((items s).foldl (List.zipWith (· + ·)) (List.replicate s.itemSize 0)).map (· / (s.count : α)), ?_,
    by simpa using h3, ?_⟩
  · unfold mean
    rw [if_neg h1, h2]
    rfl
  · intro j hj
    rw [List.getElem?_map, foldl_zip_run hj (items s) _ (by simp) (fun v hv => h.item_length hv) 0
      (by simp [hj])]
    simp [component]

theorem covariance_run [Zero α] [Add α] [Sub α] [Mul α] [Div α] [NatCast α] {x y : Serie α} (hx : WF x) (hy : WF y)
    (hc : x.count = y.count) (h1 : x.itemSize = 1) (h1' : y.itemSize = 1) {a b : α} (ha : mean x = .ok (.number a))
    (hb : mean y = .ok (.number b)) :
    covariance x y = .ok ((List.zipWith (fun u v => (u - a) * (v - b) / (x.count : α)) (scalars x) (scalars y)).foldl
      (· + ·) 0) := by
  have hlx := hx.scalars_length
  have hly := hy.scalars_length
  have hn := hx.count_lt
  unfold covariance
  rw [if_neg (by simpa using hc), if_neg (by simpa using h1), if_neg (by simpa using h1'), ha, hb]
  simp only [Res.ok_bind, Tuple.getNumber]
  rw [subNum_eq hx h1, subNum_eq hy h1', Res.ok_bind, Res.ok_bind]
  have hwx : WF (ofScalars ((scalars x).map (· - a))) := WF_ofScalars (by simpa [hlx] using hn)
  have hwy : WF (ofScalars ((scalars y).map (· - b))) := WF_ofScalars (by simpa [hly] using hy.count_lt)
  rw [multSerie_scalar hwx hwy (by simp [ofScalars, hlx, hly, hc]) rfl rfl (by simp [ofScalars]), Res.ok_bind]
  simp only [scalars_ofScalars]
  have hwp : WF (ofScalars (List.zipWith (· * ·) ((scalars x).map (· - a)) ((scalars y).map (· - b)))) :=
    WF_ofScalars (by simp [hlx, hly]; omega)
  unfold reduceS
  rw [forLoop_fold _ (scalars _) _ 0 hwp.scalars_length.symm (getD_hyp hwp), List.foldlM_pure]
  show Res.ok _ = _
  rw [foldl_zipIdx (fun (acc v : α) => acc + v / (x.size : α)), hx.size_eq, h1, Nat.mul_one, scalars_ofScalars]
  congr 1
  rw [List.zipWith_map]
  generalize (0 : α) = z
  generalize scalars x = l
  generalize scalars y = m
  induction l generalizing m z with
  | nil => simp
  | cons u l ih =>
    cases m with
    | nil => simp
    | cons v m => simp only [List.zipWith_cons_cons, List.foldl_cons, ih]

theorem dotItem_run [Zero α] [Add α] [Mul α] {k : Nat} {u v : List α} (hu : u.length = k) (hv : v.length = k) :
    dotItem k u v = .ok [(List.zipWith (· * ·) u v).foldl (· + ·) 0] := by
  unfold dotItem
  have := forLoop_exact (m := Res) (f := fun j r => rd r 0 >>= fun r0 => rd u j >>= fun x => rd v j >>= fun y =>
    wr r 0 (r0 + x * y)) (fun j => [(List.zipWith (· * ·) (u.take j) (v.take j)).foldl (· + ·) 0]) k 0 ?_
  · simp only [List.take_zero, Nat.zero_add, ← hu, List.take_length] at this
    rw [hu, ← hv, List.take_length, hv] at this
    exact this
  · intro j _ hj
    simp only [Nat.zero_add] at hj
    have h1 : j < u.length := by omega
    have h2 : j < v.length := by omega
    rw [rd_of_lt (by simp), Res.ok_bind, rd_of_lt h1, Res.ok_bind, rd_of_lt h2, Res.ok_bind, wr_of_lt (by simp)]
    simp only [List.getElem_cons_zero, List.set_cons_zero]
    rw [List.take_add_one, List.take_add_one, List.getElem?_eq_getElem h1, List.getElem?_eq_getElem h2,
      List.zipWith_append (by rw [List.length_take, List.length_take]; omega)]
    simp

end DF
