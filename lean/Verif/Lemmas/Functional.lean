import Verif.Model.Functional
import Verif.Spec.Functional
import Verif.Lemmas.Build

/-! # Lemmas on map, filter, find, ... -/

namespace DF

open Spec

variable {α β γ σ : Type}

/-! ## callAll -/

section callAll

variable {m : Type → Type} [Monad m] [LawfulMonad m]

omit [LawfulMonad m] in
@[simp] theorem callAll_nil (f : γ → Nat → m β) (lo : Nat) : callAll f [] lo = pure [] := by
  simp [callAll, List.zipIdx, List.mapM_nil]

theorem callAll_cons (f : γ → Nat → m β) (x : γ) (l : List γ) (lo : Nat) :
    callAll f (x :: l) lo = f x lo >>= fun y => callAll f l (lo + 1) >>= fun ys => pure (y :: ys) := by
  simp [callAll]

theorem callAll_pureCb (f : γ → Nat → β) (l : List γ) (lo : Nat) :
    callAll (m := Eff σ) (pureCb f) l lo = pure ((l.zipIdx lo).map (fun p => f p.1 p.2)) :=
  mapM_pure' _ _

theorem callAll_pure (f : γ → Nat → β) (l : List γ) :
    callAll (m := Eff σ) (pureCb f) l = pure (l.mapIdx (fun i x => f x i)) := by
  rw [callAll_pureCb, List.mapIdx_eq_zipIdx_map]

end callAll

theorem callAll_logged_ok {f : γ → Nat → Res β} : ∀ (l : List γ) (ys : List β) (lo : Nat) (log : List (γ × Nat)),
    ys.length = l.length → (∀ i (h : i < l.length) (h' : i < ys.length), f l[i] (lo + i) = .ok ys[i]) →
    callAll (logged f) l lo log = (.ok ys, log ++ l.zipIdx lo) := by
  intro l
  induction l with
  | nil => intro ys lo log hl _; cases ys <;> simp_all; rfl
  | cons x l ih =>
    intro ys lo log hl h
    cases ys with
    | nil => simp at hl
    | cons y ys =>
      rw [callAll_cons]
      have h0 := h 0 (by simp) (by simp)
      simp at h0
      rw [Eff.bind_ok (b := y) (s' := log ++ [(x, lo)]) (by simp [logged, h0])]
      rw [Eff.bind_ok (b := ys) (s' := log ++ [(x, lo)] ++ l.zipIdx (lo + 1))]
      · simp [Eff.pure_def]
      · apply ih
        · simpa using hl
        · intro i h1 h2
          have := h (i + 1) (by simpa using h1) (by simpa using h2)
          simpa [Nat.add_assoc, Nat.add_comm 1] using this

theorem callAll_logged_throw {f : γ → Nat → Res β} {e : Err} : ∀ (l : List γ) (k lo : Nat) (log : List (γ × Nat)),
    (∀ i (h : i < l.length), i < k → ∃ y, f l[i] (lo + i) = .ok y) →
    (hk : k < l.length) → f l[k] (lo + k) = .throw e →
    callAll (logged f) l lo log = (.throw e, log ++ (l.zipIdx lo).take (k + 1)) := by
  intro l
  induction l with
  | nil => intro k lo log _ hk; simp at hk
  | cons x l ih =>
    intro k lo log h hk hf
    rw [callAll_cons]
    cases k with
    | zero =>
      simp at hf
      rw [Eff.bind_throw (e := e) (s' := log ++ [(x, lo)]) (by simp [logged, hf])]
      simp
    | succ k =>
      obtain ⟨y, hy⟩ := h 0 (by simp) (by omega)
      simp at hy
      rw [Eff.bind_ok (b := y) (s' := log ++ [(x, lo)]) (by simp [logged, hy])]
      rw [Eff.bind_throw (e := e) (s' := log ++ [(x, lo)] ++ (l.zipIdx (lo + 1)).take (k + 1))]
      · simp
      · apply ih
        · intro i h1 h2
          have := h (i + 1) (by simpa using h1) (by omega)
          simpa [Nat.add_assoc, Nat.add_comm 1] using this
        · simpa [Nat.add_assoc, Nat.add_comm 1] using hf

/-- The two outcomes of a sequence of recorded calls. -/
theorem callAll_AllReturn {f : γ → Nat → Res β} {l : List γ} {ys : List β} (h : AllReturn f l ys)
    (log : List (γ × Nat)) : callAll (logged f) l 0 log = (.ok ys, log ++ l.zipIdx) :=
  callAll_logged_ok l ys 0 log h.1 (by simpa using h.2)

theorem callAll_ThrowsAt {f : γ → Nat → Res β} {l : List γ} {k : Nat} {e : Err} (h : ThrowsAt f l k e)
    (log : List (γ × Nat)) : callAll (logged f) l 0 log = (.throw e, log ++ l.zipIdx.take (k + 1)) := by
  obtain ⟨h1, hk, h2⟩ := h
  exact callAll_logged_throw l k 0 log (by simpa using h1) hk (by simpa using h2)

/-- A loop collecting the results of the calls. -/
theorem forLoop_calls {g : Nat → Res γ} (f : γ → Nat → Eff σ β) (l : List γ) (lo n : Nat) (acc : List β)
    (hn : n = l.length) (hg : ∀ i (hi : i < l.length), g (lo + i) = .ok l[i]) :
    forLoop (m := Eff σ) (fun i r => do
      let x ← Eff.lift (g i)
      let y ← f x i
      pure (r ++ [y])) lo n acc = callAll f l lo >>= fun ys => pure (acc ++ ys) := by
  subst hn
  rw [forLoop_list (fun x i r => f x i >>= fun y => pure (r ++ [y])) l lo acc hg]
  exact foldlM_push (fun p : γ × Nat => f p.1 p.2) (l.zipIdx lo) acc

/-- Same, the results being arrays that are appended after a check. -/
theorem forLoop_rows {g : Nat → Res γ} (f : γ → Nat → Eff σ (List α)) (k : Nat) (l : List γ) :
    ∀ (lo n : Nat) (acc : List α), n = l.length → (∀ i (hi : i < l.length), g (lo + i) = .ok l[i]) →
    forLoop (m := Eff σ) (fun i r => do
      let x ← Eff.lift (g i)
      let y ← f x i
      if y.length ≠ k then Eff.throw .runtimeError else pure (r ++ y)) lo n acc =
    callAll (fun x i => f x i >>= fun y => if y.length ≠ k then Eff.throw .runtimeError else pure y) l lo
      >>= fun ys => pure (acc ++ ys.flatten) := by
  induction l with
  | nil => intro lo n acc hn _; subst hn; simp
  | cons x l ih =>
    intro lo n acc hn hg
    subst hn
    have h0 := hg 0 (by simp)
    simp only [Nat.add_zero, List.getElem_cons_zero] at h0
    rw [List.length_cons, forLoop_succ, h0, callAll_cons]
    simp only [Eff.lift_ok, pure_bind, bind_assoc]
    congr 1; funext y
    split
    · simp
    · simp only [pure_bind]
      rw [ih (lo + 1) l.length (acc ++ y) rfl]
      · simp
      · intro i hi
        have := hg (i + 1) (by simpa using hi)
        simpa [Nat.add_assoc, Nat.add_comm 1] using this

/-! ## Reading items -/

theorem getA_hyp {s : Serie α} (h : WF s) (i : Nat) (hi : i < (items s).length) :
    s.getA (0 + i) = .ok (items s)[i] := by
  rw [Nat.zero_add]; exact Serie.getA_items h hi

theorem getD_hyp {s : Serie α} (h : WF s) (i : Nat) (hi : i < (scalars s).length) :
    s.getD (0 + i) = .ok (scalars s)[i] := by
  rw [Nat.zero_add]; exact Serie.getD_scalars h.count_le hi

/-- `ofArray 1` of fewer than `2^32` numbers. -/
theorem ofArray_one {xs : List α} (h : xs.length < 2 ^ 32) : Serie.ofArray 1 xs = .ok (ofScalars xs) := by
  rw [Serie.ofArray_eq (by decide) (by decide) h]; simp [ofScalars]

/-- `ofArray k` of the flattened rows. -/
theorem ofArray_rows {k : Nat} {its : List (List α)} (hk : 0 < k) (hk' : k < 2 ^ 31)
    (h : ∀ v ∈ its, v.length = k) (hn : its.length * k < 2 ^ 32) :
    Serie.ofArray k its.flatten = .ok (ofItems k its) := by
  have hl := flatten_length h
  rw [Serie.ofArray_eq hk hk' (by omega), hl, Nat.mul_div_cancel _ hk]; rfl

/-! ## map -/

/-- `callAll` returns as many results as there are calls. -/
theorem callAll_length {f : γ → Nat → Eff σ β} : ∀ (l : List γ) (lo : Nat) (st st' : σ) (ys : List β),
    callAll f l lo st = (.ok ys, st') → ys.length = l.length := by
  intro l
  induction l with
  | nil =>
    intro lo st st' ys h
    simp [Eff.pure_def] at h; simp [← h.1]
  | cons x l ih =>
    intro lo st st' ys h
    rw [callAll_cons, Eff.bind_def] at h
    simp only at h
    rcases h1 : f x lo st with ⟨r, st1⟩
    rw [h1] at h
    cases r with
    | throw e => simp at h
    | ub => simp at h
    | ok y =>
      simp only [Eff.bind_def] at h
      rcases h2 : callAll f l (lo + 1) st1 with ⟨r, st2⟩
      rw [h2] at h
      cases r with
      | throw e => simp at h
      | ub => simp at h
      | ok zs =>
        simp [Eff.pure_def] at h
        rw [← h.1, List.length_cons, ih _ _ _ _ h2, List.length_cons]

/-- Inversion of a sequence that returned. -/
theorem bind_inv {δ : Type} {x : Eff σ β} {f : β → Eff σ δ} {st st' : σ} {d : δ}
    (h : (x >>= f) st = (.ok d, st')) : ∃ b st1, x st = (.ok b, st1) ∧ f b st1 = (.ok d, st') := by
  rw [Eff.bind_def] at h
  simp only at h
  rcases h1 : x st with ⟨r, st1⟩
  rw [h1] at h
  cases r with
  | throw e => simp at h
  | ub => simp at h
  | ok b => exact ⟨b, st1, rfl, h⟩

/-- Replace a continuation by another one agreeing on the possible results. -/
theorem bind_congr_ok {δ : Type} {x : Eff σ β} {f g : β → Eff σ δ}
    (h : ∀ st b st', x st = (.ok b, st') → f b st' = g b st') : (x >>= f) = (x >>= g) := by
  funext st
  simp only [Eff.bind_def]
  rcases h1 : x st with ⟨r, st'⟩
  cases r with
  | ok b => exact h st b st' h1
  | throw e => rfl
  | ub => rfl

theorem mapSS_eq {s : Serie α} (h : WF s) (cb : α → Nat → Eff σ α) :
    mapSS cb s = callAll cb (scalars s) >>= fun ys => pure (ofScalars ys) := by
  unfold mapSS
  rw [forLoop_calls cb (scalars s) 0 s.count [] h.scalars_length.symm (getD_hyp h)]
  simp only [bind_assoc, pure_bind, List.nil_append]
  apply bind_congr_ok
  intro st ys st' hy
  have := callAll_length _ _ _ _ _ hy
  rw [ofArray_one (by rw [this, h.scalars_length]; exact h.count_lt)]; rfl

theorem mapVS_eq {s : Serie α} (h : WF s) (cb : List α → Nat → Eff σ α) :
    mapVS cb s = callAll cb (items s) >>= fun ys => pure (ofScalars ys) := by
  unfold mapVS
  rw [forLoop_calls cb (items s) 0 s.count [] (items_length s).symm (getA_hyp h)]
  simp only [bind_assoc, pure_bind, List.nil_append]
  apply bind_congr_ok
  intro st ys st' hy
  have := callAll_length _ _ _ _ _ hy
  rw [ofArray_one (by rw [this, items_length]; exact h.count_lt)]; rfl

/-- What `map` does with a callback returning arrays, on the list of inputs. -/
def sizedMap (cb : γ → Nat → Eff σ (List α)) : List γ → Eff σ (Serie α)
  | [] => pure ⟨[], 0, 0, 3⟩
  | x :: l => do
    let first ← cb x 0
    let rest ← callAll (fun x i => cb x i >>= fun y =>
      if y.length ≠ first.length then Eff.throw .runtimeError else pure y) l 1
    Eff.lift (Serie.ofArray (u32 first.length) (first ++ rest.flatten))

theorem sizedMap_cons (cb : γ → Nat → Eff σ (List α)) (x : γ) (l : List γ) :
    sizedMap cb (x :: l) = cb x 0 >>= fun first =>
      callAll (fun x i => cb x i >>= fun y =>
        if y.length ≠ first.length then Eff.throw .runtimeError else pure y) l 1 >>= fun rest =>
      Eff.lift (Serie.ofArray (u32 first.length) (first ++ rest.flatten)) := rfl

theorem mapSV_eq [Zero α] {s : Serie α} (h : WF s) (cb : α → Nat → Eff σ (List α)) :
    mapSV cb s = sizedMap cb (scalars s) := by
  unfold mapSV
  have hl := h.scalars_length
  have hg := getD_hyp h
  cases hs : scalars s with
  | nil => rw [hs] at hl; simp at hl; simp [← hl, sizedMap, Serie.zeros, u32]
  | cons x l =>
    rw [hs] at hl hg
    simp only [List.length_cons] at hl
    rw [if_neg (by omega)]
    have h0 := hg 0 (by simp)
    simp only [Nat.add_zero, List.getElem_cons_zero] at h0
    rw [h0]
    simp only [Eff.lift_ok, pure_bind, sizedMap]
    congr 1; funext first
    rw [forLoop_rows cb first.length l 1 (s.count - 1) first (by omega)]
    · simp
    · intro i hi
      have := hg (i + 1) (by simpa using hi)
      simpa [Nat.add_comm 1] using this

theorem mapVV_eq [Zero α] {s : Serie α} (h : WF s) (cb : List α → Nat → Eff σ (List α)) :
    mapVV cb s = sizedMap cb (items s) := by
  unfold mapVV
  have hl := items_length s
  have hg := getA_hyp h
  cases hs : items s with
  | nil => rw [hs] at hl; simp at hl; simp [← hl, sizedMap, Serie.zeros, u32]
  | cons x l =>
    rw [hs] at hl hg
    simp only [List.length_cons] at hl
    rw [if_neg (by omega)]
    have h0 := hg 0 (by simp)
    simp only [Nat.add_zero, List.getElem_cons_zero] at h0
    rw [h0]
    simp only [Eff.lift_ok, pure_bind, sizedMap]
    congr 1; funext first
    rw [forLoop_rows cb first.length l 1 (s.count - 1) first (by omega)]
    · simp
    · intro i hi
      have := hg (i + 1) (by simpa using hi)
      simpa [Nat.add_comm 1] using this

/-! ## filter, reject, partition, findAll -/

/-- The positions of the true flags, counted from `lo`. -/
def trueIdx : Nat → List Bool → List Nat
  | _, [] => []
  | lo, b :: bs => if b then lo :: trueIdx (lo + 1) bs else trueIdx (lo + 1) bs

theorem collect_loop {g : Nat → Res γ} (p : γ → Nat → Eff σ Bool) (h : Bool → Bool) (l : List γ) :
    ∀ (lo n : Nat) (acc : List Nat), n = l.length → (∀ i (hi : i < l.length), g (lo + i) = .ok l[i]) →
    forLoop (m := Eff σ) (fun i idx => do
      let x ← Eff.lift (g i)
      let b ← p x i
      pure (if h b then idx ++ [i] else idx)) lo n acc =
    callAll p l lo >>= fun bs => pure (acc ++ trueIdx lo (bs.map h)) := by
  induction l with
  | nil => intro lo n acc hn _; subst hn; simp [trueIdx]
  | cons x l ih =>
    intro lo n acc hn hg
    subst hn
    have h0 := hg 0 (by simp)
    simp only [Nat.add_zero, List.getElem_cons_zero] at h0
    rw [List.length_cons, forLoop_succ, h0, callAll_cons]
    simp only [Eff.lift_ok, pure_bind, bind_assoc]
    congr 1; funext b
    rw [ih (lo + 1) l.length _ rfl]
    · congr 1; funext bs
      cases hb : h b <;> simp [trueIdx, hb]
    · intro i hi
      have := hg (i + 1) (by simpa using hi)
      simpa [Nat.add_assoc, Nat.add_comm 1] using this

theorem collect_eq {get : Nat → Res γ} {count : Nat} (p : γ → Nat → Eff σ Bool) (l : List γ)
    (hn : count = l.length) (hg : ∀ i (hi : i < l.length), get (0 + i) = .ok l[i]) :
    collect get count p = callAll p l >>= fun bs => pure (trueIdx 0 bs) := by
  have := collect_loop p id l 0 count [] hn hg
  simpa [collect] using this

theorem collectNot_eq {get : Nat → Res γ} {count : Nat} (p : γ → Nat → Eff σ Bool) (l : List γ)
    (hn : count = l.length) (hg : ∀ i (hi : i < l.length), get (0 + i) = .ok l[i]) :
    collectNot get count p = callAll p l >>= fun bs => pure (trueIdx 0 (bs.map not)) := by
  have := collect_loop p not l 0 count [] hn hg
  simpa [collectNot] using this

theorem collectBoth_loop {g : Nat → Res γ} (p : γ → Nat → Eff σ Bool) (l : List γ) :
    ∀ (lo n : Nat) (acc : List Nat × List Nat), n = l.length →
    (∀ i (hi : i < l.length), g (lo + i) = .ok l[i]) →
    forLoop (m := Eff σ) (fun i (idx : List Nat × List Nat) => do
      let x ← Eff.lift (g i)
      let b ← p x i
      pure (if b then (idx.1 ++ [i], idx.2) else (idx.1, idx.2 ++ [i]))) lo n acc =
    callAll p l lo >>= fun bs => pure (acc.1 ++ trueIdx lo bs, acc.2 ++ trueIdx lo (bs.map not)) := by
  induction l with
  | nil => intro lo n acc hn _; subst hn; simp [trueIdx]
  | cons x l ih =>
    intro lo n acc hn hg
    subst hn
    have h0 := hg 0 (by simp)
    simp only [Nat.add_zero, List.getElem_cons_zero] at h0
    rw [List.length_cons, forLoop_succ, h0, callAll_cons]
    simp only [Eff.lift_ok, pure_bind, bind_assoc]
    congr 1; funext b
    rw [ih (lo + 1) l.length _ rfl]
    · congr 1; funext bs
      cases b <;> simp [trueIdx]
    · intro i hi
      have := hg (i + 1) (by simpa using hi)
      simpa [Nat.add_assoc, Nat.add_comm 1] using this

theorem collectBoth_eq {get : Nat → Res γ} {count : Nat} (p : γ → Nat → Eff σ Bool) (l : List γ)
    (hn : count = l.length) (hg : ∀ i (hi : i < l.length), get (0 + i) = .ok l[i]) :
    collectBoth get count p =
      callAll p l >>= fun bs => pure (trueIdx 0 bs, trueIdx 0 (bs.map not)) := by
  have := collectBoth_loop p l 0 count ([], []) hn hg
  simpa [collectBoth] using this

theorem keep_length_le : ∀ (l : List γ) (bs : List Bool), (keep l bs).length ≤ l.length
  | [], _ => by simp [keep]
  | _ :: _, [] => by simp [keep]
  | x :: l, b :: bs => by
    have := keep_length_le l bs
    cases b <;> simp [keep] <;> omega

theorem keep_mem : ∀ (l : List γ) (bs : List Bool) {x : γ}, x ∈ keep l bs → x ∈ l
  | [], _, _ => by simp [keep]
  | _ :: _, [], _ => by simp [keep]
  | y :: l, b :: bs, x => by
    have := @keep_mem l bs x
    cases b <;> simp [keep]
    · intro h; exact Or.inr (this h)
    · rintro (h | h)
      · exact Or.inl h
      · exact Or.inr (this h)

theorem trueIdx_length : ∀ (l : List γ) (bs : List Bool) (lo : Nat), bs.length = l.length →
    (trueIdx lo bs).length = (keep l bs).length
  | [], [], _, _ => by simp [keep, trueIdx]
  | [], _ :: _, _, h => by simp at h
  | _ :: _, [], _, h => by simp at h
  | _ :: l, b :: bs, lo, h => by
    have := trueIdx_length l bs (lo + 1) (by simpa using h)
    cases b <;> simp [keep, trueIdx, this]

theorem trueIdx_keep : ∀ (l : List γ) (bs : List Bool) (lo : Nat), bs.length = l.length →
    ∀ i (hi : i < (keep l bs).length), ∃ j, ∃ hj : j < l.length,
      (trueIdx lo bs)[i]? = some (lo + j) ∧ l[j] = (keep l bs)[i]
  | [], _, _, _, i, hi => by simp [keep] at hi
  | _ :: _, [], _, _, i, hi => by simp [keep] at hi
  | x :: l, true :: bs, lo, h, 0, _ => ⟨0, by simp, by simp [trueIdx], by simp [keep]⟩
  | x :: l, true :: bs, lo, h, i + 1, hi => by
    obtain ⟨j, hj, h1, h2⟩ := trueIdx_keep l bs (lo + 1) (by simpa using h) i (by simpa [keep] using hi)
    refine ⟨j + 1, by simpa using hj, ?_, ?_⟩
    · simp [trueIdx, h1]; omega
    · simpa [keep] using h2
  | x :: l, false :: bs, lo, h, i, hi => by
    obtain ⟨j, hj, h1, h2⟩ := trueIdx_keep l bs (lo + 1) (by simpa using h) i (by simpa [keep] using hi)
    refine ⟨j + 1, by simpa using hj, ?_, ?_⟩
    · simp [trueIdx, h1]; omega
    · simpa [keep] using h2

theorem gatherA_eq [Zero α] {s : Serie α} (h : WF s) {bs : List Bool} (hb : bs.length = s.count) :
    gatherA s (trueIdx 0 bs) = .ok (ofItems s.itemSize (keep (items s) bs)) := by
  have hlen := trueIdx_length (items s) bs 0 (by simpa using hb)
  have hle := keep_length_le (items s) bs
  rw [items_length] at hle
  have hc := h.count_lt
  have hm : (keep (items s) bs).length * s.itemSize < 2 ^ 32 :=
    Nat.lt_of_le_of_lt (Nat.le_trans (Nat.mul_le_mul_right _ hle) h.fits) h.small
  unfold gatherA
  rw [hlen, u32_of_lt (by omega)]
  have := forLoop_putA (d := 3) (g := fun i => rd (trueIdx 0 bs) i >>= fun k => s.getA k) h.pos h.int
    (keep (items s) bs) (fun v hv => h.item_length (keep_mem _ _ hv)) hm ?_
  · rw [← this]; simp only [bind_assoc]
  · intro i hi
    obtain ⟨j, hj, h1, h2⟩ := trueIdx_keep (items s) bs 0 (by simpa using hb) i hi
    simp only [rd, h1, Nat.zero_add, Res.ok_bind]
    rw [Serie.getA_items h hj, h2]

theorem gatherD_eq [Zero α] {s : Serie α} (h : WF s) {bs : List Bool} (hb : bs.length = s.count) :
    gatherD s (trueIdx 0 bs) = .ok (ofScalars (keep (scalars s) bs)) := by
  have hl := h.scalars_length
  have hlen := trueIdx_length (scalars s) bs 0 (by omega)
  have hle := keep_length_le (scalars s) bs
  have hc := h.count_lt
  unfold gatherD
  rw [hlen, u32_of_lt (by omega)]
  have := forLoop_putD (d := 3) (g := fun i => rd (trueIdx 0 bs) i >>= fun k => s.getD k)
    (keep (scalars s) bs) (by omega) ?_
  · rw [← this]; simp only [bind_assoc]
  · intro i hi
    obtain ⟨j, hj, h1, h2⟩ := trueIdx_keep (scalars s) bs 0 (by omega) i hi
    simp only [rd, h1, Nat.zero_add, Res.ok_bind]
    rw [Serie.getD_scalars h.count_le hj, h2]

theorem gatherFind_eq [Zero α] {s : Serie α} (h : WF s) {bs : List Bool} (hb : bs.length = s.count) :
    gatherFind s (trueIdx 0 bs) = .ok (ofItems s.itemSize (keep (items s) bs)) := by
  by_cases h1 : s.itemSize = 1
  · have h2 := gatherD_eq h hb
    unfold gatherD at h2
    simp only [gatherFind, h1, if_true]
    rw [h2, items_scalar h1 h.count_le]
    congr 1
    have : ∀ (l : List α) (bs : List Bool), ofScalars (keep l bs) = ofItems 1 (keep (l.map (fun x => [x])) bs) := by
      intro l
      suffices ∀ bs, keep (l.map (fun x => [x])) bs = (keep l bs).map (fun x => [x]) by
        intro bs; rw [this]; simp [ofScalars, ofItems, ← List.flatMap_def]
      induction l with
      | nil => intro bs; simp [keep]
      | cons x l ih =>
        intro bs
        cases bs with
        | nil => simp [keep]
        | cons b bs => cases b <;> simp [keep, ih]
    exact this _ _
  · have h2 := gatherA_eq h hb
    unfold gatherA at h2
    simp only [gatherFind, h1, if_false]
    exact h2

theorem filterS_eq [Zero α] {s : Serie α} (h : WF s) (p : α → Nat → Eff σ Bool) :
    filterS p s = callAll p (scalars s) >>= fun bs => pure (ofScalars (keep (scalars s) bs)) := by
  unfold filterS
  rw [collect_eq p (scalars s) h.scalars_length.symm (getD_hyp h), bind_assoc]
  apply bind_congr_ok
  intro st bs st' hb
  have := callAll_length _ _ _ _ _ hb
  rw [pure_bind, gatherD_eq h (by rw [this, h.scalars_length]), Eff.lift_ok]

theorem filterV_eq [Zero α] {s : Serie α} (h : WF s) (p : List α → Nat → Eff σ Bool) :
    filterV p s = callAll p (items s) >>= fun bs => pure (ofItems s.itemSize (keep (items s) bs)) := by
  unfold filterV
  rw [collect_eq p (items s) (items_length s).symm (getA_hyp h), bind_assoc]
  apply bind_congr_ok
  intro st bs st' hb
  have := callAll_length _ _ _ _ _ hb
  rw [pure_bind, gatherA_eq h (by rw [this, items_length]), Eff.lift_ok]

theorem rejectS_eq [Zero α] {s : Serie α} (h : WF s) (p : α → Nat → Eff σ Bool) :
    rejectS p s =
      callAll p (scalars s) >>= fun bs => pure (ofScalars (keep (scalars s) (bs.map not))) := by
  unfold rejectS
  rw [collectNot_eq p (scalars s) h.scalars_length.symm (getD_hyp h), bind_assoc]
  apply bind_congr_ok
  intro st bs st' hb
  have := callAll_length _ _ _ _ _ hb
  rw [pure_bind, gatherD_eq h (by simp [this, h.scalars_length]), Eff.lift_ok]

theorem rejectV_eq [Zero α] {s : Serie α} (h : WF s) (p : List α → Nat → Eff σ Bool) :
    rejectV p s =
      callAll p (items s) >>= fun bs => pure (ofItems s.itemSize (keep (items s) (bs.map not))) := by
  unfold rejectV
  rw [collectNot_eq p (items s) (items_length s).symm (getA_hyp h), bind_assoc]
  apply bind_congr_ok
  intro st bs st' hb
  have := callAll_length _ _ _ _ _ hb
  rw [pure_bind, gatherA_eq h (by simp [this, items_length]), Eff.lift_ok]

theorem findAllS_eq [Zero α] {s : Serie α} (h : WF s) (p : α → Nat → Eff σ Bool) :
    findAllS p s =
      callAll p (scalars s) >>= fun bs => pure (ofItems s.itemSize (keep (items s) bs)) := by
  unfold findAllS
  rw [collect_eq p (scalars s) h.scalars_length.symm (getD_hyp h), bind_assoc]
  apply bind_congr_ok
  intro st bs st' hb
  have := callAll_length _ _ _ _ _ hb
  rw [pure_bind, gatherFind_eq h (by rw [this, h.scalars_length]), Eff.lift_ok]

theorem findAllV_eq [Zero α] {s : Serie α} (h : WF s) (p : List α → Nat → Eff σ Bool) :
    findAllV p s = callAll p (items s) >>= fun bs => pure (ofItems s.itemSize (keep (items s) bs)) := by
  unfold findAllV
  rw [collect_eq p (items s) (items_length s).symm (getA_hyp h), bind_assoc]
  apply bind_congr_ok
  intro st bs st' hb
  have := callAll_length _ _ _ _ _ hb
  rw [pure_bind, gatherFind_eq h (by rw [this, items_length]), Eff.lift_ok]

theorem partitionS_eq [Zero α] {s : Serie α} (h : WF s) (h1 : s.itemSize = 1) (p : α → Nat → Eff σ Bool) :
    partitionS p s = callAll p (scalars s) >>= fun bs =>
      pure (ofScalars (keep (scalars s) bs), ofScalars (keep (scalars s) (bs.map not))) := by
  unfold partitionS
  rw [if_neg (by simpa using h1), collectBoth_eq p (scalars s) h.scalars_length.symm (getD_hyp h), bind_assoc]
  apply bind_congr_ok
  intro st bs st' hb
  have := callAll_length _ _ _ _ _ hb
  rw [pure_bind, gatherD_eq h (by rw [this, h.scalars_length]),
    gatherD_eq h (by simp [this, h.scalars_length])]
  rfl

theorem partitionV_eq [Zero α] {s : Serie α} (h : WF s) (p : List α → Nat → Eff σ Bool) :
    partitionV p s = callAll p (items s) >>= fun bs =>
      pure (ofItems s.itemSize (keep (items s) bs), ofItems s.itemSize (keep (items s) (bs.map not))) := by
  unfold partitionV
  rw [collectBoth_eq p (items s) (items_length s).symm (getA_hyp h), bind_assoc]
  apply bind_congr_ok
  intro st bs st' hb
  have := callAll_length _ _ _ _ _ hb
  rw [pure_bind, gatherA_eq h (by rw [this, items_length]), gatherA_eq h (by simp [this, items_length])]
  rfl

theorem checkS_eq [Zero α] [One α] {s : Serie α} (h : WF s) (p : α → Nat → Eff σ Bool) :
    checkS s p = callAll p (scalars s) >>= fun bs =>
      pure (ofScalars (bs.map (fun b => if b then 1 else 0))) := by
  have := mapSS_eq h (fun x i => p x i >>= fun b => pure (if b then 1 else 0))
  have h2 : ∀ (l : List α) (lo : Nat), callAll (fun x i => p x i >>= fun b => pure (if b then (1 : α) else 0)) l lo =
      callAll p l lo >>= fun bs => pure (bs.map (fun b => if b then 1 else 0)) := by
    intro l
    induction l with
    | nil => intro lo; simp
    | cons x l ih => intro lo; rw [callAll_cons, callAll_cons]; simp only [ih, bind_assoc, pure_bind, List.map_cons]
  rw [h2] at this
  simp only [bind_assoc, pure_bind] at this
  rw [← this]
  simp only [checkS, mapSS, bind_assoc, pure_bind]

theorem checkV_eq [Zero α] [One α] {s : Serie α} (h : WF s) (p : List α → Nat → Eff σ Bool) :
    checkV s p = callAll p (items s) >>= fun bs =>
      pure (ofScalars (bs.map (fun b => if b then 1 else 0))) := by
  have := mapVS_eq h (fun x i => p x i >>= fun b => pure (if b then 1 else 0))
  have h2 : ∀ (l : List (List α)) (lo : Nat),
      callAll (fun x i => p x i >>= fun b => pure (if b then (1 : α) else 0)) l lo =
      callAll p l lo >>= fun bs => pure (bs.map (fun b => if b then 1 else 0)) := by
    intro l
    induction l with
    | nil => intro lo; simp
    | cons x l ih => intro lo; rw [callAll_cons, callAll_cons]; simp only [ih, bind_assoc, pure_bind, List.map_cons]
  rw [h2] at this
  simp only [bind_assoc, pure_bind] at this
  rw [← this]
  simp only [checkV, mapVS, bind_assoc, pure_bind]

/-! ## forEach, reduce -/

theorem forLoop_unit {g : Nat → Res γ} (f : γ → Nat → Eff σ Unit) (l : List γ) (n : Nat) (hn : n = l.length)
    (hg : ∀ i (hi : i < l.length), g (0 + i) = .ok l[i]) :
    forLoop (m := Eff σ) (fun i _ => do
      let x ← Eff.lift (g i)
      f x i) 0 n () = callAll f l >>= fun _ => pure () := by
  subst hn
  rw [forLoop_list (fun x i _ => f x i) l 0 () hg]
  have : ∀ (l : List γ) (lo : Nat), List.foldlM (fun (_ : Unit) (xi : γ × Nat) => f xi.1 xi.2) () (l.zipIdx lo) =
      callAll f l lo >>= fun _ => pure () := by
    intro l
    induction l with
    | nil => intro lo; simp
    | cons x l ih => intro lo; rw [callAll_cons]; simp [ih]
  exact this l 0

theorem forLoop_fold {g : Nat → Res γ} (f : β → γ → Nat → Eff σ β) (l : List γ) (n : Nat) (init : β)
    (hn : n = l.length) (hg : ∀ i (hi : i < l.length), g (0 + i) = .ok l[i]) :
    forLoop (m := Eff σ) (fun i acc => do
      let x ← Eff.lift (g i)
      f acc x i) 0 n init = l.zipIdx.foldlM (fun acc p => f acc p.1 p.2) init := by
  subst hn
  exact forLoop_list (fun x i acc => f acc x i) l 0 init hg

/-! ## Several Series -/

theorem countAndCheck_eq {ss : List (Serie α)} {n : Nat} (hne : ss ≠ []) (hc : ∀ s ∈ ss, s.count = n) :
    countAndCheck ss = .ok (ss.map (·.count)) ∧ rd (ss.map (·.count)) 0 = .ok n := by
  cases ss with
  | nil => exact absurd rfl hne
  | cons s ss =>
    have h0 := hc s (by simp)
    constructor
    · simp only [countAndCheck, List.map_cons]
      rw [if_pos]
      rw [List.all_eq_true]
      intro x hx
      simp only [List.mem_map] at hx
      obtain ⟨t, ht, rfl⟩ := hx
      simp [h0, hc t (by simp [ht])]
    · simp [rd, h0]

theorem countAndCheck_throw {ss : List (Serie α)} {s t : Serie α} (hs : s ∈ ss) (ht : t ∈ ss)
    (h : s.count ≠ t.count) : countAndCheck ss = .throw .invalidArgument := by
  cases ss with
  | nil => simp at hs
  | cons u ss =>
    simp only [countAndCheck, List.map_cons]
    rw [if_neg]
    intro hall
    rw [List.all_eq_true] at hall
    have key : ∀ x ∈ u :: ss, x.count = u.count := by
      intro x hx
      rcases List.mem_cons.1 hx with rfl | hx
      · rfl
      · have := hall x.count (by simp only [List.mem_map]; exact ⟨x, hx, rfl⟩)
        simpa using this
    exact h ((key s hs).trans (key t ht).symm)

theorem mapM_ok {f : γ → Res β} {g : γ → β} (l : List γ) (h : ∀ x ∈ l, f x = .ok (g x)) :
    l.mapM f = .ok (l.map g) := by
  induction l with
  | nil => rfl
  | cons a l ih =>
    rw [List.mapM_cons, h a (by simp), ih (fun x hx => h x (by simp [hx]))]; rfl

theorem getRow_eq {ss : List (Serie α)} {n i : Nat} (hw : ∀ s ∈ ss, WF s) (hc : ∀ s ∈ ss, s.count = n)
    (hi : i < n) : getRow ss i = .ok (row ss i) :=
  mapM_ok ss (fun s hs => Serie.getA_eq (hw s hs) (by rw [hc s hs]; exact hi))

theorem rows_hyp {ss : List (Serie α)} {n : Nat} (hw : ∀ s ∈ ss, WF s) (hc : ∀ s ∈ ss, s.count = n)
    (i : Nat) (hi : i < (rows ss n).length) : getRow ss (0 + i) = .ok (rows ss n)[i] := by
  simp [rows] at hi
  rw [Nat.zero_add, getRow_eq hw hc hi]; simp [rows]

@[simp] theorem rows_length (ss : List (Serie α)) (n : Nat) : (rows ss n).length = n := by simp [rows]

theorem filterMulti_eq [Zero α] {ss : List (Serie α)} {n : Nat} (hne : ss ≠ []) (hw : ∀ s ∈ ss, WF s)
    (hc : ∀ s ∈ ss, s.count = n) (p : List (List α) → Nat → Eff σ Bool) :
    filterMulti p ss = callAll p (rows ss n) >>= fun bs =>
      pure (ss.map (fun s => ofItems s.itemSize (keep (items s) bs))) := by
  unfold filterMulti
  obtain ⟨h1, h2⟩ := countAndCheck_eq hne hc
  rw [h1, Eff.lift_ok, pure_bind, h2, Eff.lift_ok, pure_bind,
    collect_eq p (rows ss n) (by simp) (rows_hyp hw hc), bind_assoc]
  apply bind_congr_ok
  intro st bs st' hb
  have := callAll_length _ _ _ _ _ hb
  rw [pure_bind, mapM_ok ss (g := fun s => ofItems s.itemSize (keep (items s) bs)), Eff.lift_ok]
  intro s hs
  exact gatherA_eq (hw s hs) (by rw [this, rows_length, hc s hs])

theorem rejectMulti_eq [Zero α] {ss : List (Serie α)} {n : Nat} (hne : ss ≠ []) (hw : ∀ s ∈ ss, WF s)
    (hc : ∀ s ∈ ss, s.count = n) (p : List (List α) → Nat → Eff σ Bool) :
    rejectMulti p ss = callAll p (rows ss n) >>= fun bs =>
      pure (ss.map (fun s => ofItems s.itemSize (keep (items s) (bs.map not)))) := by
  unfold rejectMulti
  obtain ⟨h1, h2⟩ := countAndCheck_eq hne hc
  rw [h1, Eff.lift_ok, pure_bind, h2, Eff.lift_ok, pure_bind,
    collectNot_eq p (rows ss n) (by simp) (rows_hyp hw hc), bind_assoc]
  apply bind_congr_ok
  intro st bs st' hb
  have := callAll_length _ _ _ _ _ hb
  rw [pure_bind, mapM_ok ss (g := fun s => ofItems s.itemSize (keep (items s) (bs.map not))), Eff.lift_ok]
  intro s hs
  exact gatherA_eq (hw s hs) (by rw [List.length_map, this, rows_length, hc s hs])

theorem assign_empty [Zero α] (t : Serie α) :
    (Serie.assign t).exec (Serie.empty : Serie α) = .ok { t with dimension := 3 } := rfl

theorem forEachMulti_eq {ss : List (Serie α)} {n : Nat} (hne : ss ≠ []) (hw : ∀ s ∈ ss, WF s)
    (hc : ∀ s ∈ ss, s.count = n) (cb : List (List α) → Nat → Eff σ Unit) :
    forEachMulti cb ss = callAll cb (rows ss n) >>= fun _ => pure () := by
  unfold forEachMulti
  obtain ⟨h1, h2⟩ := countAndCheck_eq hne hc
  rw [h1, Eff.lift_ok, pure_bind, h2, Eff.lift_ok, pure_bind]
  exact forLoop_unit cb (rows ss n) n (by simp) (rows_hyp hw hc)

theorem mapMultiS_eq [Zero α] {ss : List (Serie α)} {n : Nat} (hne : ss ≠ []) (hw : ∀ s ∈ ss, WF s)
    (hc : ∀ s ∈ ss, s.count = n) (hn : 0 < n) (cb : List (List α) → Nat → Eff σ α) :
    mapMultiS cb ss = callAll cb (rows ss n) >>= fun ys => pure (ofScalars ys) := by
  unfold mapMultiS
  obtain ⟨h1, h2⟩ := countAndCheck_eq hne hc
  have hg := rows_hyp hw hc
  have hl := rows_length ss n
  have hlt : n < 2 ^ 32 := by
    cases ss with
    | nil => exact absurd rfl hne
    | cons s _ => rw [← hc s (by simp)]; exact (hw s (by simp)).count_lt
  cases hr : rows ss n with
  | nil => rw [hr] at hl; simp at hl; omega
  | cons r rs =>
    rw [hr] at hg hl
    simp only [List.length_cons] at hl
    have h0 := hg 0 (by simp)
    simp only [Nat.add_zero, List.getElem_cons_zero] at h0
    rw [h1, Eff.lift_ok, pure_bind, h0, Eff.lift_ok, pure_bind, callAll_cons, bind_assoc]
    congr 1; funext first
    rw [h2, Eff.lift_ok, pure_bind, forLoop_calls cb rs 1 (n - 1) [first] (by omega)]
    · simp only [bind_assoc, pure_bind]
      apply bind_congr_ok
      intro st ys st' hy
      have := callAll_length _ _ _ _ _ hy
      rw [List.singleton_append, ofArray_one (by simp; omega)]
      rfl
    · intro i hi
      have := hg (i + 1) (by simpa using hi)
      simpa [Nat.add_comm 1] using this

/-- What the multi-Serie `map` does with a callback returning arrays. -/
theorem mapMultiV_eq [Zero α] {ss : List (Serie α)} {n : Nat} (hne : ss ≠ []) (hw : ∀ s ∈ ss, WF s)
    (hc : ∀ s ∈ ss, s.count = n) (hn : 0 < n) (cb : List (List α) → Nat → Eff σ (List α)) :
    mapMultiV cb ss = sizedMap cb (rows ss n) := by
  unfold mapMultiV
  obtain ⟨h1, h2⟩ := countAndCheck_eq hne hc
  have hg := rows_hyp hw hc
  have hl := rows_length ss n
  cases hr : rows ss n with
  | nil => rw [hr] at hl; simp at hl; omega
  | cons r rs =>
    rw [hr] at hg hl
    simp only [List.length_cons] at hl
    have h0 := hg 0 (by simp)
    simp only [Nat.add_zero, List.getElem_cons_zero] at h0
    rw [h1, Eff.lift_ok, pure_bind, h0, Eff.lift_ok, pure_bind, sizedMap]
    congr 1; funext first
    rw [h2, Eff.lift_ok, pure_bind]
    simp only
    rw [forLoop_rows cb first.length rs 1 (n - 1) first (by omega)]
    · simp only [bind_assoc, pure_bind]
      congr 1; funext ys
      simp only [Serie.ofArray, Serie.divCount]
      split
      · rfl
      · rfl
    · intro i hi
      have := hg (i + 1) (by simpa using hi)
      simpa [Nat.add_comm 1] using this

/-! ## Outcomes of a sized map -/

/-- All rows returned and of one size. -/
theorem sizedMap_ok {f : γ → Nat → Res (List α)} {l : List γ} {ys : List (List α)} {k : Nat}
    (hret : AllReturn f l ys) (hne : l ≠ []) (hk : 0 < k) (hk' : k < 2 ^ 31)
    (hy : ∀ y ∈ ys, y.length = k) (hn : l.length * k < 2 ^ 32) (log : List (γ × Nat)) :
    sizedMap (logged f) l log = (.ok (ofItems k ys), log ++ l.zipIdx) := by
  obtain ⟨hlen, hf⟩ := hret
  cases l with
  | nil => exact absurd rfl hne
  | cons x l =>
    cases ys with
    | nil => simp at hlen
    | cons y ys =>
      have h0 := hf 0 (by simp) (by simp)
      simp at h0
      have hyk : y.length = k := hy y (by simp)
      rw [sizedMap_cons]
      rw [Eff.bind_ok (b := y) (s' := log ++ [(x, 0)]) (by simp [logged, h0])]
      have hcall : callAll (fun x i => logged f x i >>= fun z =>
          if z.length ≠ y.length then Eff.throw .runtimeError else pure z) l 1 =
          callAll (logged (fun x i => f x i >>= fun z =>
            if z.length ≠ y.length then .throw .runtimeError else .ok z)) l 1 := by
        congr 1; funext x i st
        simp only [logged, Eff.bind_def]
        cases f x i with
        | ok z => simp only [Res.ok_bind]; split <;> rfl
        | throw e => rfl
        | ub => rfl
      rw [hcall, Eff.bind_ok (b := ys) (s' := log ++ [(x, 0)] ++ l.zipIdx 1)]
      · have := ofArray_rows hk hk' (its := y :: ys) hy (by simpa [hlen] using hn)
        rw [hyk, u32_of_lt (by omega)]
        simp only [List.flatten_cons] at this
        rw [this]; simp [Eff.lift]
      · apply callAll_logged_ok
        · simpa using hlen
        · intro i h1 h2
          have := hf (i + 1) (by simpa using h1) (by simpa using h2)
          simp only [List.getElem_cons_succ] at this
          rw [Nat.add_comm 1, this]
          have hz := hy ys[i] (by simp)
          simp [hz, hyk]

theorem ofArray_rows' {k : Nat} {its : List (List α)} (hk : 0 < k) (hk' : k < 2 ^ 31)
    (h : ∀ v ∈ its, v.length = k) (hn : its.length < 2 ^ 32) :
    Serie.ofArray k its.flatten = .ok (ofItems k its) := by
  unfold Serie.ofArray Serie.divCount
  rw [if_neg (by omega), sizeT_of_lt hk', flatten_length h, Nat.mul_div_cancel _ hk, u32_of_lt hn]; rfl

theorem mapM_pure_mem {m : Type → Type} [Monad m] [LawfulMonad m] {f : γ → m β} {g : γ → β} :
    ∀ (l : List γ), (∀ x ∈ l, f x = pure (g x)) → l.mapM f = pure (l.map g) := by
  intro l
  induction l with
  | nil => intro _; simp
  | cons a l ih =>
    intro h
    rw [List.mapM_cons, h a (by simp), pure_bind, ih (fun x hx => h x (by simp [hx])), pure_bind]; rfl

/-- With a callback without effects, returning arrays of one size. -/
theorem sizedMap_pure {f : γ → Nat → List α} {l : List γ} {k : Nat} (hne : l ≠ []) (hk : 0 < k) (hk' : k < 2 ^ 31)
    (hf : ∀ x ∈ l, ∀ i, (f x i).length = k) (hn : l.length < 2 ^ 32) :
    sizedMap (σ := σ) (pureCb f) l = pure (ofItems k (l.mapIdx (fun i x => f x i))) := by
  cases l with
  | nil => exact absurd rfl hne
  | cons x l =>
    have hx := hf x (by simp) 0
    have hc : callAll (m := Eff σ) (fun z i => pureCb f z i >>= fun y =>
        if y.length ≠ (f x 0).length then Eff.throw .runtimeError else pure y) l 1 =
        pure ((l.zipIdx 1).map (fun p => f p.1 p.2)) := by
      unfold callAll
      refine mapM_pure_mem _ (fun p hp => ?_)
      have hp1 : p.1 ∈ l := by
        have := List.mem_map_of_mem (f := Prod.fst) hp
        rwa [List.zipIdx_map_fst] at this
      have := hf p.1 (by simp [hp1]) p.2
      show (if (f p.1 p.2).length ≠ (f x 0).length then _ else _) = _
      rw [if_neg (by rw [this, hx]; simp)]
    have hrows : ∀ v ∈ (x :: l).mapIdx (fun i x => f x i), v.length = k := by
      intro v hv
      obtain ⟨i, hi, rfl⟩ := List.mem_mapIdx.1 hv
      exact hf _ (List.getElem_mem _) i
    rw [sizedMap_cons]
    rw [show pureCb (σ := σ) f x 0 = pure (f x 0) from rfl, pure_bind, hc, pure_bind, hx, u32_of_lt (by omega)]
    have := ofArray_rows' hk hk' hrows (by simpa using hn)
    rw [List.mapIdx_eq_zipIdx_map] at this ⊢
    simp only [List.zipIdx_cons, List.map_cons, List.flatten_cons, Nat.zero_add] at this ⊢
    rw [this]; rfl

/-- A row throws, or has not the size of the first one. -/
theorem sizedMap_throw {f : γ → Nat → Res (List α)} {l : List γ} {k : Nat} {e : Err}
    (hk : k < l.length)
    (hpre : ∀ i (h : i < l.length), i < k → ∃ y y0, f l[i] i = .ok y ∧ f (l[0]'(by omega)) 0 = .ok y0 ∧
      y.length = y0.length)
    (hbad : f l[k] k = .throw e ∨ e = .runtimeError ∧ ∃ y y0, f l[k] k = .ok y ∧
      f (l[0]'(by omega)) 0 = .ok y0 ∧ y.length ≠ y0.length) (log : List (γ × Nat)) :
    sizedMap (logged f) l log = (.throw e, log ++ l.zipIdx.take (k + 1)) := by
  cases l with
  | nil => simp at hk
  | cons x l =>
    rw [sizedMap_cons]
    cases k with
    | zero =>
      rcases hbad with h | ⟨_, y, y0, h1, h2, h3⟩
      · simp at h
        rw [Eff.bind_throw (e := e) (s' := log ++ [(x, 0)]) (by simp [logged, h])]
        simp
      · simp at h1 h2; rw [h1] at h2; cases h2; exact absurd rfl h3
    | succ k =>
      obtain ⟨y, y0, h1, h2, h3⟩ := hpre 0 (by simp) (by omega)
      simp at h1 h2
      rw [h1] at h2; cases h2
      rw [Eff.bind_ok (b := y) (s' := log ++ [(x, 0)]) (by simp [logged, h1])]
      have hcall : callAll (fun x i => logged f x i >>= fun z =>
          if z.length ≠ y.length then Eff.throw .runtimeError else pure z) l 1 =
          callAll (logged (fun x i => f x i >>= fun z =>
            if z.length ≠ y.length then .throw .runtimeError else .ok z)) l 1 := by
        congr 1; funext x i st
        simp only [logged, Eff.bind_def]
        cases f x i with
        | ok z => simp only [Res.ok_bind]; split <;> rfl
        | throw e => rfl
        | ub => rfl
      rw [hcall, Eff.bind_throw (e := e) (s' := log ++ [(x, 0)] ++ (l.zipIdx 1).take (k + 1))]
      · simp
      · refine callAll_logged_throw l k 1 _ ?_ (by simpa using hk) ?_
        · intro i hi hik
          obtain ⟨z, z0, g1, g2, g3⟩ := hpre (i + 1) (by simpa using hi) (by omega)
          simp at g1 g2
          rw [h1] at g2; cases g2
          refine ⟨z, ?_⟩
          rw [Nat.add_comm 1, g1]; simp [g3]
        · simp only [List.getElem_cons_succ, List.getElem_cons_zero] at hbad
          rw [Nat.add_comm 1]
          rcases hbad with h | ⟨he, z, z0, g1, g2, g3⟩
          · rw [h]; rfl
          · rw [h1] at g2; cases g2
            rw [g1]; simp [g3, he]

/-! ## find -/

theorem findLoop_none {f : γ → Nat → Res Bool} {get : Nat → Res γ} {d : γ} : ∀ (l : List γ) (lo : Nat)
    (log : List (γ × Nat)), (∀ i (hi : i < l.length), get (lo + i) = .ok l[i]) →
    (∀ i (hi : i < l.length), f l[i] (lo + i) = .ok false) →
    findLoop get (logged f) d lo l.length log = (.ok ⟨d, 0, false⟩, log ++ l.zipIdx lo) := by
  intro l
  induction l with
  | nil => intro lo log _ _; simp [findLoop, Eff.pure_def]
  | cons x l ih =>
    intro lo log hg hf
    have g0 := hg 0 (by simp)
    have f0 := hf 0 (by simp)
    simp at g0 f0
    rw [List.length_cons, findLoop, g0, Eff.lift_ok, pure_bind,
      Eff.bind_ok (b := false) (s' := log ++ [(x, lo)]) (by simp [logged, f0])]
    simp only [Bool.false_eq_true, if_false]
    rw [ih]
    · simp
    · intro i hi
      have := hg (i + 1) (by simpa using hi)
      simpa [Nat.add_assoc, Nat.add_comm 1] using this
    · intro i hi
      have := hf (i + 1) (by simpa using hi)
      simpa [Nat.add_assoc, Nat.add_comm 1] using this

theorem findLoop_some {f : γ → Nat → Res Bool} {get : Nat → Res γ} {d : γ} : ∀ (l : List γ) (k lo : Nat)
    (log : List (γ × Nat)), (∀ i (hi : i < l.length), get (lo + i) = .ok l[i]) → (hk : k < l.length) →
    (∀ i (hi : i < l.length), i < k → f l[i] (lo + i) = .ok false) → f l[k] (lo + k) = .ok true →
    findLoop get (logged f) d lo l.length log =
      (.ok ⟨l[k], lo + k, true⟩, log ++ (l.zipIdx lo).take (k + 1)) := by
  intro l
  induction l with
  | nil => intro k lo log _ hk; simp at hk
  | cons x l ih =>
    intro k lo log hg hk hf hfk
    have g0 := hg 0 (by simp)
    simp at g0
    rw [List.length_cons, findLoop, g0, Eff.lift_ok, pure_bind]
    cases k with
    | zero =>
      simp at hfk
      rw [Eff.bind_ok (b := true) (s' := log ++ [(x, lo)]) (by simp [logged, hfk])]
      simp [Eff.pure_def]
    | succ k =>
      have f0 := hf 0 (by simp) (by omega)
      simp at f0
      rw [Eff.bind_ok (b := false) (s' := log ++ [(x, lo)]) (by simp [logged, f0])]
      simp only [Bool.false_eq_true, if_false]
      rw [ih k (lo + 1)]
      · simp [Nat.add_assoc, Nat.add_comm 1]
      · intro i hi
        have := hg (i + 1) (by simpa using hi)
        simpa [Nat.add_assoc, Nat.add_comm 1] using this
      · simpa using hk
      · intro i hi hik
        have := hf (i + 1) (by simpa using hi) (by omega)
        simpa [Nat.add_assoc, Nat.add_comm 1] using this
      · simpa [Nat.add_assoc, Nat.add_comm 1] using hfk

theorem findLoop_throw {f : γ → Nat → Res Bool} {get : Nat → Res γ} {d : γ} {e : Err} : ∀ (l : List γ)
    (k lo : Nat) (log : List (γ × Nat)), (∀ i (hi : i < l.length), get (lo + i) = .ok l[i]) →
    (hk : k < l.length) → (∀ i (hi : i < l.length), i < k → f l[i] (lo + i) = .ok false) →
    f l[k] (lo + k) = .throw e →
    findLoop get (logged f) d lo l.length log = (.throw e, log ++ (l.zipIdx lo).take (k + 1)) := by
  intro l
  induction l with
  | nil => intro k lo log _ hk; simp at hk
  | cons x l ih =>
    intro k lo log hg hk hf hfk
    have g0 := hg 0 (by simp)
    simp at g0
    rw [List.length_cons, findLoop, g0, Eff.lift_ok, pure_bind]
    cases k with
    | zero =>
      simp at hfk
      rw [Eff.bind_throw (e := e) (s' := log ++ [(x, lo)]) (by simp [logged, hfk])]
      simp
    | succ k =>
      have f0 := hf 0 (by simp) (by omega)
      simp at f0
      rw [Eff.bind_ok (b := false) (s' := log ++ [(x, lo)]) (by simp [logged, f0])]
      simp only [Bool.false_eq_true, if_false]
      rw [ih k (lo + 1)]
      · simp
      · intro i hi
        have := hg (i + 1) (by simpa using hi)
        simpa [Nat.add_assoc, Nat.add_comm 1] using this
      · simpa using hk
      · intro i hi hik
        have := hf (i + 1) (by simpa using hi) (by omega)
        simpa [Nat.add_assoc, Nat.add_comm 1] using this
      · simpa [Nat.add_assoc, Nat.add_comm 1] using hfk

/-! ## keep -/

theorem keep_add_length : ∀ (l : List γ) (bs : List Bool), bs.length = l.length →
    (keep l bs).length + (keep l (bs.map not)).length = l.length
  | [], _, _ => by simp [keep]
  | _ :: _, [], h => by simp at h
  | x :: l, b :: bs, h => by
    have := keep_add_length l bs (by simpa using h)
    cases b <;> simp [keep] <;> omega

theorem mergeBy_keep : ∀ (l : List γ) (bs : List Bool), bs.length = l.length →
    mergeBy bs (keep l bs) (keep l (bs.map not)) = l
  | [], [], _ => by simp [mergeBy]
  | [], _ :: _, h => by simp at h
  | _ :: _, [], h => by simp at h
  | x :: l, b :: bs, h => by
    have := mergeBy_keep l bs (by simpa using h)
    cases b <;> simp [keep, mergeBy, this]

theorem keep_mapIdx (p : γ → Nat → Bool) : ∀ (l : List γ) (lo : Nat),
    keep l ((l.zipIdx lo).map (fun a => p a.1 a.2)) =
      ((l.zipIdx lo).filter (fun a => p a.1 a.2)).map Prod.fst
  | [], _ => by simp [keep]
  | x :: l, lo => by
    have := keep_mapIdx p l (lo + 1)
    cases h : p x lo <;> simp [keep, h, this]

end DF
