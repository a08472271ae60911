import Verif.Lemmas.EigenSerie

/-! # The eigen functions whatever the numbers are, NaN and infinities included -/

namespace DF

open Spec

variable {n : Nat}

/-- `le` orders the values `f`, as far as `<` tells. -/
structure Weak {α : Type} [LT α] (le : α → α → Prop) (f : Fin n → α) : Prop where
  refl : ∀ i, le (f i) (f i)
  trans : ∀ i j k, le (f i) (f j) → le (f j) (f k) → le (f i) (f k)
  of_lt : ∀ i j, f i < f j → le (f i) (f j)
  of_not : ∀ i j, ¬ f i < f j → le (f j) (f i)

theorem Weak.comp {α : Type} [LT α] {le : α → α → Prop} {f : Fin n → α} (h : Weak le f) (σ : Equiv.Perm (Fin n)) :
    Weak le fun j => f (σ j) :=
  ⟨fun _ => h.refl _, fun _ _ _ => h.trans _ _ _, fun _ _ => h.of_lt _ _, fun _ _ => h.of_not _ _⟩

theorem Weak.none {α : Type} [LT α] (f : Fin n → α) : Weak (fun _ _ => True) f :=
  ⟨fun _ => trivial, fun _ _ _ _ _ => trivial, fun _ _ _ => trivial, fun _ _ _ => trivial⟩

theorem selectMax_any {α : Type} [LT α] [DecidableLT α] {le : α → α → Prop} {f : Fin n → α} (hle : Weak le f) {i : Nat} (hi : i < n) : ∃ k : Fin n, i ≤ k ∧
    selectMax n i (List.ofFn f) = .ok ((k : Nat), f k) ∧ ∀ j : Fin n, i ≤ j → le (f j) (f k) := by
  unfold selectMax
  rw [rd_ofFn hi, Res.ok_bind]
  obtain ⟨p, h1, k, hk, hk2, hk3⟩ := forLoop_inv (f := fun j (p : Nat × α) => (do
      let y ← rd (List.ofFn f) j
      if p.2 < y then pure (j, y) else pure p : Res (Nat × α)))
    (fun m p => ∃ k : Fin n, i ≤ k ∧ p = ((k : Nat), f k) ∧ ∀ j : Fin n, i ≤ j → (j : Nat) < m → le (f j) (f k))
    (n - (i + 1)) (i + 1) (i, f ⟨i, hi⟩)
    (by
      rintro j p hj1 hj2 ⟨k, hk, rfl, hk3⟩
      have hj : j < n := by omega
      rw [rd_ofFn hj, Res.ok_bind]
      by_cases hlt : f k < f ⟨j, hj⟩
      · refine ⟨(j, f ⟨j, hj⟩), if_pos hlt, ⟨j, hj⟩, by show i ≤ j; omega, rfl, fun j' h1 h2 => ?_⟩
        rcases Nat.lt_succ_iff_lt_or_eq.1 h2 with h | h
        · exact hle.trans _ _ _ (hk3 j' h1 h) (hle.of_lt _ _ hlt)
        · rw [show j' = ⟨j, hj⟩ from Fin.ext h]
          exact hle.refl _
      · refine ⟨((k : Nat), f k), if_neg hlt, k, hk, rfl, fun j' h1 h2 => ?_⟩
        rcases Nat.lt_succ_iff_lt_or_eq.1 h2 with h | h
        · exact hk3 j' h1 h
        · rw [show j' = ⟨j, hj⟩ from Fin.ext h]
          exact hle.of_not _ _ hlt)
    ⟨⟨i, hi⟩, Nat.le_refl _, rfl, fun j h1 h2 => by
      rw [show j = ⟨i, hi⟩ from Fin.ext (by show (j : Nat) = i; omega)]; exact hle.refl _⟩
  subst hk2
  exact ⟨k, hk, h1, fun j hj => hk3 j hj (by have := j.2; omega)⟩

/-- The values come in decreasing order, with the permutation. -/
theorem selectSort_any {α : Type} [LT α] [DecidableLT α] {le : α → α → Prop} (x : Fin n → α) (hle : Weak le x) : ∃ σ : Equiv.Perm (Fin n),
    selectSort n (List.ofFn x) = .ok (sortState x σ) ∧ ∀ i j : Fin n, i ≤ j → le (x (σ j)) (x (σ i)) := by
  unfold selectSort
  obtain ⟨p, h1, σ, rfl, h3⟩ := forLoop_inv (f := fun i (p : List α × List Nat) => (do
      let (k, x) ← selectMax n i p.1
      let y ← rd p.1 i
      let val ← wr p.1 k y
      let val ← wr val i x
      let jj ← rd p.2 k
      let ii ← rd p.2 i
      let index ← wr p.2 k ii
      let index ← wr index i jj
      pure (val, index) : Res (List α × List Nat)))
    (fun m p => ∃ σ : Equiv.Perm (Fin n), p = sortState x σ ∧
      ∀ i j : Fin n, (i : Nat) < m → i ≤ j → le (x (σ j)) (x (σ i))) (n - 1) 0 (List.ofFn x, List.range n)
    (by
      rintro i p - hi ⟨σ, rfl, hσ⟩
      have hi : i < n := by omega
      obtain ⟨k, hk1, hk2, hk3⟩ := selectMax_any (hle.comp σ) hi
      refine ⟨sortState x (Equiv.trans (Equiv.swap k ⟨i, hi⟩) σ), ?_, _, rfl, ?_⟩
      · show (selectMax n i (List.ofFn fun k => x (σ k)) >>= _) = _
        rw [hk2, Res.ok_bind]
        show (rd (List.ofFn fun k => x (σ k)) i >>= _) = _
        rw [rd_ofFn hi, Res.ok_bind]
        show (wr (List.ofFn fun k => x (σ k)) k _ >>= _) = _
        rw [wr_ofFn k.2, Res.ok_bind, wr_ofFn hi, Res.ok_bind]
        show (rd (List.ofFn fun k => (σ k : Nat)) k >>= _) = _
        rw [rd_ofFn k.2, Res.ok_bind]
        show (rd (List.ofFn fun k => (σ k : Nat)) i >>= _) = _
        rw [rd_ofFn hi, Res.ok_bind]
        show (wr (List.ofFn fun k => (σ k : Nat)) k _ >>= _) = _
        rw [wr_ofFn k.2, Res.ok_bind, wr_ofFn hi, Res.ok_bind]
        have e1 := update_swap (fun j => x (σ j)) ⟨i, hi⟩ k
        have e2 := update_swap (fun j => (σ j : Nat)) ⟨i, hi⟩ k
        simp only [Fin.eta] at e1 e2 ⊢
        rw [e1, e2]
        rfl
      · intro a b ha hab
        show le (x (σ (Equiv.swap k ⟨i, hi⟩ b))) (x (σ (Equiv.swap k ⟨i, hi⟩ a)))
        have hb : ∀ b : Fin n, i ≤ (b : Nat) → i ≤ (Equiv.swap k ⟨i, hi⟩ b : Nat) := by
          intro b hb
          rw [Equiv.swap_apply_def]
          split
          · exact Nat.le_refl _
          · split
            · exact hk1
            · exact hb
        rcases Nat.lt_succ_iff_lt_or_eq.1 ha with h | h
        · have hne1 : a ≠ k := fun e => by rw [e] at h; omega
          have hne2 : a ≠ ⟨i, hi⟩ := fun e => by rw [e] at h; exact Nat.lt_irrefl _ h
          rw [Equiv.swap_apply_of_ne_of_ne hne1 hne2]
          by_cases hbi : (b : Nat) < i
          · have hne1 : b ≠ k := fun e => by rw [e] at hbi; omega
            have hne2 : b ≠ ⟨i, hi⟩ := fun e => by rw [e] at hbi; exact Nat.lt_irrefl _ hbi
            rw [Equiv.swap_apply_of_ne_of_ne hne1 hne2]
            exact hσ a b h hab
          · refine hσ a _ h ?_
            have := hb b (by omega)
            exact Nat.le_trans (Nat.le_of_lt h) this
        · rw [show a = ⟨i, hi⟩ from Fin.ext h, Equiv.swap_apply_right]
          exact hk3 _ (hb b (by have : (a : Nat) ≤ b := hab; omega)))
    ⟨Equiv.refl _, by
      unfold sortState
      congr 1
      refine List.ext_getElem (by simp) fun j h1 h2 => by simp, fun i j h => by omega⟩
  refine ⟨σ, h1, fun i j hij => ?_⟩
  by_cases h : (i : Nat) < 0 + (n - 1)
  · exact h3 i j h hij
  · have : i = j := Fin.ext (by have := j.2; have : (i : Nat) ≤ j := hij; omega)
    rw [this]
    exact hle.refl _

/-- From the end of the iteration to the returned values and vectors, for any comparison. -/
theorem symmetricEigen_any {α : Type} [Zero α] [One α] [Add α] [Sub α] [Mul α] [Div α] [Neg α] [OfNat α 2] [OfNat α 4]
    [DecidableEq α] [LT α] [DecidableLT α] [NatCast α] [OfScientific α] [Trig α] {mat : List α} {le : α → α → Prop}
    {st : Jacobi α} (hj : jacobi n mat = .ok st) {d : Fin n → α} {V : Fin n → Fin n → α} (hle : Weak le d)
    (hd : ∀ k : Fin n, rd st.a (k + k * (k + 1) / 2) = .ok (d k))
    (hv : ∀ k i : Fin n, rd st.v (k * n + i) = .ok (V k i)) :
    ∃ σ : Equiv.Perm (Fin n), symmetricEigen mat n = .ok (List.ofFn fun k => d (σ k),
      (List.ofFn fun k => List.ofFn fun i => V (σ k) i).flatten) ∧ ∀ i j : Fin n, i ≤ j → le (d (σ j)) (d (σ i)) := by
  obtain ⟨σ, h1, h2⟩ := selectSort_any d hle
  have hval : (List.range n).mapM (fun i => rd st.a (i + i * (i + 1) / 2)) = .ok (List.ofFn d) := by
    rw [range_ofFn]
    exact mapM_ofFn hd
  have hrows : (List.ofFn fun k => (σ k : Nat)).mapM
      (fun ik => (List.range n).mapM fun i => rd st.v (ik * n + i)) =
        .ok (List.ofFn fun k => List.ofFn fun i => V (σ k) i) := by
    refine mapM_ofFn fun k => ?_
    rw [range_ofFn]
    exact mapM_ofFn fun i => hv (σ k) i
  refine ⟨σ, ?_, h2⟩
  unfold symmetricEigen
  rw [hj, Res.ok_bind, hval, Res.ok_bind, h1, Res.ok_bind]
  show ((List.ofFn fun k => (σ k : Nat)).mapM
    (fun ik => (List.range n).mapM fun i => rd st.v (ik * n + i)) >>= _) = _
  rw [hrows]
  rfl


section any

variable {α : Type} [Zero α] [One α] [Add α] [Sub α] [Mul α] [Div α] [Neg α] [OfNat α 2] [OfNat α 4] [DecidableEq α]
  [LT α] [DecidableLT α] [NatCast α] [OfScientific α] [Trig α]

/-- The two arrays keep their lengths. -/
def Sized (n : Nat) (st : Jacobi α) : Prop := st.a.length = n * (n + 1) / 2 ∧ st.v.length = n * n

omit [One α] [NatCast α] [OfScientific α] in
theorem step3_sized {q : α} {st : Jacobi α} (h : Sized 3 st) {l m : Nat} (hlm : (l, m) ∈ [(1, 2), (1, 3), (2, 3)]) :
    ∃ st', jacobiStep 3 q l m st = .ok st' ∧ Sized 3 st' := by
  obtain ⟨a, v, t, it⟩ := st
  obtain ⟨la, lv⟩ := h
  obtain ⟨a0, a1, a2, a3, a4, a5, rfl⟩ := len6 la
  obtain ⟨v0, v1, v2, v3, v4, v5, v6, v7, v8, rfl⟩ := len9 lv
  simp only [List.mem_cons, Prod.mk.injEq, List.not_mem_nil, or_false] at hlm
  rcases hlm with ⟨rfl, rfl⟩ | ⟨rfl, rfl⟩ | ⟨rfl, rfl⟩
  · rw [jacobiStep_raw (x := a1) (y := a0) (z := a2) rfl rfl rfl]
    split
    · exact ⟨_, rfl, rfl, rfl⟩
    · exact ⟨_, by rw [rot12]; rfl, rfl, rfl⟩
  · rw [jacobiStep_raw (x := a3) (y := a0) (z := a5) rfl rfl rfl]
    split
    · exact ⟨_, rfl, rfl, rfl⟩
    · exact ⟨_, by rw [rot13]; rfl, rfl, rfl⟩
  · rw [jacobiStep_raw (x := a4) (y := a2) (z := a5) rfl rfl rfl]
    split
    · exact ⟨_, rfl, rfl, rfl⟩
    · exact ⟨_, by rw [rot23]; rfl, rfl, rfl⟩

omit [One α] [NatCast α] [OfScientific α] in
theorem step2_sized {q : α} {st : Jacobi α} (h : Sized 2 st) : ∃ st', jacobiStep 2 q 1 2 st = .ok st' ∧ Sized 2 st' := by
  obtain ⟨a, v, t, it⟩ := st
  obtain ⟨la, lv⟩ := h
  obtain ⟨a0, a1, a2, rfl⟩ := len3 la
  obtain ⟨v0, v1, v2, v3, rfl⟩ := len4 lv
  rw [jacobiStep_raw (x := a1) (y := a0) (z := a2) rfl rfl rfl]
  split
  · exact ⟨_, rfl, rfl, rfl⟩
  · exact ⟨_, by rw [rot2]; rfl, rfl, rfl⟩

omit [One α] [OfScientific α] in
theorem sweep_sized (hn : n = 2 ∨ n = 3) {st : Jacobi α} (h : Sized n st) : ∃ st', jacobiSweep n st = .ok st' ∧ Sized n st' := by
  rcases hn with rfl | rfl
  · rw [sweep2_raw]
    exact step2_sized (st := { st with iter := st.iter + 1 }) h
  · rw [sweep3_raw]
    obtain ⟨s1, e1, h1⟩ := step3_sized (q := st.thr / ((6 : Nat) : α)) (st := { st with iter := st.iter + 1 }) h
      (l := 1) (m := 2) (by simp)
    obtain ⟨s2, e2, h2⟩ := step3_sized (q := st.thr / ((6 : Nat) : α)) h1 (l := 1) (m := 3) (by simp)
    obtain ⟨s3, e3, h3⟩ := step3_sized (q := st.thr / ((6 : Nat) : α)) h2 (l := 2) (m := 3) (by simp)
    exact ⟨s3, by rw [e1, Res.ok_bind, e2, Res.ok_bind, e3], h3⟩

omit [One α] [OfScientific α] in
theorem loop_sized (hn : n = 2 ∨ n = 3) (e : α) : ∀ (k : Nat) (st : Jacobi α), Sized n st →
    ∃ st', jacobiLoop n e k st = .ok st' ∧ Sized n st'
  | 0, st, h => ⟨st, rfl, h⟩
  | k + 1, st, h => by
    rw [jacobiLoop]
    split
    · obtain ⟨s1, e1, h1⟩ := sweep_sized hn h
      rw [e1, Res.ok_bind]
      exact loop_sized hn e k s1 h1
    · exact ⟨st, rfl, h⟩

theorem jacobi_start (hn : n = 2 ∨ n = 3) {mat : List α} (hl : mat.length = n * (n + 1) / 2) :
    ∃ N, jacobiNorm n mat = .ok N ∧ jacobi n mat = (if N ≠ 0 then jacobiLoop n (N * (0.00001 : α)) 100 ⟨mat, jacobiId n, N, 0⟩
      else .ok ⟨mat, jacobiId n, N, 0⟩) ∧ Sized n ⟨mat, jacobiId n, N, 0⟩ := by
  rcases hn with rfl | rfl
  · obtain ⟨a0, a1, a2, rfl⟩ := len3 hl
    exact ⟨_, rfl, rfl, rfl, by rw [id2]; rfl⟩
  · obtain ⟨a0, a1, a2, a3, a4, a5, rfl⟩ := len6 hl
    exact ⟨_, rfl, rfl, rfl, by rw [id3]; rfl⟩

/-- No arithmetic makes the iteration fail. -/
theorem jacobi_sized (hn : n = 2 ∨ n = 3) {mat : List α} (hl : mat.length = n * (n + 1) / 2) :
    ∃ st, jacobi n mat = .ok st ∧ Sized n st := by
  obtain ⟨N, -, h2, h3⟩ := jacobi_start hn hl
  rw [h2]
  split
  · exact loop_sized hn _ _ _ h3
  · exact ⟨_, rfl, h3⟩

/-- Where the test of the loop fails at once, the matrix is left as it is. -/
theorem jacobi_stop (hn : n = 2 ∨ n = 3) {mat : List α} (hl : mat.length = n * (n + 1) / 2) {N : α}
    (hN : jacobiNorm n mat = .ok N) (hs : N = 0 ∨ ¬ N * (0.00001 : α) < N) :
    jacobi n mat = .ok ⟨mat, jacobiId n, N, 0⟩ := by
  obtain ⟨N', h1, h2, -⟩ := jacobi_start hn hl
  obtain rfl : N = N' := Res.ok.inj (hN.symm.trans h1)
  rw [h2]
  split
  · rename_i hne
    rw [jacobiLoop, if_neg (hs.resolve_left hne)]
    rfl
  · rfl

theorem eigenItem_sized (hn : n = 2 ∨ n = 3) {t : List α} (hl : t.length = n * (n + 1) / 2) :
    ∃ e w, eigenItem n t = .ok (e, w) ∧ e.length = n ∧ w.length = n * n := by
  have hin : ∃ m, eigenInput n t = .ok m ∧ m.length = n * (n + 1) / 2 := by
    rcases hn with rfl | rfl
    · obtain ⟨a0, a1, a2, rfl⟩ := len3 hl
      exact ⟨_, rfl, rfl⟩
    · obtain ⟨a0, a1, a2, a3, a4, a5, rfl⟩ := len6 hl
      exact ⟨_, rfl, rfl⟩
  obtain ⟨m, hm, hml⟩ := hin
  obtain ⟨st, h1, h2, h3⟩ := jacobi_sized hn hml
  have hd : ∀ k : Fin n, ∃ y, rd st.a (k + k * (k + 1) / 2) = .ok y := fun k => by
    refine ⟨_, rd_of_lt ?_⟩
    rw [h2]
    rcases hn with rfl | rfl <;> fin_cases k <;> simp
  have hv : ∀ k i : Fin n, ∃ y, rd st.v (k * n + i) = .ok y := fun k i => by
    refine ⟨_, rd_of_lt ?_⟩
    rw [h3]
    have := fits_index k.2 i.2
    omega
  choose d hd using hd
  choose V hv using hv
  obtain ⟨σ, h4, -⟩ := symmetricEigen_any h1 (Weak.none d) hd hv
  refine ⟨List.ofFn fun k => d (σ k), (List.ofFn fun k => List.ofFn fun i => V (σ k) i).flatten, ?_, ?_, ?_⟩
  · unfold eigenItem
    rw [hm, Res.ok_bind, h4]
  · simp
  · rw [flatten_length (k := n) (by
      intro v hv
      obtain ⟨j, rfl⟩ := List.mem_ofFn.1 hv
      simp)]
    simp

/-- Dimension 3: the diagonal and the axes, when the test of the loop fails at once. -/
theorem eigen_stop3 {x0 x1 x2 x3 x4 x5 N : α} (hN : 0 + x1 * x1 + x2 * x2 + x4 * x4 = N) (hs : N = 0 ∨ ¬ N * (0.00001 : α) < N)
    {le : α → α → Prop} (hle : Weak le ![x0, x3, x5]) :
    ∃ σ : Equiv.Perm (Fin 3), eigenItem 3 [x0, x1, x2, x3, x4, x5] = .ok (List.ofFn fun k => ![x0, x3, x5] (σ k),
      (List.ofFn fun k => List.ofFn fun i => if σ k = i then (1 : α) else 0).flatten) ∧
      ∀ i j : Fin 3, i ≤ j → le (![x0, x3, x5] (σ j)) (![x0, x3, x5] (σ i)) := by
  have hj : jacobi 3 [x0, x1, x3, x2, x4, x5] = .ok ⟨[x0, x1, x3, x2, x4, x5], jacobiId 3, N, 0⟩ :=
    jacobi_stop (.inr rfl) rfl (by rw [norm3, hN]) hs
  obtain ⟨σ, h1, h2⟩ := symmetricEigen_any hj hle (V := fun k i => if k = i then 1 else 0)
    (by intro k; fin_cases k <;> rfl) (by rw [id3]; intro k i; fin_cases k <;> fin_cases i <;> rfl)
  exact ⟨σ, h1, h2⟩

/-- Dimension 2. -/
theorem eigen_stop2 {x0 x1 x2 N : α} (hN : 0 + x1 * x1 = N) (hs : N = 0 ∨ ¬ N * (0.00001 : α) < N)
    {le : α → α → Prop} (hle : Weak le ![x0, x2]) :
    ∃ σ : Equiv.Perm (Fin 2), eigenItem 2 [x0, x1, x2] = .ok (List.ofFn fun k => ![x0, x2] (σ k),
      (List.ofFn fun k => List.ofFn fun i => if σ k = i then (1 : α) else 0).flatten) ∧
      ∀ i j : Fin 2, i ≤ j → le (![x0, x2] (σ j)) (![x0, x2] (σ i)) := by
  have hj : jacobi 2 [x0, x1, x2] = .ok ⟨[x0, x1, x2], jacobiId 2, N, 0⟩ := jacobi_stop (.inl rfl) rfl (by rw [norm2d, hN]) hs
  obtain ⟨σ, h1, h2⟩ := symmetricEigen_any hj hle (V := fun k i => if k = i then 1 else 0)
    (by intro k; fin_cases k <;> rfl) (by rw [id2]; intro k i; fin_cases k <;> fin_cases i <;> rfl)
  exact ⟨σ, h1, h2⟩

/-- Values that no operation of a rotation gets rid of. -/
structure Absorbing (Bad : α → Prop) : Prop where
  mul : ∀ x y, Bad x → Bad (x * y)
  add_left : ∀ x y, Bad x → Bad (x + y)
  add_right : ∀ x y, Bad y → Bad (x + y)
  sub_left : ∀ x y, Bad x → Bad (x - y)

/-- One of the numbers on the diagonal of the array of the iteration is bad. -/
def BadDiagonal (Bad : α → Prop) : List α → Prop
  | [a0, _, a2] => Bad a0 ∨ Bad a2
  | [a0, _, a2, _, _, a5] => Bad a0 ∨ Bad a2 ∨ Bad a5
  | _ => False

variable {Bad : α → Prop}

omit [Zero α] [One α] [Div α] [Neg α] [OfNat α 2] [OfNat α 4] [DecidableEq α] [LT α] [DecidableLT α] [NatCast α]
  [OfScientific α] [Trig α] in
theorem Absorbing.rotated (hb : Absorbing Bad) {x y c s z : α} (h : Bad x ∨ Bad y) : Bad (x * c + y * s - z) :=
  hb.sub_left _ _ (h.elim (fun h => hb.add_left _ _ (hb.mul _ _ h)) fun h => hb.add_right _ _ (hb.mul _ _ h))

omit [One α] [NatCast α] [OfScientific α] in
theorem step3_bad (hb : Absorbing Bad) {q : α} {st st' : Jacobi α} (h : Sized 3 st) (hd : BadDiagonal Bad st.a) {l m : Nat}
    (hlm : (l, m) ∈ [(1, 2), (1, 3), (2, 3)]) (hr : jacobiStep 3 q l m st = .ok st') : BadDiagonal Bad st'.a := by
  obtain ⟨a, v, t, it⟩ := st
  obtain ⟨la, lv⟩ := h
  obtain ⟨a0, a1, a2, a3, a4, a5, rfl⟩ := len6 la
  obtain ⟨v0, v1, v2, v3, v4, v5, v6, v7, v8, rfl⟩ := len9 lv
  simp only [List.mem_cons, Prod.mk.injEq, List.not_mem_nil, or_false] at hlm
  rcases hlm with ⟨rfl, rfl⟩ | ⟨rfl, rfl⟩ | ⟨rfl, rfl⟩
  · rw [jacobiStep_raw (x := a1) (y := a0) (z := a2) rfl rfl rfl] at hr
    split at hr
    · cases hr; exact hd
    · rw [rot12, Res.ok_bind] at hr
      cases hr
      rcases hd with h | h | h
      · exact .inl (hb.rotated (.inl h))
      · exact .inl (hb.rotated (.inr h))
      · exact .inr (.inr h)
  · rw [jacobiStep_raw (x := a3) (y := a0) (z := a5) rfl rfl rfl] at hr
    split at hr
    · cases hr; exact hd
    · rw [rot13, Res.ok_bind] at hr
      cases hr
      rcases hd with h | h | h
      · exact .inl (hb.rotated (.inl h))
      · exact .inr (.inl h)
      · exact .inl (hb.rotated (.inr h))
  · rw [jacobiStep_raw (x := a4) (y := a2) (z := a5) rfl rfl rfl] at hr
    split at hr
    · cases hr; exact hd
    · rw [rot23, Res.ok_bind] at hr
      cases hr
      rcases hd with h | h | h
      · exact .inl h
      · exact .inr (.inl (hb.rotated (.inl h)))
      · exact .inr (.inl (hb.rotated (.inr h)))

omit [One α] [NatCast α] [OfScientific α] in
theorem step2_bad (hb : Absorbing Bad) {q : α} {st st' : Jacobi α} (h : Sized 2 st) (hd : BadDiagonal Bad st.a)
    (hr : jacobiStep 2 q 1 2 st = .ok st') : BadDiagonal Bad st'.a := by
  obtain ⟨a, v, t, it⟩ := st
  obtain ⟨la, lv⟩ := h
  obtain ⟨a0, a1, a2, rfl⟩ := len3 la
  obtain ⟨v0, v1, v2, v3, rfl⟩ := len4 lv
  rw [jacobiStep_raw (x := a1) (y := a0) (z := a2) rfl rfl rfl] at hr
  split at hr
  · cases hr; exact hd
  · rw [rot2, Res.ok_bind] at hr
    cases hr
    exact .inl (hb.rotated hd)

omit [One α] [OfScientific α] in
theorem sweep_bad (hb : Absorbing Bad) (hn : n = 2 ∨ n = 3) {st st' : Jacobi α} (h : Sized n st) (hd : BadDiagonal Bad st.a)
    (hr : jacobiSweep n st = .ok st') : BadDiagonal Bad st'.a := by
  rcases hn with rfl | rfl
  · rw [sweep2_raw] at hr
    exact step2_bad (st := { st with iter := st.iter + 1 }) hb h hd hr
  · rw [sweep3_raw] at hr
    obtain ⟨s1, e1, h1⟩ := step3_sized (q := st.thr / ((6 : Nat) : α)) (st := { st with iter := st.iter + 1 }) h
      (l := 1) (m := 2) (by simp)
    obtain ⟨s2, e2, h2⟩ := step3_sized (q := st.thr / ((6 : Nat) : α)) h1 (l := 1) (m := 3) (by simp)
    rw [e1, Res.ok_bind, e2, Res.ok_bind] at hr
    have d1 := step3_bad (st := { st with iter := st.iter + 1 }) hb h hd (by simp) e1
    exact step3_bad hb h2 (step3_bad hb h1 d1 (by simp) e2) (by simp) hr

omit [One α] [OfScientific α] in
theorem loop_bad (hb : Absorbing Bad) (hn : n = 2 ∨ n = 3) (e : α) : ∀ (k : Nat) (st st' : Jacobi α), Sized n st →
    BadDiagonal Bad st.a → jacobiLoop n e k st = .ok st' → BadDiagonal Bad st'.a
  | 0, st, st', _, hd, hr => by cases hr; exact hd
  | k + 1, st, st', h, hd, hr => by
    rw [jacobiLoop] at hr
    split at hr
    · obtain ⟨s1, e1, h1⟩ := sweep_sized hn h
      rw [e1, Res.ok_bind] at hr
      exact loop_bad hb hn e k s1 st' h1 (sweep_bad hb hn h hd e1) hr
    · cases hr; exact hd

theorem jacobi_bad (hb : Absorbing Bad) (hn : n = 2 ∨ n = 3) {mat : List α} (hl : mat.length = n * (n + 1) / 2)
    (hd : BadDiagonal Bad mat) {st : Jacobi α} (hr : jacobi n mat = .ok st) : BadDiagonal Bad st.a := by
  obtain ⟨N, -, h2, h3⟩ := jacobi_start hn hl
  rw [h2] at hr
  split at hr
  · exact loop_bad hb hn _ _ _ _ h3 hd hr
  · cases hr; exact hd

/-- A bad value on the diagonal of the array of the iteration is among the values. -/
theorem symmetricEigen_bad (hb : Absorbing Bad) (hn : n = 2 ∨ n = 3) {mat : List α} (hl : mat.length = n * (n + 1) / 2)
    (hd : BadDiagonal Bad mat) {e w : List α} (hr : symmetricEigen mat n = .ok (e, w)) : ∃ x ∈ e, Bad x := by
  obtain ⟨st, h1, h2, h3⟩ := jacobi_sized hn hl
  have hbd := jacobi_bad hb hn hl hd h1
  have hv : ∀ k i : Fin n, ∃ y, rd st.v (k * n + i) = .ok y := fun k i => by
    refine ⟨_, rd_of_lt ?_⟩
    rw [h3]
    have := fits_index k.2 i.2
    omega
  choose V hv using hv
  have hdiag : ∃ d : Fin n → α, (∀ k : Fin n, rd st.a (k + k * (k + 1) / 2) = .ok (d k)) ∧ ∃ k, Bad (d k) := by
    obtain ⟨a, v, t, it⟩ := st
    rcases hn with rfl | rfl
    · obtain ⟨a0, a1, a2, rfl⟩ := len3 h2
      refine ⟨![a0, a2], by intro k; fin_cases k <;> rfl, ?_⟩
      rcases hbd with h | h
      · exact ⟨0, h⟩
      · exact ⟨1, h⟩
    · obtain ⟨a0, a1, a2, a3, a4, a5, rfl⟩ := len6 h2
      refine ⟨![a0, a2, a5], by intro k; fin_cases k <;> rfl, ?_⟩
      rcases hbd with h | h | h
      · exact ⟨0, h⟩
      · exact ⟨1, h⟩
      · exact ⟨2, h⟩
  obtain ⟨d, hd1, k, hk⟩ := hdiag
  obtain ⟨σ, h4, -⟩ := symmetricEigen_any h1 (Weak.none d) hd1 hv
  rw [h4] at hr
  cases hr
  exact ⟨d k, List.mem_ofFn.2 ⟨σ.symm k, by simp⟩, hk⟩

end any

end DF
