import Verif.Model.Outcome

/-! # Lemmas on loops and vector accesses -/

namespace DF

universe u v

theorem u32_of_lt {n : Nat} (h : n < 2 ^ 32) : u32 n = n := Nat.mod_eq_of_lt h

theorem u32_lt (n : Nat) : u32 n < 2 ^ 32 := Nat.mod_lt _ (by decide)

theorem sizeT_of_lt {k : Nat} (h : k < 2 ^ 31) : sizeT k = k := if_pos h

theorem rd_of_lt {β : Type u} {l : List β} {i : Nat} (h : i < l.length) : rd l i = .ok l[i] := by
  simp [rd, h]

theorem rd_of_ge {β : Type u} {l : List β} {i : Nat} (h : l.length ≤ i) : rd l i = .ub := by
  simp [rd, h]

theorem wr_of_lt {β : Type u} {l : List β} {i : Nat} {x : β} (h : i < l.length) :
    wr l i x = .ok (l.set i x) := by simp [wr, h]

theorem wr_of_ge {β : Type u} {l : List β} {i : Nat} {x : β} (h : l.length ≤ i) :
    wr l i x = .ub := by simp [wr]; omega

@[simp] theorem forLoop_zero {m : Type u → Type v} [Monad m] {β : Type u} (f : Nat → β → m β) (lo : Nat)
    (b : β) : forLoop f lo 0 b = pure b := rfl

theorem forLoop_succ {m : Type u → Type v} [Monad m] {β : Type u} (f : Nat → β → m β) (lo n : Nat)
    (b : β) : forLoop f lo (n + 1) b = f lo b >>= fun b' => forLoop f (lo + 1) n b' := rfl

/-- Loop with known intermediate states. -/
theorem forLoop_exact {m : Type u → Type v} [Monad m] [LawfulMonad m] {β : Type u} {f : Nat → β → m β}
    (F : Nat → β) (n : Nat) : ∀ lo, (∀ i, lo ≤ i → i < lo + n → f i (F i) = pure (F (i + 1))) →
      forLoop f lo n (F lo) = pure (F (lo + n)) := by
  induction n with
  | zero => intro lo _; simp
  | succ n ih =>
    intro lo h
    rw [forLoop_succ, h lo (Nat.le_refl _) (by omega), pure_bind, ih (lo + 1)]
    · congr 2; omega
    · intro i h1 h2; exact h i (by omega) (by omega)

/-- Loop whose body keeps an invariant and succeeds. -/
theorem forLoop_inv {β : Type u} {f : Nat → β → Res β} (I : Nat → β → Prop) (n : Nat) :
    ∀ lo b, (∀ i b, lo ≤ i → i < lo + n → I i b → ∃ b', f i b = .ok b' ∧ I (i + 1) b') → I lo b →
      ∃ b', forLoop f lo n b = .ok b' ∧ I (lo + n) b' := by
  induction n with
  | zero => intro lo b _ h; exact ⟨b, rfl, h⟩
  | succ n ih =>
    intro lo b h h0
    obtain ⟨b', hb, hI⟩ := h lo b (Nat.le_refl _) (by omega) h0
    obtain ⟨b'', hb', hI'⟩ := ih (lo + 1) b' (fun i b h1 h2 h3 => h i b (by omega) (by omega) h3) hI
    refine ⟨b'', ?_, ?_⟩
    · rw [forLoop_succ, hb]; exact hb'
    · rwa [show lo + (n + 1) = lo + 1 + n by omega]

theorem forLoop_congr {m : Type u → Type v} [Monad m] {β : Type u} {f g : Nat → β → m β} (n : Nat) :
    ∀ lo b, (∀ i b, lo ≤ i → i < lo + n → f i b = g i b) → forLoop f lo n b = forLoop g lo n b := by
  induction n with
  | zero => intros; rfl
  | succ n ih =>
    intro lo b h
    rw [forLoop_succ, forLoop_succ, h lo b (Nat.le_refl _) (by omega)]
    congr 1; funext b'
    exact ih _ _ (fun i b h1 h2 => h i b (by omega) (by omega))

/-- Two consecutive loops are one loop. -/
theorem forLoop_add {m : Type u → Type v} [Monad m] [LawfulMonad m] {β : Type u} {f : Nat → β → m β}
    (n k : Nat) : ∀ lo b, forLoop f lo (n + k) b = forLoop f lo n b >>= forLoop f (lo + n) k := by
  induction n with
  | zero => intro lo b; simp
  | succ n ih =>
    intro lo b
    rw [show n + 1 + k = (n + k) + 1 by omega, forLoop_succ, forLoop_succ, bind_assoc]
    congr 1; funext b'
    rw [ih, show lo + 1 + n = lo + (n + 1) by omega]

/-- Pushing one computed element per iteration. -/
theorem forLoop_push {β : Type u} {g : Nat → Res β} (h : Nat → β) (n : Nat) :
    ∀ lo (r : List β), (∀ i, lo ≤ i → i < lo + n → g i = .ok (h i)) →
    forLoop (fun j r => g j >>= fun x => pure (r ++ [x])) lo n r =
      (.ok (r ++ (List.range' lo n).map h) : Res (List β)) := by
  induction n with
  | zero => intro lo r _; simp
  | succ n ih =>
    intro lo r hg
    rw [forLoop_succ, hg lo (Nat.le_refl _) (by omega)]
    show forLoop _ (lo + 1) n (r ++ [h lo]) = _
    rw [ih (lo + 1) _ (fun i h1 h2 => hg i (by omega) (by omega))]
    simp [List.range'_succ]

/-- A loop whose `i`-th step first obtains the `i`-th element of a list is a fold over that list. -/
theorem forLoop_list {σ : Type} {β γ : Type} {g : Nat → Res γ} (f : γ → Nat → β → Eff σ β) :
    ∀ (l : List γ) (lo : Nat) (b : β), (∀ i (hi : i < l.length), g (lo + i) = .ok l[i]) →
    forLoop (m := Eff σ) (fun i b => Eff.lift (g i) >>= fun x => f x i b) lo l.length b =
      (l.zipIdx lo).foldlM (fun b xi => f xi.1 xi.2 b) b := by
  intro l
  induction l with
  | nil => intros; rfl
  | cons x l ih =>
    intro lo b h
    have h0 := h 0 (by simp)
    simp only [Nat.add_zero, List.getElem_cons_zero] at h0
    rw [List.length_cons, forLoop_succ, h0]
    simp only [Eff.lift_ok, pure_bind, List.zipIdx_cons, List.foldlM_cons]
    congr 1; funext b'
    apply ih
    intro i hi
    have := h (i + 1) (by simpa using hi)
    simpa [Nat.add_assoc, Nat.add_comm 1] using this

/-- Same for code without user state. -/
theorem forLoop_listR {β γ : Type} {g : Nat → Res γ} (f : γ → Nat → β → Res β) :
    ∀ (l : List γ) (lo : Nat) (b : β), (∀ i (hi : i < l.length), g (lo + i) = .ok l[i]) →
    forLoop (m := Res) (fun i b => g i >>= fun x => f x i b) lo l.length b =
      (l.zipIdx lo).foldlM (fun b xi => f xi.1 xi.2 b) b := by
  intro l
  induction l with
  | nil => intros; rfl
  | cons x l ih =>
    intro lo b h
    have h0 := h 0 (by simp)
    simp only [Nat.add_zero, List.getElem_cons_zero] at h0
    rw [List.length_cons, forLoop_succ, h0]
    simp only [Res.ok_bind, List.zipIdx_cons, List.foldlM_cons]
    congr 1; funext b'
    apply ih
    intro i hi
    have := h (i + 1) (by simpa using hi)
    simpa [Nat.add_assoc, Nat.add_comm 1] using this

/-- Pushing the result of a monadic call for each element of a list is `mapM`. -/
theorem foldlM_push {m : Type → Type v} [Monad m] [LawfulMonad m] {γ β : Type} (f : γ → m β) :
    ∀ (l : List γ) (acc : List β),
    l.foldlM (fun acc a => f a >>= fun x => pure (acc ++ [x])) acc =
      l.mapM f >>= fun xs => pure (acc ++ xs) := by
  intro l
  induction l with
  | nil => intro acc; simp
  | cons a l ih =>
    intro acc
    simp only [List.foldlM_cons, List.mapM_cons, bind_assoc, pure_bind]
    congr 1; funext x
    rw [ih]; congr 1; funext xs; simp

theorem mapM_pure' {m : Type → Type v} [Monad m] [LawfulMonad m] {γ β : Type} (f : γ → β) (l : List γ) :
    l.mapM (fun a => (pure (f a) : m β)) = pure (l.map f) := by
  induction l with
  | nil => rfl
  | cons a l ih => simp [ih]

end DF
