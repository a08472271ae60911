import Verif.Model.Algebra
import Verif.Model.Stats
import Mathlib.Data.List.Forall2

/-!
# Related inputs give related results

`R` relates the numbers of two runs. Every function of the model maps related Series to related outcomes as soon as the
operations on numbers it uses do.
-/

namespace DF

variable {α β γ δ : Type}

/-- Two outcomes of the same kind, with related values. -/
inductive ResRel (R : γ → δ → Prop) : Res γ → Res δ → Prop
  | ok {x y} (h : R x y) : ResRel R (.ok x) (.ok y)
  | throw (e) : ResRel R (.throw e) (.throw e)
  | ub : ResRel R .ub .ub

/-- Two Series of the same shape with related numbers. -/
structure SRel (R : α → β → Prop) (s : Serie α) (t : Serie β) : Prop where
  count : s.count = t.count
  itemSize : s.itemSize = t.itemSize
  dimension : s.dimension = t.dimension
  data : List.Forall₂ R s.data t.data

/-- Two binary operations that map related arguments to related results. -/
def Rel2 (R : α → β → Prop) (f : α → α → α) (g : β → β → β) : Prop :=
  ∀ a b, R a b → ∀ c d, R c d → R (f a c) (g b d)

section basic

variable {R : α → β → Prop} {S : γ → δ → Prop}

theorem ResRel.pure {x : γ} {y : δ} (h : S x y) : ResRel S (pure x) (pure y) := .ok h

theorem ResRel.bind {γ' δ' : Type} {T : γ' → δ' → Prop} {x : Res γ} {y : Res δ} {f : γ → Res γ'} {g : δ → Res δ'}
    (h : ResRel S x y) (hf : ∀ a b, S a b → ResRel T (f a) (g b)) : ResRel T (x >>= f) (y >>= g) := by
  cases h with
  | ok h => exact hf _ _ h
  | throw e => exact .throw e
  | ub => exact .ub

theorem ResRel.mono {S' : γ → δ → Prop} {x : Res γ} {y : Res δ} (h : ResRel S x y) (hs : ∀ a b, S a b → S' a b) :
    ResRel S' x y := by
  cases h with
  | ok h => exact .ok (hs _ _ h)
  | throw e => exact .throw e
  | ub => exact .ub

theorem ResRel.refl_eq (x : Res γ) : ResRel (· = ·) x x := by
  cases x with
  | ok h => exact .ok rfl
  | throw e => exact .throw e
  | ub => exact .ub

theorem ResRel.forLoop {f : Nat → γ → Res γ} {g : Nat → δ → Res δ} (n : Nat) :
    ∀ (lo : Nat) {x : γ} {y : δ}, S x y → (∀ i, ∀ a b, S a b → ResRel S (f i a) (g i b)) →
      ResRel S (DF.forLoop f lo n x) (DF.forLoop g lo n y) := by
  induction n with
  | zero => intro lo x y h _; exact .ok h
  | succ n ih => intro lo x y h hf; exact (hf lo x y h).bind fun a b hab => ih _ hab hf

theorem ResRel.foldlM {γ' δ' : Type} {T : γ' → δ' → Prop} {f : γ → γ' → Res γ} {g : δ → δ' → Res δ} {l : List γ'} {m : List δ'}
    (hl : List.Forall₂ T l m) : ∀ {x : γ} {y : δ}, S x y →
      (∀ a b, S a b → ∀ c d, T c d → ResRel S (f a c) (g b d)) → ResRel S (l.foldlM f x) (m.foldlM g y) := by
  induction hl with
  | nil => intro x y h _; exact .ok h
  | cons h1 _ ih => intro x y h hf; exact (hf x y h _ _ h1).bind fun a b hab => ih hab hf

theorem Forall₂.rd {l : List γ} {m : List δ} (h : List.Forall₂ S l m) (i : Nat) : ResRel S (DF.rd l i) (DF.rd m i) := by
  induction h generalizing i with
  | nil => exact .ub
  | cons h1 _ ih =>
    cases i with
    | zero => exact .ok h1
    | succ i => simpa [DF.rd] using ih i

theorem Forall₂.set {l : List γ} {m : List δ} (h : List.Forall₂ S l m) (i : Nat) {x : γ} {y : δ} (hx : S x y) :
    List.Forall₂ S (l.set i x) (m.set i y) := by
  induction h generalizing i with
  | nil => exact .nil
  | cons h1 h2 ih =>
    cases i with
    | zero => exact .cons hx h2
    | succ i => exact .cons h1 (ih i)

theorem Forall₂.wr {l : List γ} {m : List δ} (h : List.Forall₂ S l m) (i : Nat) {x : γ} {y : δ} (hx : S x y) :
    ResRel (List.Forall₂ S) (DF.wr l i x) (DF.wr m i y) := by
  unfold DF.wr
  rw [h.length_eq]
  split
  · exact .ok (Forall₂.set h i hx)
  · exact .ub

theorem Forall₂.append {l l' : List γ} {m m' : List δ} (h : List.Forall₂ S l m) (h' : List.Forall₂ S l' m') :
    List.Forall₂ S (l ++ l') (m ++ m') := by
  induction h with
  | nil => exact h'
  | cons h1 _ ih => exact .cons h1 ih

theorem Forall₂.replicate (n : Nat) {x : γ} {y : δ} (h : S x y) :
    List.Forall₂ S (List.replicate n x) (List.replicate n y) := by
  induction n with
  | zero => exact .nil
  | succ n ih => exact .cons h ih

theorem Forall₂.map {γ' δ' : Type} {T : γ' → δ' → Prop} {l : List γ} {m : List δ} (h : List.Forall₂ S l m)
    {f : γ → γ'} {g : δ → δ'} (hf : ∀ a b, S a b → T (f a) (g b)) : List.Forall₂ T (l.map f) (m.map g) := by
  induction h with
  | nil => exact .nil
  | cons h1 _ ih => exact .cons (hf _ _ h1) ih

theorem Forall₂.foldl {γ' δ' : Type} {T : γ' → δ' → Prop} {l : List γ'} {m : List δ'} (hl : List.Forall₂ T l m)
    {f : γ → γ' → γ} {g : δ → δ' → δ} : ∀ {x : γ} {y : δ}, S x y →
    (∀ a b, S a b → ∀ c d, T c d → S (f a c) (g b d)) → S (l.foldl f x) (m.foldl g y) := by
  induction hl with
  | nil => intro x y h _; exact h
  | cons h1 _ ih => intro x y h hf; exact ih (hf _ _ h _ _ h1) hf

theorem ResRel.mapM_same {f : Nat → Res γ} {g : Nat → Res δ} (l : List Nat) (h : ∀ i, ResRel S (f i) (g i)) :
    ResRel (List.Forall₂ S) (l.mapM f) (l.mapM g) := by
  induction l with
  | nil => exact .ok .nil
  | cons i l ih =>
    rw [List.mapM_cons, List.mapM_cons]
    exact (h i).bind fun a b hab => ih.bind fun _ _ hl => .ok (.cons hab hl)

theorem ResRel.updLoop {f : Nat → γ → Res γ} {g : Nat → δ → Res δ} (n : Nat) {l : List γ} {m : List δ}
    (h : List.Forall₂ S l m) (hf : ∀ k, ∀ a b, S a b → ResRel S (f k a) (g k b)) :
    ResRel (List.Forall₂ S) (DF.updLoop n f l) (DF.updLoop n g m) :=
  ResRel.forLoop n 0 h fun i _ _ hab => (Forall₂.rd hab i).bind fun x y hxy => (hf i x y hxy).bind fun _ _ h' =>
    Forall₂.wr hab i h'

end basic

section series

variable {R : α → β → Prop}

theorem SRel.zeros [Zero α] [Zero β] (h0 : R 0 0) (k n d : Nat) : SRel R (Serie.zeros k n d) (Serie.zeros k n d) :=
  ⟨rfl, rfl, rfl, Forall₂.replicate _ h0⟩

theorem SRel.empty [Zero α] [Zero β] (h0 : R 0 0) : SRel R Serie.empty Serie.empty := SRel.zeros h0 0 0 3

theorem SRel.ofArray (k : Nat) {l : List α} {m : List β} (h : List.Forall₂ R l m) (d : Nat) :
    ResRel (SRel R) (Serie.ofArray k l d) (Serie.ofArray k m d) := by
  unfold Serie.ofArray
  rw [h.length_eq]
  exact (ResRel.refl_eq _).bind fun a b e => .ok ⟨e, rfl, rfl, h⟩

theorem SRel.isValid {s : Serie α} {t : Serie β} (h : SRel R s t) : s.isValid = t.isValid := by
  unfold Serie.isValid; rw [h.itemSize]

theorem SRel.size {s : Serie α} {t : Serie β} (h : SRel R s t) : s.size = t.size := by
  unfold Serie.size; rw [h.itemSize, h.count]

theorem SRel.clone {s : Serie α} {t : Serie β} (h : SRel R s t) : ResRel (SRel R) s.clone t.clone := by
  unfold Serie.clone; rw [h.itemSize]; exact SRel.ofArray _ h.data _

theorem SRel.getD {s : Serie α} {t : Serie β} (h : SRel R s t) (i : Nat) : ResRel R (s.getD i) (t.getD i) := by
  unfold Serie.getD
  rw [h.data.length_eq]
  split
  · exact .throw _
  · exact Forall₂.rd h.data i

theorem SRel.scalar {s : Serie α} {t : Serie β} (h : SRel R s t) (i : Nat) : ResRel R (s.scalar i) (t.scalar i) := by
  unfold Serie.scalar
  rw [h.size]
  split
  · exact .throw _
  · exact Forall₂.rd h.data i

theorem readLoop_rel {s : Serie α} {t : Serie β} (h : SRel R s t) (f : Nat → Nat) (n : Nat) :
    ResRel (List.Forall₂ R) (forLoop (fun j r => do
      let x ← rd s.data (f j)
      pure (r ++ [x])) 0 n []) (forLoop (fun j r => do
      let x ← rd t.data (f j)
      pure (r ++ [x])) 0 n []) :=
  ResRel.forLoop n 0 .nil fun i _ _ hab => (Forall₂.rd h.data (f i)).bind fun _ _ hxy =>
    .ok (Forall₂.append hab (.cons hxy .nil))

theorem SRel.value {s : Serie α} {t : Serie β} (h : SRel R s t) (i : Nat) :
    ResRel (List.Forall₂ R) (s.value i) (t.value i) := by
  unfold Serie.value
  rw [h.itemSize]
  exact (ResRel.refl_eq _).bind fun _ _ _ => readLoop_rel h _ _

theorem SRel.getA {s : Serie α} {t : Serie β} (h : SRel R s t) (i : Nat) :
    ResRel (List.Forall₂ R) (s.getA i) (t.getA i) := by
  unfold Serie.getA
  rw [h.itemSize]
  split
  · exact (Forall₂.rd h.data i).bind fun _ _ hxy => .ok (.cons hxy .nil)
  · exact (ResRel.refl_eq _).bind fun _ _ _ => readLoop_rel h _ _

theorem SRel.write {s : Serie α} {t : Serie β} (h : SRel R s t) (p : Nat) {x : α} {y : β} (hx : R x y) :
    ResRel (fun _ _ => True) (Serie.write p x s).1 (Serie.write p y t).1 ∧ SRel R (Serie.write p x s).2 (Serie.write p y t).2 := by
  unfold Serie.write
  have := Forall₂.wr h.data p hx
  revert this
  generalize wr s.data p x = a
  generalize wr t.data p y = b
  intro hab
  cases hab with
  | ok hd => exact ⟨.ok trivial, h.count, h.itemSize, h.dimension, hd⟩
  | throw e => exact ⟨.throw e, h⟩
  | ub => exact ⟨.ub, h⟩

theorem exec_rel {σ τ γ δ : Type} {S : σ → τ → Prop} {x : Eff σ γ} {y : Eff τ δ} {s : σ} {t : τ}
    (h : ResRel (fun _ _ => True) (x s).1 (y t).1 ∧ S (x s).2 (y t).2) : ResRel S (x.exec s) (y.exec t) := by
  unfold Eff.exec
  revert h
  rcases x s with ⟨a, s'⟩
  rcases y t with ⟨b, t'⟩
  rintro ⟨h1, h2⟩
  dsimp only at h1 h2 ⊢
  cases h1 with
  | ok _ => exact .ok h2
  | throw e => exact .throw e
  | ub => exact .ub

/-- Two computations with a state that keep the states related and give related results. -/
def EffRel {σ τ γ δ : Type} (S : σ → τ → Prop) (Q : γ → δ → Prop) (x : Eff σ γ) (y : Eff τ δ) : Prop :=
  ∀ s t, S s t → ResRel Q (x s).1 (y t).1 ∧ S (x s).2 (y t).2

section eff

variable {σ τ γ δ : Type} {S : σ → τ → Prop} {Q : γ → δ → Prop}

theorem EffRel.pure {x : γ} {y : δ} (h : Q x y) : EffRel S Q (pure x) (pure y) := fun _ _ hs => ⟨.ok h, hs⟩

theorem EffRel.lift {x : Res γ} {y : Res δ} (h : ResRel Q x y) : EffRel S Q (Eff.lift x) (Eff.lift y) := fun _ _ hs => ⟨h, hs⟩

theorem EffRel.throw (e : Err) : EffRel S Q (Eff.throw e) (Eff.throw e) := fun _ _ hs => ⟨.throw e, hs⟩

theorem EffRel.bind {γ' δ' : Type} {Q' : γ' → δ' → Prop} {x : Eff σ γ} {y : Eff τ δ} {f : γ → Eff σ γ'} {g : δ → Eff τ δ'}
    (h : EffRel S Q x y) (hf : ∀ a b, Q a b → EffRel S Q' (f a) (g b)) : EffRel S Q' (x >>= f) (y >>= g) := by
  intro s t hs
  have h1 := h s t hs
  rw [Eff.bind_def, Eff.bind_def]
  dsimp only
  revert h1
  rcases x s with ⟨a, s'⟩
  rcases y t with ⟨b, t'⟩
  rintro ⟨h1, h2⟩
  dsimp only at h1 h2 ⊢
  cases h1 with
  | ok hq => exact hf _ _ hq _ _ h2
  | throw e => exact ⟨.throw e, h2⟩
  | ub => exact ⟨.ub, h2⟩

theorem EffRel.forLoop {f : Nat → γ → Eff σ γ} {g : Nat → δ → Eff τ δ} (n : Nat) :
    ∀ (lo : Nat) {x : γ} {y : δ}, Q x y → (∀ i, ∀ a b, Q a b → EffRel S Q (f i a) (g i b)) →
      EffRel S Q (DF.forLoop f lo n x) (DF.forLoop g lo n y) := by
  induction n with
  | zero => intro lo x y h _; exact EffRel.pure h
  | succ n ih => intro lo x y h hf; exact (hf lo x y h).bind fun a b hab => ih _ hab hf

theorem EffRel.update {f : σ → Res σ} {g : τ → Res τ} (h : ∀ s t, S s t → ResRel S (f s) (g t)) :
    EffRel S (fun _ _ => True) (Eff.update f) (Eff.update g) := by
  intro s t hs
  have h1 := h s t hs
  unfold Eff.update
  revert h1
  generalize f s = a
  generalize g t = b
  intro h1
  cases h1 with
  | ok h2 => exact ⟨.ok trivial, h2⟩
  | throw e => exact ⟨.throw e, hs⟩
  | ub => exact ⟨.ub, hs⟩

end eff

theorem SRel.putD {s : Serie α} {t : Serie β} (h : SRel R s t) (i : Nat) {x : α} {y : β} (hx : R x y) :
    ResRel (SRel R) (s.putD i x) (t.putD i y) := by
  apply exec_rel
  unfold Serie.setD
  rw [h.data.length_eq]
  split
  · exact ⟨.throw _, h⟩
  · exact h.write i hx

theorem SRel.setScalar {s : Serie α} {t : Serie β} (h : SRel R s t) (i : Nat) {x : α} {y : β} (hx : R x y) :
    ResRel (SRel R) ((Serie.setScalar i x).exec s) ((Serie.setScalar i y).exec t) := by
  apply exec_rel
  unfold Serie.setScalar
  rw [h.data.length_eq]
  split
  · exact ⟨.throw _, h⟩
  · exact h.write i hx

theorem SRel.putA {s : Serie α} {t : Serie β} (h : SRel R s t) (i : Nat) {v : List α} {w : List β}
    (hv : List.Forall₂ R v w) : ResRel (SRel R) (s.putA i v) (t.putA i w) := by
  apply exec_rel
  unfold Serie.setA
  rw [h.count, h.itemSize, hv.length_eq]
  split
  · exact ⟨.throw _, h⟩
  · split
    · exact ⟨.throw _, h⟩
    · refine (EffRel.forLoop (S := SRel R) (Q := fun _ _ => True) _ 0 trivial fun j _ _ _ => ?_) s t h
      exact (EffRel.lift (Forall₂.rd hv j)).bind fun x y hxy => show EffRel _ _ (Serie.write _ _) (Serie.write _ _) from
        fun s t hs => hs.write _ hxy

theorem SRel.assign {s s' : Serie α} {t t' : Serie β} (h : SRel R s t) (h' : SRel R s' t') :
    ResRel (SRel R) ((Serie.assign s).exec s') ((Serie.assign t).exec t') :=
  .ok ⟨h.count, h.itemSize, h'.dimension, h.data⟩

theorem SRel.mapArr [Zero α] [Zero β] (h0 : R 0 0) {f : List α → Nat → Res (List α)} {g : List β → Nat → Res (List β)}
    {s : Serie α} {t : Serie β} (h : SRel R s t)
    (hf : ∀ v w, List.Forall₂ R v w → ∀ i, ResRel (List.Forall₂ R) (f v i) (g w i)) :
    ResRel (SRel R) (DF.mapArr f s) (DF.mapArr g t) := by
  have key : EffRel (fun _ _ : Unit => True) (SRel R) (mapVV (σ := Unit) (fun v i => Eff.lift (f v i)) s)
      (mapVV (σ := Unit) (fun v i => Eff.lift (g v i)) t) := by
    unfold mapVV
    rw [h.count]
    split
    · exact EffRel.pure (SRel.zeros h0 0 0 3)
    · refine (EffRel.lift (h.getA 0)).bind fun v w hv => ?_
      refine (EffRel.lift (hf v w hv 0)).bind fun v1 w1 h1 => ?_
      dsimp only
      rw [h1.length_eq]
      refine (EffRel.forLoop _ 1 h1 fun i a b hab => ?_).bind fun a b hab => EffRel.lift (SRel.ofArray _ hab _)
      refine (EffRel.lift (h.getA i)).bind fun v w hv => (EffRel.lift (hf v w hv i)).bind fun v2 w2 h2 => ?_
      rw [h2.length_eq]
      split
      · exact EffRel.throw _
      · exact EffRel.pure (Forall₂.append hab h2)
  exact (key () () trivial).1

theorem SRel.mapNum {f : α → Nat → Res α} {g : β → Nat → Res β} {s : Serie α} {t : Serie β} (h : SRel R s t)
    (hf : ∀ v w, R v w → ∀ i, ResRel R (f v i) (g w i)) : ResRel (SRel R) (DF.mapNum f s) (DF.mapNum g t) := by
  have key : EffRel (fun _ _ : Unit => True) (SRel R) (mapSS (σ := Unit) (fun v i => Eff.lift (f v i)) s)
      (mapSS (σ := Unit) (fun v i => Eff.lift (g v i)) t) := by
    unfold mapSS
    rw [h.count]
    refine (EffRel.forLoop _ 0 .nil fun i a b hab => ?_).bind fun a b hab => EffRel.lift (SRel.ofArray _ hab _)
    exact (EffRel.lift (h.getD i)).bind fun v w hv => (EffRel.lift (hf v w hv i)).bind fun v2 w2 h2 =>
      EffRel.pure (Forall₂.append hab (.cons h2 .nil))
  exact (key () () trivial).1

theorem SRel.reduceS {f : α → α → Nat → Res α} {g : β → β → Nat → Res β} {s : Serie α} {t : Serie β} (h : SRel R s t)
    {x : α} {y : β} (hx : R x y) (hf : ∀ a b, R a b → ∀ v w, R v w → ∀ i, ResRel R (f a v i) (g b w i)) :
    ResRel R (DF.reduceS (σ := Unit) (fun a v i => Eff.lift (f a v i)) s x ()).1
      (DF.reduceS (σ := Unit) (fun a v i => Eff.lift (g a v i)) t y ()).1 := by
  have key : EffRel (fun _ _ : Unit => True) R (DF.reduceS (σ := Unit) (fun a v i => Eff.lift (f a v i)) s x)
      (DF.reduceS (σ := Unit) (fun a v i => Eff.lift (g a v i)) t y) := by
    unfold DF.reduceS
    rw [h.count]
    exact EffRel.forLoop _ 0 hx fun i a b hab => (EffRel.lift (h.getD i)).bind fun v w hv => EffRel.lift (hf a b hab v w hv i)
  exact (key () () trivial).1

end series

end DF
