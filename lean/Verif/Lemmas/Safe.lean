import Verif.Lemmas.Serie
import Verif.Lemmas.Loops
import Verif.Model.Math
import Verif.Model.Stats
import Verif.Model.Combine
import Verif.Model.Geo

/-!
# Absence of undefined behaviour: rules
-/

namespace DF

open Spec

variable {α σ β γ : Type}

/-- No undefined behaviour, and results satisfy `P`. -/
def Safe (P : β → Prop) : Res β → Prop
  | .ok b => P b
  | .throw _ => True
  | .ub => False

namespace Safe

variable {P Q : β → Prop}

theorem ne {x : Res β} (h : Safe P x) : x ≠ .ub := by rintro rfl; exact h

theorem of_ne {x : Res β} (h : x ≠ .ub) : Safe (fun _ => True) x := by
  cases x with
  | ok b => trivial
  | throw e => trivial
  | ub => exact h rfl

theorem of_ok {x : Res β} {b : β} (h : x = .ok b) (hb : P b) : Safe P x := by subst h; exact hb

theorem mono {x : Res β} (h : Safe P x) (f : ∀ b, P b → Q b) : Safe Q x := by
  cases x with
  | ok b => exact f b h
  | throw e => trivial
  | ub => exact h

theorem bind {R : γ → Prop} {x : Res β} {f : β → Res γ} (h : Safe P x) (hf : ∀ b, P b → Safe R (f b)) : Safe R (x >>= f) := by
  cases x with
  | ok b => exact hf b h
  | throw e => trivial
  | ub => exact h.elim

theorem ite {c : Prop} [Decidable c] {x y : Res β} (h : c → Safe P x) (h' : ¬ c → Safe P y) : Safe P (if c then x else y) := by
  split
  · exact h ‹_›
  · exact h' ‹_›

theorem forLoopI (J : Nat → β → Prop) {f : Nat → β → Res β} (n : Nat) : ∀ (lo : Nat) (b : β), J lo b →
    (∀ i b, lo ≤ i → i < lo + n → J i b → Safe (J (i + 1)) (f i b)) → Safe (J (lo + n)) (DF.forLoop f lo n b) := by
  induction n with
  | zero => intro lo b hb _; exact hb
  | succ n ih =>
    intro lo b hb hf
    refine (hf lo b le_rfl (by omega) hb).bind fun b' hb' => ?_
    rw [show lo + (n + 1) = lo + 1 + n by omega]
    exact ih (lo + 1) b' hb' fun i b h1 h2 => hf i b (by omega) (by omega)

theorem forLoop {I : β → Prop} {f : Nat → β → Res β} (n : Nat) (lo : Nat) (b : β) (hb : I b)
    (hf : ∀ i b, lo ≤ i → i < lo + n → I b → Safe I (f i b)) : Safe I (DF.forLoop f lo n b) :=
  forLoopI (fun _ => I) n lo b hb hf

theorem foldlM {I : β → Prop} {f : β → γ → Res β} : ∀ (l : List γ) (b : β), I b → (∀ x ∈ l, ∀ b, I b → Safe I (f b x)) →
    Safe I (l.foldlM f b)
  | [], b, hb, _ => hb
  | x :: l, b, hb, hf => by
    rw [List.foldlM_cons]
    exact (hf x (List.mem_cons_self ..) b hb).bind fun b' hb' =>
      foldlM l b' hb' fun y hy => hf y (List.mem_cons_of_mem _ hy)

theorem mapM {f : γ → Res β} : ∀ (l : List γ), (∀ x ∈ l, Safe P (f x)) → Safe (fun ys => ys.length = l.length ∧ ∀ y ∈ ys, P y) (l.mapM f)
  | [], _ => by rw [List.mapM_nil]; exact ⟨rfl, fun _ h => by cases h⟩
  | x :: l, h => by
    rw [List.mapM_cons]
    refine (h x (List.mem_cons_self ..)).bind fun y hy => (mapM l fun z hz => h z (List.mem_cons_of_mem _ hz)).bind fun ys hys => ?_
    refine ⟨by rw [List.length_cons, List.length_cons, hys.1], fun z hz => ?_⟩
    rcases List.mem_cons.1 hz with rfl | hz
    · exact hy
    · exact hys.2 z hz

theorem rd {l : List β} {i : Nat} (h : i < l.length) : Safe (· ∈ l) (DF.rd l i) := by
  rw [rd_of_lt h]
  exact List.getElem_mem h

theorem wr {l : List β} {i : Nat} (x : β) (h : i < l.length) : Safe (fun m : List β => m.length = l.length) (DF.wr l i x) := by
  rw [wr_of_lt h]
  exact List.length_set

theorem updLoop {n : Nat} {f : Nat → α → Res α} {r : List α} (hn : n ≤ r.length) (hf : ∀ k < n, ∀ x, Safe (fun _ => True) (f k x)) :
    Safe (fun m : List α => m.length = r.length) (DF.updLoop n f r) := by
  refine forLoop n 0 r rfl fun i b _ hi hb => ?_
  exact (rd (by omega)).bind fun x _ => (hf i (by omega) x).bind fun y _ => (wr y (by omega)).mono fun m hm => hm.trans hb

end Safe

/-! ## Series -/

/-- The same shape as a given well-formed Serie. -/
structure Keeps (s t : Serie α) : Prop where
  wf : WF t
  count : t.count = s.count
  itemSize : t.itemSize = s.itemSize
  dimension : t.dimension = s.dimension
  length : t.data.length = s.data.length

theorem Keeps.refl {s : Serie α} (h : WF s) : Keeps s s := ⟨h, rfl, rfl, rfl, rfl⟩

theorem Keeps.trans {s t u : Serie α} (h : Keeps s t) (h' : Keeps t u) : Keeps s u :=
  ⟨h'.wf, h'.count.trans h.count, h'.itemSize.trans h.itemSize, h'.dimension.trans h.dimension, h'.length.trans h.length⟩

theorem wfZeros [Zero α] {k c d : Nat} (h0 : 0 < k) (h1 : k < 2 ^ 31) (h2 : c * k < 2 ^ 32) : WF (Serie.zeros k c d : Serie α) := by
  have : u32 (c * k) = c * k := Nat.mod_eq_of_lt h2
  refine ⟨h0, h1, ?_, ?_⟩
  · show c * k ≤ (List.replicate (u32 (c * k)) (0 : α)).length
    rw [List.length_replicate, this]
  · show (List.replicate (u32 (c * k)) (0 : α)).length < _
    rw [List.length_replicate, this]; exact h2

theorem WF.zerosLike [Zero α] {s : Serie α} (h : WF s) (d : Nat) : WF (Serie.zeros s.itemSize s.count d : Serie α) :=
  wfZeros h.pos h.int (Nat.lt_of_le_of_lt h.fits h.small)

namespace Safe

theorem getA {s : Serie α} (h : WF s) {i : Nat} (hi : i < s.count) : Safe (fun v : List α => v.length = s.itemSize) (s.getA i) := by
  rw [Serie.getA_eq h hi]
  exact chunk_length (h.item_fits hi)

theorem value {s : Serie α} (h : WF s) {i : Nat} (hi : i < s.count) : Safe (fun v : List α => v.length = s.itemSize) (s.value i) := by
  rw [Serie.value_eq h hi]
  exact chunk_length (h.item_fits hi)

theorem getD (s : Serie α) (i : Nat) : Safe (· ∈ s.data) (s.getD i) := by
  unfold Serie.getD
  split
  · trivial
  · exact rd (by omega)

theorem scalar {s : Serie α} {i : Nat} (h : i < s.data.length) : Safe (· ∈ s.data) (s.scalar i) := by
  unfold Serie.scalar
  split
  · trivial
  · exact rd h

theorem putD (s : Serie α) (hs : WF s) (i : Nat) (x : α) : Safe (Keeps s) (s.putD i x) := by
  by_cases h : i < s.data.length
  · rw [Serie.putD_eq h]
    exact ⟨⟨hs.pos, hs.int, by simpa using hs.fits, by simpa using hs.small⟩, rfl, rfl, rfl, by simp⟩
  · have e : Serie.setD i x s = (.throw .invalidArgument, s) := if_pos (by omega)
    unfold Serie.putD Eff.exec
    rw [e]; trivial

theorem putScalar (s : Serie α) (hs : WF s) (i : Nat) (x : α) : Safe (Keeps s) ((Serie.setScalar i x).exec s) := putD s hs i x

theorem putA (s : Serie α) (hs : WF s) (i : Nat) (v : List α) : Safe (Keeps s) (s.putA i v) := by
  by_cases h : i < s.count
  · by_cases hv : v.length = s.itemSize
    · rw [Serie.putA_eq hs h hv]
      have := hs.item_fits h
      have e : (splice s.data (i * s.itemSize) v).length = s.data.length := by
        unfold splice
        simp only [List.length_append, List.length_take, List.length_drop]
        omega
      exact ⟨⟨hs.pos, hs.int, by rw [e]; exact hs.fits, by rw [e]; exact hs.small⟩, rfl, rfl, rfl, e⟩
    · have e : Serie.setA i v s = (.throw .invalidArgument, s) := by
        unfold Serie.setA
        simp only [if_neg (show ¬ i ≥ s.count by omega), if_pos (show v.length ≠ sizeT s.itemSize by rw [hs.sizeT_eq]; exact hv)]
      unfold Serie.putA Eff.exec
      rw [e]; trivial
  · have e : Serie.setA i v s = (.throw .invalidArgument, s) := if_pos (by omega)
    unfold Serie.putA Eff.exec
    rw [e]; trivial

theorem putValue (s : Serie α) (hs : WF s) (i : Nat) (v : List α) : Safe (Keeps s) (s.putValue i v) := by
  by_cases h : i < s.count
  · by_cases hv : v.length = s.itemSize
    · unfold Serie.putValue Eff.exec
      rw [Serie.setValue_eq hs h hv]
      have := hs.item_fits h
      have e : (splice s.data (i * s.itemSize) v).length = s.data.length := by
        unfold splice
        simp only [List.length_append, List.length_take, List.length_drop]
        omega
      exact ⟨⟨hs.pos, hs.int, by rw [e]; exact hs.fits, by rw [e]; exact hs.small⟩, rfl, rfl, rfl, e⟩
    · have e : Serie.setValue i v s = (.throw .invalidArgument, s) := by
        unfold Serie.setValue
        simp only [if_neg (show ¬ i ≥ s.count by omega), if_pos (show v.length ≠ sizeT s.itemSize by rw [hs.sizeT_eq]; exact hv)]
      unfold Serie.putValue Eff.exec
      rw [e]; trivial
  · have e : Serie.setValue i v s = (.throw .invalidArgument, s) := if_pos (by omega)
    unfold Serie.putValue Eff.exec
    rw [e]; trivial

theorem ofArray {k : Nat} (l : List α) (d : Nat) (h : k ≠ 0) : Safe (fun s : Serie α => s.data = l ∧ s.itemSize = k) (Serie.ofArray k l d) := by
  unfold Serie.ofArray Serie.divCount
  rw [if_neg h]
  exact ⟨rfl, rfl⟩

end Safe

/-! ## Callbacks -/

/-- The same for computations with a state that satisfies `I` before and after. -/
def SafeE (I : σ → Prop) (P : β → Prop) (x : Eff σ β) : Prop := ∀ st, I st → Safe P (x st).1 ∧ I (x st).2

namespace SafeE

variable {I : σ → Prop} {P Q : β → Prop}

theorem mono {x : Eff σ β} (h : SafeE I P x) (f : ∀ b, P b → Q b) : SafeE I Q x := fun st hi => ⟨(h st hi).1.mono f, (h st hi).2⟩

theorem lift {r : Res β} (h : Safe P r) : SafeE I P (Eff.lift r) := fun _ hi => ⟨h, hi⟩

theorem throw (e : Err) : SafeE I P (Eff.throw e : Eff σ β) := fun _ hi => ⟨trivial, hi⟩

theorem pure {b : β} (h : P b) : SafeE I P (Pure.pure b : Eff σ β) := fun _ hi => ⟨h, hi⟩

theorem bind {R : γ → Prop} {x : Eff σ β} {f : β → Eff σ γ} (h : SafeE I P x) (hf : ∀ b, P b → SafeE I R (f b)) :
    SafeE I R (x >>= f) := by
  intro st hi
  obtain ⟨h1, h2⟩ := h st hi
  rcases hx : x st with ⟨r, st'⟩
  rw [hx] at h1 h2
  cases r with
  | ok b => rw [Eff.bind_ok hx]; exact hf b h1 st' h2
  | throw e => rw [Eff.bind_throw hx]; exact ⟨trivial, h2⟩
  | ub => exact h1.elim

theorem ite {c : Prop} [Decidable c] {x y : Eff σ β} (h : c → SafeE I P x) (h' : ¬ c → SafeE I P y) : SafeE I P (if c then x else y) := by
  split
  · exact h ‹_›
  · exact h' ‹_›

theorem forLoopI (J : Nat → β → Prop) {f : Nat → β → Eff σ β} (n : Nat) : ∀ (lo : Nat) (b : β), J lo b →
    (∀ i b, lo ≤ i → i < lo + n → J i b → SafeE I (J (i + 1)) (f i b)) → SafeE I (J (lo + n)) (DF.forLoop f lo n b) := by
  induction n with
  | zero => intro lo b hb _; exact pure hb
  | succ n ih =>
    intro lo b hb hf
    refine (hf lo b le_rfl (by omega) hb).bind fun b' hb' => ?_
    rw [show lo + (n + 1) = lo + 1 + n by omega]
    exact ih (lo + 1) b' hb' fun i b h1 h2 => hf i b (by omega) (by omega)

theorem forLoop {J : β → Prop} {f : Nat → β → Eff σ β} (n : Nat) (lo : Nat) (b : β) (hb : J b)
    (hf : ∀ i b, lo ≤ i → i < lo + n → J b → SafeE I J (f i b)) : SafeE I J (DF.forLoop f lo n b) :=
  forLoopI (fun _ => J) n lo b hb hf

theorem update {f : σ → Res σ} (h : ∀ st, I st → Safe I (f st)) : SafeE I (fun _ => True) (Eff.update f) := by
  intro st hi
  have := h st hi
  unfold Eff.update
  cases hf : f st with
  | ok b => rw [hf] at this; exact ⟨trivial, this⟩
  | throw e => exact ⟨trivial, hi⟩
  | ub => rw [hf] at this; exact this.elim

theorem exec {x : Eff σ β} (h : SafeE I P x) {st : σ} (hi : I st) : Safe I (Eff.exec x st) := by
  obtain ⟨h1, h2⟩ := h st hi
  unfold Eff.exec
  rcases hx : x st with ⟨r, st'⟩
  rw [hx] at h1 h2
  cases r with
  | ok b => exact h2
  | throw e => trivial
  | ub => exact h1.elim

/-! ### The functions taking callbacks -/

/-- An array that can be an item. -/
def Item (v : List α) : Prop := 0 < v.length ∧ v.length < 2 ^ 32

theorem Item.u32 {v : List α} (h : Item v) : DF.u32 v.length ≠ 0 := by
  unfold DF.u32
  rw [Nat.mod_eq_of_lt h.2]
  exact h.1.ne'

variable {s : Serie α}

theorem ofArr {k : Nat} (l : List α) (h : k ≠ 0) : SafeE I (fun t : Serie α => t.data = l ∧ t.itemSize = k) (Eff.lift (Serie.ofArray k l) : Eff σ (Serie α)) :=
  lift (Safe.ofArray l 3 h)

theorem mapSS {cb : α → Nat → Eff σ α} (hcb : ∀ x i, SafeE I (fun _ => True) (cb x i)) : SafeE I (fun t : Serie α => t.itemSize = 1) (DF.mapSS cb s) := by
  refine (forLoop (J := fun _ => True) _ 0 [] trivial fun i r _ _ _ => ?_).bind fun r _ => (ofArr r one_ne_zero).mono fun t h => h.2
  exact (lift (Safe.getD s i)).bind fun x _ => (hcb x i).bind fun y _ => pure trivial

theorem mapVS {cb : List α → Nat → Eff σ α} (hs : WF s) (hcb : ∀ v i, v.length = s.itemSize → i < s.count → SafeE I (fun _ => True) (cb v i)) :
    SafeE I (fun t : Serie α => t.itemSize = 1) (DF.mapVS cb s) := by
  refine (forLoop (J := fun _ => True) _ 0 [] trivial fun i r _ hi _ => ?_).bind fun r _ => (ofArr r one_ne_zero).mono fun t h => h.2
  exact (lift (Safe.getA hs (by omega))).bind fun x hx => (hcb x i hx (by omega)).bind fun y _ => pure trivial

theorem mapSV [Zero α] {cb : α → Nat → Eff σ (List α)} (hcb : ∀ x i, SafeE I Item (cb x i)) : SafeE I (fun _ => True) (DF.mapSV cb s) := by
  unfold DF.mapSV
  refine ite (fun _ => pure trivial) fun _ => (lift (Safe.getD s 0)).bind fun x _ => (hcb x 0).bind fun y hy => ?_
  refine (forLoop (J := fun _ => True) _ 1 y trivial fun i r _ _ _ => ?_).bind fun r _ => (ofArr r hy.u32).mono fun _ _ => trivial
  exact (lift (Safe.getD s i)).bind fun x _ => (hcb x i).bind fun y _ => ite (fun _ => throw _) fun _ => pure trivial

theorem mapVV [Zero α] {cb : List α → Nat → Eff σ (List α)} (hs : WF s) (hcb : ∀ v i, v.length = s.itemSize → i < s.count → SafeE I Item (cb v i)) :
    SafeE I (fun _ => True) (DF.mapVV cb s) := by
  unfold DF.mapVV
  refine ite (fun _ => pure trivial) fun h0 => (lift (Safe.getA hs (by omega))).bind fun x hx => (hcb x 0 hx (by omega)).bind fun y hy => ?_
  refine (forLoop (J := fun _ => True) _ 1 y trivial fun i r _ hi _ => ?_).bind fun r _ => (ofArr r hy.u32).mono fun _ _ => trivial
  exact (lift (Safe.getA hs (by omega))).bind fun x hx => (hcb x i hx (by omega)).bind fun y _ => ite (fun _ => throw _) fun _ => pure trivial

/-- Indices below `n`, at most `n` of them. -/
def Idx (n : Nat) (idx : List Nat) : Prop := (∀ k ∈ idx, k < n) ∧ idx.length ≤ n

theorem idx_nil : (∀ k ∈ ([] : List Nat), k < 0) ∧ ([] : List Nat).length ≤ 0 := ⟨fun _ h => (List.not_mem_nil h).elim, le_rfl⟩

theorem idx_push {i : Nat} {idx : List Nat} (h : (∀ k ∈ idx, k < i) ∧ idx.length ≤ i) :
    (∀ k ∈ idx ++ [i], k < i + 1) ∧ (idx ++ [i]).length ≤ i + 1 := by
  refine ⟨fun k hk => ?_, by simpa using h.2⟩
  rcases List.mem_append.1 hk with hk | hk
  · exact Nat.lt_succ_of_lt (h.1 k hk)
  · rw [List.mem_singleton.1 hk]; omega

theorem idx_same {i : Nat} {idx : List Nat} (h : (∀ k ∈ idx, k < i) ∧ idx.length ≤ i) : (∀ k ∈ idx, k < i + 1) ∧ idx.length ≤ i + 1 :=
  ⟨fun k hk => Nat.lt_succ_of_lt (h.1 k hk), by omega⟩

theorem collect {get : Nat → Res γ} {n : Nat} {p : γ → Nat → Eff σ Bool} {G : γ → Prop} (hg : ∀ i < n, Safe G (get i))
    (hp : ∀ x i, G x → i < n → SafeE I (fun _ => True) (p x i)) : SafeE I (Idx n) (DF.collect get n p) := by
  have := forLoopI (I := I) (fun i (idx : List Nat) => (∀ k ∈ idx, k < i) ∧ idx.length ≤ i) (f := fun i idx => do
    let x ← Eff.lift (get i)
    let b ← p x i
    Pure.pure (if b then idx ++ [i] else idx)) n 0 [] idx_nil fun i idx _ hi h => by
      refine (lift (hg i (by omega))).bind fun x hx => (hp x i hx (by omega)).bind fun b _ => pure ?_
      split
      · exact idx_push h
      · exact idx_same h
  rw [Nat.zero_add] at this
  exact this

theorem collectNot {get : Nat → Res γ} {n : Nat} {p : γ → Nat → Eff σ Bool} {G : γ → Prop} (hg : ∀ i < n, Safe G (get i))
    (hp : ∀ x i, G x → i < n → SafeE I (fun _ => True) (p x i)) : SafeE I (Idx n) (DF.collectNot get n p) := by
  have := forLoopI (I := I) (fun i (idx : List Nat) => (∀ k ∈ idx, k < i) ∧ idx.length ≤ i) (f := fun i idx => do
    let x ← Eff.lift (get i)
    let b ← p x i
    Pure.pure (if !b then idx ++ [i] else idx)) n 0 [] idx_nil fun i idx _ hi h => by
      refine (lift (hg i (by omega))).bind fun x hx => (hp x i hx (by omega)).bind fun b _ => pure ?_
      split
      · exact idx_push h
      · exact idx_same h
  rw [Nat.zero_add] at this
  exact this

theorem collectBoth {get : Nat → Res γ} {n : Nat} {p : γ → Nat → Eff σ Bool} {G : γ → Prop} (hg : ∀ i < n, Safe G (get i))
    (hp : ∀ x i, G x → i < n → SafeE I (fun _ => True) (p x i)) :
    SafeE I (fun q : List Nat × List Nat => Idx n q.1 ∧ Idx n q.2) (DF.collectBoth get n p) := by
  have := forLoopI (I := I) (fun i (q : List Nat × List Nat) => ((∀ k ∈ q.1, k < i) ∧ q.1.length ≤ i) ∧ (∀ k ∈ q.2, k < i) ∧ q.2.length ≤ i)
    (f := fun i (idx : List Nat × List Nat) => do
    let x ← Eff.lift (get i)
    let b ← p x i
    Pure.pure (if b then (idx.1 ++ [i], idx.2) else (idx.1, idx.2 ++ [i]))) n 0 ([], [])
    ⟨idx_nil, idx_nil⟩ fun i idx _ hi h => by
      refine (lift (hg i (by omega))).bind fun x hx => (hp x i hx (by omega)).bind fun b _ => pure ?_
      split
      · exact ⟨idx_push h.1, idx_same h.2⟩
      · exact ⟨idx_same h.1, idx_push h.2⟩
  rw [Nat.zero_add] at this
  exact this

theorem gatherD [Zero α] {idx : List Nat} (hs : WF s) (hi : Idx s.count idx) : Safe (WF (α := α)) (DF.gatherD s idx) := by
  have h1 := hs.count_lt
  have h2 := hi.2
  have e : DF.u32 idx.length = idx.length := Nat.mod_eq_of_lt (by omega)
  refine Safe.forLoop _ 0 _ (wfZeros Nat.one_pos (by decide) (by rw [e]; omega)) fun i r _ hi hr => ?_
  exact (Safe.rd (by omega)).bind fun k _ => (Safe.getD s k).bind fun x _ => (Safe.putD r hr i x).mono fun _ h => h.wf

theorem gather_small {idx : List Nat} (hs : WF s) (hi : Idx s.count idx) : DF.u32 idx.length * s.itemSize < 2 ^ 32 := by
  have e : DF.u32 idx.length = idx.length := Nat.mod_eq_of_lt (Nat.lt_of_le_of_lt hi.2 hs.count_lt)
  rw [e]
  exact Nat.lt_of_le_of_lt (Nat.mul_le_mul_right _ hi.2) (Nat.lt_of_le_of_lt hs.fits hs.small)

theorem gatherA [Zero α] {idx : List Nat} (hs : WF s) (hi : Idx s.count idx) : Safe (WF (α := α)) (DF.gatherA s idx) := by
  refine Safe.forLoop _ 0 _ (wfZeros hs.pos hs.int (gather_small hs hi)) fun i r _ h hr => ?_
  exact (Safe.rd (by omega)).bind fun k hk => (Safe.getA hs (hi.1 k hk)).bind fun x _ => (Safe.putA r hr i x).mono fun _ h => h.wf

theorem gatherFind [Zero α] {idx : List Nat} (hs : WF s) (hi : Idx s.count idx) : Safe (WF (α := α)) (DF.gatherFind s idx) := by
  refine Safe.forLoop _ 0 _ (wfZeros hs.pos hs.int (gather_small hs hi)) fun i r _ h hr => Safe.ite (fun _ => ?_) fun _ => ?_
  · exact (Safe.rd (by omega)).bind fun k hk => (Safe.getD s k).bind fun x _ => (Safe.putD r hr i x).mono fun _ h => h.wf
  · exact (Safe.rd (by omega)).bind fun k hk => (Safe.getA hs (hi.1 k hk)).bind fun x _ => (Safe.putA r hr i x).mono fun _ h => h.wf

/-- The callback has no undefined behaviour. -/
def Cb {δ : Type} (I : σ → Prop) (cb : γ → Nat → Eff σ δ) : Prop := ∀ x i, SafeE I (fun _ => True) (cb x i)

theorem findLoop {get : Nat → Res γ} {p : γ → Nat → Eff σ Bool} (dflt : γ) (hp : Cb I p) : ∀ (n i : Nat), (∀ k, i ≤ k → k < i + n → Safe (fun _ => True) (get k)) →
    SafeE I (fun _ => True) (DF.findLoop get p dflt i n)
  | 0, _, _ => pure trivial
  | n + 1, i, hg => by
    refine (lift (hg i le_rfl (by omega))).bind fun x _ => (hp x i).bind fun b _ => ite (fun _ => pure trivial) fun _ => ?_
    exact findLoop dflt hp n (i + 1) fun k h1 h2 => hg k (by omega) (by omega)

theorem forEachS {cb : α → Nat → Eff σ Unit} (hcb : ∀ x i, i < s.count → SafeE I (fun _ => True) (cb x i)) : SafeE I (fun _ => True) (DF.forEachS cb s) := by
  refine ite (fun _ => throw _) fun _ => forLoop _ 0 () trivial fun i _ _ hi _ => ?_
  exact (lift (Safe.getD s i)).bind fun x _ => hcb x i (by omega)

theorem forEachV {cb : List α → Nat → Eff σ Unit} (hs : WF s) (hcb : ∀ v i, v.length = s.itemSize → i < s.count → SafeE I (fun _ => True) (cb v i)) :
    SafeE I (fun _ => True) (DF.forEachV cb s) := by
  refine ite (fun _ => throw _) fun _ => forLoop _ 0 () trivial fun i _ _ hi _ => ?_
  exact (lift (Safe.getA hs (by omega))).bind fun x hx => hcb x i hx (by omega)

theorem forEachG {cbD : α → Nat → Eff σ Unit} {cbA : List α → Nat → Eff σ Unit} (hs : WF s) (hD : Cb I cbD) (hA : Cb I cbA) :
    SafeE I (fun _ => True) (DF.forEachG cbD cbA s) := by
  refine forLoop _ 0 () trivial fun i _ _ hi _ => ite (fun _ => ?_) fun _ => ?_
  · exact (lift (Safe.getD s i)).bind fun x _ => hD x i
  · exact (lift (Safe.getA hs (by omega))).bind fun x _ => hA x i

theorem reduceS {cb : α → α → Nat → Eff σ α} (hcb : ∀ a x i, SafeE I (fun _ => True) (cb a x i)) (a : α) : SafeE I (fun _ => True) (DF.reduceS cb s a) :=
  forLoop _ 0 a trivial fun i b _ _ _ => (lift (Safe.getD s i)).bind fun x _ => hcb b x i

theorem reduceV {cb : List α → List α → Nat → Eff σ (List α)} (hs : WF s) (hcb : ∀ a x i, SafeE I Item (cb a x i)) {a : List α} (ha : Item a) :
    SafeE I (fun _ => True) (DF.reduceV cb s a) := by
  refine (forLoop (J := Item) _ 0 a ha fun i b _ hi _ => (lift (Safe.getA hs (by omega))).bind fun x _ => hcb b x i).bind fun r hr => ?_
  exact (ofArr r hr.u32).mono fun _ _ => trivial

theorem checkS [Zero α] [One α] {cb : α → Nat → Eff σ Bool} (hcb : Cb I cb) : SafeE I (fun _ => True) (DF.checkS s cb) := by
  refine (forLoop (J := fun _ => True) _ 0 [] trivial fun i r _ _ _ => ?_).bind fun r _ => (ofArr r one_ne_zero).mono fun _ _ => trivial
  exact (lift (Safe.getD s i)).bind fun x _ => (hcb x i).bind fun y _ => pure trivial

theorem checkV [Zero α] [One α] {cb : List α → Nat → Eff σ Bool} (hs : WF s) (hcb : Cb I cb) : SafeE I (fun _ => True) (DF.checkV s cb) := by
  refine (forLoop (J := fun _ => True) _ 0 [] trivial fun i r _ hi _ => ?_).bind fun r _ => (ofArr r one_ne_zero).mono fun _ _ => trivial
  exact (lift (Safe.getA hs (by omega))).bind fun x _ => (hcb x i).bind fun y _ => pure trivial

end SafeE

end DF
