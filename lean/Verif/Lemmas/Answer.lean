import Verif.Spec.Answer
import Verif.Lemmas.Attributes
import Verif.Lemmas.SafeMore

/-!
# What the decomposers answer
-/

namespace DF

open Spec

variable {α : Type}

theorem fitting_empty [Zero α] (k : Nat) : Fitting k (Serie.empty : Serie α) := fun h => by cases h

theorem pickItem_safe [Zero α] {s : Serie α} (h : WF s) {i : Nat} (hi : i < s.itemSize) : Safe (Fitting 1) (pickItem i s) := by
  rcases Nat.eq_zero_or_pos s.count with h0 | h0
  · have : pickItem i s = .ok Serie.empty := by
      unfold pickItem mapArr mapVV
      rw [if_pos h0]
      rfl
    rw [this]
    exact fitting_empty 1
  · obtain ⟨r, e, hr, h1, _⟩ := pickItem_eq h h0 hi
    exact Safe.of_ok e fun _ => ⟨hr, h1⟩

section components

variable [Zero α] {d : Dataframe α}

theorem get_cases (hr : ReachableFrame d) (n : String) : d.get n = Serie.empty ∨ Stored d n (d.get n) := by
  by_cases h : ∃ s, Stored d n s
  · obtain ⟨s, hs⟩ := h
    right
    rw [hr.get hs]
    exact hs
  · left
    exact get_missing fun s hs => h ⟨s, hs⟩

theorem get_dim (hr : ReachableFrame d) (n : String) : (d.get n).dimension = 3 := by
  rcases get_cases hr n with h | h
  · rw [h]; rfl
  · exact hr.dim h

theorem suffixIndex_some {x n : String} {l : List String} {i : Nat} (h : suffixIndex x n l = some i) : ∃ y, l[i]? = some y ∧ x = n ++ y := by
  unfold suffixIndex at h
  rw [List.findIdx?_eq_some_iff_getElem] at h
  obtain ⟨hi, h1, _⟩ := h
  exact ⟨l[i], List.getElem?_eq_getElem hi, by simpa using h1⟩

theorem pickPart (hr : ReachableFrame d) (hw : ∀ e ∈ d.series, WF e.2) {n : String} {i : Nat} (hv : (d.get n).isValid = true)
    (hi : Stored d n (d.get n) → i < (d.get n).itemSize) : Safe (Fitting 1) (pickItem i (d.get n)) := by
  rcases get_cases hr n with h | h
  · rw [h] at hv; cases hv
  · exact pickItem_safe (hw _ h) (hi h)

theorem components_safe (hr : ReachableFrame d) (hw : ∀ e ∈ d.series, WF e.2) {x : String} (hx : HasParts d x) (k : Nat) :
    Safe (fun r => Fitting (if k ≤ 1 then 1 else k) r) (componentsSerie d k x) := by
  unfold componentsSerie
  refine Safe.ite (fun _ => fitting_empty _) fun hk => ?_
  rw [if_pos (by omega)]
  simp only [copy_eq]
  cases e : vectorIndex x (dropEnd x 1) (d.get (dropEnd x 1)) with
  | some i =>
    unfold vectorIndex at e
    split at e
    · rename_i hv
      rw [if_neg (by rw [get_dim hr]; decide)] at e
      refine pickPart hr hw hv fun hs => ?_
      obtain ⟨y, hy, hxy⟩ := suffixIndex_some e
      refine hx _ hs (y, i) ?_ hxy
      have : (y, i) ∈ vector3Names.zipIdx := List.mem_zipIdx_iff_getElem?.2 hy
      revert this
      simp only [vector3Names, readBy, List.zipIdx_cons, List.zipIdx_nil, List.mem_cons, List.not_mem_nil, or_false, Prod.mk.injEq]
      rintro (⟨rfl, rfl⟩ | ⟨rfl, rfl⟩ | ⟨rfl, rfl⟩) <;> simp
    · cases e
  | none =>
    simp only []
    rw [assign_same (by rw [get_dim hr, get_dim hr])]
    cases e2 : matrixIndex x (dropEnd x 2) (d.get (dropEnd x 2)) with
    | some i =>
      unfold matrixIndex at e2
      split at e2
      · rename_i hv
        rw [if_neg (by rw [get_dim hr]; decide)] at e2
        refine pickPart hr hw hv fun hs => ?_
        cases e3 : suffixIndex x (dropEnd x 2) smatrix3Names with
        | some j =>
          rw [e3] at e2
          cases e2
          obtain ⟨y, hy, hxy⟩ := suffixIndex_some e3
          refine hx _ hs (y, i) ?_ hxy
          have : (y, i) ∈ smatrix3Names.zipIdx := List.mem_zipIdx_iff_getElem?.2 hy
          revert this
          simp only [smatrix3Names, readBy, List.zipIdx_cons, List.zipIdx_nil, List.mem_cons, List.not_mem_nil, or_false, Prod.mk.injEq]
          rintro (⟨rfl, rfl⟩ | ⟨rfl, rfl⟩ | ⟨rfl, rfl⟩ | ⟨rfl, rfl⟩ | ⟨rfl, rfl⟩ | ⟨rfl, rfl⟩) <;> simp
        | none =>
          rw [e3] at e2
          obtain ⟨y, hy, hxy⟩ := suffixIndex_some e2
          refine hx _ hs (y, i) ?_ hxy
          have : (y, i) ∈ matrix3Names.zipIdx := List.mem_zipIdx_iff_getElem?.2 hy
          have hno : ∀ z ∈ smatrix3Names, y ≠ z := by
            rintro z hz rfl
            unfold suffixIndex at e3
            rw [List.findIdx?_eq_none_iff] at e3
            have := e3 y hz
            simp only [decide_eq_false_iff_not] at this
            exact this hxy
          revert this hno
          simp only [matrix3Names, smatrix3Names, readBy, List.zipIdx_cons, List.zipIdx_nil, List.mem_cons, List.not_mem_nil, or_false, Prod.mk.injEq]
          rintro (⟨rfl, rfl⟩ | ⟨rfl, rfl⟩ | ⟨rfl, rfl⟩ | ⟨rfl, rfl⟩ | ⟨rfl, rfl⟩ | ⟨rfl, rfl⟩ | ⟨rfl, rfl⟩ | ⟨rfl, rfl⟩ | ⟨rfl, rfl⟩) <;> simp
      · cases e2
    | none =>
      simp only []
      rw [assign_same (by rw [get_dim hr, get_dim hr])]
      cases e3 : numberIndex k x (dropEnd x 1) (d.get (dropEnd x 1)) with
      | none => exact fitting_empty 1
      | some i =>
        unfold numberIndex at e3
        split at e3
        · rename_i hv
          refine pickPart hr hw hv fun hs => ?_
          obtain ⟨y, hy, _⟩ := suffixIndex_some e3
          have hi : i < k := by
            have := List.getElem?_eq_some_iff.1 hy
            obtain ⟨h, _⟩ := this
            simpa [numberNames] using h
          have : 0 < (d.get (dropEnd x 1)).itemSize := (hw _ hs).pos
          omega
        · cases e3

theorem pickItem_fitting {s : Serie α} (h : WF s) {i : Nat} {r : Serie α} (e : pickItem i s = .ok r) : Fitting 1 r := by
  by_cases hi : i < s.itemSize
  · have := pickItem_safe h hi
    rw [e] at this
    exact this
  · rcases Nat.eq_zero_or_pos s.count with h0 | h0
    · unfold pickItem mapArr mapVV at e
      rw [if_pos h0] at e
      cases e
      exact fitting_empty 1
    · rw [pickItem_ub h h0 (by omega)] at e
      cases e

theorem pickGet (hr : ReachableFrame d) (hw : ∀ e ∈ d.series, WF e.2) {n : String} {i : Nat} {r : Serie α}
    (e : pickItem i (d.get n) = .ok r) : Fitting 1 r := by
  rcases get_cases hr n with h | h
  · rw [h] at e
    cases e
    exact fitting_empty 1
  · exact pickItem_fitting (hw _ h) e

theorem components_fitting (hr : ReachableFrame d) (hw : ∀ e ∈ d.series, WF e.2) {x : String} {k : Nat} {r : Serie α}
    (e : componentsSerie d k x = .ok r) : Fitting (if k ≤ 1 then 1 else k) r := by
  unfold componentsSerie at e
  split at e
  · cases e
    exact fitting_empty _
  · rw [if_pos (by omega)]
    simp only [copy_eq] at e
    split at e
    · exact pickGet hr hw e
    · rw [assign_same (by rw [get_dim hr, get_dim hr])] at e
      split at e
      · exact pickGet hr hw e
      · rw [assign_same (by rw [get_dim hr, get_dim hr])] at e
        split at e
        · exact pickGet hr hw e
        · cases e
          exact fitting_empty _

theorem coordinates_fitting (hr : ReachableFrame d) (hw : ∀ e ∈ d.series, WF e.2) {names : List String} {x : String} {k : Nat} {r : Serie α}
    (e : (coordinates names).serie d k x = .ok r) : Fitting k r := by
  unfold coordinates at e
  simp only [] at e
  split at e
  · rename_i hk
    subst hk
    cases h : coordinateIndex names x 0 3 with
    | ok o =>
      rw [h, Res.ok_bind] at e
      cases o with
      | none => cases e; exact fitting_empty _
      | some i => exact pickGet hr hw e
    | throw t => rw [h] at e; cases e
    | ub => rw [h] at e; cases e
  · cases e
    exact fitting_empty _

end components

theorem lastCode_plain {n : String} {c : Char} (h1 : 3 < c.toNat) (h2 : c.toNat < 256) : ∃ i, lastCode (n ++ c.toString) = .ok i ∧ 3 < i := by
  unfold lastCode
  rw [String.toList_append, List.getLast?_append, show c.toString.toList = [c] from String.toList_singleton c]
  by_cases h : c.toNat < 128
  · refine ⟨c.toNat, ?_, h1⟩
    simp [h]
  · refine ⟨u32 (2 ^ 32 - 256 + c.toNat), ?_, ?_⟩
    · simp [h]
    · unfold u32
      rw [Nat.mod_eq_of_lt (by omega)]
      omega

theorem eigen_plain [Zero α] (size : Nat) (f : Serie α → Res (Serie α)) (d : Dataframe α) (k : Nat) {n : String} {c : Char} (h1 : 3 < c.toNat)
    (h2 : c.toNat < 256) : eigenSerie size f d k (n ++ c.toString) = .ok Serie.empty := by
  obtain ⟨i, e, hi⟩ := lastCode_plain (n := n) h1 h2
  unfold eigenSerie
  split
  · rfl
  · simp only []
    rw [e, Res.ok_bind]
    by_cases a : (d.get (dropEnd (n ++ c.toString) 1)).isValid = false
    · rw [if_pos a]; rfl
    · by_cases hd : (d.get (dropEnd (n ++ c.toString) 1)).dimension = 2
      · rw [if_neg a]
        split
        · rfl
        · rw [if_pos ⟨hd, .inr (by omega)⟩]; rfl
      · rw [if_neg a, if_neg (fun h => hd h.1), if_neg (fun h => hd h.1)]
        split
        · rfl
        · rw [if_pos ⟨hd, .inr (by omega)⟩]; rfl

theorem coordinateIndex_safe {names : List String} {x : String} : ∀ (n i : Nat), i + n ≤ names.length →
    Safe (fun o : Option Nat => ∀ j, o = some j → j < i + n) (coordinateIndex names x i n)
  | 0, i, _ => fun j h => by cases h
  | n + 1, i, h => by
    unfold coordinateIndex
    refine (Safe.rd (by omega)).bind fun y _ => Safe.ite (fun _ => ?_) fun _ => ?_
    · rintro j h
      cases h
      omega
    · exact (coordinateIndex_safe n (i + 1) (by omega)).mono fun o ho j hj => by have := ho j hj; omega

theorem coordinates_safe [Zero α] {d : Dataframe α} (hr : ReachableFrame d) {names : List String} (hn : 3 ≤ names.length)
    (hw : ∀ s, Stored d "positions" s → WF s ∧ 3 ≤ s.itemSize) (k : Nat) (x : String) :
    Safe (Fitting k) ((coordinates names).serie d k x) := by
  refine Safe.ite (fun hk => ?_) fun _ => fitting_empty _
  subst hk
  refine (coordinateIndex_safe 3 0 (by omega)).bind fun o ho => ?_
  cases o with
  | none => exact fitting_empty _
  | some i =>
    have hi := ho i rfl
    rcases get_cases hr "positions" with h | h
    · have : pickItem i (d.get "positions") = .ok Serie.empty := by rw [h]; rfl
      simp only []
      rw [this]
      exact fitting_empty _
    · exact pickItem_safe (hw _ h).1 (by have := (hw _ h).2; omega)

theorem firstAnswer_safe [Zero α] {d : Dataframe α} {k : Nat} {x : String} {P : Serie α → Prop} (h0 : P Serie.empty) :
    ∀ {ds : List (Decomposer α)}, (∀ dc ∈ ds, Safe P (dc.serie d k x)) → Safe P (Manager.firstAnswer d k x ds)
  | [], _ => h0
  | dc :: ds, h => by
    unfold Manager.firstAnswer
    refine (h dc (by simp)).bind fun r hr => Safe.ite (fun _ => hr) fun _ => ?_
    exact firstAnswer_safe h0 fun dc hd => h dc (by simp [hd])

theorem clone_safe {s : Serie α} (h : WF s) : Safe (Fitting s.itemSize) s.clone := by
  have hp := h.pos
  have hi := h.int
  have hl := h.small
  unfold Serie.clone Serie.ofArray Serie.divCount
  rw [if_neg (by omega), Res.ok_bind]
  intro _
  refine ⟨⟨hp, hi, ?_, hl⟩, rfl⟩
  show u32 (s.data.length / sizeT s.itemSize) * s.itemSize ≤ s.data.length
  rw [h.sizeT_eq]
  have : u32 (s.data.length / s.itemSize) ≤ s.data.length / s.itemSize := Nat.mod_le _ _
  exact (Nat.mul_le_mul_right _ this).trans (Nat.div_mul_le_self _ _)

theorem storedSerie_mem {k : Nat} {n : String} {s : Serie α} : ∀ {l : List (String × Serie α)}, Manager.storedSerie k n l = some s →
    (n, s) ∈ l ∧ s.itemSize = k
  | [], h => by cases h
  | (m, t) :: l, h => by
    unfold Manager.storedSerie at h
    split at h
    · split at h
      · rename_i h1 h2
        cases h
        subst h2
        exact ⟨by simp, h1⟩
      · have := storedSerie_mem h
        exact ⟨by simp [this.1], this.2⟩
    · have := storedSerie_mem h
      exact ⟨by simp [this.1], this.2⟩

theorem manager_safe [Zero α] {m : Manager α} {k : Nat} {x : String} {P : Serie α → Prop} (h0 : P Serie.empty)
    (hw : ∀ e ∈ m.df.series, e.1 = x → e.2.itemSize = k → WF e.2) (hf : ∀ r, Fitting k r → P r)
    (h : ∀ dc ∈ m.ds, Safe P (dc.serie m.df k x)) : Safe P (m.serie k x) := by
  unfold Manager.serie
  cases e : Manager.storedSerie k x m.df.series with
  | none => exact firstAnswer_safe h0 h
  | some s =>
    obtain ⟨h1, h2⟩ := storedSerie_mem e
    have := clone_safe (hw _ h1 rfl h2)
    rw [h2] at this
    exact this.mono hf

end DF
