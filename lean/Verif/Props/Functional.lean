import Verif.Lemmas.Functional
import Verif.Props.Serie

/-!
# Properties of map, filter, reject, find, forEach, reduce, partition (C08-C18, C21, C73)

`items s` and `scalars s` are the items/numbers of `s` in order (`Verif/Spec/Serie.lean`; C06 shows they are what
the accessors return). `logged f` is a callback that behaves as `f` and records each call with its index; the
theorems give the result and the exact sequence of calls (`l.zipIdx = [(l₀,0), (l₁,1), ...]`).
The theorems named `_stateful` cover callbacks with arbitrary state and effects: `callAll cb l` makes the calls
`cb l₀ 0`, `cb l₁ 1`, ... in this order, each once, and stops at the first exception.
-/

namespace DF

open Spec

variable {α β γ σ : Type}

/-! ## What the results `ofItems k its`, `ofScalars xs` look like through the accessors -/

/-- Reading the Serie made of given items gives these items. -/
theorem ofItems_observe {k d : Nat} {its : List (List α)} (hk : 0 < k) (hk' : k < 2 ^ 31)
    (h : ∀ v ∈ its, v.length = k) (hn : its.length * k < 2 ^ 32) :
    WF (ofItems k its d) ∧ (ofItems k its d).count = its.length ∧ (ofItems k its d).itemSize = k ∧
    ∀ i (hi : i < its.length), (ofItems k its d).getA i = .ok its[i] := by
  have hw := WF_ofItems (d := d) hk hk' h hn
  refine ⟨hw, rfl, rfl, fun i hi => ?_⟩
  have := Serie.getA_items hw (i := i) (by simpa [ofItems] using hi)
  rw [this]; simp [items_ofItems h]

/-- Reading the Serie made of given numbers gives these numbers. -/
theorem ofScalars_observe {d : Nat} {xs : List α} (hn : xs.length < 2 ^ 32) :
    WF (ofScalars xs d) ∧ (ofScalars xs d).count = xs.length ∧ (ofScalars xs d).itemSize = 1 ∧
    ∀ i (hi : i < xs.length), (ofScalars xs d).getD i = .ok xs[i] := by
  refine ⟨WF_ofScalars hn, rfl, rfl, fun i hi => ?_⟩
  rw [Serie.getD_eq (by simpa [ofScalars] using hi)]; simp [ofScalars]

theorem run_ok {x : Eff σ β} {g : β → γ} {st st' : σ} {b : β} (h : x st = (.ok b, st')) :
    (x >>= fun b => pure (g b)) st = (.ok (g b), st') := by rw [Eff.bind_ok h]; rfl

/-! ## C08 -/

/-- C08, number to number. -/
theorem C08_map_number_to_number {s : Serie α} (h : WF s) (f : α → Nat → Res α) :
    (∀ ys, AllReturn f (scalars s) ys →
      mapSS (logged f) s [] = (.ok (ofScalars ys), (scalars s).zipIdx)) ∧
    (∀ k e, ThrowsAt f (scalars s) k e →
      mapSS (logged f) s [] = (.throw e, (scalars s).zipIdx.take (k + 1))) := by
  rw [mapSS_eq h]
  exact ⟨fun ys hy => run_ok (callAll_AllReturn hy []), fun k e hk => Eff.bind_throw (callAll_ThrowsAt hk [])⟩

example := (C08_map_number_to_number ex41_WF fun x i => .ok (x + (i : Int))).1 [5, 8, 11, 14] (by decide)
example := (C08_map_number_to_number ex41_WF fun x _ => if x = 9 then .throw (.stdOther 7) else .ok x).2 2 (.stdOther 7)
  (by decide)

/-- C08, array to number. -/
theorem C08_map_array_to_number {s : Serie α} (h : WF s) (f : List α → Nat → Res α) :
    (∀ ys, AllReturn f (items s) ys →
      mapVS (logged f) s [] = (.ok (ofScalars ys), (items s).zipIdx)) ∧
    (∀ k e, ThrowsAt f (items s) k e →
      mapVS (logged f) s [] = (.throw e, (items s).zipIdx.take (k + 1))) := by
  rw [mapVS_eq h]
  exact ⟨fun ys hy => run_ok (callAll_AllReturn hy []), fun k e hk => Eff.bind_throw (callAll_ThrowsAt hk [])⟩

example := (C08_map_array_to_number exTail_WF fun v i => .ok (v.sum + (i : Int))).1 [6, 16] (by decide)
example := (C08_map_array_to_number exTail_WF fun v i => if i = 1 then .throw (.stdOther 7) else .ok v.sum).2 1 (.stdOther 7)
  (by decide)

/-- C08, number to array: all calls return arrays of one size `n`. The failing cases are in C10. -/
theorem C08_map_number_to_array [Zero α] {s : Serie α} (h : WF s) (h0 : 0 < s.count)
    (f : α → Nat → Res (List α)) (ys : List (List α)) (n : Nat) (hy : AllReturn f (scalars s) ys)
    (hn : 0 < n) (hn' : n < 2 ^ 31) (hsz : ∀ y ∈ ys, y.length = n) (hfit : s.count * n < 2 ^ 32) :
    mapSV (logged f) s [] = (.ok (ofItems n ys), (scalars s).zipIdx) := by
  rw [mapSV_eq h, sizedMap_ok hy (by rw [← List.length_pos_iff, h.scalars_length]; exact h0) hn hn' hsz
    (by rw [h.scalars_length]; exact hfit)]
  simp

example := C08_map_number_to_array ex41_WF (by decide) (fun x i => .ok [x, (i : Int)]) [[5, 0], [7, 1], [9, 2], [11, 3]] 2
  (by decide) (by decide) (by decide) (by decide) (by decide)

/-- C08, array to array: all calls return arrays of one size `n`. The failing cases are in C10. -/
theorem C08_map_array_to_array [Zero α] {s : Serie α} (h : WF s) (h0 : 0 < s.count)
    (f : List α → Nat → Res (List α)) (ys : List (List α)) (n : Nat) (hy : AllReturn f (items s) ys)
    (hn : 0 < n) (hn' : n < 2 ^ 31) (hsz : ∀ y ∈ ys, y.length = n) (hfit : s.count * n < 2 ^ 32) :
    mapVV (logged f) s [] = (.ok (ofItems n ys), (items s).zipIdx) := by
  rw [mapVV_eq h, sizedMap_ok hy (by rw [← List.length_pos_iff, items_length]; exact h0) hn hn' hsz
    (by rw [items_length]; exact hfit)]
  simp

example := C08_map_array_to_array exTail_WF (by decide) (fun v i => .ok [v.sum, (i : Int)]) [[6, 0], [15, 1]] 2
  (by decide) (by decide) (by decide) (by decide) (by decide)

/-- C08 for callbacks with arbitrary effects, number to number. -/
theorem C08_map_number_to_number_stateful {s : Serie α} (h : WF s) (cb : α → Nat → Eff σ α) :
    mapSS cb s = callAll cb (scalars s) >>= fun ys => pure (ofScalars ys) := mapSS_eq h cb

example := C08_map_number_to_number_stateful ex41_WF fun (x : Int) i => fun (st : Nat) => (.ok (x + st + i), st + 1)

/-- C08 for callbacks with arbitrary effects, array to number. -/
theorem C08_map_array_to_number_stateful {s : Serie α} (h : WF s) (cb : List α → Nat → Eff σ α) :
    mapVS cb s = callAll cb (items s) >>= fun ys => pure (ofScalars ys) := mapVS_eq h cb

example := C08_map_array_to_number_stateful exTail_WF fun (v : List Int) i => fun (st : Nat) => (.ok (v.sum + st + i), st + 1)

/-- C08 through the accessors: item `i` of `map(f, s)` is `f(item i of s, i)`. -/
theorem C08_map_observe [Zero α] {s : Serie α} (h : WF s) (h0 : 0 < s.count) (f : List α → Nat → List α)
    (n : Nat) (hn : 0 < n) (hn' : n < 2 ^ 31) (hsz : ∀ v i, (f v i).length = n)
    (hfit : s.count * n < 2 ^ 32) :
    ∃ r, mapVV (logged fun v i => .ok (f v i)) s [] = (.ok r, (items s).zipIdx) ∧ WF r ∧
      r.count = s.count ∧ r.itemSize = n ∧
      ∀ i, i < s.count → ∃ v, s.getA i = .ok v ∧ r.getA i = .ok (f v i) := by
  have hsz' : ∀ y ∈ (items s).mapIdx (fun i v => f v i), y.length = n := by
    intro y hy
    obtain ⟨i, hi, rfl⟩ := List.mem_iff_getElem.1 hy
    rw [List.getElem_mapIdx]; exact hsz _ _
  have := C08_map_array_to_array h h0 (fun v i => .ok (f v i)) ((items s).mapIdx (fun i v => f v i)) n
    ⟨by simp, fun i h1 h2 => by simp⟩ hn hn' hsz' hfit
  have hob := ofItems_observe (d := 3) hn hn' hsz' (by simpa using hfit)
  refine ⟨_, this, hob.1, by simp [hob.2.1], hob.2.2.1, fun i hi => ?_⟩
  refine ⟨_, Serie.getA_items h (i := i) (by simpa using hi), ?_⟩
  rw [hob.2.2.2 i (by simpa using hi)]; simp

example := C08_map_observe exTail_WF (by decide) (fun v i => [v.sum, (i : Int)]) 2 (by decide) (by decide)
  (fun _ _ => rfl) (by decide)

example : AllReturn (fun x i => .ok (x + (i : Int))) (scalars ex41) [5, 8, 11, 14] ∧
    ThrowsAt (fun (x : Int) _ => if x = 9 then .throw (.stdOther 7) else .ok x) (scalars ex41) 2 (.stdOther 7) := by
  refine ⟨⟨rfl, ?_⟩, ?_, by decide, rfl⟩
  · intro i h h'
    match i, h with
    | 0, _ => rfl
    | 1, _ => rfl
    | 2, _ => rfl
    | 3, _ => rfl
  · intro i h hk
    match i, hk with
    | 0, _ => exact ⟨5, rfl⟩
    | 1, _ => exact ⟨7, rfl⟩

example : mapSS (logged fun (x : Int) _ => if x = 9 then .throw (.stdOther 7) else .ok (2 * x)) ex41 [] =
    (.throw (.stdOther 7), [(5, 0), (7, 1), (9, 2)]) := rfl

/-! ## C09 -/

/-- C09: mapping the identity gives the same items. -/
theorem C09_map_id [Zero α] {s : Serie α} (h : WF s) (h0 : 0 < s.count) (st : σ) :
    ∃ r, mapVV (pureCb fun v _ => v) s st = (.ok r, st) ∧ items r = items s ∧ r.itemSize = s.itemSize ∧
      r.count = s.count := by
  have hne : items s ≠ [] := by rw [← List.length_pos_iff, items_length]; exact h0
  have key : sizedMap (pureCb fun v _ => v) (items s) st = (.ok (ofItems s.itemSize (items s)), st) := by
    have hall : ∀ v ∈ items s, v.length = s.itemSize := fun v hv => h.item_length hv
    have hfl := ofArray_rows h.pos h.int hall (by rw [items_length]; exact Nat.lt_of_le_of_lt h.fits h.small)
    cases hi : items s with
    | nil => exact absurd hi hne
    | cons x l =>
      rw [hi] at hall hfl
      have hx : x.length = s.itemSize := hall x (by simp)
      rw [sizedMap_cons]
      have hc : callAll (fun v i => (pureCb (fun v _ => v) v i : Eff σ (List α)) >>= fun y =>
          if y.length ≠ x.length then Eff.throw .runtimeError else pure y) l 1 = pure l := by
        have : ∀ (l : List (List α)) (lo : Nat), (∀ v ∈ l, v.length = x.length) →
          callAll (fun v i => (pureCb (fun v _ => v) v i : Eff σ (List α)) >>= fun y =>
          if y.length ≠ x.length then Eff.throw .runtimeError else pure y) l lo = pure l := by
          intro l
          induction l with
          | nil => intro lo _; simp
          | cons v l ih =>
            intro lo hv
            rw [callAll_cons, ih _ (fun w hw => hv w (by simp [hw]))]
            simp [pureCb, hv v (by simp)]
        exact this l 1 (fun v hv => by rw [hall v (by simp [hv]), hx])
      show ((callAll _ l 1 >>= fun rest => _) : Eff σ (Serie α)) st = _
      rw [hc, pure_bind, hx, u32_of_lt (by have := h.int; omega)]
      simp only [List.flatten_cons] at hfl
      rw [hfl]; rfl
  rw [mapVV_eq h]
  exact ⟨_, key, items_ofItems (fun v hv => h.item_length hv), rfl, by simp [ofItems]⟩

example := C09_map_id exTail_WF (by decide) ()

/-- Result of `map` with a callback of constant output size. -/
theorem map_const_size [Zero α] {s : Serie α} (h : WF s) (h0 : 0 < s.count) (f : List α → Nat → List α)
    (k : Nat) (hk : 0 < k) (hk' : k < 2 ^ 31) (hsz : ∀ v i, (f v i).length = k)
    (hfit : s.count * k < 2 ^ 32) (st : σ) :
    mapVV (pureCb f) s st = (.ok (ofItems k ((items s).mapIdx (fun i v => f v i))), st) := by
  have hne : items s ≠ [] := by rw [← List.length_pos_iff, items_length]; exact h0
  rw [mapVV_eq h]
  have hall : ∀ v ∈ (items s).mapIdx (fun i v => f v i), v.length = k := by
    intro y hy
    obtain ⟨i, hi, rfl⟩ := List.mem_iff_getElem.1 hy
    rw [List.getElem_mapIdx]; exact hsz _ _
  have hfl := ofArray_rows hk hk' hall (by simpa using hfit)
  cases hi : items s with
  | nil => exact absurd hi hne
  | cons x l =>
    rw [hi] at hall hfl
    rw [sizedMap_cons]
    have hc : callAll (fun v i => (pureCb f v i : Eff σ (List α)) >>= fun y =>
        if y.length ≠ (f x 0).length then Eff.throw .runtimeError else pure y) l 1 =
        pure ((l.zipIdx 1).map (fun p => f p.1 p.2)) := by
      rw [← callAll_pureCb]
      congr 1; funext v i
      simp [pureCb, hsz]
    show ((callAll _ l 1 >>= fun rest => _) : Eff σ (Serie α)) st = _
    rw [hc, pure_bind, hsz, u32_of_lt (by omega)]
    rw [List.mapIdx_eq_zipIdx_map] at hfl
    simp only [List.zipIdx_cons, List.map_cons, List.flatten_cons, Nat.zero_add] at hfl
    rw [hfl, List.mapIdx_eq_zipIdx_map]; rfl

/-- C09: mapping `f` then `g` is mapping their composition. -/
theorem C09_map_comp [Zero α] {s : Serie α} (h : WF s) (h0 : 0 < s.count) (f g : List α → Nat → List α)
    (k m : Nat) (hk : 0 < k) (hk' : k < 2 ^ 31) (hm : 0 < m) (hm' : m < 2 ^ 31)
    (hf : ∀ v i, (f v i).length = k) (hg : ∀ v i, (g v i).length = m)
    (hfit : s.count * k < 2 ^ 32) (hfit' : s.count * m < 2 ^ 32) (st : σ) :
    ∃ t r, mapVV (pureCb f) s st = (.ok t, st) ∧ mapVV (pureCb g) t st = (.ok r, st) ∧
      mapVV (pureCb fun v i => g (f v i) i) s st = (.ok r, st) := by
  have hall : ∀ v ∈ (items s).mapIdx (fun i v => f v i), v.length = k := by
    intro y hy
    obtain ⟨i, hi, rfl⟩ := List.mem_iff_getElem.1 hy
    rw [List.getElem_mapIdx]; exact hf _ _
  refine ⟨_, _, map_const_size h h0 f k hk hk' hf hfit st,
    map_const_size (WF_ofItems hk hk' hall (by simpa using hfit)) (by simpa [ofItems] using h0) g m hm hm' hg
      (by simpa [ofItems] using hfit') st, ?_⟩
  rw [map_const_size h h0 _ m hm hm' (fun v i => hg _ _) hfit' st, items_ofItems hall, List.mapIdx_mapIdx]
  rfl

example := C09_map_comp exTail_WF (by decide) (fun v i => [v.sum, (i : Int)]) (fun v i => [v.sum, (i : Int), 2]) 2 3
  (by decide) (by decide) (by decide) (by decide) (fun _ _ => rfl) (fun _ _ => rfl) (by decide) (by decide) ()

/-- C09 for number-to-number callbacks, also on empty Series. -/
theorem C09_map_scalar_id_comp {s : Serie α} (h : WF s) (f g : α → Nat → α) (st : σ) :
    mapSS (pureCb fun x _ => x) s st = (.ok (ofScalars (scalars s)), st) ∧
    ∃ t r, mapSS (pureCb f) s st = (.ok t, st) ∧ mapSS (pureCb g) t st = (.ok r, st) ∧
      mapSS (pureCb fun x i => g (f x i) i) s st = (.ok r, st) := by
  have hl : ((scalars s).mapIdx (fun i x => f x i)).length < 2 ^ 32 := by
    rw [List.length_mapIdx, h.scalars_length]; exact h.count_lt
  have e : ∀ (t : Serie α) (_ : WF t) (u : α → Nat → α),
      mapSS (pureCb u) t st = (.ok (ofScalars ((scalars t).mapIdx (fun i x => u x i))), st) := by
    intro t ht u; rw [mapSS_eq ht, callAll_pure]; rfl
  refine ⟨?_, _, _, e s h f, e _ (WF_ofScalars hl) g, ?_⟩
  · rw [e s h]; simp [List.mapIdx_eq_zipIdx_map]
  · rw [e s h, scalars_ofScalars, List.mapIdx_mapIdx]; rfl

example := C09_map_scalar_id_comp ex41_WF (fun x i => x + (i : Int)) (fun x i => x * (i : Int)) ()

example : mapVV (pureCb (σ := Unit) fun v i => v.map (· + (i : Int))) ex23 () =
    (.ok ⟨[1, 2, 3, 5, 6, 7], 2, 3, 3⟩, ()) := rfl

/-! ## C10 -/

/-- C10: a row whose size differs from that of the first one makes `map` throw `runtime_error`, right after the
call that returned it. The first alternative of `hbad` is a callback that throws itself. -/
theorem C10_ragged_throws [Zero α] {s : Serie α} (h : WF s) (f : List α → Nat → Res (List α)) (k : Nat)
    (e : Err) (hk : k < (items s).length)
    (hpre : ∀ i (hi : i < (items s).length), i < k → ∃ y y0, f (items s)[i] i = .ok y ∧
      f ((items s)[0]'(by omega)) 0 = .ok y0 ∧ y.length = y0.length)
    (hbad : f (items s)[k] k = .throw e ∨ e = .runtimeError ∧ ∃ y y0, f (items s)[k] k = .ok y ∧
      f ((items s)[0]'(by omega)) 0 = .ok y0 ∧ y.length ≠ y0.length) :
    mapVV (logged f) s [] = (.throw e, (items s).zipIdx.take (k + 1)) := by
  rw [mapVV_eq h, sizedMap_throw hk hpre hbad]; simp

example := C10_ragged_throws ex23_WF (fun v i => .ok (v.take (3 - i))) 1 .runtimeError (by decide)
  (by
    intro i hi h
    obtain rfl : i = 0 := by omega
    exact ⟨_, _, rfl, rfl, rfl⟩)
  (.inr ⟨rfl, _, _, rfl, rfl, by decide⟩)

/-- C10, callbacks taking a number. -/
theorem C10_ragged_throws_number [Zero α] {s : Serie α} (h : WF s) (f : α → Nat → Res (List α)) (k : Nat)
    (e : Err) (hk : k < (scalars s).length)
    (hpre : ∀ i (hi : i < (scalars s).length), i < k → ∃ y y0, f (scalars s)[i] i = .ok y ∧
      f ((scalars s)[0]'(by omega)) 0 = .ok y0 ∧ y.length = y0.length)
    (hbad : f (scalars s)[k] k = .throw e ∨ e = .runtimeError ∧ ∃ y y0, f (scalars s)[k] k = .ok y ∧
      f ((scalars s)[0]'(by omega)) 0 = .ok y0 ∧ y.length ≠ y0.length) :
    mapSV (logged f) s [] = (.throw e, (scalars s).zipIdx.take (k + 1)) := by
  rw [mapSV_eq h, sizedMap_throw hk hpre hbad]; simp

example := C10_ragged_throws_number ex41_WF (fun x i => .ok (List.replicate (3 - i) x)) 1 .runtimeError (by decide)
  (by
    intro i hi h
    obtain rfl : i = 0 := by omega
    exact ⟨_, _, rfl, rfl, rfl⟩)
  (.inr ⟨rfl, _, _, rfl, rfl, by decide⟩)

/-- All rows collected by a sized map have the size of the first one. -/
theorem callAll_sized {cb : γ → Nat → Eff σ (List α)} {n : Nat} : ∀ (l : List γ) (lo : Nat) (st st' : σ)
    (ys : List (List α)), callAll (fun x i => cb x i >>= fun y =>
      if y.length ≠ n then Eff.throw .runtimeError else pure y) l lo st = (.ok ys, st') →
    ∀ y ∈ ys, y.length = n := by
  intro l
  induction l with
  | nil => intro lo st st' ys h; rw [callAll_nil, Eff.pure_def] at h; simp at h; simp [h.1]
  | cons x l ih =>
    intro lo st st' ys h
    rw [callAll_cons] at h
    obtain ⟨y, st1, h1, h⟩ := bind_inv h
    obtain ⟨zs, st2, h2, h⟩ := bind_inv h
    obtain ⟨y', st3, h3, h4⟩ := bind_inv h1
    have hy : y'.length = n ∧ y = y' := by
      by_cases hy : y'.length = n
      · simp [hy, Eff.pure_def] at h4; exact ⟨hy, h4.1.symm⟩
      · simp [hy, Eff.throw, Eff.lift] at h4
    simp [Eff.pure_def] at h
    intro z hz
    rw [← h.1] at hz
    rcases List.mem_cons.1 hz with rfl | hz
    · rw [hy.2]; exact hy.1
    · exact ih (lo + 1) st1 st2 zs h2 z hz

theorem sizedMap_shape {cb : γ → Nat → Eff σ (List α)} {l : List γ} {st st' : σ} {r : Serie α}
    (hl : l ≠ []) (hr : sizedMap cb l st = (.ok r, st')) (hfit : r.data.length < 2 ^ 31) :
    r.count = l.length ∧ r.data.length = r.count * r.itemSize ∧ WF r := by
  cases l with
  | nil => exact absurd rfl hl
  | cons x l =>
    rw [sizedMap_cons] at hr
    obtain ⟨first, st1, h1, hr⟩ := bind_inv hr
    obtain ⟨rest, st2, h2, hr⟩ := bind_inv hr
    have hlen := callAll_length _ _ _ _ _ h2
    have hsz := callAll_sized _ _ _ _ _ h2
    have hall : ∀ v ∈ first :: rest, v.length = first.length := by
      intro v hv
      rcases List.mem_cons.1 hv with rfl | hv
      · rfl
      · exact hsz v hv
    simp only [Eff.lift, Prod.mk.injEq] at hr
    obtain ⟨hr, _⟩ := hr
    simp only [Serie.ofArray, Serie.divCount] at hr
    have hfl := flatten_length hall
    simp only [List.flatten_cons, List.length_cons] at hfl
    split at hr
    · simp at hr
    · rename_i hk0
      simp only [Res.ok_bind, Res.pure_eq, Res.ok.injEq] at hr
      subst hr
      simp only at hfit ⊢
      have hf1 : first.length < 2 ^ 31 := by
        have := List.length_append (as := first) (bs := rest.flatten); omega
      rw [u32_of_lt (n := first.length) (by omega)] at hk0 ⊢
      rw [sizeT_of_lt hf1, hfl, Nat.mul_div_cancel _ (by omega), hlen, List.length_cons]
      rw [hfl, hlen] at hfit
      have hle : l.length + 1 ≤ (l.length + 1) * first.length := Nat.le_mul_of_pos_right _ (by omega)
      rw [u32_of_lt (by omega)]
      refine ⟨rfl, rfl, ⟨by simp only; omega, hf1, ?_, ?_⟩⟩
      · exact Nat.le_of_eq (by simp only [hfl, hlen])
      · simp only; rw [hfl, hlen]; omega

/-- C10: whatever the callback does, when `map` returns on a non-empty Serie (and the result has fewer than `2^31`
numbers), the result holds exactly `count(s)` items all of one size and nothing more. -/
theorem C10_never_ragged [Zero α] {s : Serie α} (h : WF s) (h0 : 0 < s.count)
    (cb : List α → Nat → Eff σ (List α)) (st st' : σ) (r : Serie α) (hr : mapVV cb s st = (.ok r, st'))
    (hfit : r.data.length < 2 ^ 31) :
    r.count = s.count ∧ r.data.length = r.count * r.itemSize ∧ WF r := by
  rw [mapVV_eq h] at hr
  have := sizedMap_shape (by rw [← List.length_pos_iff, items_length]; exact h0) hr hfit
  rwa [items_length] at this

example := C10_never_ragged exTail_WF (by decide) (pureCb fun v i => [v.sum, (i : Int)]) () () ⟨[6, 0, 15, 1], 2, 2, 3⟩
  rfl (by decide)

/-- C10, callbacks taking a number. -/
theorem C10_never_ragged_number [Zero α] {s : Serie α} (h : WF s) (h0 : 0 < s.count)
    (cb : α → Nat → Eff σ (List α)) (st st' : σ) (r : Serie α) (hr : mapSV cb s st = (.ok r, st'))
    (hfit : r.data.length < 2 ^ 31) :
    r.count = s.count ∧ r.data.length = r.count * r.itemSize ∧ WF r := by
  rw [mapSV_eq h] at hr
  have := sizedMap_shape (by rw [← List.length_pos_iff, h.scalars_length]; exact h0) hr hfit
  rwa [h.scalars_length] at this

example := C10_never_ragged_number ex41_WF (by decide) (pureCb fun x i => [x, (i : Int)]) () ()
  ⟨[5, 0, 7, 1, 9, 2, 11, 3], 4, 2, 3⟩ rfl (by decide)

/-- C10: on an empty Serie, `map` with an array-valued callback returns an invalid empty Serie and calls
nothing. -/
theorem C10_empty [Zero α] {s : Serie α} (h0 : s.count = 0) (cbS : α → Nat → Eff σ (List α))
    (cbV : List α → Nat → Eff σ (List α)) (st : σ) :
    mapSV cbS s st = (.ok ⟨[], 0, 0, 3⟩, st) ∧ mapVV cbV s st = (.ok ⟨[], 0, 0, 3⟩, st) ∧
    (⟨[], 0, 0, 3⟩ : Serie α).isValid = false := by
  refine ⟨?_, ?_, rfl⟩ <;> simp [mapSV, mapVV, h0, Serie.zeros, u32, Eff.pure_def]

example := C10_empty (s := (⟨[], 0, 3, 3⟩ : Serie Int)) rfl (pureCb fun x _ => [x, x]) (pureCb fun v _ => v ++ v) ()

/-- C10: a callback returning empty arrays leads to a division by zero. -/
theorem C10_empty_rows_undefined [Zero α] {s : Serie α} (h : WF s) (h0 : 0 < s.count) (st : σ) :
    (mapVV (pureCb fun _ _ => ([] : List α)) s st).1 = .ub := by
  rw [mapVV_eq h]
  cases hi : items s with
  | nil => have := items_length s; rw [hi] at this; simp at this; omega
  | cons x l =>
    rw [sizedMap_cons]
    have hc : callAll (fun v i => (pureCb (fun _ _ => ([] : List α)) v i : Eff σ (List α)) >>= fun y =>
        if y.length ≠ ([] : List α).length then Eff.throw .runtimeError else pure y) l 1 =
        pure ((l.zipIdx 1).map (fun _ => [])) := by
      rw [← callAll_pureCb (f := fun (_ : List α) _ => ([] : List α))]; rfl
    show (((callAll _ l 1 >>= fun rest => _) : Eff σ (Serie α)) st).1 = _
    rw [hc]; rfl

example := C10_empty_rows_undefined exTail_WF (by decide) ()

example : mapVV (logged fun v i => .ok (v.take (3 - i))) ex23 [] =
    (.throw .runtimeError, [([1, 2, 3], 0), ([4, 5, 6], 1)]) := rfl

/-! ## C11 -/

/-- C11: counts that differ throw before any call. -/
theorem C11_counts_differ [Zero α] {ss : List (Serie α)} {s t : Serie α} (hs : s ∈ ss) (ht : t ∈ ss)
    (h : s.count ≠ t.count) (cbS : List (List α) → Nat → Eff σ α) (cbV : List (List α) → Nat → Eff σ (List α))
    (st : σ) :
    mapMultiS cbS ss st = (.throw .invalidArgument, st) ∧ mapMultiV cbV ss st = (.throw .invalidArgument, st) := by
  have := countAndCheck_throw hs ht h
  constructor <;> simp [mapMultiS, mapMultiV, this, Eff.lift]

example := C11_counts_differ (ss := [ex41, ex23]) (s := ex41) (t := ex23) (by simp) (by simp) (by decide)
  (pureCb fun r _ => r.length) (pureCb fun r _ => r.flatten) ()

/-- C11, part: for non-empty Series of equal counts, item `i` of the result is `f(s1_i, ..., sn_i, i)`, one call
per row in order, stopping at the first exception. Missing: empty Series (see `C11_violated`). -/
theorem C11_partial [Zero α] {ss : List (Serie α)} {n : Nat} (hne : ss ≠ []) (hw : ∀ s ∈ ss, WF s)
    (hc : ∀ s ∈ ss, s.count = n) (hn : 0 < n) (f : List (List α) → Nat → Res α) :
    (∀ ys, AllReturn f (rows ss n) ys →
      mapMultiS (logged f) ss [] = (.ok (ofScalars ys), (rows ss n).zipIdx)) ∧
    (∀ k e, ThrowsAt f (rows ss n) k e →
      mapMultiS (logged f) ss [] = (.throw e, (rows ss n).zipIdx.take (k + 1))) := by
  rw [mapMultiS_eq hne hw hc hn]
  exact ⟨fun ys hy => run_ok (callAll_AllReturn hy []), fun k e hk => Eff.bind_throw (callAll_ThrowsAt hk [])⟩

example := (C11_partial (ss := [exTail, ex23]) (n := 2) (by decide) (by decide) (by decide) (by decide)
  fun r i => .ok (r.flatten.sum + (i : Int))).1 [12, 31] (by decide)
example := (C11_partial (ss := [exTail, ex23]) (n := 2) (by decide) (by decide) (by decide) (by decide)
  fun r i => if i = 1 then .throw .lengthError else .ok r.flatten.sum).2 1 .lengthError (by decide)

/-- C10, several Series: when a result has another size than the first one `map` throws `runtime_error`, an exception of the
callback passes through; the calls made are those up to and including that row. -/
theorem C10_ragged_throws_multi [Zero α] {ss : List (Serie α)} {n : Nat} (hne : ss ≠ []) (hw : ∀ s ∈ ss, WF s)
    (hc : ∀ s ∈ ss, s.count = n) (hn : 0 < n) (f : List (List α) → Nat → Res (List α)) (k : Nat) (e : Err)
    (hk : k < (rows ss n).length)
    (hpre : ∀ i (hi : i < (rows ss n).length), i < k → ∃ y y0, f (rows ss n)[i] i = .ok y ∧
      f ((rows ss n)[0]'(by omega)) 0 = .ok y0 ∧ y.length = y0.length)
    (hbad : f (rows ss n)[k] k = .throw e ∨ e = .runtimeError ∧ ∃ y y0, f (rows ss n)[k] k = .ok y ∧
      f ((rows ss n)[0]'(by omega)) 0 = .ok y0 ∧ y.length ≠ y0.length) :
    mapMultiV (logged f) ss [] = (.throw e, (rows ss n).zipIdx.take (k + 1)) := by
  rw [mapMultiV_eq hne hw hc hn, sizedMap_throw hk hpre hbad]; simp

example := C10_ragged_throws_multi (ss := [exTail, ex23]) (n := 2) (by decide) (by decide) (by decide) (by decide)
  (fun r i => .ok (r.flatten.take (3 - i))) 1 .runtimeError (by decide)
  (by
    intro i hi h
    obtain rfl : i = 0 := by omega
    exact ⟨_, _, rfl, rfl, rfl⟩)
  (.inr ⟨rfl, _, _, rfl, rfl, by decide⟩)

/-- C10, several Series: whenever `map` returns, the result holds exactly as many items as the Series, all of one size. -/
theorem C10_never_ragged_multi [Zero α] {ss : List (Serie α)} {n : Nat} (hne : ss ≠ []) (hw : ∀ s ∈ ss, WF s)
    (hc : ∀ s ∈ ss, s.count = n) (hn : 0 < n) (cb : List (List α) → Nat → Eff σ (List α)) (st st' : σ) (r : Serie α)
    (hr : mapMultiV cb ss st = (.ok r, st')) (hfit : r.data.length < 2 ^ 31) :
    r.count = n ∧ r.data.length = r.count * r.itemSize ∧ WF r := by
  rw [mapMultiV_eq hne hw hc hn] at hr
  have := sizedMap_shape (by rw [← List.length_pos_iff, rows_length]; exact hn) hr hfit
  rwa [rows_length] at this

example := C10_never_ragged_multi (ss := [exTail, ex23]) (n := 2) (by decide) (by decide) (by decide) (by decide)
  (pureCb fun r i => [r.flatten.sum, (i : Int)]) () () ⟨[12, 0, 30, 1], 2, 2, 3⟩ rfl (by decide)

/-- C11, part, callbacks returning arrays of one size `m`. -/
theorem C11_partial_array [Zero α] {ss : List (Serie α)} {n : Nat} (hne : ss ≠ []) (hw : ∀ s ∈ ss, WF s)
    (hc : ∀ s ∈ ss, s.count = n) (hn : 0 < n) (f : List (List α) → Nat → Res (List α)) (ys : List (List α))
    (m : Nat) (hy : AllReturn f (rows ss n) ys) (hm : 0 < m) (hm' : m < 2 ^ 31)
    (hsz : ∀ y ∈ ys, y.length = m) (hfit : n * m < 2 ^ 32) :
    mapMultiV (logged f) ss [] = (.ok (ofItems m ys), (rows ss n).zipIdx) := by
  rw [mapMultiV_eq hne hw hc hn, sizedMap_ok hy (by rw [← List.length_pos_iff, rows_length]; exact hn) hm hm' hsz
    (by rw [rows_length]; exact hfit)]
  simp

example := C11_partial_array (ss := [exTail, ex23]) (n := 2) (by decide) (by decide) (by decide) (by decide)
  (fun r i => .ok [r.flatten.sum, (i : Int)]) [[12, 0], [30, 1]] 2 (by decide) (by decide) (by decide) (by decide) (by decide)

/-- C11 is violated on empty Series: the first row is read although there is none. -/
theorem C11_violated : ¬ ∀ (ss : List (Serie Int)) (f : List (List Int) → Nat → Int), ss ≠ [] →
    (∀ s ∈ ss, WF s) → (∀ s ∈ ss, s.count = 0) →
    ∃ r, mapMultiS (pureCb (σ := Unit) f) ss () = (.ok r, ()) := by
  intro h
  obtain ⟨r, hr⟩ := h [⟨[], 0, 1, 3⟩, ⟨[], 0, 1, 3⟩] (fun _ _ => 0) (by simp)
    (by intro s hs; simp at hs; subst hs; exact ⟨by decide, by decide, by decide, by decide⟩)
    (by intro s hs; simp at hs; subst hs; rfl)
  simp [mapMultiS, countAndCheck, getRow, Serie.getA, rd, Eff.lift] at hr

example : rows [ex41, ex41] 4 = [[[5], [5]], [[7], [7]], [[9], [9]], [[11], [11]]] := rfl
example : (∀ s ∈ [ex41, ex41], WF s) ∧ ∀ s ∈ [ex41, ex41], s.count = 4 := by
  constructor
  · intro s hs; simp at hs; subst hs; exact ex41_WF
  · intro s hs; simp at hs; subst hs; rfl

/-! ## C12 -/

/-- C12, predicates taking a number. `keep l bs` are the elements of `l` whose flag in `bs` is true, in order. -/
theorem C12_filter_number [Zero α] {s : Serie α} (h : WF s) (p : α → Nat → Res Bool) :
    (∀ bs, AllReturn p (scalars s) bs →
      filterS (logged p) s [] = (.ok (ofScalars (keep (scalars s) bs)), (scalars s).zipIdx)) ∧
    (∀ k e, ThrowsAt p (scalars s) k e →
      filterS (logged p) s [] = (.throw e, (scalars s).zipIdx.take (k + 1))) := by
  rw [filterS_eq h]
  exact ⟨fun ys hy => run_ok (callAll_AllReturn hy []), fun k e hk => Eff.bind_throw (callAll_ThrowsAt hk [])⟩

example := (C12_filter_number ex41_WF fun x i => .ok (decide (x > (5 : Int) + i))).1 [false, true, true, true] (by decide)
example := (C12_filter_number ex41_WF fun x _ => if x = 9 then .throw (.stdOther 7) else .ok true).2 2 (.stdOther 7)
  (by decide)

/-- C12, predicates taking an array: same item size, matching items in order. -/
theorem C12_filter_array [Zero α] {s : Serie α} (h : WF s) (p : List α → Nat → Res Bool) :
    (∀ bs, AllReturn p (items s) bs →
      filterV (logged p) s [] = (.ok (ofItems s.itemSize (keep (items s) bs)), (items s).zipIdx)) ∧
    (∀ k e, ThrowsAt p (items s) k e →
      filterV (logged p) s [] = (.throw e, (items s).zipIdx.take (k + 1))) := by
  rw [filterV_eq h]
  exact ⟨fun ys hy => run_ok (callAll_AllReturn hy []), fun k e hk => Eff.bind_throw (callAll_ThrowsAt hk [])⟩

example := (C12_filter_array exTail_WF fun v i => .ok (decide (v.sum > (5 : Int) + i))).1 [true, true] (by decide)
example := (C12_filter_array exTail_WF fun v _ => if v.sum = 15 then .throw (.stdOther 7) else .ok true).2 1 (.stdOther 7)
  (by decide)

/-- C12 for predicates with arbitrary effects. -/
theorem C12_filter_stateful [Zero α] {s : Serie α} (h : WF s) (p : α → Nat → Eff σ Bool)
    (q : List α → Nat → Eff σ Bool) :
    filterS p s = (callAll p (scalars s) >>= fun bs => pure (ofScalars (keep (scalars s) bs))) ∧
    filterV q s = (callAll q (items s) >>= fun bs => pure (ofItems s.itemSize (keep (items s) bs))) :=
  ⟨filterS_eq h p, filterV_eq h q⟩

example := C12_filter_stateful exTail_WF (fun (x : Int) _ => fun (st : Int) => (.ok (decide (st < x)), st + 1))
  (fun v _ => fun st => (.ok (decide (st < v.sum)), st + 1))

/-- C12 for pure predicates, with the standard list filter. -/
theorem C12_filter_pure [Zero α] {s : Serie α} (h : WF s) (p : List α → Nat → Bool) (st : σ) :
    ∃ r, filterV (pureCb p) s st = (.ok r, st) ∧ WF r ∧ r.itemSize = s.itemSize ∧
      items r = (((items s).zipIdx).filter (fun a => p a.1 a.2)).map Prod.fst := by
  have hall : ∀ bs, ∀ v ∈ keep (items s) bs, v.length = s.itemSize :=
    fun bs v hv => h.item_length (keep_mem _ _ hv)
  refine ⟨ofItems s.itemSize (keep (items s) ((items s).zipIdx.map (fun a => p a.1 a.2))),
    by rw [filterV_eq h, callAll_pureCb]; rfl, ?_, rfl, ?_⟩
  · refine WF_ofItems h.pos h.int (hall _) ?_
    have h1 := keep_length_le (items s) ((items s).zipIdx.map (fun a => p a.1 a.2))
    rw [items_length] at h1
    exact Nat.lt_of_le_of_lt (Nat.le_trans (Nat.mul_le_mul_right _ h1) h.fits) h.small
  · rw [items_ofItems (hall _), keep_mapIdx]

example := C12_filter_pure exTail_WF (fun v i => decide (v.sum > (5 : Int) + i)) ()

example : filterV (pureCb (σ := Unit) fun v _ => v.headD 0 == (4 : Int)) exTail () =
    (.ok ⟨[4, 5, 6], 1, 3, 3⟩, ()) := rfl
example : filterS (logged fun x i => .ok (decide (x > (5 : Int) + i))) ex41 [] =
    (.ok ⟨[7, 9, 11], 3, 1, 3⟩, [(5, 0), (7, 1), (9, 2), (11, 3)]) := rfl

/-! ## C13 -/

theorem callAll_map (p : γ → Nat → Eff σ β) {δ : Type} (g : β → δ) : ∀ (l : List γ) (lo : Nat),
    callAll (fun x i => p x i >>= fun b => pure (g b)) l lo =
      callAll p l lo >>= fun bs => pure (bs.map g) := by
  intro l
  induction l with
  | nil => intro lo; simp
  | cons x l ih =>
    intro lo; rw [callAll_cons, callAll_cons]; simp only [ih, bind_assoc, pure_bind, List.map_cons]

/-- C13: `reject(p, s)` is `filter(not p, s)`, for any effects of `p`. -/
theorem C13_reject_is_filter_not [Zero α] {s : Serie α} (h : WF s) (p : α → Nat → Eff σ Bool)
    (q : List α → Nat → Eff σ Bool) :
    rejectS p s = filterS (fun x i => p x i >>= fun b => pure (!b)) s ∧
    rejectV q s = filterV (fun x i => q x i >>= fun b => pure (!b)) s := by
  rw [rejectS_eq h, rejectV_eq h, filterS_eq h, filterV_eq h, callAll_map, callAll_map]
  simp only [bind_assoc, pure_bind]
  exact ⟨trivial, trivial⟩

example := C13_reject_is_filter_not exTail_WF (fun (x : Int) _ => fun (st : Int) => (.ok (decide (st < x)), st + 1))
  (fun v _ => fun st => (.ok (decide (st < v.sum)), st + 1))

/-- C13: nothing is lost or duplicated: the counts add up and merging the two results by the answers of the
predicate gives the items of `s` back. -/
theorem C13_complement [Zero α] {s : Serie α} (h : WF s) (p : List α → Nat → Bool) (st : σ) :
    ∃ r1 r2, filterV (pureCb p) s st = (.ok r1, st) ∧ rejectV (pureCb p) s st = (.ok r2, st) ∧
      r1.count + r2.count = s.count ∧
      mergeBy ((items s).mapIdx (fun i v => p v i)) (items r1) (items r2) = items s := by
  have hall : ∀ bs, ∀ v ∈ keep (items s) bs, v.length = s.itemSize :=
    fun bs v hv => h.item_length (keep_mem _ _ hv)
  refine ⟨ofItems s.itemSize (keep (items s) ((items s).mapIdx (fun i v => p v i))),
    ofItems s.itemSize (keep (items s) (((items s).mapIdx (fun i v => p v i)).map not)),
    by rw [filterV_eq h, callAll_pure]; rfl, by rw [rejectV_eq h, callAll_pure]; rfl, ?_, ?_⟩
  · have := keep_add_length (items s) ((items s).mapIdx (fun i v => p v i)) (by simp)
    simpa [ofItems] using this
  · rw [items_ofItems (hall _), items_ofItems (hall _)]
    exact mergeBy_keep _ _ (by simp)

example := C13_complement exTail_WF (fun v i => decide (v.sum > (10 : Int) + i)) ()

/-- C13, predicates taking a number. -/
theorem C13_complement_number [Zero α] {s : Serie α} (h : WF s) (p : α → Nat → Bool) (st : σ) :
    ∃ r1 r2, filterS (pureCb p) s st = (.ok r1, st) ∧ rejectS (pureCb p) s st = (.ok r2, st) ∧
      r1.count + r2.count = s.count ∧
      mergeBy ((scalars s).mapIdx (fun i v => p v i)) (scalars r1) (scalars r2) = scalars s := by
  refine ⟨ofScalars (keep (scalars s) ((scalars s).mapIdx (fun i v => p v i))),
    ofScalars (keep (scalars s) (((scalars s).mapIdx (fun i v => p v i)).map not)),
    by rw [filterS_eq h, callAll_pure]; rfl, by rw [rejectS_eq h, callAll_pure]; rfl, ?_, ?_⟩
  · have := keep_add_length (scalars s) ((scalars s).mapIdx (fun i v => p v i)) (by simp)
    rw [h.scalars_length] at this
    simpa [ofScalars] using this
  · simp only [scalars_ofScalars]
    exact mergeBy_keep _ _ (by simp)

example := C13_complement_number ex41_WF (fun x i => decide (x > (5 : Int) + i)) ()

example : rejectS (pureCb (σ := Unit) fun x _ => decide (x > (7 : Int))) ex41 () =
    (.ok ⟨[5, 7], 2, 1, 3⟩, ()) := rfl

/-! ## C14 -/

/-- C14: `find` with a predicate taking a number, on a scalar Serie. -/
theorem C14_find_number [Zero α] {s : Serie α} (h : WF s) (h1 : s.itemSize = 1) (p : α → Nat → Res Bool) :
    ((∀ i (hi : i < (scalars s).length), p (scalars s)[i] i = .ok false) →
      findS (logged p) s [] = (.ok ⟨0, 0, false⟩, (scalars s).zipIdx)) ∧
    (∀ k (hk : k < (scalars s).length), (∀ i (hi : i < (scalars s).length), i < k → p (scalars s)[i] i = .ok false) →
      (p (scalars s)[k] k = .ok true →
        findS (logged p) s [] = (.ok ⟨(scalars s)[k], k, true⟩, (scalars s).zipIdx.take (k + 1))) ∧
      (∀ e, p (scalars s)[k] k = .throw e →
        findS (logged p) s [] = (.throw e, (scalars s).zipIdx.take (k + 1)))) := by
  unfold findS
  rw [if_neg (by simpa using h1), ← h.scalars_length]
  refine ⟨fun hp => ?_, fun k hk hpre => ⟨fun hp => ?_, fun e hp => ?_⟩⟩
  · rw [findLoop_none (scalars s) 0 [] (getD_hyp h) (by simpa using hp)]; simp
  · rw [findLoop_some (scalars s) k 0 [] (getD_hyp h) hk (by simpa using hpre) (by simpa using hp)]; simp
  · rw [findLoop_throw (scalars s) k 0 [] (getD_hyp h) hk (by simpa using hpre) (by simpa using hp)]; simp

example := ((C14_find_number ex41_WF rfl fun x i => .ok (decide (x > (5 : Int) + i))).2 1 (by decide) (by decide)).1
  (by decide)

/-- C14: `find` with a predicate taking an array, on a Serie of arrays. -/
theorem C14_find_array {s : Serie α} (h : WF s) (h1 : s.itemSize ≠ 1) (p : List α → Nat → Res Bool) :
    ((∀ i (hi : i < (items s).length), p (items s)[i] i = .ok false) →
      findV (logged p) s [] = (.ok ⟨[], 0, false⟩, (items s).zipIdx)) ∧
    (∀ k (hk : k < (items s).length), (∀ i (hi : i < (items s).length), i < k → p (items s)[i] i = .ok false) →
      (p (items s)[k] k = .ok true →
        findV (logged p) s [] = (.ok ⟨(items s)[k], k, true⟩, (items s).zipIdx.take (k + 1))) ∧
      (∀ e, p (items s)[k] k = .throw e →
        findV (logged p) s [] = (.throw e, (items s).zipIdx.take (k + 1)))) := by
  unfold findV
  rw [if_neg h1, ← items_length s]
  refine ⟨fun hp => ?_, fun k hk hpre => ⟨fun hp => ?_, fun e hp => ?_⟩⟩
  · rw [findLoop_none (items s) 0 [] (getA_hyp h) (by simpa using hp)]; simp
  · rw [findLoop_some (items s) k 0 [] (getA_hyp h) hk (by simpa using hpre) (by simpa using hp)]; simp
  · rw [findLoop_throw (items s) k 0 [] (getA_hyp h) hk (by simpa using hpre) (by simpa using hp)]; simp

example := ((C14_find_array exTail_WF (by decide) fun v _ => .ok (decide (v.sum > (10 : Int)))).2 1 (by decide)
  (by decide)).1 (by decide)

/-- C14: `findAll` is `filter`, for any effects of the predicate (the predicate kind matching the item size). -/
theorem C14_findAll_is_filter [Zero α] {s : Serie α} (h : WF s) (p : α → Nat → Eff σ Bool)
    (q : List α → Nat → Eff σ Bool) :
    (s.itemSize = 1 → findAllS p s = filterS p s) ∧ findAllV q s = filterV q s := by
  refine ⟨fun h1 => ?_, by rw [findAllV_eq h, filterV_eq h]⟩
  rw [filterS_eq h]
  unfold findAllS
  rw [collect_eq p (scalars s) h.scalars_length.symm (getD_hyp h), bind_assoc]
  apply bind_congr_ok
  intro st bs st' hb
  have := callAll_length _ _ _ _ _ hb
  have hg := gatherD_eq h (bs := bs) (by rw [this, h.scalars_length])
  rw [pure_bind]
  simp only [gatherFind, h1, if_true]
  unfold gatherD at hg
  rw [hg]; rfl

example := (C14_findAll_is_filter ex41_WF (pureCb (σ := Unit) fun x i => decide (x > (5 : Int) + i))
  (pureCb fun v _ => v.sum > 7)).1 rfl

example : findS (logged fun x _ => .ok (decide (x > (6 : Int)))) ex41 [] =
    (.ok ⟨7, 1, true⟩, [(5, 0), (7, 1)]) := rfl

/-! ## C15 -/

/-- C15: `partition` gives the pair of `filter` and `reject`, calling the predicate once per item. -/
theorem C15_partition [Zero α] {s : Serie α} (h : WF s) (p : α → Nat → Res Bool) (q : List α → Nat → Res Bool) :
    (s.itemSize = 1 → ∀ bs, AllReturn p (scalars s) bs → ∃ m u,
      partitionS (logged p) s [] = (.ok (m, u), (scalars s).zipIdx) ∧
      (filterS (logged p) s []).1 = .ok m ∧ (rejectS (logged p) s []).1 = .ok u) ∧
    (∀ bs, AllReturn q (items s) bs → ∃ m u,
      partitionV (logged q) s [] = (.ok (m, u), (items s).zipIdx) ∧
      (filterV (logged q) s []).1 = .ok m ∧ (rejectV (logged q) s []).1 = .ok u) := by
  constructor
  · intro h1 bs hb
    refine ⟨ofScalars (keep (scalars s) bs), ofScalars (keep (scalars s) (bs.map not)), ?_, ?_, ?_⟩
    · rw [partitionS_eq h h1]; exact run_ok (callAll_AllReturn hb [])
    · rw [filterS_eq h, run_ok (callAll_AllReturn hb [])]
    · rw [rejectS_eq h, run_ok (callAll_AllReturn hb [])]
  · intro bs hb
    refine ⟨ofItems s.itemSize (keep (items s) bs), ofItems s.itemSize (keep (items s) (bs.map not)), ?_, ?_, ?_⟩
    · rw [partitionV_eq h]; exact run_ok (callAll_AllReturn hb [])
    · rw [filterV_eq h, run_ok (callAll_AllReturn hb [])]
    · rw [rejectV_eq h, run_ok (callAll_AllReturn hb [])]

example := (C15_partition ex41_WF (fun x i => .ok (decide (x > (5 : Int) + i))) (fun v _ => .ok (decide (v.sum > 7)))).1 rfl
  [false, true, true, true] (by decide)
example := (C15_partition exTail_WF (fun x i => .ok (decide (x > (5 : Int) + i))) (fun v _ => .ok (decide (v.sum > 7)))).2
  [false, true] (by decide)

/-- C15: the first exception of the predicate stops `partition`. -/
theorem C15_partition_throws [Zero α] {s : Serie α} (h : WF s) (p : α → Nat → Res Bool)
    (q : List α → Nat → Res Bool) (k : Nat) (e : Err) :
    (s.itemSize = 1 → ThrowsAt p (scalars s) k e →
      partitionS (logged p) s [] = (.throw e, (scalars s).zipIdx.take (k + 1))) ∧
    (ThrowsAt q (items s) k e → partitionV (logged q) s [] = (.throw e, (items s).zipIdx.take (k + 1))) := by
  constructor
  · intro h1 hk
    rw [partitionS_eq h h1]; exact Eff.bind_throw (callAll_ThrowsAt hk [])
  · intro hk
    rw [partitionV_eq h]; exact Eff.bind_throw (callAll_ThrowsAt hk [])

example := (C15_partition_throws ex41_WF (fun x _ => if x = 9 then .throw (.stdOther 7) else .ok true)
  (fun v _ => .ok (decide (v.sum > 7))) 2 (.stdOther 7)).1 rfl (by decide)
example := (C15_partition_throws exTail_WF (fun _ _ => .ok true) (fun v _ => if v.sum = 15 then .throw (.stdOther 7) else .ok true)
  1 (.stdOther 7)).2 (by decide)

example : partitionS (pureCb (σ := Unit) fun x _ => decide (x > (7 : Int))) ex41 () =
    (.ok (⟨[9, 11], 2, 1, 3⟩, ⟨[5, 7], 2, 1, 3⟩), ()) := rfl

/-! ## C16 -/

/-- C16: `reduce` is the left fold over the items with their indices, for any effects of the callback. -/
theorem C16_reduce {s : Serie α} (h : WF s) (f : α → α → Nat → Eff σ α) (init : α) :
    reduceS f s init = (scalars s).zipIdx.foldlM (fun acc p => f acc p.1 p.2) init :=
  forLoop_fold f (scalars s) s.count init h.scalars_length.symm (getD_hyp h)

example := C16_reduce ex41_WF (fun a x i => fun (st : Nat) => (.ok (a - x + i), st + 1)) 100

/-- C16 for pure callbacks. -/
theorem C16_reduce_pure {s : Serie α} (h : WF s) (f : α → α → Nat → α) (init : α) (st : σ) :
    reduceS (fun a x i => pure (f a x i)) s init st =
      (.ok ((scalars s).zipIdx.foldl (fun acc p => f acc p.1 p.2) init), st) := by
  rw [C16_reduce h, List.foldlM_pure]; rfl

example := C16_reduce_pure ex41_WF (fun a x i => a - x + i) 100 ()

/-- C16: reducing an array-valued callback gives a one-item Serie holding the fold. -/
theorem C16_reduce_array {s : Serie α} (h : WF s) (f : List α → List α → Nat → List α) (init : List α) (st : σ)
    (r : List α) (hr : r = (items s).zipIdx.foldl (fun acc p => f acc p.1 p.2) init) (h0 : 0 < r.length)
    (h31 : r.length < 2 ^ 31) :
    reduceV (fun a x i => pure (f a x i)) s init st = (.ok (ofItems r.length [r]), st) := by
  unfold reduceV
  rw [forLoop_fold _ (items s) s.count init (items_length s).symm (getA_hyp h), List.foldlM_pure, pure_bind, ← hr,
    u32_of_lt (by omega), Serie.ofArray_eq h0 h31 (by omega), Nat.div_self h0]
  simp [ofItems, Eff.lift]

example := C16_reduce_array exTail_WF (fun a v i => a ++ [v.sum * i]) [1] () [1, 0, 15] rfl (by decide) (by decide)

/-- C16: on an empty Serie the initial value is returned and nothing is called. -/
theorem C16_reduce_empty {s : Serie α} (h0 : s.count = 0) (f : α → α → Nat → Eff σ α) (init : α) (st : σ) :
    reduceS f s init st = (.ok init, st) := by
  simp [reduceS, h0, Eff.pure_def]

example := C16_reduce_empty (s := (⟨[], 0, 1, 3⟩ : Serie Int)) rfl (fun a x i => (pure (a - x + i) : Eff Unit Int)) 100 ()

/-- C16: reducing a concatenation is reducing the second part from the result of the first. -/
theorem C16_reduce_concat {a b c : Serie α} (ha : WF a) (hb : WF b) (hc : WF c)
    (hcat : scalars c = scalars a ++ scalars b) (f : α → α → Nat → Eff σ α) (init : α) :
    reduceS f c init = reduceS f a init >>= fun r => reduceS (fun acc x i => f acc x (i + a.count)) b r := by
  rw [C16_reduce hc, C16_reduce ha, hcat, List.zipIdx_append, List.foldlM_append]
  congr 1; funext r
  rw [C16_reduce hb, ha.scalars_length, List.zipIdx_eq_map_add (i := 0 + a.count), List.foldlM_map]
  simp [Nat.add_comm]

example := C16_reduce_concat (c := (⟨[5, 7, 9, 11, 5], 5, 1, 3⟩ : Serie Int)) (b := ⟨[5], 1, 1, 3⟩) ex41_WF (by decide)
  (by decide) rfl (fun a x i => fun (st : Nat) => (.ok (a - x + i), st + 1)) 100

example : reduceS (fun (a x : Int) (i : Nat) => (pure (a - x + i) : Eff Unit Int)) ex41 100 () = (.ok 74, ()) := rfl
example : scalars (⟨[5, 7, 9, 11, 5], 5, 1, 3⟩ : Serie Int) = scalars ex41 ++ scalars (⟨[5], 1, 1, 3⟩ : Serie Int) := rfl

/-! ## C17 -/

/-- C17, callbacks taking a number. -/
theorem C17_forEach_number {s : Serie α} (h : WF s) (h1 : s.itemSize = 1) (f : α → Nat → Res Unit) :
    ((∀ i (hi : i < (scalars s).length), f (scalars s)[i] i = .ok ()) →
      forEachS (logged f) s [] = (.ok (), (scalars s).zipIdx)) ∧
    (∀ k e, ThrowsAt f (scalars s) k e →
      forEachS (logged f) s [] = (.throw e, (scalars s).zipIdx.take (k + 1))) := by
  unfold forEachS
  rw [if_neg (by simpa using h1), forLoop_unit _ (scalars s) s.count h.scalars_length.symm (getD_hyp h)]
  refine ⟨fun hf => ?_, fun k e hk => Eff.bind_throw (callAll_ThrowsAt hk [])⟩
  exact run_ok (callAll_AllReturn (ys := (scalars s).map fun _ => ()) ⟨by simp, fun i hi _ => by rw [hf i hi]⟩ [])

example := (C17_forEach_number ex41_WF rfl fun x _ => if x = 0 then .throw .lengthError else .ok ()).1 (by decide)
example := (C17_forEach_number ex41_WF rfl fun x _ => if x = 9 then .throw .lengthError else .ok ()).2 2 .lengthError
  (by decide)

/-- C17, callbacks taking an array. -/
theorem C17_forEach_array {s : Serie α} (h : WF s) (h1 : s.itemSize ≠ 1) (f : List α → Nat → Res Unit) :
    ((∀ i (hi : i < (items s).length), f (items s)[i] i = .ok ()) →
      forEachV (logged f) s [] = (.ok (), (items s).zipIdx)) ∧
    (∀ k e, ThrowsAt f (items s) k e →
      forEachV (logged f) s [] = (.throw e, (items s).zipIdx.take (k + 1))) := by
  unfold forEachV
  rw [if_neg h1, forLoop_unit _ (items s) s.count (items_length s).symm (getA_hyp h)]
  refine ⟨fun hf => ?_, fun k e hk => Eff.bind_throw (callAll_ThrowsAt hk [])⟩
  exact run_ok (callAll_AllReturn (ys := (items s).map fun _ => ()) ⟨by simp, fun i hi _ => by rw [hf i hi]⟩ [])

example := (C17_forEach_array exTail_WF (by decide) fun v _ => if v.sum = 0 then .throw .lengthError else .ok ()).1 (by decide)
example := (C17_forEach_array exTail_WF (by decide) fun v _ => if v.sum = 15 then .throw .lengthError else .ok ()).2 1
  .lengthError (by decide)

/-- C17, generic callbacks: numbers on scalar Series, arrays otherwise. -/
theorem C17_forEach_generic {s : Serie α} (h : WF s) (cbD : α → Nat → Eff σ Unit)
    (cbA : List α → Nat → Eff σ Unit) :
    forEachG cbD cbA s = if s.itemSize = 1 then (callAll cbD (scalars s) >>= fun _ => pure ())
      else (callAll cbA (items s) >>= fun _ => pure ()) := by
  unfold forEachG
  by_cases h1 : s.itemSize = 1
  · simp only [h1, if_true]
    exact forLoop_unit _ (scalars s) s.count h.scalars_length.symm (getD_hyp h)
  · simp only [h1, if_false]
    exact forLoop_unit _ (items s) s.count (items_length s).symm (getA_hyp h)

example := C17_forEach_generic exTail_WF (fun (x : Int) _ => fun (st : Int) => (.ok (), st + x))
  (fun v i => fun st => (.ok (), st + v.sum * i))

/-- C17, several Series: one call per row, counts that differ throw before any call. -/
theorem C17_forEach_multi {ss : List (Serie α)} (hne : ss ≠ []) (hw : ∀ s ∈ ss, WF s)
    (cb : List (List α) → Nat → Eff σ Unit) :
    (∀ n, (∀ s ∈ ss, s.count = n) → forEachMulti cb ss = callAll cb (rows ss n) >>= fun _ => pure ()) ∧
    (∀ s ∈ ss, ∀ t ∈ ss, s.count ≠ t.count → forEachMulti cb ss = Eff.throw .invalidArgument) := by
  refine ⟨fun n hc => forEachMulti_eq hne hw hc cb, fun s hs t ht hd => ?_⟩
  unfold forEachMulti
  rw [countAndCheck_throw hs ht hd]; rfl

example := (C17_forEach_multi (ss := [exTail, ex23]) (by decide) (by decide)
  (fun r i => fun (st : Int) => (.ok (), st + r.flatten.sum * i))).1 2 (by decide)
example := (C17_forEach_multi (ss := [ex41, ex23]) (by decide) (by decide)
  (fun r i => fun (st : Int) => (.ok (), st + r.flatten.sum * i))).2 ex41 (by simp) ex23 (by simp) (by decide)

/-- C17: a callback kind not matching the item size throws before any call. -/
theorem C17_forEach_kind (s : Serie α) (cbD : α → Nat → Eff σ Unit) (cbA : List α → Nat → Eff σ Unit) (st : σ) :
    (s.itemSize ≠ 1 → forEachS cbD s st = (.throw .invalidArgument, st)) ∧
    (s.itemSize = 1 → forEachV cbA s st = (.throw .invalidArgument, st)) := by
  constructor <;> intro h <;> simp [forEachS, forEachV, h, Eff.throw, Eff.lift]

example : forEachV (logged fun (v : List Int) i => if i = 1 then .throw (.nonStd v.length) else .ok ()) ex23 [] =
    (.throw (.nonStd 3), [([1, 2, 3], 0), ([4, 5, 6], 1)]) := rfl

/-! ## C18 -/

/-- C18, part: `forEach`, `find` and `partition` reject a scalar callback on a Serie of arrays before any call.
Missing: map, filter, reject, findAll, reduce and check, see `C18_violated`. -/
theorem C18_partial [Zero α] (s : Serie α) (h : s.itemSize ≠ 1) (cb : α → Nat → Eff σ Unit)
    (p : α → Nat → Eff σ Bool) (st : σ) :
    forEachS cb s st = (.throw .invalidArgument, st) ∧ findS p s st = (.throw .invalidArgument, st) ∧
    partitionS p s st = (.throw .invalidArgument, st) := by
  simp [forEachS, findS, partitionS, h, Eff.throw, Eff.lift]

example := C18_partial ex23 (by decide) (fun (x : Int) _ => fun (st : Int) => (.ok (), st + x))
  (fun (x : Int) _ => fun (st : Int) => (.ok (decide (st < x)), st + 1)) 0

/-- C18 is violated by map, filter, reject, findAll, reduce and check: on a Serie of two items of three numbers, each
returns without exception, having processed the first two numbers only. -/
theorem C18_violated : WF ex23 ∧ ex23.itemSize = 3 ∧
    (mapSS (logged fun x _ => .ok x) ex23 [] = (.ok ⟨[1, 2], 2, 1, 3⟩, [(1, 0), (2, 1)])) ∧
    (filterS (logged fun _ _ => .ok true) ex23 [] = (.ok ⟨[1, 2], 2, 1, 3⟩, [(1, 0), (2, 1)])) ∧
    (rejectS (logged fun _ _ => .ok false) ex23 [] = (.ok ⟨[1, 2], 2, 1, 3⟩, [(1, 0), (2, 1)])) ∧
    (findAllS (logged fun x _ => .ok (x == 2)) ex23 [] = (.ok ⟨[4, 5, 6], 1, 3, 3⟩, [(1, 0), (2, 1)])) ∧
    (reduceS (fun a x i => logged (fun x _ => .ok (a + x)) x i) ex23 0 [] = (.ok 3, [(1, 0), (2, 1)])) ∧
    (checkS ex23 (logged fun x _ => .ok (x == 2)) [] = (.ok ⟨[0, 1], 2, 1, 3⟩, [(1, 0), (2, 1)])) :=
  ⟨ex23_WF, rfl, rfl, rfl, rfl, rfl, rfl, rfl⟩

/-- C18: the violation holds on every Serie of arrays: `map`, `filter`, `reject`, `findAll`, `check` and `reduce` with
callbacks taking a number never throw; they silently evaluate the callback on the first `count` numbers of the flat
array (`findAll` then keeps whole items). -/
theorem C18_silent [Zero α] [One α] {s : Serie α} (h : WF s) (f : α → Nat → α) (p : α → Nat → Bool)
    (g : α → α → Nat → α) (init : α) (st : σ) (xs : List α) (hxs : xs = s.data.take s.count) (bs : List Bool)
    (hbs : bs = xs.mapIdx (fun i x => p x i)) :
    mapSS (pureCb f) s st = (.ok (ofScalars (xs.mapIdx (fun i x => f x i))), st) ∧
    filterS (pureCb p) s st = (.ok (ofScalars (keep xs bs)), st) ∧
    rejectS (pureCb p) s st = (.ok (ofScalars (keep xs (bs.map not))), st) ∧
    findAllS (pureCb p) s st = (.ok (ofItems s.itemSize (keep (items s) bs)), st) ∧
    checkS s (pureCb p) st = (.ok (ofScalars (bs.map fun b => if b then 1 else 0)), st) ∧
    reduceS (fun a x i => pure (g a x i)) s init st =
      (.ok (xs.zipIdx.foldl (fun acc q => g acc q.1 q.2) init), st) := by
  subst hxs hbs
  refine ⟨?_, ?_, ?_, ?_, ?_, C16_reduce_pure h g init st⟩
  · rw [mapSS_eq h, callAll_pure]; rfl
  · rw [filterS_eq h, callAll_pure]; rfl
  · rw [rejectS_eq h, callAll_pure]; rfl
  · rw [findAllS_eq h, callAll_pure]; rfl
  · rw [checkS_eq h, callAll_pure]; rfl

example := C18_silent ex23_WF (fun x i => x + i) (fun x _ => decide (x > 1)) (fun a x i => a - x + i) 0 () [1, 2] rfl
  [false, true] rfl

/-! ## C21 -/

/-- C21: `filter` over several Series of equal counts: the predicate is called once per row, in order; every output
keeps exactly the rows whose flag is true. -/
theorem C21_filter_multi [Zero α] {ss : List (Serie α)} {n : Nat} (hne : ss ≠ []) (hw : ∀ s ∈ ss, WF s)
    (hc : ∀ s ∈ ss, s.count = n) (p : List (List α) → Nat → Res Bool) :
    (∀ bs, AllReturn p (rows ss n) bs →
      filterMulti (logged p) ss [] =
        (.ok (ss.map (fun s => ofItems s.itemSize (keep (items s) bs))), (rows ss n).zipIdx)) ∧
    (∀ k e, ThrowsAt p (rows ss n) k e →
      filterMulti (logged p) ss [] = (.throw e, (rows ss n).zipIdx.take (k + 1))) := by
  rw [filterMulti_eq hne hw hc]
  exact ⟨fun ys hy => run_ok (callAll_AllReturn hy []), fun k e hk => Eff.bind_throw (callAll_ThrowsAt hk [])⟩

example := (C21_filter_multi (ss := [exTail, ex23]) (n := 2) (by decide) (by decide) (by decide)
  fun r _ => .ok (decide (r.flatten.sum > 12))).1 [false, true] (by decide)
example := (C21_filter_multi (ss := [exTail, ex23]) (n := 2) (by decide) (by decide) (by decide)
  fun r _ => if r.flatten.sum > 12 then .throw .lengthError else .ok true).2 1 .lengthError (by decide)

/-- C21: `reject` over several Series keeps the rows whose flag is false. -/
theorem C21_reject_multi [Zero α] {ss : List (Serie α)} {n : Nat} (hne : ss ≠ []) (hw : ∀ s ∈ ss, WF s)
    (hc : ∀ s ∈ ss, s.count = n) (p : List (List α) → Nat → Res Bool) :
    (∀ bs, AllReturn p (rows ss n) bs →
      rejectMulti (logged p) ss [] =
        (.ok (ss.map (fun s => ofItems s.itemSize (keep (items s) (bs.map not)))), (rows ss n).zipIdx)) ∧
    (∀ k e, ThrowsAt p (rows ss n) k e →
      rejectMulti (logged p) ss [] = (.throw e, (rows ss n).zipIdx.take (k + 1))) := by
  rw [rejectMulti_eq hne hw hc]
  exact ⟨fun ys hy => run_ok (callAll_AllReturn hy []), fun k e hk => Eff.bind_throw (callAll_ThrowsAt hk [])⟩

example := (C21_reject_multi (ss := [exTail, ex23]) (n := 2) (by decide) (by decide) (by decide)
  fun r _ => .ok (decide (r.flatten.sum > 12))).1 [false, true] (by decide)
example := (C21_reject_multi (ss := [exTail, ex23]) (n := 2) (by decide) (by decide) (by decide)
  fun r _ => if r.flatten.sum > 12 then .throw .lengthError else .ok true).2 1 .lengthError (by decide)

/-- C21: `filterAll` and `rejectAll` are the same with predicates not taking the index. -/
theorem C21_filterAll_rejectAll [Zero α] {ss : List (Serie α)} {n : Nat} (hne : ss ≠ []) (hw : ∀ s ∈ ss, WF s)
    (hc : ∀ s ∈ ss, s.count = n) (p : List (List α) → Eff σ Bool) :
    filterAll p ss = (callAll (fun r _ => p r) (rows ss n) >>= fun bs =>
      pure (ss.map (fun s => ofItems s.itemSize (keep (items s) bs)))) ∧
    rejectAll p ss = (callAll (fun r _ => p r) (rows ss n) >>= fun bs =>
      pure (ss.map (fun s => ofItems s.itemSize (keep (items s) (bs.map not))))) :=
  ⟨filterMulti_eq hne hw hc _, rejectMulti_eq hne hw hc _⟩

example := C21_filterAll_rejectAll (ss := [exTail, ex23]) (n := 2) (by decide) (by decide) (by decide)
  fun r => fun (st : Int) => (.ok (decide (r.flatten.sum > st)), st + 13)

/-- C21: counts that differ throw before any call. -/
theorem C21_counts_differ [Zero α] {ss : List (Serie α)} {s t : Serie α} (hs : s ∈ ss) (ht : t ∈ ss)
    (h : s.count ≠ t.count) (p : List (List α) → Nat → Eff σ Bool) (q : List (List α) → Eff σ Bool) (st : σ) :
    filterMulti p ss st = (.throw .invalidArgument, st) ∧ rejectMulti p ss st = (.throw .invalidArgument, st) ∧
    filterAll q ss st = (.throw .invalidArgument, st) ∧ rejectAll q ss st = (.throw .invalidArgument, st) := by
  have := countAndCheck_throw hs ht h
  simp [filterMulti, rejectMulti, filterAll, rejectAll, this, Eff.lift]

example := C21_counts_differ (ss := [ex41, ex23]) (s := ex41) (t := ex23) (by simp) (by simp) (by decide)
  (pureCb fun r _ => r.length > 1) (fun r => fun (st : Int) => (.ok (decide (r.flatten.sum > st)), st + 13)) 0

example : filterMulti (pureCb (σ := Unit) fun r _ => r == [[(7 : Int)], [7]] || r == [[11], [11]]) [ex41, ex41] () =
    (.ok [⟨[7, 11], 2, 1, 3⟩, ⟨[7, 11], 2, 1, 3⟩], ()) := rfl

/-! ## C73 -/

/-- C73: `check` gives 1 for the matching items and 0 for the others, one call per item in order. -/
theorem C73_check [Zero α] [One α] {s : Serie α} (h : WF s) (p : α → Nat → Res Bool) (q : List α → Nat → Res Bool) :
    (∀ bs, AllReturn p (scalars s) bs →
      checkS s (logged p) [] = (.ok (ofScalars (bs.map fun b => if b then 1 else 0)), (scalars s).zipIdx)) ∧
    (∀ k e, ThrowsAt p (scalars s) k e →
      checkS s (logged p) [] = (.throw e, (scalars s).zipIdx.take (k + 1))) ∧
    (∀ bs, AllReturn q (items s) bs →
      checkV s (logged q) [] = (.ok (ofScalars (bs.map fun b => if b then 1 else 0)), (items s).zipIdx)) ∧
    (∀ k e, ThrowsAt q (items s) k e →
      checkV s (logged q) [] = (.throw e, (items s).zipIdx.take (k + 1))) := by
  rw [checkS_eq h, checkV_eq h]
  exact ⟨fun ys hy => run_ok (callAll_AllReturn hy []), fun k e hk => Eff.bind_throw (callAll_ThrowsAt hk []),
    fun ys hy => run_ok (callAll_AllReturn hy []), fun k e hk => Eff.bind_throw (callAll_ThrowsAt hk [])⟩

example := (C73_check ex41_WF (fun x i => .ok (decide (x > (5 : Int) + i))) (fun v _ => .ok (decide (v.sum > 7)))).1
  [false, true, true, true] (by decide)
example := (C73_check exTail_WF (fun x i => .ok (decide (x > (5 : Int) + i))) (fun v _ => .ok (decide (v.sum > 7)))).2.2.1
  [false, true] (by decide)

end DF
