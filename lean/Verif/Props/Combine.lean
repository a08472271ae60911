import Verif.Lemmas.Zip
import Verif.Props.Functional

/-!
# Properties of merge, pipe, compose, concat, partition_n, zip, unzip (C19, C20, C22, C23, C28)

The results are given as `ofItems k its`: the Serie of item size `k` whose items are `its`
(`ofItems_observe` in `Verif/Props/Functional.lean`).
-/

namespace DF

open Spec

variable {α β γ σ : Type}

/-! ## C19 -/

/-- C19: `merge(a, b, true)` has the items of `a` followed by those of `b`. -/
theorem C19_merge_concatenate [Zero α] {a b : Serie α} (ha : WF a) (hb : WF b) (hk : b.itemSize = a.itemSize)
    (hn : (a.count + b.count) * a.itemSize < 2 ^ 32) :
    merge2 a b true = .ok (ofItems a.itemSize (items a ++ items b)) := merge2_concat ha hb hk hn

example := C19_merge_concatenate ex23_WF exTail_WF rfl (by decide)

/-- C19: `merge(a, b, false)` alternates the items of `a` and `b` and appends the rest of the longer. -/
theorem C19_merge_interleave [Zero α] {a b : Serie α} (ha : WF a) (hb : WF b) (hk : b.itemSize = a.itemSize)
    (hn : (a.count + b.count) * a.itemSize < 2 ^ 32) :
    merge2 a b false = .ok (ofItems a.itemSize (interleave (items a) (items b))) := merge2_interleave ha hb hk hn

example := C19_merge_interleave ex23_WF exTail_WF rfl (by decide)

/-- C19: the variadic form concatenates, or goes round robin, over any number of Series. -/
theorem C19_merge_variadic [Zero α] {k : Nat} {ss : List (Serie α)} (hne : ss ≠ [])
    (hw : ∀ s ∈ ss, WF s ∧ s.itemSize = k) (hn : (ss.map (·.count)).sum * k < 2 ^ 32) :
    mergeN true ss = .ok (ofItems k (ss.map items).flatten) ∧
    mergeN false ss = .ok (ofItems k (roundRobin (ss.map items))) := mergeN_eq hne hw hn

example := C19_merge_variadic (k := 3) (ss := [ex23, exTail, ex23]) (by decide) (by decide) (by decide)

/-- C19: interleaving loses and duplicates nothing: the items are those of the inputs, reordered, and the items of
one input keep their order. -/
theorem C19_no_loss (ls : List (List γ)) :
    (roundRobin ls).Perm ls.flatten ∧ (∀ xs ys : List γ, (interleave xs ys).Perm (xs ++ ys)) ∧
    (∀ xs ys : List γ, roundRobin [xs, ys] = interleave xs ys) ∧
    (∀ xs ys : List γ, xs.Sublist (interleave xs ys) ∧ ys.Sublist (interleave xs ys)) := by
  refine ⟨roundRobin_perm ls, ?_, roundRobin_two, ?_⟩
  · intro xs ys
    rw [← roundRobin_two]
    simpa using roundRobin_perm [xs, ys]
  · intro xs
    induction xs with
    | nil => intro ys; cases ys <;> simp [interleave]
    | cons x xs ih =>
      intro ys
      cases ys with
      | nil => simp [interleave]
      | cons y ys =>
        simp only [interleave]
        exact ⟨((ih ys).1.cons y).cons_cons x, ((ih ys).2.cons_cons y).cons x⟩

/-- C19: differing item sizes throw. -/
theorem C19_sizes_differ [Zero α] (c : Bool) :
    (∀ a b : Serie α, a.itemSize ≠ b.itemSize → merge2 a b c = .throw .invalidArgument) ∧
    (∀ ss : List (Serie α), (∃ a ∈ ss, ∃ b ∈ ss, a.itemSize ≠ b.itemSize) →
      mergeN c ss = .throw .invalidArgument) := by
  constructor
  · intro a b h
    unfold merge2; rw [if_pos h]
  · rintro ss ⟨a, ha, b, hb, h⟩
    cases ss with
    | nil => simp at ha
    | cons s0 ss =>
      have hadj : adjacentEqual ((s0 :: ss).map (·.itemSize)) ≠ true := by
        rw [List.map_cons, Ne, adjacentEqual_iff]
        intro hall
        have e : ∀ s ∈ s0 :: ss, s.itemSize = s0.itemSize := by
          intro s hs
          rcases List.mem_cons.1 hs with rfl | hs
          · rfl
          · exact hall _ (List.mem_map.2 ⟨s, hs, rfl⟩)
        exact h (by rw [e a ha, e b hb])
      simp only [mergeN, Bool.not_eq_true _ |>.mp hadj, Bool.not_false, if_true]

example : merge2 ex23 ex23 false = .ok ⟨[1, 2, 3, 1, 2, 3, 4, 5, 6, 4, 5, 6], 4, 3, 3⟩ := by decide +kernel
example : mergeN false [ex41, ⟨[1], 1, 1, 3⟩, ⟨[2, 3], 2, 1, 3⟩] = .ok ⟨[5, 1, 2, 7, 3, 9, 11], 7, 1, 3⟩ := by decide +kernel

/-! ## C20

`m` is the effect monad of the stages; exceptions and state are `Eff σ`. -/

section C20

variable {m : Type → Type} [Monad m] [LawfulMonad m]

/-- The sequence of stages of a list. -/
def Ops.ofList {a : Type} (f : a → m a) : List (a → m a) → Ops m a a
  | [] => .one f
  | g :: fs => .cons f (Ops.ofList g fs)

/-- One sequence of stages after another. -/
def Ops.append {a b c : Type} : Ops m a b → Ops m b c → Ops m a c
  | .one f, gs => .cons f gs
  | .cons f fs, gs => .cons f (Ops.append fs gs)

/-- The functions of a list of at least two. -/
def Fns.ofList {a : Type} (f g : a → m a) : List (a → m a) → Fns m a a
  | [] => .two f g
  | h :: fs => .cons f (Fns.ofList g h fs)

/-- One list of functions after another. -/
def Fns.append {a b c : Type} : Fns m b c → Fns m a b → Fns m a c
  | .two f g, gs => .cons f (.cons g gs)
  | .cons f fs, gs => .cons f (Fns.append fs gs)

/-- C20: `pipe(x, f1, ..., fn)` and `make_pipe(f1, ..., fn)(x)` apply the stages from left to right. -/
theorem C20_pipe_left_to_right {a : Type} (x : a) (f : a → m a) (fs : List (a → m a)) :
    pipe x (Ops.ofList f fs) = (f :: fs).foldlM (fun y g => g y) x ∧
    makePipe (Ops.ofList f fs) x = (f :: fs).foldlM (fun y g => g y) x := by
  have : ∀ (fs : List (a → m a)) (f : a → m a) (x : a),
      pipe x (Ops.ofList f fs) = (f :: fs).foldlM (fun y g => g y) x := by
    intro fs
    induction fs with
    | nil => intro f x; simp [Ops.ofList, pipe]
    | cons g fs ih =>
      intro f x
      rw [List.foldlM_cons]
      simp only [Ops.ofList, pipe, ih]
  exact ⟨this fs f x, this fs f x⟩

/-- C20: `compose(f1, ..., fn)(x)` applies the functions from right to left. -/
theorem C20_compose_right_to_left {a : Type} (x : a) (f g : a → m a) (fs : List (a → m a)) :
    compose (Fns.ofList f g fs) x = (f :: g :: fs).reverse.foldlM (fun y h => h y) x := by
  induction fs generalizing f g with
  | nil => simp [Fns.ofList, compose, compose2]
  | cons h fs ih =>
    simp only [Fns.ofList, compose, compose2]
    rw [ih g h, List.reverse_cons, List.foldlM_append]
    simp

/-- C20: a pipe of stages of any types can be cut anywhere: running the first part, then the second; a stage that is
itself a pipe is the same as its stages. -/
theorem C20_pipe_associative {a b c : Type} (x : a) (fs : Ops m a b) (gs : Ops m b c) :
    pipe x (fs.append gs) = (pipe x fs >>= fun y => pipe y gs) ∧
    pipe x (.cons (makePipe fs) gs) = pipe x (fs.append gs) ∧
    pipe x (fs.append (.one (makePipe gs))) = pipe x (fs.append gs) := by
  have key : ∀ {a b c : Type} (fs : Ops m a b) (x : a) (gs : Ops m b c),
      pipe x (fs.append gs) = (pipe x fs >>= fun y => pipe y gs) := by
    intro a b c fs
    induction fs with
    | one f => intro x gs; rfl
    | cons f fs ih => intro x gs; simp only [Ops.append, pipe, ih, bind_assoc]
  refine ⟨key fs x gs, ?_, ?_⟩
  · rw [key]; rfl
  · rw [key, key]; rfl

/-- C20: composition can be cut anywhere, and composing with a composition is composing with its functions. -/
theorem C20_compose_associative {a b c d : Type} (fs : Fns m b c) (gs : Fns m a b) (h : c → m d) (f : b → m c)
    (g : a → m b) :
    compose (fs.append gs) = compose2 (compose fs) (compose gs) ∧
    compose (.two (compose fs) (compose gs)) = compose (fs.append gs) ∧
    compose2 (compose2 h f) g = compose2 h (compose2 f g) := by
  have key : ∀ {a b c : Type} (fs : Fns m b c) (gs : Fns m a b),
      compose (fs.append gs) = compose2 (compose fs) (compose gs) := by
    intro a b c fs
    induction fs with
    | two f g =>
      intro gs; funext x
      simp only [Fns.append, compose, compose2, bind_assoc]
      rfl
    | cons f fs ih =>
      intro gs; funext x
      simp only [Fns.append, compose, ih]
      simp only [compose2, bind_assoc]
      rfl
  refine ⟨key fs gs, ?_, ?_⟩
  · rw [key, compose]
  · funext x; simp only [compose2, bind_assoc]; rfl

end C20

/-- C20: an exception stops the pipe (composition) at the failing stage; the state is the one left by that stage, so
the later stages have not run. -/
theorem C20_exception_stops {a b c d : Type} (x : a) (fs : Ops (Eff σ) a b) (f : b → Eff σ c) (gs : Ops (Eff σ) c d)
    {st st' st'' : σ} {y : b} {e : Err} (h1 : pipe x fs st = (.ok y, st')) (h2 : f y st' = (.throw e, st'')) :
    pipe x (fs.append (.cons f gs)) st = (.throw e, st'') ∧
    (∀ (k : c → Eff σ d) (g : a → Eff σ b), g x st = (.ok y, st') →
      compose (.cons k (.two f g)) x st = (.throw e, st'')) := by
  constructor
  · rw [(C20_pipe_associative x fs (.cons f gs)).1, Eff.bind_ok h1]
    exact Eff.bind_throw h2
  · intro k g hg
    rw [compose, compose]
    refine Eff.bind_throw (x := g x >>= f) ?_
    rw [Eff.bind_ok hg, h2]

example := C20_exception_stops (σ := Nat) 5 (.one fun (x : Int) => fun st => (.ok (x + 1), st + 1))
  (fun _ => fun st => (.throw .lengthError, st + 1)) (.one fun (x : Int) => fun st => (.ok (2 * x), st + 1))
  (st := 0) (st' := 1) (st'' := 2) (y := 6) (e := .lengthError) rfl rfl

/-- C20: `make_op(b)(a)` calls the operation with the bound argument first. -/
theorem C20_make_op {δ : Type} (op : β → γ → δ) (b : β) (a : γ) : makeOp op b a = op b a := rfl

example : pipe (m := Id) 3 (Ops.ofList (fun x : Int => x + 1) [(· * 10), (· - 2)]) = 38 := rfl
example : compose (m := Id) (Fns.ofList (fun x : Int => x + 1) (· * 10) [(· - 2)]) 3 = 11 := by simp [Fns.ofList, compose, compose2]; rfl
example : makeOp (fun a b : Int => a - b) 2 7 = -5 := by decide +kernel

/-! ## C22 -/

/-- C22: `concat` appends the items in order, the counts add up. -/
theorem C22_concat [Zero α] {k : Nat} {ss : List (Serie α)} (hne : ss ≠ [])
    (hw : ∀ s ∈ ss, WF s ∧ s.itemSize = k) (hn : (ss.map (·.count)).sum * k < 2 ^ 32) :
    ∃ r, concat ss = .ok r ∧ WF r ∧ r.itemSize = k ∧ items r = (ss.map items).flatten ∧
      r.count = (ss.map (·.count)).sum := by
  have hl : ∀ v ∈ (ss.map items).flatten, v.length = k := by
    intro v hv
    simp only [List.mem_flatten, List.mem_map] at hv
    obtain ⟨_, ⟨s, hs, rfl⟩, hv⟩ := hv
    rw [← (hw s hs).2]; exact (hw s hs).1.item_length hv
  have hlen := flatten_items_length ss
  have hk : 0 < k ∧ k < 2 ^ 31 := by
    cases ss with
    | nil => exact absurd rfl hne
    | cons s ss =>
      obtain ⟨a, b⟩ := hw s (by simp)
      exact ⟨b ▸ a.pos, b ▸ a.int⟩
  exact ⟨_, concat_eq hne hw hn, WF_ofItems hk.1 hk.2 hl (by rw [hlen]; exact hn), rfl, items_ofItems hl, hlen⟩

example := C22_concat (k := 3) (ss := [ex23, exTail, ex23]) (by decide) (by decide) (by decide)

/-- C22: an empty list, an invalid Serie or differing item sizes throw. -/
theorem C22_concat_throws [Zero α] :
    concat ([] : List (Serie α)) = .throw .invalidArgument ∧
    (∀ ss : List (Serie α), (∃ s ∈ ss, s.isValid = false) → concat ss = .throw .invalidArgument) ∧
    (∀ ss : List (Serie α), (∃ s ∈ ss, ∃ t ∈ ss, t.itemSize ≠ s.itemSize) →
      concat ss = .throw .invalidArgument) :=
  ⟨rfl, fun _ ⟨_, hs, h⟩ => concat_bad hs (Or.inl h), fun _ ⟨_, hs, t, ht, h⟩ => concat_bad hs (Or.inr ⟨t, ht, h⟩)⟩

/-- C22: concatenating concatenations is concatenating everything. -/
theorem C22_concat_associative [Zero α] {k : Nat} {ss ts : List (Serie α)} (hs : ss ≠ []) (ht : ts ≠ [])
    (hw : ∀ s ∈ ss ++ ts, WF s ∧ s.itemSize = k) (hn : ((ss ++ ts).map (·.count)).sum * k < 2 ^ 32) :
    (do let a ← concat ss
        let b ← concat ts
        concat [a, b]) = concat (ss ++ ts) := by
  have hn1 : (ss.map (·.count)).sum * k < 2 ^ 32 := by
    refine Nat.lt_of_le_of_lt (Nat.mul_le_mul_right _ ?_) hn
    simp
  have hn2 : (ts.map (·.count)).sum * k < 2 ^ 32 := by
    refine Nat.lt_of_le_of_lt (Nat.mul_le_mul_right _ ?_) hn
    simp
  obtain ⟨a, ha, wa, ka, ia, ca⟩ := C22_concat hs (fun s h => hw s (by simp [h])) hn1
  obtain ⟨b, hb, wb, kb, ib, cb⟩ := C22_concat ht (fun s h => hw s (by simp [h])) hn2
  rw [ha, hb]
  simp only [Res.ok_bind]
  rw [concat_eq (k := k) (ss := [a, b]) (by simp) (by
      intro s h; simp at h; rcases h with rfl | rfl
      · exact ⟨wa, ka⟩
      · exact ⟨wb, kb⟩) (by simpa [ca, cb] using hn),
    concat_eq (by simp [hs]) hw hn]
  simp [ia, ib]

example := C22_concat_associative (k := 3) (ss := [ex23, exTail]) (ts := [ex23]) (by decide) (by decide) (by decide)
  (by decide)

example : concat [ex23, ⟨[7, 8, 9], 1, 3, 3⟩] = .ok ⟨[1, 2, 3, 4, 5, 6, 7, 8, 9], 3, 3, 3⟩ := by decide +kernel

/-! ## C23 -/

/-- C23: `partition_n(n, s)` cuts `s` into `min n count` parts (one empty part when `s` is empty): concatenated in
order they give the items of `s` back, the first `count % n` of them have one item more than the others. -/
theorem C23_partition [Zero α] {s : Serie α} (h : WF s) {n : Nat} (hn : 0 < n) :
    ∃ parts, partitionN n s = .ok parts ∧ parts.length = max 1 (min n s.count) ∧
      (∀ p ∈ parts, WF p ∧ p.itemSize = s.itemSize) ∧
      (parts.map items).flatten = items s ∧
      (∀ i (hi : i < parts.length), parts[i].count = s.count / n + if i < s.count % n then 1 else 0) ∧
      concat parts = .ok (ofItems s.itemSize (items s)) := by
  obtain ⟨m, h1, h2, h3, h4, h5⟩ := partLoop_eq h hn n 0 [] hn (by omega) (by omega)
  rw [cut_zero] at h5
  simp only [List.nil_append, Nat.sub_zero] at h5
  have hm := cut_count hn h2 h3 (by rcases h4 with h4 | h4
                                    · exact Or.inl h4.2
                                    · exact Or.inr h4) h1
  have hle : ∀ j, j < m → (partItems s n j).length ≤ s.count := by
    intro j hj
    simp only [partItems, List.length_take, List.length_drop, items_length]; omega
  have hwf : ∀ p ∈ (List.range' 0 m).map (fun j => ofItems s.itemSize (partItems s n j)),
      WF p ∧ p.itemSize = s.itemSize := by
    intro p hp
    simp only [List.mem_map, List.mem_range'_1] at hp
    obtain ⟨j, hj, rfl⟩ := hp
    exact ⟨WF_ofItems h.pos h.int (partItems_item h)
      (Nat.lt_of_le_of_lt (Nat.le_trans (Nat.mul_le_mul_right _ (hle j (by omega))) h.fits) h.small), rfl⟩
  have hfl : (((List.range' 0 m).map (fun j => ofItems s.itemSize (partItems s n j))).map items).flatten =
      items s := by
    have := partItems_flatten (s := s) (n := n) m h2
    rw [h3, List.take_of_length_le (by simp)] at this
    rw [List.map_map, ← List.range_eq_range']
    rw [← this]
    congr 1
    apply List.map_congr_left
    intro j _
    exact items_ofItems (partItems_item h)
  have hpn : partitionN n s = .ok ((List.range' 0 m).map (fun j => ofItems s.itemSize (partItems s n j))) := by
    unfold partitionN; rw [if_neg (by omega)]; exact h5
  refine ⟨_, hpn, by simp [hm], hwf, hfl, ?_, ?_⟩
  · intro i hi
    simp only [List.length_map, List.length_range'] at hi
    simp only [List.getElem_map, List.getElem_range', Nat.zero_add, Nat.one_mul]
    exact partItems_length hn (by omega)
  · rw [concat_eq (k := s.itemSize) ?_ hwf ?_, hfl]
    · simp; omega
    · rw [← flatten_items_length, hfl, items_length]
      exact Nat.lt_of_le_of_lt h.fits h.small

example := C23_partition ex41_WF (n := 3) (by decide)

/-- C23 in terms of the sizes only: at most `n` parts (`n ≥ 1`), exactly `n` when `count ≥ n`; sizes differ by at most
one, larger ones first. -/
theorem C23_even [Zero α] {s : Serie α} (h : WF s) {n : Nat} (hn : 0 < n) :
    ∃ parts, partitionN n s = .ok parts ∧ parts.length ≤ n ∧ (n ≤ s.count → parts.length = n) ∧
      ∀ i j (hij : i < j) (hj : j < parts.length),
        parts[j].count ≤ parts[i].count ∧ parts[i].count ≤ parts[j].count + 1 := by
  obtain ⟨parts, h1, h2, _, _, h5, _⟩ := C23_partition h hn
  refine ⟨parts, h1, by omega, by omega, ?_⟩
  intro i j hij hj
  rw [h5 i (by omega), h5 j hj]
  split <;> split <;> omega

example := C23_even ex41_WF (n := 3) (by decide)

/-- C23: the form for several Series of equal counts yields exactly `n` parts for each of them, at the same cut
points. -/
theorem C23_partition_multi [Zero α] {ss : List (Serie α)} {c n : Nat} (hne : ss ≠ []) (hw : ∀ s ∈ ss, WF s)
    (hc : ∀ s ∈ ss, s.count = c) (hn : 0 < n) :
    ∃ res, partitionNMulti n ss = .ok res ∧ res.length = ss.length ∧
      ∀ t (ht : t < ss.length) (ht' : t < res.length), res[t].length = n ∧
        (∀ p ∈ res[t], WF p ∧ p.itemSize = ss[t].itemSize) ∧
        (res[t].map items).flatten = items ss[t] ∧
        ∀ i (hi : i < res[t].length), res[t][i].count = c / n + if i < c % n then 1 else 0 := by
  obtain ⟨h1, h2⟩ := countAndCheck_eq hne hc
  let parts : Serie α → List (Serie α) := fun s =>
    (List.range' 0 n).map (fun j => ofItems s.itemSize (partItems s n j))
  have hm : partitionNMulti n ss = .ok (ss.map parts) := by
    unfold partitionNMulti
    rw [if_neg (by omega), h1]
    simp only [Res.ok_bind, h2]
    refine mapM_ok ss (fun s hs => ?_)
    have := partLoopAll_eq (hw s hs) hn n 0 [] (by omega)
    rw [cut_zero, hc s hs] at this
    simpa using this
  refine ⟨_, hm, by simp, ?_⟩
  intro t ht ht'
  have hs := List.getElem_mem ht
  have hws := hw _ hs
  have hcs := hc _ hs
  simp only [List.getElem_map]
  refine ⟨by simp [parts], ?_, ?_, ?_⟩
  · intro p hp
    simp only [parts, List.mem_map, List.mem_range'_1] at hp
    obtain ⟨j, hj, rfl⟩ := hp
    have hle : (partItems ss[t] n j).length ≤ ss[t].count := by simp only [partItems, List.length_take, List.length_drop, items_length]; omega
    exact ⟨WF_ofItems hws.pos hws.int (partItems_item hws)
      (Nat.lt_of_le_of_lt (Nat.le_trans (Nat.mul_le_mul_right _ hle) hws.fits) hws.small), rfl⟩
  · have := partItems_flatten (s := ss[t]) (n := n) n (Nat.le_refl _)
    rw [cut_last hn, List.take_of_length_le (by simp)] at this
    rw [← this]
    simp only [parts]
    rw [List.map_map, ← List.range_eq_range']
    congr 1
    apply List.map_congr_left
    intro j _
    exact items_ofItems (partItems_item hws)
  · intro i hi
    simp only [parts, List.length_map, List.length_range'] at hi
    simp only [parts, List.getElem_map, List.getElem_range', Nat.zero_add, Nat.one_mul]
    rw [← hcs]
    exact partItems_length hn hi

example := C23_partition_multi (ss := [ex23, exTail]) (c := 2) (n := 2) (by decide) (by decide) (by decide) (by decide)

/-- C23: the form for several Series throws when `n` is zero or the counts differ. -/
theorem C23_multi_throws [Zero α] (ss : List (Serie α)) :
    partitionNMulti 0 ss = .throw .invalidArgument ∧
    ∀ n, 0 < n → (∃ s ∈ ss, ∃ t ∈ ss, s.count ≠ t.count) → partitionNMulti n ss = .throw .invalidArgument := by
  refine ⟨rfl, ?_⟩
  rintro n hn ⟨s, hs, t, ht, h⟩
  unfold partitionNMulti
  rw [if_neg (by omega), countAndCheck_throw hs ht h]; rfl

example : partitionN 3 ex41 = .ok [⟨[5, 7], 2, 1, 3⟩, ⟨[9], 1, 1, 3⟩, ⟨[11], 1, 1, 3⟩] := by decide +kernel
example : partitionN 7 ex23 = .ok [⟨[1, 2, 3], 1, 3, 3⟩, ⟨[4, 5, 6], 1, 3, 3⟩] := by decide +kernel
example : partitionNMulti 3 [ex23] =
    .ok [[⟨[1, 2, 3], 1, 3, 3⟩, ⟨[4, 5, 6], 1, 3, 3⟩, ⟨[], 0, 3, 3⟩]] := by decide +kernel

/-! ## C28 -/

/-- C28: item `i` of `zip(s1, ..., sn)` (and of `zipVector`) is the concatenation of the `i`-th items; its item size is
the sum of the item sizes. -/
theorem C28_zip [Zero α] {ss : List (Serie α)} {n : Nat} (hne : ss ≠ []) (hw : ∀ s ∈ ss, WF s)
    (hc : ∀ s ∈ ss, s.count = n) (ht : (ss.map (·.itemSize)).sum < 2 ^ 31)
    (hs : n * (ss.map (·.itemSize)).sum < 2 ^ 32) :
    ∃ z, zip ss = .ok z ∧ zipVector ss = .ok z ∧ WF z ∧ z.itemSize = (ss.map (·.itemSize)).sum ∧ z.count = n ∧
      items z = (rows ss n).map List.flatten := by
  obtain ⟨h1, h2⟩ := zip_eq hne hw hc ht hs
  have hl : ∀ v ∈ (rows ss n).map List.flatten, v.length = (ss.map (·.itemSize)).sum := by
    intro v hv
    simp only [rows, List.mem_map, List.mem_range] at hv
    obtain ⟨_, ⟨i, hi, rfl⟩, rfl⟩ := hv
    exact row_flatten_length hw hc hi
  have hp : 0 < (ss.map (·.itemSize)).sum := by
    cases ss with
    | nil => exact absurd rfl hne
    | cons s ss =>
      have := (hw s (by simp)).pos
      simp only [List.map_cons, List.sum_cons]; omega
  exact ⟨_, h1, h2, WF_ofItems hp ht hl (by simpa using hs), rfl, by simp [ofItems], items_ofItems hl⟩

example := C28_zip (ss := [ex23, exTail, ⟨[8, 9], 2, 1, 3⟩]) (n := 2) (by decide) (by decide) (by decide) (by decide)
  (by decide)

theorem columns_zip [Zero α] {ss : List (Serie α)} {n : Nat} {z : Serie α}
    (hw : ∀ s ∈ ss, WF s) (hc : ∀ s ∈ ss, s.count = n)
    (hz : items z = (rows ss n).map List.flatten) : ∀ (done rest : List (Serie α)), done ++ rest = ss →
    columns z (done.map (·.itemSize)).sum (rest.map (·.itemSize)) =
      rest.map (fun s => ofItems s.itemSize (items s)) := by
  intro done rest
  induction rest generalizing done with
  | nil => intro _; rfl
  | cons s rest ih =>
    intro hss
    simp only [List.map_cons, columns]
    have h2 := ih (done ++ [s]) (by simpa using hss)
    simp only [List.map_append, List.map_cons, List.map_nil, List.sum_append, List.sum_cons, List.sum_nil,
      Nat.add_zero] at h2
    rw [h2]
    congr 2
    have hsw := hw s (by simp [← hss])
    have hsc := hc s (by simp [← hss])
    rw [column, hz, items, hsc, rows, List.map_map, List.map_map]
    apply List.map_congr_left
    intro i hi
    simp only [List.mem_range] at hi
    have hd := row_flatten_length (ss := done) (n := n) (fun t ht => hw t (by simp [← hss, ht]))
      (fun t ht => hc t (by simp [← hss, ht])) hi
    have hk := chunk_length (hsw.item_fits (by omega : i < s.count))
    simp only [Function.comp, row, ← hss, List.map_append, List.flatten_append, List.map_cons, List.flatten_cons]
    simp only [row] at hd
    rw [← hd, List.drop_left, List.take_left' hk]

/-- C28: `unzip(zip(s1, ..., sn), sizes)` gives the items of `s1`, ..., `sn` back. -/
theorem C28_unzip_zip [Zero α] {ss : List (Serie α)} {n : Nat} (hne : ss ≠ []) (hw : ∀ s ∈ ss, WF s)
    (hc : ∀ s ∈ ss, s.count = n) (ht : (ss.map (·.itemSize)).sum < 2 ^ 31)
    (hs : n * (ss.map (·.itemSize)).sum < 2 ^ 32) :
    (zip ss >>= fun z => unzip z (ss.map (·.itemSize))) =
      .ok (ss.map (fun s => ofItems s.itemSize (items s))) := by
  obtain ⟨z, h1, _, wz, kz, _, iz⟩ := C28_zip hne hw hc ht hs
  rw [h1, Res.ok_bind, unzip_eq wz (by simpa using hne) (by
    intro k hk
    obtain ⟨s, hs, rfl⟩ := List.mem_map.1 hk
    exact (hw s hs).pos) kz.symm]
  have := columns_zip hw hc iz [] ss rfl
  simp only [List.map_nil, List.sum_nil] at this
  rw [this]

example := C28_unzip_zip (ss := [ex23, exTail, ⟨[8, 9], 2, 1, 3⟩]) (n := 2) (by decide) (by decide) (by decide)
  (by decide) (by decide)

theorem columns_spec [Zero α] {z : Serie α} (h : WF z) : ∀ (sizes : List Nat) (off : Nat), (∀ k ∈ sizes, 0 < k) →
    off + sizes.sum ≤ z.itemSize →
    (∀ s ∈ columns z off sizes, WF s ∧ s.count = z.count) ∧
    (columns z off sizes).map (·.itemSize) = sizes ∧
    ∀ i (hi : i < (items z).length),
      (row (columns z off sizes) i).flatten = ((items z)[i].drop off).take sizes.sum := by
  intro sizes
  induction sizes with
  | nil => intro off _ _; simp [columns, row]
  | cons k ks ih =>
    intro off hp ho
    simp only [List.sum_cons] at ho ⊢
    obtain ⟨h1, h2, h3⟩ := ih (off + k) (fun k hk => hp k (by simp [hk])) (by omega)
    have hcl : ∀ v ∈ column z k off, v.length = k := by
      intro v hv
      obtain ⟨w, hw, rfl⟩ := List.mem_map.1 hv
      have := h.item_length hw
      simp; omega
    have hclen : (column z k off).length = z.count := by simp [column]
    have hint := h.int
    have hwf : WF (ofItems k (column z k off)) := by
      refine WF_ofItems (hp k (by simp)) (by omega) hcl ?_
      rw [hclen]
      refine Nat.lt_of_le_of_lt (Nat.le_trans (Nat.mul_le_mul_left _ ?_) h.fits) h.small
      omega
    refine ⟨?_, ?_, ?_⟩
    · intro s hs
      simp only [columns, List.mem_cons] at hs
      rcases hs with rfl | hs
      · exact ⟨hwf, hclen⟩
      · exact h1 s hs
    · simp only [columns, List.map_cons, h2]; rfl
    · intro i hi
      have h4 := h3 i hi
      simp only [columns, row, List.map_cons, List.flatten_cons]
      simp only [row] at h4
      rw [h4]
      have e : chunk (ofItems k (column z k off)).itemSize (ofItems k (column z k off)).data i =
          ((items z)[i].drop off).take k := by
        have hi' : i < (column z k off).length := by simpa [hclen] using hi
        have := chunk_flatten hcl hi' []
        simp only [List.append_nil] at this
        show chunk k (column z k off).flatten i = _
        rw [this]; simp [column]
      rw [e, List.take_add, List.drop_drop]

/-- C28: `zip(unzip(z, sizes))` gives the items of `z` back when the sizes are positive and add up to the item size. -/
theorem C28_zip_unzip [Zero α] {z : Serie α} (h : WF z) {sizes : List Nat} (hne : sizes ≠ [])
    (hp : ∀ k ∈ sizes, 0 < k) (hsum : sizes.sum = z.itemSize) :
    (unzip z sizes >>= fun ss => zip ss) = .ok (ofItems z.itemSize (items z)) := by
  rw [unzip_eq h hne hp hsum, Res.ok_bind]
  obtain ⟨h1, h2, h3⟩ := columns_spec h sizes 0 hp (by omega)
  have hcn : columns z 0 sizes ≠ [] := by
    cases sizes with
    | nil => exact absurd rfl hne
    | cons k ks => simp [columns]
  have e := (zip_eq hcn (fun s hs => (h1 s hs).1) (fun s hs => (h1 s hs).2) (by rw [h2, hsum]; exact h.int)
    (by rw [h2, hsum]; exact Nat.lt_of_le_of_lt h.fits h.small)).1
  rw [e, h2, hsum]
  congr 2
  apply List.ext_getElem
  · simp
  · intro i hi hi'
    simp only [rows, List.getElem_map, List.getElem_range]
    rw [h3 i hi', hsum, List.drop_zero]
    exact List.take_of_length_le (Nat.le_of_eq (h.item_length (List.getElem_mem _)))

example := C28_zip_unzip exTail_WF (sizes := [2, 1]) (by decide) (by decide) rfl

/-- C28: `zip` throws on an invalid Serie or differing counts; `unzip` throws when there are no sizes or they do not
add up to the item size. Missing for the full claim: sums of sizes reaching `2^32` (see `C28_wrong_sizes_violated`). -/
theorem C28_throws_partial [Zero α] (ss : List (Serie α)) (z : Serie α) (sizes : List Nat) :
    ((∃ s ∈ ss, s.isValid = false) → zip ss = .throw .invalidArgument ∧ zipVector ss = .throw .invalidArgument) ∧
    ((∃ s ∈ ss, ∃ t ∈ ss, s.count ≠ t.count) →
      zip ss = .throw .invalidArgument ∧ zipVector ss = .throw .invalidArgument) ∧
    zipVector ([] : List (Serie α)) = .throw .invalidArgument ∧
    unzip z [] = .throw .invalidArgument ∧
    (sizes.sum < 2 ^ 32 → sizes.sum ≠ z.itemSize → unzip z sizes = .throw .invalidArgument) := by
  refine ⟨?_, ?_, by simp [zipVector], by simp [unzip], ?_⟩
  · rintro ⟨s, hs, h⟩
    have : ss.all (·.isValid) = false := by
      rw [List.all_eq_false]; exact ⟨s, hs, by simp [h]⟩
    constructor
    · simp [zip, this]
    · unfold zipVector
      rw [if_neg (List.ne_nil_of_mem hs), this]; rfl
  · rintro ⟨s, hs, t, ht, h⟩
    have hcc := countAndCheck_throw hs ht h
    constructor
    · unfold zip
      split
      · rfl
      · rw [hcc]; rfl
    · unfold zipVector
      rw [if_neg (List.ne_nil_of_mem hs)]
      split
      · rfl
      · rw [hcc]; rfl
  · intro h1 h2
    have ht : sizes.foldl (fun t k => u32 (t + k)) 0 = sizes.sum := by
      have := foldl_u32_sum (fun k : Nat => k) sizes 0 (by simp; omega)
      simp only [List.map_id'] at this
      rw [this]; omega
    unfold unzip
    split
    · rfl
    · rw [if_pos (by rw [ht]; exact h2)]

/-- C28 fails for sizes whose sum exceeds `2^32`: the sum is computed modulo `2^32`, so wrong sizes are accepted. -/
theorem C28_wrong_sizes_violated :
    ∃ (z : Serie Int) (sizes : List Nat) (res : List (Serie Int)),
      WF z ∧ (∀ k ∈ sizes, 0 < k) ∧ sizes.sum ≠ z.itemSize ∧ unzip z sizes = .ok res :=
  ⟨⟨[], 0, 3, 3⟩, [2 ^ 31, 2 ^ 31, 3], [⟨[], 0, 2 ^ 31, 3⟩, ⟨[], 0, 2 ^ 31, 3⟩, ⟨[], 0, 3, 3⟩],
    ⟨by simp, by simp, by simp, by simp⟩, by simp, by simp, by decide +kernel⟩

example : zip [(⟨[1, 2], 2, 1, 3⟩ : Serie Int), ⟨[3, 4, 5, 6], 2, 2, 3⟩] = .ok ⟨[1, 3, 4, 2, 5, 6], 2, 3, 3⟩ := by decide +kernel
example : unzip ex23 [1, 2] = .ok [⟨[1, 4], 2, 1, 3⟩, ⟨[2, 3, 5, 6], 2, 2, 3⟩] := by decide +kernel

end DF
