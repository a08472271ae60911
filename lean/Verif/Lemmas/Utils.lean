import Verif.Spec.Utils
import Verif.Lemmas.Functional
import Verif.Lemmas.Combine
import Mathlib.Data.List.Lex
import Mathlib.Order.Defs.LinearOrder

/-! # Lemmas on memoize and sort -/

namespace DF

open Spec

variable {α σ : Type}

theorem foldl_append_flatten {γ : Type} (l : List (List γ)) (acc : List γ) :
    l.foldl (fun acc v => acc ++ v) acc = acc ++ l.flatten := by
  induction l generalizing acc with
  | nil => simp
  | cons a l ih => simp [ih]

theorem forLoop_append {γ : Type} {g : Nat → Res (List γ)} :
    ∀ (its : List (List γ)) (lo : Nat) (acc : List γ), (∀ i (hi : i < its.length), g (lo + i) = .ok its[i]) →
    forLoop (fun i key => g i >>= fun v => pure (key ++ v)) lo its.length acc =
      (.ok (acc ++ its.flatten) : Res (List γ)) := by
  intro its
  induction its with
  | nil => intro lo acc _; simp
  | cons a its ih =>
    intro lo acc h
    rw [List.length_cons, forLoop_succ, show g lo = .ok a from h 0 (by simp)]
    simp only [Res.ok_bind, Res.pure_eq]
    have := ih (lo + 1) (acc ++ a) (fun i hi => by
      have := h (i + 1) (by simpa using hi)
      rw [show lo + 1 + i = lo + (i + 1) by omega]; simpa using this)
    simpa using this

theorem makeKey_eq {s : Serie α} (h : WF s) : makeKey s = .ok (numbers s) := by
  have hl : forLoop (fun i key => s.getA i >>= fun v => pure (key ++ v)) 0 s.count [] =
      (.ok (numbers s) : Res (List α)) := by
    have := forLoop_append (g := s.getA) (items s) 0 [] (fun i hi => by
      rw [Nat.zero_add]; exact Serie.getA_items h hi)
    simpa [numbers] using this
  unfold makeKey
  rw [← hl]
  apply forLoop_congr
  intro i key _ hi
  split
  · rename_i h1
    have hi' : i < s.count := by omega
    have hc := h.count_le
    rw [Serie.getA_eq h hi', Serie.getD_eq (by omega), h1, chunk_one (by omega)]
    rfl
  · rfl

/-- Item size and numbers determine the items. -/
theorem items_of_numbers {s t : Serie α} (hs : WF s) (ht : WF t) (hk : s.itemSize = t.itemSize)
    (h : numbers s = numbers t) : items s = items t := by
  have e1 : (numbers s).length = s.count * s.itemSize := by
    rw [numbers, flatten_length (fun v hv => hs.item_length hv), items_length]
  have e2 : (numbers t).length = t.count * t.itemSize := by
    rw [numbers, flatten_length (fun v hv => ht.item_length hv), items_length]
  have hc : s.count = t.count := by
    apply Nat.eq_of_mul_eq_mul_right hs.pos
    rw [← e1, h, e2, hk]
  apply List.ext_getElem
  · simp [hc]
  · intro i h1 h2
    have a := chunk_flatten (fun v hv => hs.item_length hv) h1 []
    have b := chunk_flatten (fun v hv => ht.item_length hv) h2 []
    rw [← a, ← b]
    simp only [List.append_nil]
    rw [hk]
    have : (items s).flatten = (items t).flatten := h
    rw [this]

set_option linter.unusedSectionVars false

section memo

variable [LT α] [DecidableLT α] [BEq α] [Zero α]

/-- The arrays satisfying `K` are in a strict weak order in which only equal arrays are the same key. -/
structure Comparable (K : List α → Prop) : Prop where
  weak : ∀ l : List (List α), (∀ k ∈ l, K k) → isStrictWeak keyLess l = true
  same : ∀ a b, K a → K b → (sameKey a b = true ↔ a = b)

/-- All the keys of a cache satisfy `K`. -/
def KeysIn (K : List α → Prop) (c : Cache α) : Prop := ∀ p ∈ c, K p.1

theorem cacheFind_eq {K : List α → Prop} (hK : Comparable K) {c : Cache α} (hc : KeysIn K c) {key : List α} (hk : K key) :
    cacheFind c key = .ok ((c.find? (fun p => sameKey p.1 key)).map (·.2)) := by
  unfold cacheFind
  rw [hK.weak]
  · rfl
  · intro k hk'
    rcases List.mem_cons.1 hk' with rfl | hk'
    · exact hk
    · obtain ⟨p, hp, rfl⟩ := List.mem_map.1 hk'
      exact hc p hp

/-- Looking for a key finds an entry of that key, or there is none. -/
theorem cacheFind_cases {K : List α → Prop} (hK : Comparable K) {c : Cache α} (hc : KeysIn K c) {key : List α}
    (hk : K key) :
    (cacheFind c key = .ok none ∧ ∀ p ∈ c, p.1 ≠ key) ∨ ∃ r, cacheFind c key = .ok (some r) ∧ (key, r) ∈ c := by
  rw [cacheFind_eq hK hc hk]
  rcases hf : c.find? (fun p => sameKey p.1 key) with _ | p
  · refine .inl ⟨by rw [hf]; rfl, fun p hp e => ?_⟩
    have := List.find?_eq_none.1 hf p hp
    exact this ((hK.same _ _ (hc p hp) hk).2 e)
  · have hm := List.mem_of_find?_eq_some hf
    have he := (hK.same _ _ (hc p hm) hk).1 (by simpa using List.find?_some hf)
    exact .inr ⟨p.2, by rw [hf]; rfl, by rw [← he]; exact hm⟩

theorem cacheStore_eq {c : Cache α} {key : List α} {r : Serie α} (h : cacheFind c key = .ok none) :
    cacheStore c key r = .ok ((key, { r with dimension := 3 }) :: c) := by
  simp only [cacheStore, h, Res.ok_bind, assign_empty]
  rfl

theorem memoCall_hit {f : Serie α → Eff σ (Serie α)} {s : Serie α} (hw : WF s) {st : Cache α × σ} {r : Serie α}
    (h : cacheFind st.1 (numbers s) = .ok (some r)) : memoCall f s st = (.ok r, st) := by
  simp only [memoCall, makeKey_eq hw, h]; rfl

theorem memoCall_ok {f : Serie α → Eff σ (Serie α)} {s : Serie α} (hw : WF s) {c : Cache α} {t t' : σ}
    {r : Serie α} (h : cacheFind c (numbers s) = .ok none) (hf : f s t = (.ok r, t')) :
    memoCall f s (c, t) = (.ok r, ((numbers s, { r with dimension := 3 }) :: c, t')) := by
  simp only [memoCall, makeKey_eq hw, h, hf, cacheStore_eq h]

theorem memoCall_throw {f : Serie α → Eff σ (Serie α)} {s : Serie α} (hw : WF s) {c : Cache α} {t t' : σ}
    {e : Err} (h : cacheFind c (numbers s) = .ok none) (hf : f s t = (.throw e, t')) :
    memoCall f s (c, t) = (.throw e, (c, t')) := by
  simp only [memoCall, makeKey_eq hw, h, hf]

theorem memoCall_ub {f : Serie α → Eff σ (Serie α)} {s : Serie α} (hw : WF s) {c : Cache α} {t t' : σ}
    (h : cacheFind c (numbers s) = .ok none) (hf : f s t = (.ub, t')) :
    memoCall f s (c, t) = (.ub, (c, t')) := by
  simp only [memoCall, makeKey_eq hw, h, hf]

/-- The cache holds results of `f` for Series satisfying `P`. -/
def CacheOf (f : Serie α → Res (Serie α)) (P : Serie α → Prop) (c : Cache α) : Prop :=
  ∀ p ∈ c, ∃ s r, P s ∧ numbers s = p.1 ∧ f s = .ok r ∧ p.2 = { r with dimension := 3 }

theorem memoRun_pure {K : List α → Prop} (hK : Comparable K) {f : Serie α → Res (Serie α)} {P : Serie α → Prop}
    (hw : ∀ s, P s → WF s) (hPK : ∀ s, P s → K (numbers s))
    (hd : ∀ s, P s → f s ≠ .ub) (hf : ∀ s t, P s → P t → numbers s = numbers t → f s = f t) (x : σ) :
    ∀ (ops : List (MemoOp α)) (c : Cache α), CacheOf f P c → (∀ s ∈ calls ops, P s) →
    List.Forall₂ (fun s out => out = f s ∨ ∃ r, f s = .ok r ∧ out = .ok { r with dimension := 3 }) (calls ops)
      (memoRun (fun s => Eff.lift (f s)) ops (c, x)).1 := by
  intro ops
  induction ops with
  | nil => intro c _ _; exact .nil
  | cons op ops ih =>
    intro c hc hP
    have hcK : KeysIn K c := fun p hp => by
      obtain ⟨s, _, hs, hn, _⟩ := hc p hp
      rw [← hn]; exact hPK s hs
    cases op with
    | clear => exact ih [] (fun p hp => by simp at hp) hP
    | call s =>
      have hs : P s := hP s (by simp [calls])
      have hP' : ∀ s ∈ calls ops, P s := fun t ht => hP t (by simp [calls, ht])
      rcases cacheFind_cases hK hcK (hPK s hs) with ⟨hl, _⟩ | ⟨r, hl, hm⟩
      · rcases hfs : f s with r | e | _
        · have := memoCall_ok (f := fun s => Eff.lift (f s)) (σ := σ) (hw s hs) (t := x) (t' := x) (r := r) hl (by simp [Eff.lift, hfs])
          simp only [memoRun, this, calls]
          refine .cons (.inl hfs.symm) (ih _ ?_ hP')
          intro p hp
          rcases List.mem_cons.1 hp with rfl | hp
          · exact ⟨s, r, hs, rfl, hfs, rfl⟩
          · exact hc p hp
        · have := memoCall_throw (f := fun s => Eff.lift (f s)) (σ := σ) (hw s hs) (t := x) (t' := x) (e := e) hl (by simp [Eff.lift, hfs])
          simp only [memoRun, this, calls]
          exact .cons (.inl hfs.symm) (ih _ hc hP')
        · exact absurd hfs (hd s hs)
      · have := memoCall_hit (f := fun s => Eff.lift (f s)) (σ := σ) (hw s hs) (st := (c, x)) hl
        simp only [memoRun, this, calls]
        obtain ⟨t, r', ht, hn, hft, hr⟩ := hc _ hm
        refine .cons (.inr ⟨r', ?_, ?_⟩) (ih _ hc hP')
        · rw [hf s t hs ht hn.symm, hft]
        · rw [← hr]

/-- Invariant of the log of invocations: a Serie whose invocation returned has its numbers in the cache, and no
invocation follows a returned one on the same numbers. -/
theorem memoRun_traced {K : List α → Prop} (hK : Comparable K) {f : Serie α → Eff σ (Serie α)} :
    ∀ (ops : List (MemoOp α)) (c : Cache α) (log0 log : List (Serie α × Bool)) (x : σ), (MemoOp.clear ∉ ops) →
    (∀ s ∈ calls ops, WF s ∧ K (numbers s)) → KeysIn K c →
    (∀ p ∈ log, p.2 = true → ∃ q ∈ c, q.1 = numbers p.1) →
    log.Pairwise (fun a b => numbers a.1 = numbers b.1 → a.2 = false) →
    ∃ log', (memoRun (traced f) ops (c, (log0 ++ log, x))).2.2.1 = log0 ++ log' ∧
      log'.Pairwise (fun a b => numbers a.1 = numbers b.1 → a.2 = false) := by
  intro ops
  induction ops with
  | nil => intro c log0 log x _ _ _ _ hp; exact ⟨log, rfl, hp⟩
  | cons op ops ih =>
    intro c log0 log x hcl hwf hcK hin hp
    cases op with
    | clear => simp at hcl
    | call s =>
      obtain ⟨hw, hk⟩ := hwf s (by simp [calls])
      have hwf' : ∀ s ∈ calls ops, WF s ∧ K (numbers s) := fun t ht => hwf t (by simp [calls, ht])
      have hcl' : MemoOp.clear ∉ ops := fun h => hcl (List.mem_cons_of_mem _ h)
      rcases cacheFind_cases hK hcK hk with ⟨hl, hno⟩ | ⟨r, hl, _⟩
      · have hpair : ∀ b, (log ++ [(s, b)]).Pairwise
            (fun a b : Serie α × Bool => numbers a.1 = numbers b.1 → a.2 = false) := by
          intro b
          rw [List.pairwise_append]
          refine ⟨hp, by simp, ?_⟩
          intro a ha b hb e
          simp at hb; subst hb
          rcases hb : a.2 with _ | _
          · rfl
          · obtain ⟨q, hq, hqa⟩ := hin a ha hb
            exact absurd (hqa.trans e) (hno q hq)
        rcases hfs : f s x with ⟨r | e | _, t⟩
        · have := memoCall_ok (f := traced f) hw (t := (log0 ++ log, x)) (t' := (log0 ++ (log ++ [(s, true)]), t)) (r := r) hl
            (by simp [traced, hfs, returned])
          simp only [memoRun, this]
          refine ih _ log0 _ t hcl' hwf' ?_ ?_ (hpair true)
          · intro p hp
            rcases List.mem_cons.1 hp with rfl | hp
            · exact hk
            · exact hcK p hp
          · intro p hp2 ht
            rcases List.mem_append.1 hp2 with hp2 | hp2
            · obtain ⟨q, hq, e⟩ := hin p hp2 ht
              exact ⟨q, List.mem_cons_of_mem _ hq, e⟩
            · simp at hp2; subst hp2; exact ⟨_, List.mem_cons_self .., rfl⟩
        · have := memoCall_throw (f := traced f) hw (t := (log0 ++ log, x)) (t' := (log0 ++ (log ++ [(s, false)]), t)) (e := e) hl
            (by simp [traced, hfs, returned])
          simp only [memoRun, this]
          refine ih _ log0 _ t hcl' hwf' hcK ?_ (hpair false)
          intro p hp2 ht
          rcases List.mem_append.1 hp2 with hp2 | hp2
          · exact hin p hp2 ht
          · simp at hp2; subst hp2; simp at ht
        · have := memoCall_ub (f := traced f) hw (t := (log0 ++ log, x)) (t' := (log0 ++ (log ++ [(s, false)]), t)) hl
            (by simp [traced, hfs, returned])
          simp only [memoRun, this]
          exact ⟨_, rfl, hpair false⟩
      · have := memoCall_hit (f := traced f) hw (st := (c, (log0 ++ log, x))) hl
        simp only [memoRun, this]
        exact ih c log0 log x hcl' hwf' hcK hin hp

/-- A test of a strict weak order on a list. -/
theorem isStrictWeak_iff {γ : Type} {lt : γ → γ → Bool} {l : List γ} : isStrictWeak lt l = true ↔ StrictWeak lt l := by
  simp only [isStrictWeak, Bool.and_eq_true, List.all_eq_true, Bool.not_eq_true', Bool.or_eq_true]
  constructor
  · rintro ⟨h1, h2⟩
    refine ⟨h1, ?_, ?_⟩
    · intro a ha b hb c hc hab hbc
      rcases (h2 a ha b hb c hc).1 with h | h
      · simp [hab, hbc] at h
      · exact h
    · intro a ha b hb c hc h3 h4 h5 h6
      have := (h2 a ha b hb c hc).2
      simp [h3, h4, h5, h6] at this
      exact this
  · intro h
    refine ⟨h.irrefl, fun a ha b hb c hc => ⟨?_, ?_⟩⟩
    · by_cases hab : lt a b = true
      · by_cases hbc : lt b c = true
        · exact .inr (h.trans a ha b hb c hc hab hbc)
        · left; simp [hbc]
      · left; simp [hab]
    · by_cases h1 : lt a b = true
      · simp [h1]
      by_cases h2 : lt b a = true
      · simp [h2]
      by_cases h3 : lt b c = true
      · simp [h3]
      by_cases h4 : lt c b = true
      · simp [h4]
      simp only [Bool.not_eq_true] at h1 h2 h3 h4
      have := h.incomp a ha b hb c hc h1 h2 h3 h4
      simp [this]

omit [Zero α] in
/-- Numbers that embed into a linear order give comparable keys. -/
theorem comparable_of_embedding {L : Type} [LinearOrder L] (P : α → Prop) (e : α → L)
    (hlt : ∀ x y, P x → P y → (x < y ↔ e x < e y)) (heq : ∀ x y, P x → P y → ((x == y) = true ↔ e x = e y))
    (hinj : ∀ x y, P x → P y → e x = e y → x = y) : Comparable (α := α) (fun k => ∀ x ∈ k, P x) := by
  have key : ∀ a b : List α, (∀ x ∈ a, P x) → (∀ x ∈ b, P x) → keyLess a b = decide (a.map e < b.map e) := by
    intro a
    induction a with
    | nil => intro b _ _; cases b <;> simp [keyLess]
    | cons x a ih =>
      intro b ha hb
      cases b with
      | nil => simp [keyLess]
      | cons y b =>
        have hx := ha x (by simp)
        have hy := hb y (by simp)
        have := ih b (fun z hz => ha z (by simp [hz])) (fun z hz => hb z (by simp [hz]))
        rw [keyLess, this, List.map_cons, List.map_cons]
        simp only [List.cons_lt_cons_iff]
        by_cases h1 : e x < e y
        · rw [if_pos ((hlt x y hx hy).2 h1)]; simp [h1]
        · rw [if_neg (fun h => h1 ((hlt x y hx hy).1 h))]
          by_cases h2 : e x = e y
          · rw [if_pos ((heq x y hx hy).2 h2)]; simp [h2]
          · rw [if_neg (fun h => h2 ((heq x y hx hy).1 h))]; simp [h1, h2]
  have inj : ∀ a b : List α, (∀ x ∈ a, P x) → (∀ x ∈ b, P x) → a.map e = b.map e → a = b := by
    intro a
    induction a with
    | nil => intro b _ _ h; cases b <;> simp_all
    | cons x a ih =>
      intro b ha hb h
      cases b with
      | nil => simp at h
      | cons y b =>
        simp only [List.map_cons, List.cons.injEq] at h
        rw [hinj x y (ha x (by simp)) (hb y (by simp)) h.1,
          ih b (fun z hz => ha z (by simp [hz])) (fun z hz => hb z (by simp [hz])) h.2]
  refine ⟨?_, ?_⟩
  · intro l hl
    rw [isStrictWeak_iff]
    refine ⟨?_, ?_, ?_⟩
    · intro a ha; rw [key a a (hl a ha) (hl a ha)]; simp
    · intro a ha b hb c hc
      rw [key a b (hl a ha) (hl b hb), key b c (hl b hb) (hl c hc), key a c (hl a ha) (hl c hc)]
      simp only [decide_eq_true_eq]
      exact lt_trans
    · intro a ha b hb c hc
      rw [key a b (hl a ha) (hl b hb), key b a (hl b hb) (hl a ha), key b c (hl b hb) (hl c hc),
        key c b (hl c hc) (hl b hb), key a c (hl a ha) (hl c hc), key c a (hl c hc) (hl a ha)]
      simp only [decide_eq_false_iff_not, not_lt]
      intro h1 h2 h3 h4
      have e1 := le_antisymm h2 h1
      have e2 := le_antisymm h4 h3
      rw [e1, e2]; simp
  · intro a b ha hb
    rw [sameKey, key a b ha hb, key b a hb ha]
    simp only [Bool.and_eq_true, Bool.not_eq_true', decide_eq_false_iff_not, not_lt]
    constructor
    · rintro ⟨h1, h2⟩
      exact inj a b ha hb (le_antisymm h2 h1)
    · rintro rfl; simp

end memo

/-- In a linear order all keys are comparable. -/
theorem comparable_linear [LinearOrder α] : Comparable (α := α) (fun _ => True) := by
  have := comparable_of_embedding (α := α) (fun _ => True) id (by simp) (by simp) (by simp)
  exact ⟨fun l _ => this.weak l (by simp), fun a b _ _ => this.same a b (by simp) (by simp)⟩

section sort

theorem lexLessFrom_eq [LinearOrder α] (a b : List α) (h : a.length = b.length) :
    ∀ n i, i + n = a.length → lexLessFrom a b i n = .ok (decide (a.drop i < b.drop i)) := by
  intro n
  induction n with
  | zero =>
    intro i hi
    rw [List.drop_eq_nil_of_le (by omega), List.drop_eq_nil_of_le (by omega)]
    simp [lexLessFrom]
  | succ n ih =>
    intro i hi
    rw [lexLessFrom, rd_of_lt (show i < a.length by omega), rd_of_lt (show i < b.length by omega)]
    simp only [Res.ok_bind]
    rw [List.drop_eq_getElem_cons (show i < a.length by omega), List.drop_eq_getElem_cons (show i < b.length by omega)]
    by_cases e : a[i] = b[i]
    · rw [if_neg (by simpa using e), ih (i + 1) (by omega)]
      congr 1
      rw [decide_eq_decide, List.cons_lt_cons_iff]
      simp [e]
    · rw [if_pos (by simpa using e)]
      show Res.ok _ = _
      congr 1
      rw [decide_eq_decide, List.cons_lt_cons_iff]
      simp [e]

theorem lexLess_eq [LinearOrder α] {a b : List α} (h : a.length = b.length) :
    lexLess a b = .ok (decide (a < b)) := by
  simpa [lexLess] using lexLessFrom_eq a b h a.length 0 (by omega)

theorem strictWeak_of_linear {γ : Type} [LinearOrder γ] (l : List γ) :
    StrictWeak (fun a b : γ => decide (a < b)) l := by
  refine ⟨?_, ?_, ?_⟩
  · intro a _; simp
  · intro a _ b _ c _ h1 h2; simp at *; exact lt_trans h1 h2
  · intro a _ b _ c _ h1 h2 h3 h4
    simp at *
    have := le_antisymm h1 h2
    have := le_antisymm h3 h4
    subst_vars; simp

theorem sortWith_scalar [LinearOrder α] [Zero α] {srt : StdSort} (hs : srt.Correct) {s : Serie α} (hw : WF s)
    (h1 : s.itemSize = 1) (comp : List α → List α → Res Bool) :
    ∃ xs, sortWith srt s comp = .ok (ofScalars xs) ∧ xs.Perm (scalars s) ∧ xs.Pairwise (· ≤ ·) := by
  have hl : forLoop (fun i values => s.getD i >>= fun x => pure (values ++ [x])) 0 s.count [] =
      (.ok (scalars s) : Res (List α)) := by
    have := forLoop_listR (g := s.getD) (fun x _ (acc : List α) => pure (acc ++ [x])) (scalars s) 0 []
      (fun i hi => by rw [Nat.zero_add]; exact Serie.getD_scalars hw.count_le hi)
    rw [hw.scalars_length] at this
    rw [this]
    have h2 := foldlM_push (m := Res) (fun p : α × Nat => pure p.1) ((scalars s).zipIdx 0) []
    simp only [pure_bind] at h2
    rw [h2, mapM_pure']
    simp
  obtain ⟨xs, hx, hp, ho⟩ := hs α (fun a b => pure (decide (a < b))) (fun a b => decide (a < b)) (scalars s)
    (fun _ _ _ _ => rfl) (strictWeak_of_linear _)
  refine ⟨xs, ?_, hp, ho.imp (fun h => by simpa using h)⟩
  unfold sortWith
  rw [if_neg (by simp [hw.valid]), if_pos h1, hl]
  simp only [Res.ok_bind, hx]
  have := hp.length_eq
  rw [hw.scalars_length] at this
  rw [Serie.ofArray_eq (by decide) (by decide) (by have := hw.count_lt; omega)]
  simp [ofScalars]

theorem sortWith_items [LT α] [DecidableLT α] [Zero α] {srt : StdSort} (hs : srt.Correct) {s : Serie α} (hw : WF s)
    (h1 : s.itemSize ≠ 1) {comp : List α → List α → Res Bool} {lt : List α → List α → Bool}
    (hc : ∀ a ∈ items s, ∀ b ∈ items s, comp a b = .ok (lt a b)) (hlt : StrictWeak lt (items s)) :
    ∃ its, sortWith srt s comp = .ok (ofItems s.itemSize its) ∧ its.Perm (items s) ∧
      its.Pairwise (fun a b => lt b a = false) := by
  have hl : forLoop (fun i values => s.getA i >>= fun x => pure (values ++ [x])) 0 s.count [] =
      (.ok (items s) : Res (List (List α))) := by
    have := forLoop_listR (g := s.getA) (fun x _ (acc : List (List α)) => pure (acc ++ [x])) (items s) 0 []
      (fun i hi => by rw [Nat.zero_add]; exact Serie.getA_items hw hi)
    rw [items_length] at this
    rw [this]
    have h2 := foldlM_push (m := Res) (fun p : List α × Nat => pure p.1) ((items s).zipIdx 0) []
    simp only [pure_bind] at h2
    rw [h2, mapM_pure']
    simp
  obtain ⟨its, hx, hp, ho⟩ := hs _ comp lt (items s) hc hlt
  refine ⟨its, ?_, hp, ho⟩
  unfold sortWith
  rw [if_neg (by simp [hw.valid]), if_neg h1, hl]
  simp only [Res.ok_bind, hx]
  have hlen := hp.length_eq
  rw [items_length] at hlen
  have hfl : its.flatten.length = its.length * s.itemSize :=
    flatten_length (fun v hv => hw.item_length (hp.mem_iff.1 hv))
  have hfit := hw.fits
  have hsm := hw.small
  rw [foldl_append_flatten, List.nil_append, Serie.ofArray_eq hw.pos hw.int (by rw [hfl, hlen]; omega), hfl,
    Nat.mul_div_cancel _ hw.pos]
  rfl

end sort

end DF
