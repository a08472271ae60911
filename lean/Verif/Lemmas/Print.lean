import Verif.Spec.Print
import Verif.Lemmas.Build
import Mathlib.Data.List.Basic

/-!
# Lemmas on text output
-/

namespace DF

open Spec

variable {α : Type}

/-- The streams after `o << t`. -/
def Out.add (o : Out) (c : Console) (t : String) : Console :=
  match o with
  | .cout => { c with cout := c.cout ++ t }
  | .cerr => { c with cerr := c.cerr ++ t }
  | .other => { c with other := c.other ++ t }

theorem Out.put_eq (o : Out) (t : String) (c : Console) : o.put t c = (.ok (), o.add c t) := by
  cases o <;> rfl

theorem Out.add_add (o : Out) (c : Console) (t u : String) : o.add (o.add c t) u = o.add c (t ++ u) := by
  cases o <;> simp [Out.add, String.append_assoc]

theorem Out.add_empty (o : Out) (c : Console) : o.add c "" = c := by
  cases o <;> simp [Out.add]

theorem loop_texts (o : Out) (body : Nat → Unit → Eff Console Unit) (l : List String) : ∀ (lo : Nat) (c : Console),
    (∀ j (h : j < l.length), ∀ c, body (lo + j) () c = (.ok (), o.add c l[j])) →
    forLoop body lo l.length () c = (.ok (), o.add c (String.join l)) := by
  induction l with
  | nil => intro lo c _; simp [Eff.pure_def, Out.add_empty]
  | cons x l ih =>
    intro lo c h
    rw [List.length_cons, forLoop_succ]
    have h0 : body lo () c = (.ok (), o.add c x) := h 0 (by simp) c
    refine (Eff.bind_ok h0).trans ?_
    rw [ih (lo + 1) (o.add c x)]
    · rw [Out.add_add, String.join_cons]
    · intro j hj c
      have := h (j + 1) (by simpa using hj) c
      rw [show lo + (j + 1) = lo + 1 + j by omega] at this
      simpa using this

theorem join_sep (sep x : String) (l : List String) :
    String.join (l.map (· ++ sep)) ++ x = sep.intercalate (l ++ [x]) := by
  induction l with
  | nil => simp
  | cons y l ih =>
    rw [List.map_cons, String.join_cons, List.cons_append, String.intercalate_cons_of_ne_nil (by simp), ← ih]
    simp [String.append_assoc]

theorem sizePred_succ (n : Nat) : sizePred (n + 1) = n := by
  unfold sizePred
  rw [if_neg (by omega)]
  omega

/-- The numbers of a list, each followed by `sep` but the last one, which is followed by `stop`. -/
theorem numbers_text (o : Out) (fmt : α → String) (sep stop : String) {v : List α} (hv : v ≠ []) (get : Nat → Res α)
    (hget : ∀ j (h : j < v.length), get j = .ok v[j]) (last : Res α) (hlast : ∀ x, v.getLast? = some x → last = .ok x)
    (c : Console) :
    (forLoop (fun j _ => do
        let x ← Eff.lift (get j)
        o.put (fmt x ++ sep)) 0 (sizePred v.length) () >>= fun _ => do
      let x ← Eff.lift last
      o.put (fmt x ++ stop)) c = (.ok (), o.add c (sep.intercalate (v.map fmt) ++ stop)) := by
  obtain ⟨w, x, hw⟩ := (List.eq_nil_or_concat v).resolve_left hv
  rw [List.concat_eq_append] at hw
  subst hw
  rw [hlast x (by simp), List.length_append, List.length_singleton, sizePred_succ]
  have h1 := loop_texts o (fun j _ => do
        let x ← Eff.lift (get j)
        o.put (fmt x ++ sep)) (w.map fun y => fmt y ++ sep) 0 c (by
      intro j hj c
      simp only [List.length_map] at hj
      have := hget j (by simp; omega)
      rw [List.getElem_append_left hj] at this
      simp only [Nat.zero_add, this, Eff.lift_ok, pure_bind, Out.put_eq]
      simp)
  rw [List.length_map] at h1
  refine (Eff.bind_ok h1).trans ?_
  simp only [Eff.lift_ok, pure_bind, Out.put_eq, Out.add_add]
  rw [List.map_append, List.map_singleton, ← join_sep, List.map_map]
  simp only [Function.comp_def, String.append_assoc]

theorem getA_items {s : Serie α} (h : WF s) {i : Nat} (hi : i < s.count) : s.getA i = .ok ((items s)[i]'(by simpa using hi)) := by
  rw [Serie.getA_eq h hi]
  simp [items]

theorem printItem_eq (fmt : α → String) {s : Serie α} (h : WF s) {i : Nat} (hi : i < s.count) (sep : String) (c : Console) :
    printItem fmt s i sep c =
      (.ok (), Out.cout.add c (itemText fmt s.itemSize ((items s)[i]'(by simpa using hi)) ++ sep)) := by
  have hl : ((items s)[i]'(by simpa using hi)).length = s.itemSize := h.item_length (List.getElem_mem _)
  unfold printItem itemText
  by_cases h1 : s.itemSize = 1
  · rw [if_pos h1, if_pos h1]
    obtain ⟨x, hx⟩ := List.length_eq_one_iff.1 (hl.trans h1)
    have hd : s.getD i = .ok x := by
      have h2 := h.fits
      rw [h1] at h2
      have e := getA_items h hi
      rw [hx, Serie.getA_eq h hi, h1] at e
      unfold Serie.getD
      rw [if_neg (by omega), rd_of_lt (by omega)]
      have e2 : chunk 1 s.data i = [x] := by simpa using e
      congr 1
      have e3 : (chunk 1 s.data i)[0]? = some x := by rw [e2]; rfl
      unfold chunk at e3
      simp only [List.getElem?_take, List.getElem?_drop] at e3
      simp at e3
      rw [List.getElem?_eq_getElem (by omega)] at e3
      simpa using e3
    simp only [hd, Eff.lift_ok, pure_bind, Out.put_eq, hx]
    simp
  · rw [if_neg h1, if_neg h1, getA_items h hi]
    simp only [Eff.lift_ok, pure_bind]
    have hne : (items s)[i]'(by simpa using hi) ≠ [] := by
      intro he
      rw [he] at hl
      have := h.pos
      simp at hl
      omega
    refine (Eff.bind_ok (Out.put_eq _ _ _)).trans ?_
    have := numbers_text .cout fmt "," (")" ++ sep) hne (rd _) (fun j hj => rd_of_lt hj) (backOf _)
      (fun x hx => by unfold backOf; rw [hx]) (Out.cout.add c "(")
    rw [Out.add_add] at this
    simp only [← String.append_assoc] at this ⊢
    exact this

theorem print_eq (fmt : α → String) {s : Serie α} (h : WF s) (c : Console) :
    print fmt s c = (.ok (), Out.cout.add c (serieText fmt s)) := by
  unfold print
  refine (Eff.bind_ok (Out.put_eq _ _ _)).trans ?_
  have key : ∀ c, (if 0 < s.count then do
      forLoop (fun i _ => printItem fmt s i ", ") 0 (s.count - 1) ()
      printItem fmt s (s.count - 1) ""
      Out.cout.put "]\n"
    else Out.cout.put "]\n") c =
      (.ok (), Out.cout.add c (", ".intercalate ((items s).map (itemText fmt s.itemSize)) ++ "]\n")) := by
    intro c
    by_cases h0 : 0 < s.count
    · rw [if_pos h0]
      have hl := items_length s
      have hne : items s ≠ [] := by rw [← List.length_pos_iff]; omega
      obtain ⟨w, x, hw⟩ := (List.eq_nil_or_concat (items s)).resolve_left hne
      rw [List.concat_eq_append] at hw
      have hlen : w.length = s.count - 1 := by rw [hw] at hl; simp at hl; omega
      have h1 := loop_texts .cout (fun i _ => printItem fmt s i ", ") (w.map fun v => itemText fmt s.itemSize v ++ ", ") 0 c (by
        intro j hj c
        simp only [List.length_map] at hj
        rw [Nat.zero_add, printItem_eq fmt h (by omega)]
        simp only [hw, List.getElem_append_left hj, List.getElem_map])
      rw [List.length_map, hlen] at h1
      refine (Eff.bind_ok h1).trans ?_
      refine (Eff.bind_ok (printItem_eq fmt h (by omega) "" _)).trans ?_
      have : (items s)[s.count - 1]'(by omega) = x := by
        simp only [hw]
        rw [List.getElem_append_right (by omega)]
        simp
      rw [this, Out.put_eq, Out.add_add, Out.add_add, hw, List.map_append, List.map_singleton, ← join_sep, List.map_map]
      simp only [Function.comp_def, String.append_assoc, String.append_empty]
    · rw [if_neg h0]
      have : items s = [] := by rw [← List.length_eq_zero_iff, items_length]; omega
      rw [this, Out.put_eq]
      simp
  have := key (Out.cout.add c ("Serie:\n  itemSize : " ++ toString s.itemSize ++ "\n  count    : " ++ toString s.count ++
    "\n  dimension: " ++ toString s.dimension ++ "\n  values   : ["))
  refine Eq.trans ?_ (this.trans ?_)
  · by_cases h0 : 0 < s.count
    · simp only [if_pos h0]
    · simp only [if_neg h0]
  · rw [Out.add_add]
    unfold serieText shapeText
    simp only [String.append_assoc]
    rfl

theorem printRest_eq (fmt : α → String) : ∀ (l : List (Serie α)) (i : Nat) (c : Console), (∀ s ∈ l, WF s) →
    printRest fmt (i + 1) l c = (.ok (), Out.cout.add c
      (String.join (l.mapIdx fun j s => "Series " ++ toString (i + j + 1) ++ ":\n" ++ serieText fmt s)))
  | [], _, c, _ => by simp [printRest, Eff.pure_def, Out.add_empty]
  | s :: l, i, c, h => by
    unfold printRest
    refine (Eff.bind_ok (Out.put_eq _ _ _)).trans ?_
    refine (Eff.bind_ok (print_eq fmt (h s (by simp)) _)).trans ?_
    rw [printRest_eq fmt l (i + 1) _ (fun t ht => h t (by simp [ht])), Out.add_add, Out.add_add, List.mapIdx_cons,
      String.join_cons]
    simp only [String.append_assoc, Nat.add_zero, Nat.add_comm, Nat.add_left_comm]

theorem printAll_eq (fmt : α → String) {s : Serie α} {l : List (Serie α)} (hl : l ≠ []) (h : ∀ t ∈ s :: l, WF t)
    (c : Console) : printAll fmt s l c = (.ok (), Out.cout.add c (seriesText fmt (s :: l))) := by
  unfold printAll
  rw [if_neg hl]
  have := printRest_eq fmt (s :: l) 0 c h
  unfold printRest at this
  simp only [Nat.zero_add] at this
  rw [show "Series " ++ toString 1 ++ ":\n" = "Series 1:\n" by decide +kernel] at this
  exact this

/-! ### Reading a text back -/

theorem sep_inj (P : Char → Prop) : ∀ (x x' : List Char) (c c' : Char) (r r' : List Char),
    (∀ a ∈ x, ¬ P a) → (∀ a ∈ x', ¬ P a) → P c → P c' → x ++ c :: r = x' ++ c' :: r' → x = x' ∧ c = c' ∧ r = r'
  | [], [], _, _, _, _, _, _, _, _, h => by simpa using h
  | [], b :: y, c, _, _, _, _, h2, hc, _, h => by
    simp only [List.nil_append, List.cons_append, List.cons.injEq] at h
    exact absurd (h.1 ▸ hc) (h2 b (by simp))
  | b :: y, [], _, c', _, _, h1, _, _, hc, h => by
    simp only [List.nil_append, List.cons_append, List.cons.injEq] at h
    exact absurd (h.1 ▸ hc) (h1 b (by simp))
  | b :: y, b' :: y', c, c', r, r', h1, h2, hc, hc', h => by
    simp only [List.cons_append, List.cons.injEq] at h
    obtain ⟨e1, e2, e3⟩ := sep_inj P y y' c c' r r' (fun a ha => h1 a (by simp [ha])) (fun a ha => h2 a (by simp [ha]))
      hc hc' h.2
    exact ⟨by rw [h.1, e1], e2, e3⟩

/-- The texts of `l` and `l'` can be read up to the separator or the end mark. -/
def Reads (stop : Char) (l l' : List (List Char)) : Prop :=
  ∀ a ∈ l, ∀ a' ∈ l', ∀ c c' r r', (c = ',' ∨ c = stop) → (c' = ',' ∨ c' = stop) →
    a ++ c :: r = a' ++ c' :: r' → a = a' ∧ c = c' ∧ r = r'

theorem intercalate_reads (sep : List Char) (stop : Char) : ∀ (l l' : List (List Char)) (r r' : List Char),
    l.length = l'.length → Reads stop l l' →
    List.intercalate (',' :: sep) l ++ stop :: r = List.intercalate (',' :: sep) l' ++ stop :: r' → l = l' ∧ r = r'
  | [], [], _, _, _, _, h => by simpa using h
  | [], _ :: _, _, _, hl, _, _ => by simp at hl
  | _ :: _, [], _, _, hl, _, _ => by simp at hl
  | [a], [a'], r, r', _, hr, h => by
    simp only [List.intercalate_singleton] at h
    obtain ⟨e1, _, e3⟩ := hr a (by simp) a' (by simp) _ _ _ _ (.inr rfl) (.inr rfl) h
    exact ⟨by rw [e1], e3⟩
  | [_], _ :: _ :: _, _, _, hl, _, _ => by simp at hl
  | _ :: _ :: _, [_], _, _, hl, _, _ => by simp at hl
  | a :: b :: l, a' :: b' :: l', r, r', hl, hr, h => by
    rw [List.intercalate_cons_cons, List.intercalate_cons_cons] at h
    simp only [List.append_assoc, List.cons_append] at h
    obtain ⟨e1, _, e3⟩ := hr a (by simp) a' (by simp) _ _ _ _ (.inl rfl) (.inl rfl) h
    have e4 := List.append_cancel_left e3
    obtain ⟨e5, e6⟩ := intercalate_reads sep stop (b :: l) (b' :: l') r r' (by simpa using hl)
      (fun x hx x' hx' => hr x (List.mem_cons_of_mem _ hx) x' (List.mem_cons_of_mem _ hx')) e4
    exact ⟨by rw [e1, e5], e6⟩

theorem plain_reads {fmt : α → String} (h : Plain fmt) (stop : Char) (hs : stop = ')' ∨ stop = ']') (v v' : List α) :
    Reads stop (v.map fun x => (fmt x).toList) (v'.map fun x => (fmt x).toList) := by
  intro a ha a' ha' c c' r r' hc hc' e
  obtain ⟨x, _, rfl⟩ := List.mem_map.1 ha
  obtain ⟨x', _, rfl⟩ := List.mem_map.1 ha'
  refine sep_inj (fun c => c = ',' ∨ c = stop) _ _ _ _ _ _ ?_ ?_ hc hc' e <;>
  · intro b hb hp
    have := h _ b hb
    rcases hs with rfl | rfl <;> rcases hp with rfl | rfl <;> simp at this

theorem itemText_one (fmt : α → String) (x : α) : (itemText fmt 1 [x]).toList = (fmt x).toList := by
  simp [itemText]

theorem itemText_many (fmt : α → String) {k : Nat} (hk : k ≠ 1) (v : List α) :
    (itemText fmt k v).toList = '(' :: (List.intercalate [','] (v.map fun x => (fmt x).toList) ++ [')']) := by
  unfold itemText
  rw [if_neg hk]
  simp [String.toList_intercalate, Function.comp_def]

/-- The texts of two items of the same size can be read back, whatever follows. -/
theorem itemText_reads {fmt : α → String} (h : Plain fmt) {k : Nat} {v v' : List α} (hv : v.length = k)
    (hv' : v'.length = k) {c c' : Char} {r r' : List Char} (hc : c = ',' ∨ c = ']') (hc' : c' = ',' ∨ c' = ']')
    (e : (itemText fmt k v).toList ++ c :: r = (itemText fmt k v').toList ++ c' :: r') :
    v.map fmt = v'.map fmt ∧ c = c' ∧ r = r' := by
  by_cases hk : k = 1
  · subst hk
    obtain ⟨x, rfl⟩ := List.length_eq_one_iff.1 hv
    obtain ⟨x', rfl⟩ := List.length_eq_one_iff.1 hv'
    rw [itemText_one, itemText_one] at e
    obtain ⟨e1, e2, e3⟩ := plain_reads h ']' (.inr rfl) [x] [x'] _ (by simp) _ (by simp) c c' r r' hc hc' e
    exact ⟨by simpa using String.toList_inj.1 e1, e2, e3⟩
  · rw [itemText_many fmt hk, itemText_many fmt hk] at e
    simp only [List.cons_append, List.cons.injEq, true_and, List.append_assoc, List.nil_append] at e
    obtain ⟨e1, e2⟩ := intercalate_reads [] ')' _ _ _ _ (by simp [hv, hv']) (plain_reads h ')' (.inl rfl) v v') e
    have e3 : v.map fmt = v'.map fmt := by
      have := congrArg (List.map String.ofList) e1
      simpa [Function.comp_def] using this
    simp only [List.cons.injEq] at e2
    exact ⟨e3, e2.1, e2.2⟩

theorem digits_reads {n n' : Nat} {r r' : List Char}
    (e : (toString n).toList ++ '\n' :: r = (toString n').toList ++ '\n' :: r') : n = n' ∧ r = r' := by
  simp only [Nat.toString_eq_repr, Nat.toList_repr] at e
  have hd : ∀ m, ∀ a ∈ Nat.toDigits 10 m, ¬ a = '\n' := by
    intro m a ha h
    have := Nat.isDigit_of_mem_toDigits (by omega) (by omega) ha
    rw [h] at this
    revert this
    decide
  obtain ⟨e1, _, e3⟩ := sep_inj (fun a => a = '\n') _ _ _ _ _ _ (hd n) (hd n') rfl rfl e
  refine ⟨?_, e3⟩
  have := congrArg (fun l => Nat.ofDigitChars 10 l 0) e1
  simpa [Nat.ofDigitChars_ten_toDigits] using this

theorem serieText_inj {fmt : α → String} (h : Plain fmt) {s t : Serie α} (hs : WF s) (ht : WF t)
    (e : serieText fmt s = serieText fmt t) :
    s.itemSize = t.itemSize ∧ s.count = t.count ∧ s.dimension = t.dimension ∧
      (items s).map (·.map fmt) = (items t).map (·.map fmt) := by
  have e := congrArg String.toList e
  unfold serieText shapeText at e
  simp only [String.toList_append, List.append_assoc, String.toList_intercalate, List.map_map] at e
  have e := List.append_cancel_left e
  obtain ⟨e1, e⟩ := digits_reads e
  have e := List.append_cancel_left (as := "  count    : ".toList) e
  obtain ⟨e2, e⟩ := digits_reads e
  have e := List.append_cancel_left (as := "  dimension: ".toList) e
  obtain ⟨e3, e⟩ := digits_reads e
  have e := List.append_cancel_left (as := "  values   : [".toList) e
  refine ⟨e1, e2, e3, ?_⟩
  rw [← e1] at e
  have hr : ∀ v ∈ items s, ∀ v' ∈ items t, v.length = s.itemSize ∧ v'.length = s.itemSize :=
    fun v hv v' hv' => ⟨hs.item_length hv, e1 ▸ ht.item_length hv'⟩
  have hl : (items s).length = (items t).length := by simp [items_length, e2]
  have key := intercalate_reads [' '] ']' ((items s).map (String.toList ∘ itemText fmt s.itemSize))
    ((items t).map (String.toList ∘ itemText fmt s.itemSize)) ['\n'] ['\n'] (by simp [hl]) (by
      intro a ha a' ha' c c' r r' hc hc' e
      obtain ⟨v, hv, rfl⟩ := List.mem_map.1 ha
      obtain ⟨v', hv', rfl⟩ := List.mem_map.1 ha'
      obtain ⟨e1, e2, e3⟩ := itemText_reads h (hr v hv v' hv').1 (hr v hv v' hv').2 hc hc' e
      refine ⟨?_, e2, e3⟩
      simp only [Function.comp_apply, itemText, e1]) e
  have key := key.1
  clear e
  revert key hl hr
  generalize items s = l
  generalize items t = l'
  intro hr hl key
  induction l generalizing l' with
  | nil => cases l' <;> simp at hl ⊢
  | cons v l ih =>
    cases l' with
    | nil => simp at hl
    | cons v' l' =>
      simp only [List.map_cons, List.cons.injEq] at key ⊢
      refine ⟨?_, ih l' (fun a ha b hb => hr a (by simp [ha]) b (by simp [hb])) (by simpa using hl) key.2⟩
      have := itemText_reads h (hr v (by simp) v' (by simp)).1 (hr v (by simp) v' (by simp)).2 (c := ',') (c' := ',')
        (r := []) (r' := []) (.inl rfl) (.inl rfl) (by rw [show (itemText fmt s.itemSize v).toList = _ from key.1]; rfl)
      exact this.1

/-! ### `operator<<` -/

theorem streamSerie_eq (fmt : α → String) (o : Out) {s : Serie α} (h : s.data ≠ []) (hc : 0 < s.count) (c : Console) :
    streamSerie fmt o s c = (.ok (), Out.cerr.add c
      (shapeText s ++ "  values   : [" ++ ", ".intercalate (s.data.map fmt) ++ "]")) := by
  unfold streamSerie
  refine (Eff.bind_ok (Out.put_eq _ _ _)).trans ?_
  rw [if_pos hc]
  refine (Eff.bind_ok (Out.put_eq _ _ _)).trans ?_
  have := numbers_text .cerr fmt ", " "]" h (rd s.data) (fun j hj => rd_of_lt hj)
    (rd s.data (sizePred s.data.length)) (by
      intro x hx
      have hp := List.length_pos_iff.2 h
      obtain ⟨n, hn⟩ := Nat.exists_eq_add_of_le' hp
      rw [hn, sizePred_succ, rd_of_lt (by omega)]
      rw [List.getLast?_eq_getElem?, hn, Nat.add_sub_cancel, List.getElem?_eq_getElem (by omega)] at hx
      simpa using hx)
    (Out.cerr.add (Out.cerr.add c (shapeText s)) "  values   : [")
  rw [Out.add_add, Out.add_add] at this
  simp only [String.append_assoc] at this ⊢
  refine Eq.trans ?_ this
  rw [Out.add_add]
  unfold shapeText
  simp only [String.append_assoc]

theorem streamSerie_empty (fmt : α → String) (o : Out) {s : Serie α} (hc : s.count = 0) (c : Console) :
    streamSerie fmt o s c = (.ok (), Out.cerr.add c (shapeText s ++ "  values   : []")) := by
  unfold streamSerie
  refine (Eff.bind_ok (Out.put_eq _ _ _)).trans ?_
  rw [if_neg (by omega), Out.put_eq, Out.add_add]
  rfl

theorem streamSerie_nodata (fmt : α → String) (o : Out) {s : Serie α} (h : s.data = []) (hc : 0 < s.count) (c : Console) :
    (streamSerie fmt o s c).1 = .ub := by
  unfold streamSerie
  rw [Eff.bind_ok (Out.put_eq _ _ _), if_pos hc, Eff.bind_ok (Out.put_eq _ _ _), h]
  rw [show sizePred ([] : List α).length = (2 ^ 64 - 2) + 1 from rfl, forLoop_succ]
  rfl

end DF
