import Verif.Lemmas.Print
import Verif.Lemmas.Decide

/-!
# C83-C85: text output
-/

namespace DF

open Spec

variable {α : Type}

/-! ## C83: `print` -/

/-- Printing a Serie writes its shape and its items to the standard output, and nothing on other streams. -/
theorem C83_print_partial (fmt : α → String) {s : Serie α} (h : WF s) (c : Console) :
    print fmt s c = (.ok (), { c with cout := c.cout ++ serieText fmt s }) :=
  print_eq fmt h c

example (c : Console) := C83_print_partial (toString : Int → String) (s := ⟨[1, 2, 3, 4], 2, 2, 3⟩) (by decide) c

example : serieText (toString : Int → String) { data := [1, 2, 3, 4], count := 2, itemSize := 2, dimension := 3 } =
    "Serie:\n  itemSize : 2\n  count    : 2\n  dimension: 3\n  values   : [(1,2), (3,4)]\n" := by decide +kernel

example : serieText (toString : Int → String) { data := [1, 2], count := 2, itemSize := 1, dimension := 3 } =
    "Serie:\n  itemSize : 1\n  count    : 2\n  dimension: 3\n  values   : [1, 2]\n" := by decide +kernel

/-- Several Series are printed in order, each after its number. -/
theorem C83_print_multi_partial (fmt : α → String) {s : Serie α} {l : List (Serie α)} (hl : l ≠ [])
    (h : ∀ t ∈ s :: l, WF t) (c : Console) :
    printAll fmt s l c = (.ok (), { c with cout := c.cout ++ seriesText fmt (s :: l) }) :=
  printAll_eq fmt hl h c

example (c : Console) := C83_print_multi_partial (toString : Int → String) (s := ⟨[1, 2, 3, 4], 2, 2, 3⟩)
  (l := [⟨[5], 1, 1, 3⟩, ⟨[], 0, 2, 2⟩]) (by decide) (by decide) c

/-- A single Serie given to the overload for several ones is printed without a number. -/
theorem C83_print_single (fmt : α → String) (s : Serie α) : printAll fmt s [] = print fmt s := rfl

/-- The decimal texts of natural numbers are such texts. -/
theorem plain_nat : Plain (toString : Nat → String) := by
  intro x c hc
  simp only [Nat.toString_eq_repr, Nat.toList_repr] at hc
  have := Nat.isDigit_of_mem_toDigits (by omega) (by omega) hc
  refine ⟨?_, ?_, ?_⟩ <;>
  · rintro rfl
    revert this
    decide

theorem toString_nat_inj (x y : Nat) (h : toString x = toString y) : x = y := by
  have := congrArg (fun s => Nat.ofDigitChars 10 s.toList 0) h
  simpa only [Nat.toString_eq_repr, Nat.toList_repr, Nat.ofDigitChars_ten_toDigits] using this

/-- The printed text tells the shape of the Serie and the text of each of its numbers. -/
theorem C83_text_determines {fmt : α → String} (h : Plain fmt) {s t : Serie α} (hs : WF s) (ht : WF t) :
    serieText fmt s = serieText fmt t ↔ s.itemSize = t.itemSize ∧ s.count = t.count ∧ s.dimension = t.dimension ∧
      (items s).map (·.map fmt) = (items t).map (·.map fmt) := by
  refine ⟨serieText_inj h hs ht, ?_⟩
  rintro ⟨h1, h2, h3, h4⟩
  unfold serieText shapeText
  rw [h1, h2, h3]
  congr 3
  have key : ∀ s : Serie α, (items s).map (itemText fmt t.itemSize) =
      ((items s).map (·.map fmt)).map (fun v => if t.itemSize = 1 then String.join v else "(" ++ ",".intercalate v ++ ")") := by
    intro s
    rw [List.map_map]
    rfl
  rw [key, key, h4]

example := C83_text_determines plain_nat (s := ⟨[1, 2, 3, 4], 2, 2, 3⟩) (t := ⟨[1, 2, 3, 4], 4, 1, 3⟩) (by decide) (by decide)

/-- With texts that tell numbers apart, two Series with the same printed text have the same items. -/
theorem C83_text_items {fmt : α → String} (h : Plain fmt) (hf : ∀ x y, fmt x = fmt y → x = y) {s t : Serie α} (hs : WF s)
    (ht : WF t) (e : serieText fmt s = serieText fmt t) : items s = items t := by
  have := ((C83_text_determines h hs ht).1 e).2.2.2
  exact List.map_injective_iff.2 (List.map_injective_iff.2 fun x y => hf x y) this

example := C83_text_items plain_nat toString_nat_inj (s := ⟨[1, 2, 3, 4], 2, 2, 3⟩) (t := ⟨[1, 2, 3, 4, 5], 2, 2, 3⟩)
  (by decide) (by decide) (by decide +kernel)

/-- Printing a Serie of item size 0 that has items is undefined behaviour: such a Serie comes from `Serie(0, n)`. -/
theorem C83_print_violated (fmt : α → String) (n dim : Nat) (hn : 0 < n) (c : Console) :
    (print fmt ({ data := [], count := n, itemSize := 0, dimension := dim } : Serie α) c).1 = .ub := by
  unfold print
  rw [Eff.bind_ok (Out.put_eq _ _ _)]
  simp only [if_pos hn]
  have hz : ∀ i, i < n → ∀ sep c, ∃ c',
      printItem fmt ({ data := [], count := n, itemSize := 0, dimension := dim } : Serie α) i sep c = (.ub, c') := by
    intro i hi sep c
    have hg : Serie.getA ({ data := [], count := n, itemSize := 0, dimension := dim } : Serie α) i = .ok [] := by
      simp [Serie.getA, Serie.checkAlloc]
    unfold printItem
    rw [if_neg (by simp), hg]
    simp only [Eff.lift_ok, pure_bind]
    rw [Eff.bind_ok (Out.put_eq _ _ _)]
    rw [show sizePred ([] : List α).length = (2 ^ 64 - 2) + 1 from rfl, forLoop_succ]
    exact ⟨_, rfl⟩
  by_cases h1 : n = 1
  · subst h1
    obtain ⟨c', h⟩ := hz 0 (by omega) "" (Out.cout.add c _)
    simp only [Nat.sub_self, forLoop_zero, pure_bind]
    rw [Eff.bind_ub h]
  · obtain ⟨m, rfl⟩ := Nat.exists_eq_add_of_le' (show 2 ≤ n by omega)
    rw [show m + 2 - 1 = m + 1 from rfl, forLoop_succ]
    obtain ⟨c', h⟩ := hz 0 (by omega) ", " (Out.cout.add c _)
    rw [Eff.bind_ub (Eff.bind_ub h)]

example (c : Console) := C83_print_violated (toString : Int → String) 2 3 (by decide) c

/-! ## C84: `operator<<` -/

/-- Whatever the stream, `stream << serie` writes the shape and the numbers to `std::cerr`, for a Serie with no spare
numbers. The full claim asks for the given stream: see `C84_stream_violated`. -/
theorem C84_text_partial (fmt : α → String) (o : Out) {s : Serie α} (h : WF s)
    (hl : s.data.length = s.count * s.itemSize) (c : Console) :
    streamSerie fmt o s c = (.ok (), { c with cerr := c.cerr ++ flatText fmt s }) := by
  have hd : (items s).flatten = s.data := by rw [items_flatten, ← hl, List.take_length]
  by_cases hc : s.count = 0
  · rw [streamSerie_empty fmt o hc]
    have : s.data = [] := by rw [← List.length_eq_zero_iff, hl, hc, Nat.zero_mul]
    simp only [flatText, hd, this, Out.add]
    simp [String.append_assoc]
  · have hp := h.pos
    have : s.data ≠ [] := by
      intro h0
      rw [h0, List.length_nil, eq_comm, Nat.mul_eq_zero] at hl
      omega
    rw [streamSerie_eq fmt o this (by omega)]
    simp only [flatText, hd, Out.add]

example (c : Console) := C84_text_partial (toString : Int → String) .cout (s := ⟨[1, 2, 3, 4], 2, 2, 3⟩) (by decide) rfl c

/-- So on `std::cerr` the claim holds, for a Serie with no spare numbers. -/
theorem C84_cerr_partial (fmt : α → String) {s : Serie α} (h : WF s) (hl : s.data.length = s.count * s.itemSize)
    (c : Console) : streamSerie fmt .cerr s c = (.ok (), { c with cerr := c.cerr ++ flatText fmt s }) :=
  C84_text_partial fmt .cerr h hl c

example (c : Console) := C84_cerr_partial (toString : Int → String) (s := ⟨[1, 2, 3, 4], 2, 2, 3⟩) (by decide) rfl c

/-- On another stream nothing arrives. -/
theorem C84_stream_violated (fmt : α → String) {s : Serie α} (h : WF s) (c : Console) :
    ∃ c', streamSerie fmt .other s c = (.ok (), c') ∧ c'.other = c.other ∧ c'.cerr ≠ c.cerr := by
  have hne : ∀ a b : String, b ≠ "" → a ++ b ≠ a := by
    intro a b hb e
    exact hb (by simpa using e)
  have hs : ∀ t, shapeText s ++ t ≠ "" := by
    intro t e
    have := congrArg String.toList e
    unfold shapeText at this
    simp [String.append_assoc] at this
  by_cases hc : s.count = 0
  · exact ⟨_, streamSerie_empty fmt _ hc c, rfl, hne _ _ (hs _)⟩
  · have hd : s.data ≠ [] := by
      intro h0
      have h1 := h.fits
      have h2 := h.pos
      rw [h0, List.length_nil, Nat.le_zero, Nat.mul_eq_zero] at h1
      omega
    refine ⟨_, streamSerie_eq fmt _ hd (by omega) c, rfl, ?_⟩
    rw [String.append_assoc, String.append_assoc]
    exact hne _ _ (hs _)

example (c : Console) := C84_stream_violated (toString : Int → String) (s := ⟨[1, 2, 3, 4], 2, 2, 3⟩) (by decide) c

/-- The spare numbers of a Serie are written as if they belonged to it. -/
theorem C84_spare_violated : ∃ s : Serie Int, WF s ∧ items s = [[1], [2]] ∧
    streamSerie toString .cerr s ⟨"", "", ""⟩ = (.ok (), ⟨"", shapeText s ++ "  values   : [1, 2, 9]", ""⟩) :=
  ⟨{ data := [1, 2, 9], count := 2, itemSize := 1, dimension := 3 }, ⟨by decide, by decide, by decide, by decide⟩,
    by decide, by
    rw [streamSerie_eq _ _ (by decide) (by decide)]
    simp only [Out.add, Prod.mk.injEq, Console.mk.injEq, true_and, and_true]
    decide +kernel⟩

/-- A Serie that counts items but has no number is undefined behaviour. -/
theorem C84_nodata_violated (fmt : α → String) (o : Out) {s : Serie α} (h : s.data = []) (hc : 0 < s.count) (c : Console) :
    (streamSerie fmt o s c).1 = .ub :=
  streamSerie_nodata fmt o h hc c

example (c : Console) := C84_nodata_violated (toString : Int → String) .cout (s := ⟨[], 2, 0, 3⟩) rfl (by decide) c

/-- Several Series: the stream gets the number of Series and one line break for each, `std::cerr` gets the Series. -/
theorem C84_series_partial (fmt : α → String) {o : Out} (ho : o ≠ .cerr) {l : List (Serie α)}
    (h : ∀ s ∈ l, WF s ∧ s.data.length = s.count * s.itemSize) (c : Console) :
    ∃ c', streamSeries fmt o l c = (.ok (), c') ∧ c'.cerr = c.cerr ++ String.join (l.map (flatText fmt)) ∧
      (o = .cout → c'.other = c.other ∧
        c'.cout = c.cout ++ (toString l.length ++ " series:\n") ++ String.join (List.replicate l.length "\n")) ∧
      (o = .other → c'.cout = c.cout ∧
        c'.other = c.other ++ (toString l.length ++ " series:\n") ++ String.join (List.replicate l.length "\n")) := by
  have key : ∀ (l : List (Serie α)) (c : Console), (∀ s ∈ l, WF s ∧ s.data.length = s.count * s.itemSize) →
      streamLoop fmt o l c = (.ok (), Out.cerr.add (o.add c (String.join (List.replicate l.length "\n")))
        (String.join (l.map (flatText fmt)))) := by
    intro l
    induction l with
    | nil => intro c _; simp [streamLoop, Eff.pure_def, Out.add_empty]
    | cons s l ih =>
      intro c h
      unfold streamLoop
      obtain ⟨h1, h2⟩ := h s (by simp)
      refine (Eff.bind_ok (C84_text_partial fmt o h1 h2 c)).trans ?_
      refine (Eff.bind_ok (Out.put_eq _ _ _)).trans ?_
      rw [ih _ (fun t ht => h t (by simp [ht]))]
      cases o <;> simp_all [Out.add, List.replicate_succ, String.join_cons, String.append_assoc]
  unfold streamSeries
  rw [Eff.bind_ok (Out.put_eq _ _ _), key l _ h]
  refine ⟨_, rfl, ?_⟩
  cases o
  · exact ⟨rfl, fun _ => ⟨rfl, rfl⟩, fun h => nomatch h⟩
  · exact absurd rfl ho
  · exact ⟨rfl, fun h => (nomatch h), fun _ => ⟨rfl, rfl⟩⟩

example (c : Console) := C84_series_partial (toString : Int → String) (o := .cout) (by decide)
  (l := [⟨[1, 2, 3, 4], 2, 2, 3⟩, ⟨[5], 1, 1, 3⟩]) (by decide) c

/-! ## C85: arrays, names and Dataframes -/

/-- A non-empty array is written in brackets, to `std::cout` whatever the stream. -/
theorem C85_array_partial (fmt : α → String) (o : Out) {a : List α} (ha : a ≠ []) (c : Console) :
    streamArray fmt o a c = (.ok (), { c with cout := c.cout ++ arrayText fmt a }) := by
  unfold streamArray
  refine (Eff.bind_ok (Out.put_eq _ _ _)).trans ?_
  rw [if_pos (List.length_pos_iff.2 ha)]
  have := numbers_text .cout fmt ", " "]" ha (rd a) (fun j hj => rd_of_lt hj) (backOf a)
    (fun x hx => by unfold backOf; rw [hx]) (Out.cout.add c "[")
  rw [Out.add_add] at this
  refine this.trans ?_
  simp only [arrayText, Out.add, String.append_assoc]

example (c : Console) := C85_array_partial (toString : Int → String) .cout (a := [1, 2, 3]) (by decide) c

example : arrayText (toString : Int → String) [1, 2, 3] = "[1, 2, 3]" := by decide +kernel

/-- The empty array is written with one bracket too many. -/
theorem C85_array_empty_violated (fmt : α → String) (o : Out) (c : Console) :
    streamArray fmt o ([] : List α) c = (.ok (), { c with cout := c.cout ++ "[[]" }) ∧ arrayText fmt ([] : List α) = "[]" := by
  constructor
  · unfold streamArray
    refine (Eff.bind_ok (Out.put_eq _ _ _)).trans ?_
    rw [if_neg (by simp), Out.put_eq, Out.add_add]
    rfl
  · simp [arrayText]

/-- On a stream other than `std::cout` nothing arrives. -/
theorem C85_array_stream_violated (fmt : α → String) (a : List α) (c : Console) :
    ∃ c', streamArray fmt .other a c = (.ok (), c') ∧ c'.other = c.other ∧ c'.cout ≠ c.cout := by
  have hne : ∀ a b : String, b ≠ "" → a ++ b ≠ a := by
    intro a b hb e
    exact hb (by simpa using e)
  by_cases ha : a = []
  · subst ha
    exact ⟨_, (C85_array_empty_violated fmt .other c).1, rfl, hne _ _ (by decide)⟩
  · refine ⟨_, C85_array_partial fmt .other ha c, rfl, hne _ _ ?_⟩
    intro e
    have := congrArg String.toList e
    simp [arrayText] at this

/-- Names are written one per line, to `std::cerr` whatever the stream. -/
theorem C85_names_partial (o : Out) (l : List String) (c : Console) :
    streamStrings o l c = (.ok (), { c with cerr := c.cerr ++ namesText l }) := by
  have key : ∀ (l : List String) (c : Console),
      streamNames l c = (.ok (), Out.cerr.add c (String.join (l.map fun v => "  " ++ v ++ "\n"))) := by
    intro l
    induction l with
    | nil => intro c; simp [streamNames, Eff.pure_def, Out.add_empty]
    | cons v l ih =>
      intro c
      unfold streamNames
      refine (Eff.bind_ok (Out.put_eq _ _ _)).trans ?_
      rw [ih, Out.add_add, List.map_cons, String.join_cons]
  unfold streamStrings
  refine (Eff.bind_ok (key l c)).trans ?_
  rw [Out.put_eq, Out.add_add]
  rfl

/-- So on `std::cout` nothing arrives. -/
theorem C85_names_stream_violated (l : List String) (c : Console) :
    ∃ c', streamStrings .cout l c = (.ok (), c') ∧ c'.cout = c.cout ∧ c'.cerr ≠ c.cerr := by
  refine ⟨_, C85_names_partial .cout l c, rfl, ?_⟩
  intro e
  have e := congrArg String.toList e
  simp [namesText] at e

/-- `dump()` writes one line for each stored Serie, in the order of the names, to `std::cerr`. -/
theorem C85_dump (d : Dataframe α) (c : Console) :
    d.dump c = (.ok (), { c with cerr := c.cerr ++ String.join (d.series.map fun e => entryText e.1 e.2) }) := by
  have key : ∀ (l : List (String × Serie α)) (c : Console),
      dumpLoop l c = (.ok (), Out.cerr.add c (String.join (l.map fun e => entryText e.1 e.2))) := by
    intro l
    induction l with
    | nil => intro c; simp [dumpLoop, Eff.pure_def, Out.add_empty]
    | cons v l ih =>
      intro c
      unfold dumpLoop
      refine (Eff.bind_ok (Out.put_eq _ _ _)).trans ?_
      rw [ih, Out.add_add, List.map_cons, String.join_cons]
      rfl
  exact key d.series c

/-! ## C113: `Serie::dump` -/

theorem dumpNumbers_eq (fmt : α → String) (l : List α) : ∀ c : Console,
    dumpNumbers fmt l c = (.ok (), Out.cerr.add c (String.join (l.map fun x => fmt x ++ " "))) := by
  induction l with
  | nil => intro c; simp [dumpNumbers, Eff.pure_def, Out.add_empty]
  | cons x l ih =>
    intro c
    unfold dumpNumbers
    refine (Eff.bind_ok (Out.put_eq _ _ _)).trans ?_
    rw [ih, Out.add_add, List.map_cons, String.join_cons]

/-- C113 for items of several numbers: a line per item, with its index, in order, to `std::cerr`. Missing: Series of numbers. -/
theorem C113_dump_partial (fmt : α → String) {s : Serie α} (h : WF s) (hk : s.itemSize ≠ 1) (c : Console) :
    s.dump fmt c = (.ok (), { c with cerr := c.cerr ++ dumpText fmt s }) := by
  have hl := loop_texts .cerr (fun i _ => Eff.lift (s.getA i) >>= fun x => do
      Out.cerr.put (toString i ++ ": ")
      dumpNumbers fmt x
      Out.cerr.put "\n")
    ((items s).mapIdx fun i v => toString i ++ ": " ++ String.join (v.map fun x => fmt x ++ " ") ++ "\n") 0 c (by
      intro j hj c
      have hj' : j < s.count := by simpa using hj
      simp only [Nat.zero_add, getA_items h hj', Eff.lift_ok, pure_bind]
      refine (Eff.bind_ok (Out.put_eq _ _ _)).trans ?_
      refine (Eff.bind_ok (dumpNumbers_eq fmt _ _)).trans ?_
      rw [Out.put_eq, Out.add_add, Out.add_add]
      simp [String.append_assoc])
  rw [List.length_mapIdx, items_length] at hl
  unfold Serie.dump forEachV
  rw [if_neg hk]
  refine (Eff.bind_ok hl).trans ?_
  rw [Out.put_eq, Out.add_add]
  rfl

example (c : Console) := C113_dump_partial (toString : Int → String) (s := ⟨[1, 2, 3, 4], 2, 2, 3⟩) (by decide) (by decide) c

example : dumpText (toString : Int → String) ⟨[1, 2, 3, 4], 2, 2, 3⟩ = "0: 1 2 \n1: 3 4 \n\n" := by decide +kernel

/-- C113 is violated: `dump()` of a Serie of numbers, even an empty one, throws and writes nothing. -/
theorem C113_dump_violated (fmt : α → String) {s : Serie α} (h1 : s.itemSize = 1) (c : Console) :
    s.dump fmt c = (.throw .invalidArgument, c) := by
  unfold Serie.dump forEachV
  rw [if_pos h1]
  rfl

example (c : Console) := C113_dump_violated (toString : Int → String) (s := ⟨[1, 2, 3], 3, 1, 3⟩) rfl c

/-! ## C114: `print(array)` -/

/-- C114: the numbers in brackets, to `std::cerr`, for any array. -/
theorem C114_print_array (fmt : α → String) (v : List α) (c : Console) :
    printArray fmt v c = (.ok (), { c with cerr := c.cerr ++ arrayText fmt v }) := by
  by_cases hv : v = []
  · subst hv
    simp [printArray, arrayText, Out.put]
  · unfold printArray
    rw [if_pos (List.length_pos_iff.2 hv)]
    refine (Eff.bind_ok (Out.put_eq _ _ _)).trans ?_
    have := numbers_text .cerr fmt ", " "]" hv (rd v) (fun j hj => rd_of_lt hj) (rd v (sizePred v.length))
      (fun x hx => by
        obtain ⟨w, y, rfl⟩ := (List.eq_nil_or_concat v).resolve_left hv
        rw [List.concat_eq_append] at hx ⊢
        rw [List.length_append, List.length_singleton, sizePred_succ, rd_of_lt (by simp)]
        simpa using hx) (Out.cerr.add c "[")
    rw [Out.add_add] at this
    refine this.trans ?_
    simp only [arrayText, Out.add, String.append_assoc]

end DF
