import Verif.Lemmas.Combine

/-! # Lemmas on zip and unzip -/

namespace DF

open Spec

variable {α : Type}

theorem Serie.putScalar_eq {s : Serie α} {p : Nat} {x : α} (h : p < s.data.length) :
    s.putScalar p x = .ok { s with data := s.data.set p x } := by
  simp [Serie.putScalar, Eff.exec, Serie.setScalar_eq h]

theorem Serie.putValue_eq {s : Serie α} (h : WF s) {i : Nat} {v : List α} (hi : i < s.count)
    (hv : v.length = s.itemSize) :
    s.putValue i v = .ok { s with data := splice s.data (i * s.itemSize) v } := by
  simp [Serie.putValue, Eff.exec, Serie.setValue_eq h hi hv]

theorem Serie.scalar_eq {s : Serie α} (h : WF s) {p : Nat} (hp : p < s.count * s.itemSize) :
    s.scalar p = .ok (s.data[p]'(Nat.lt_of_lt_of_le hp h.fits)) := by
  unfold Serie.scalar
  rw [if_neg (by rw [h.size_eq]; omega), rd_of_lt]

theorem splice_take_succ {l v : List α} {p j : Nat} (hj : j < v.length) (h : p + v.length ≤ l.length) :
    (splice l p (v.take j)).set (p + j) v[j] = splice l p (v.take (j + 1)) := by
  have h1 : (v.take j).length = j := by simp; omega
  have h2 : (v.take (j + 1)).length = j + 1 := by simp; omega
  apply List.ext_getElem?
  intro n
  rw [List.getElem?_set, splice_getElem? (by omega), splice_getElem? (by omega),
    splice_length (by omega), h1, h2]
  by_cases h3 : p + j = n
  · subst h3
    rw [if_pos rfl, if_pos (by omega), if_neg (by omega), if_pos (by omega)]
    rw [Nat.add_sub_cancel_left, List.getElem?_take_of_lt (by omega), List.getElem?_eq_getElem hj]
  · rw [if_neg h3]
    by_cases h4 : n < p
    · simp [h4]
    · rw [if_neg h4, if_neg h4]
      by_cases h5 : n < p + j
      · rw [if_pos h5, if_pos (by omega), List.getElem?_take_of_lt (by omega), List.getElem?_take_of_lt (by omega)]
      · rw [if_neg h5, if_neg (by omega)]

theorem putScalar_loop {r : Serie α} {v : List α} {i off p : Nat} (hp : i * r.itemSize + off = p)
    (h : p + v.length ≤ r.data.length) (hs : r.data.length < 2 ^ 32) :
    forLoop (fun j (r : Serie α) => do
      let x ← rd v j
      r.putScalar (u32 (i * r.itemSize + off + j)) x) 0 v.length r =
      (.ok { r with data := splice r.data p v } : Res (Serie α)) := by
  have := forLoop_exact (m := Res)
    (f := fun j (r : Serie α) => rd v j >>= fun x => r.putScalar (u32 (i * r.itemSize + off + j)) x)
    (fun j => { r with data := splice r.data p (v.take j) }) v.length 0 ?_
  · rw [Nat.zero_add, List.take_length] at this
    rw [show r = { r with data := splice r.data p (v.take 0) } by simp [splice]]
    rw [this]
    simp [splice]
  · intro j _ hj
    rw [Nat.zero_add] at hj
    have h1 : (v.take j).length = j := by simp; omega
    simp only [hp]
    rw [rd_of_lt hj, Res.ok_bind, u32_of_lt (by omega), Serie.putScalar_eq]
    · simp only [splice_take_succ hj h]; rfl
    · simp only; rw [splice_length (by omega)]; omega

theorem flatten_splice {T : Nat} {R : List (List α)} (hR : ∀ r ∈ R, r.length = T) {i off : Nat} {v : List α}
    (hi : i < R.length) (hv : off + v.length ≤ T) :
    splice R.flatten (i * T + off) v = (R.set i (splice R[i] off v)).flatten := by
  have hsp : splice R.flatten (i * T + off) v = splice R.flatten (i * T) (splice R[i] off v) := by
    have hRi : R[i].length = T := hR _ (List.getElem_mem _)
    have hlen := flatten_length hR
    have hbound : i * T + T ≤ R.flatten.length := by rw [hlen]; exact mul_succ_le hi (Nat.le_refl _)
    have hsl : (splice R[i] off v).length = T := by rw [splice_length (by omega), hRi]
    have hc : chunk T R.flatten i = R[i] := by
      have := chunk_flatten hR hi []
      simpa using this
    apply List.ext_getElem?
    intro n
    rw [splice_getElem? (by omega), splice_getElem? (by omega), hsl]
    by_cases h1 : n < i * T
    · rw [if_pos h1, if_pos (by omega)]
    · rw [if_neg h1]
      by_cases h2 : n < i * T + T
      · rw [if_pos h2, splice_getElem? (by omega), ← hc, chunk_getElem?, if_pos (show n - i * T < T by omega),
          show i * T + (n - i * T) = n by omega]
        by_cases h3 : n < i * T + off
        · simp only [if_pos h3, if_pos (show n - i * T < off by omega)]
        · simp only [if_neg h3, if_neg (show ¬ n - i * T < off by omega)]
          by_cases h4 : n < i * T + off + v.length
          · simp only [if_pos h4, if_pos (show n - i * T < off + v.length by omega)]
            congr 1; omega
          · simp only [if_neg h4, if_neg (show ¬ n - i * T < off + v.length by omega)]
      · rw [if_neg h2, if_neg (by omega), if_neg (by omega)]
  rw [hsp]
  clear hsp
  have hRi : R[i].length = T := hR _ (List.getElem_mem _)
  have hsl : (splice R[i] off v).length = T := by rw [splice_length (by omega), hRi]
  generalize splice R[i] off v = w at hsl
  clear hRi hv
  induction R generalizing i with
  | nil => simp at hi
  | cons a R ih =>
    have ha : a.length = T := hR a (by simp)
    cases i with
    | zero => simp [splice, hsl, ← ha]
    | succ i =>
      have := ih (fun r hr => hR r (by simp [hr])) (i := i) (by simpa using hi)
      simp only [List.set_cons_succ, List.flatten_cons]
      rw [← this]
      simp only [splice, Nat.succ_mul, ← ha, hsl]
      rw [List.take_append, List.drop_append]
      simp only [List.append_assoc]
      rw [List.take_of_length_le (by omega), List.drop_of_length_le (by omega)]
      simp only [List.nil_append]
      rw [show i * a.length + a.length - a.length = i * a.length by omega,
        show i * a.length + a.length + a.length - a.length = i * a.length + a.length by omega]

theorem zipCopy_eq {T : Nat} {R : List (List α)} (hR : ∀ r ∈ R, r.length = T) (hs : R.length * T < 2 ^ 32)
    {s : Serie α} (h : WF s) (hc : s.count = R.length) {off : Nat} (ho : off + s.itemSize ≤ T) :
    zipCopy s R.length off (ofItems T R) =
      .ok (ofItems T (List.zipWith (fun r v => splice r off v) R (items s))) := by
  let A := List.zipWith (fun r v => splice r off v) R (items s)
  have hA : A.length = R.length := by simp [A, hc]
  have hit : ∀ i (hi : i < (items s).length), (items s)[i].length = s.itemSize :=
    fun i hi => h.item_length (List.getElem_mem _)
  have hAl : ∀ r ∈ A, r.length = T := by
    intro r hr
    obtain ⟨i, hi, rfl⟩ := List.getElem_of_mem hr
    have hi1 : i < R.length := by omega
    have hi2 : i < (items s).length := by simp [hc]; omega
    have e1 := hR _ (List.getElem_mem hi1)
    have e2 := hit i hi2
    simp only [A, List.getElem_zipWith]
    rw [splice_length (by omega), e1]
  have key := forLoop_exact (m := Res)
    (f := fun i (r : Serie α) =>
      if s.itemSize = 1 then (s.scalar i >>= fun x => r.putScalar (u32 (i * r.itemSize + off)) x)
      else (s.value i >>= fun values => forLoop (fun j (r : Serie α) => rd values j >>= fun x =>
        r.putScalar (u32 (i * r.itemSize + off + j)) x) 0 s.itemSize r))
    (fun i => ofItems T (A.take i ++ R.drop i)) R.length 0 ?_
  · simp only [List.take_zero, List.drop_zero, List.nil_append, Nat.zero_add, List.drop_length,
      List.append_nil] at key
    unfold zipCopy
    rw [key, ← hA, List.take_length]; rfl
  · intro i _ hi
    rw [Nat.zero_add] at hi
    have hi2 : i < (items s).length := by simp [hc]; omega
    have hiA : i < A.length := by omega
    have hmid : ∀ r ∈ A.take i ++ R.drop i, r.length = T := by
      intro r hr
      rcases List.mem_append.1 hr with hr | hr
      · exact hAl r (List.mem_of_mem_take hr)
      · exact hR r (List.mem_of_mem_drop hr)
    have hmidl : (A.take i ++ R.drop i).length = R.length := by simp; omega
    have hdl : (ofItems T (A.take i ++ R.drop i)).data.length = R.length * T := by
      show (A.take i ++ R.drop i).flatten.length = _
      rw [flatten_length hmid, hmidl]
    have hval := hit i hi2
    have hpos : i * T + T ≤ R.length * T := mul_succ_le hi (Nat.le_refl _)
    have hset : ({ ofItems T (A.take i ++ R.drop i) with
        data := splice (ofItems T (A.take i ++ R.drop i)).data (i * T + off) (items s)[i] } : Serie α) =
        ofItems T (A.take (i + 1) ++ R.drop (i + 1)) := by
      have e1 : i < (A.take i ++ R.drop i).length := by omega
      have e2 : (A.take i ++ R.drop i)[i] = R[i] := by
        rw [List.getElem_append_right (by rw [List.length_take]; omega)]
        simp only [List.length_take, List.getElem_drop]
        congr 1; omega
      have e3 : (A.take i ++ R.drop i).set i (splice R[i] off (items s)[i]) = A.take (i + 1) ++ R.drop (i + 1) := by
        rw [List.set_append_right _ _ (by rw [List.length_take]; omega), List.drop_eq_getElem_cons (l := R) (i := i) hi, List.take_add_one,
          List.getElem?_eq_getElem hiA]
        simp only [List.length_take]
        rw [show i - min i A.length = 0 by omega]
        rw [List.set_cons_zero]
        simp [A]
      simp only [ofItems]
      rw [flatten_splice hmid e1 (by omega), e2, e3]
      simp; omega
    rw [← hset]
    have hu : u32 (i * (ofItems T (A.take i ++ R.drop i)).itemSize + off) = i * T + off := by
      rw [u32_of_lt]
      · rfl
      · simp only [ofItems]; have := h.pos; omega
    by_cases h1 : s.itemSize = 1
    · rw [if_pos h1, Serie.scalar_eq h (by rw [h1]; omega), Res.ok_bind, hu,
        Serie.putScalar_eq (by rw [hdl]; omega)]
      have e : (items s)[i] = [s.data[i]'(by have := h.count_le; omega)] := by
        rw [items_getElem]; rw [h1]; exact chunk_one _
      rw [e]
      simp only [splice, List.length_singleton]
      show Res.ok _ = Res.ok _
      congr 2
      rw [List.set_eq_take_append_cons_drop]
      rw [if_pos (by rw [hdl]; omega)]
      simp
    · rw [if_neg h1, Serie.value_eq h (by omega), Res.ok_bind, ← items_getElem s i hi2, ← hval]
      have := putScalar_loop (r := ofItems T (A.take i ++ R.drop i)) (v := (items s)[i]) (i := i) (off := off) (p := i * T + off)
        rfl (by rw [hdl]; omega) (by rw [hdl]; omega)
      exact this

/-- Rows after the first Series have been copied: what has been copied so far, then zeros. -/
def zipRows [Zero α] (T n : Nat) (ss : List (Serie α)) : List (List α) :=
  (List.range n).map (fun i =>
    (row ss i).flatten ++ List.replicate (T - (ss.map (·.itemSize)).sum) 0)

theorem row_flatten_length {ss : List (Serie α)} {n i : Nat} (hw : ∀ s ∈ ss, WF s) (hc : ∀ s ∈ ss, s.count = n)
    (hi : i < n) : (row ss i).flatten.length = (ss.map (·.itemSize)).sum := by
  induction ss with
  | nil => rfl
  | cons s ss ih =>
    have hs := hw s (by simp)
    have : i < s.count := by rw [hc s (by simp)]; exact hi
    simp only [row, List.map_cons, List.flatten_cons, List.length_append, List.sum_cons]
    rw [chunk_length (hs.item_fits this)]
    congr 1
    exact ih (fun t ht => hw t (by simp [ht])) (fun t ht => hc t (by simp [ht]))

section

variable [Zero α]

theorem zipRows_length {T n : Nat} {ss : List (Serie α)} (hw : ∀ s ∈ ss, WF s) (hc : ∀ s ∈ ss, s.count = n)
    (ht : (ss.map (·.itemSize)).sum ≤ T) : ∀ r ∈ zipRows T n ss, r.length = T := by
  intro r hr
  simp only [zipRows, List.mem_map, List.mem_range] at hr
  obtain ⟨i, hi, rfl⟩ := hr
  rw [List.length_append, row_flatten_length hw hc hi, List.length_replicate]; omega

theorem zipLoop {T n : Nat} (hs : n * T < 2 ^ 32) : ∀ (ss done : List (Serie α)), (∀ s ∈ done ++ ss, WF s) →
    (∀ s ∈ done ++ ss, s.count = n) → ((done ++ ss).map (·.itemSize)).sum ≤ T → T < 2 ^ 31 →
    ss.foldlM (fun (st : Serie α × Nat) s => do
      let r ← zipCopy s n st.2 st.1
      pure (r, u32 (st.2 + s.itemSize))) (ofItems T (zipRows T n done), (done.map (·.itemSize)).sum) =
    (.ok (ofItems T (zipRows T n (done ++ ss)), ((done ++ ss).map (·.itemSize)).sum) : Res (Serie α × Nat)) := by
  intro ss
  induction ss with
  | nil => intro done _ _ _ _; simp
  | cons s ss ih =>
    intro done hw hc ht hT
    have hsw := hw s (by simp)
    have hsc := hc s (by simp)
    have hlen : (zipRows T n done).length = n := by simp [zipRows]
    have ht' := ht
    simp only [List.map_append, List.map_cons, List.sum_append, List.sum_cons] at ht'
    have hdone := zipRows_length (T := T) (n := n) (ss := done) (fun t h => hw t (by simp [h]))
      (fun t h => hc t (by simp [h])) (by omega)
    rw [List.foldlM_cons]
    have hz := zipCopy_eq hdone (by rw [hlen]; exact hs) hsw (by omega) (off := (done.map (·.itemSize)).sum)
      (by omega)
    rw [hlen] at hz
    simp only [hz, Res.ok_bind]
    have he : List.zipWith (fun r v => splice r (done.map (·.itemSize)).sum v) (zipRows T n done) (items s) =
        zipRows T n (done ++ [s]) := by
      apply List.ext_getElem
      · simp [zipRows, hsc]
      · intro i h1 h2
        simp only [zipRows, List.length_map, List.length_range] at h2
        have hr := row_flatten_length (ss := done) (n := n) (fun t h => hw t (by simp [h]))
          (fun t h => hc t (by simp [h])) h2
        have hk := chunk_length (hsw.item_fits (by omega : i < s.count))
        simp only [List.getElem_zipWith, zipRows, List.getElem_map, List.getElem_range, items_getElem]
        simp only [row, List.map_append, List.flatten_append, List.map_cons, List.map_nil, List.flatten_cons,
          List.flatten_nil, List.append_nil, List.sum_append, List.sum_cons, List.sum_nil]
        simp only [row] at hr
        rw [splice, ← hr, List.take_left, hk, List.drop_append, List.drop_of_length_le (by omega)]
        simp only [List.nil_append, List.append_assoc, List.drop_replicate]
        congr 3
        omega
    rw [he]
    have hsum : u32 ((done.map (·.itemSize)).sum + s.itemSize) = ((done ++ [s]).map (·.itemSize)).sum := by
      rw [u32_of_lt (by omega)]; simp
    show List.foldlM _ (ofItems T (zipRows T n (done ++ [s])), _) ss = _
    simp only [hsum]
    have := ih (done ++ [s]) (by simpa using hw) (by simpa using hc) (by simpa using ht) hT
    simp only [List.append_assoc, List.singleton_append] at this
    exact this

theorem zip_start {T n : Nat} (hs : n * T < 2 ^ 32) :
    (Serie.zeros T n : Serie α) = ofItems T (zipRows T n []) := by
  simp only [Serie.zeros, ofItems, zipRows, u32_of_lt hs]
  simp [row, List.map_const']

omit [Zero α] in
theorem zip_total {ss : List (Serie α)} (h : (ss.map (·.itemSize)).sum < 2 ^ 31) :
    ss.foldl (fun t s => u32 (t + s.itemSize)) 0 = (ss.map (·.itemSize)).sum := by
  rw [foldl_u32_sum (fun s : Serie α => s.itemSize) ss 0 (by omega)]; omega

theorem foldlM_congr_mem {m : Type → Type} [Monad m] {β γ : Type} {f g : β → γ → m β} :
    ∀ (l : List γ) (b : β), (∀ b, ∀ x ∈ l, f b x = g b x) → l.foldlM f b = l.foldlM g b := by
  intro l
  induction l with
  | nil => intro b _; rfl
  | cons a l ih =>
    intro b h
    simp only [List.foldlM_cons]
    rw [h b a (by simp)]
    congr 1
    funext c
    exact ih c (fun b x hx => h b x (by simp [hx]))

theorem zip_eq {ss : List (Serie α)} {n : Nat} (hne : ss ≠ []) (hw : ∀ s ∈ ss, WF s)
    (hc : ∀ s ∈ ss, s.count = n) (ht : (ss.map (·.itemSize)).sum < 2 ^ 31)
    (hs : n * (ss.map (·.itemSize)).sum < 2 ^ 32) :
    zip ss = .ok (ofItems (ss.map (·.itemSize)).sum ((rows ss n).map List.flatten)) ∧
    zipVector ss = .ok (ofItems (ss.map (·.itemSize)).sum ((rows ss n).map List.flatten)) := by
  obtain ⟨h1, h2⟩ := countAndCheck_eq hne hc
  have hv : ss.all (·.isValid) = true := by
    rw [List.all_eq_true]; exact fun s h => (hw s h).valid
  have hl := zipLoop hs ss [] (by simpa using hw) (by simpa using hc) (by simp) ht
  have hr : zipRows (ss.map (·.itemSize)).sum n ss = (rows ss n).map List.flatten := by
    simp [zipRows, rows]
  simp only [List.nil_append, List.map_nil, List.sum_nil, hr] at hl
  constructor
  · unfold zip
    rw [hv]
    simp only [Bool.not_true, Bool.false_eq_true, if_false, h1, h2, Res.ok_bind, zip_total ht, zip_start hs]
    rw [foldlM_congr_mem (g := fun (st : Serie α × Nat) s => do
      let r ← zipCopy s n st.2 st.1
      pure (r, u32 (st.2 + s.itemSize))) ss _ (fun b x hx => by rw [hc x hx]), hl]
    rfl
  · unfold zipVector
    rw [hv, if_neg hne]
    simp only [Bool.not_true, Bool.false_eq_true, if_false, h1, h2, Res.ok_bind, zip_total ht, zip_start hs]
    rw [hl]
    rfl

/-! ## unzip -/

/-- Numbers `off, ..., off + k - 1` of every item. -/
def column (z : Serie α) (k off : Nat) : List (List α) := (items z).map (fun v => (v.drop off).take k)

omit [Zero α] in
theorem wr_loop {v w : List α} {g : Nat → Res α} (hl : w.length = v.length)
    (hg : ∀ j (hj : j < v.length), g j = .ok v[j]) :
    forLoop (fun j (w : List α) => g j >>= fun x => wr w j x) 0 v.length w = (.ok v : Res (List α)) := by
  have := forLoop_exact (m := Res) (f := fun j (w : List α) => g j >>= fun x => wr w j x)
    (fun j => v.take j ++ w.drop j) v.length 0 ?_
  · simp only [List.take_zero, List.drop_zero, List.nil_append, Nat.zero_add, List.take_length] at this
    rw [this, ← hl]; simp
  · intro j _ hj
    rw [Nat.zero_add] at hj
    rw [hg j hj, Res.ok_bind, wr_of_lt (by simp; omega), List.set_append_right _ _ (by rw [List.length_take]; omega),
      List.drop_eq_getElem_cons (by omega : j < w.length), List.take_add_one, List.getElem?_eq_getElem hj]
    simp only [List.length_take]
    rw [show j - min j v.length = 0 by omega, List.set_cons_zero]
    simp only [Option.toList_some, List.append_assoc, List.singleton_append]
    rfl

theorem unzipOne_eq {z : Serie α} (h : WF z) {k off : Nat} (hk : 0 < k) (ho : off + k ≤ z.itemSize) :
    unzipOne z k off = .ok (ofItems k (column z k off)) := by
  have hlen : (column z k off).length = z.count := by simp [column]
  have hcl : ∀ v ∈ column z k off, v.length = k := by
    intro v hv
    obtain ⟨w, hw, rfl⟩ := List.mem_map.1 hv
    have := h.item_length hw
    simp; omega
  have hint := h.int
  have hsm := h.small
  have hfit := h.fits
  have hck : z.count * k ≤ z.count * z.itemSize := Nat.mul_le_mul_left _ (by omega)
  have hpos : ∀ i, i < z.count → i * z.itemSize + z.itemSize ≤ z.count * z.itemSize :=
    fun i hi => mul_succ_le hi (Nat.le_refl _)
  have hcol : ∀ i (hi : i < (column z k off).length) j (hj : j < (column z k off)[i].length),
      z.scalar (u32 (i * z.itemSize + off + j)) = .ok (column z k off)[i][j] := by
    intro i hi j hj
    rw [hcl _ (List.getElem_mem _)] at hj
    have := hpos i (by omega)
    rw [u32_of_lt (by omega), Serie.scalar_eq h (by omega)]
    simp only [column, List.getElem_map, List.getElem_take, List.getElem_drop, items_getElem]
    congr 1
    rw [chunk_getElem (by omega) (by omega)]
    congr 1
    omega
  have hput := forLoop_putA (d := 3) (g := fun i => z.getA i >>= fun v => pure ((v.drop off).take k)) hk (by omega)
    (column z k off) hcl (by rw [hlen]; omega) ?_
  · rw [hlen] at hput
    rw [← hput]
    unfold unzipOne
    -- the loop states are well-formed Series of `count` items of size `k`
    have hinv : ∀ n lo (r : Serie α), WF r → r.itemSize = k → r.count = z.count → lo + n ≤ z.count →
        forLoop (fun i (s : Serie α) =>
          if k = 1 then do
            let x ← z.scalar (u32 (i * z.itemSize + off))
            s.putScalar i x
          else do
            let values ← forLoop (fun j (v : List α) => do
              let x ← z.scalar (u32 (i * z.itemSize + off + j))
              wr v j x) 0 k (List.replicate k 0)
            s.putValue i values) lo n r =
        forLoop (fun i (r : Serie α) => (z.getA i >>= fun v => pure ((v.drop off).take k)) >>= fun v =>
          r.putA i v) lo n r := by
      intro n
      induction n with
      | zero => intros; rfl
      | succ n ih =>
        intro lo r hr hrk hrc hlo
        have hlo' : lo < (column z k off).length := by omega
        have hit := hcl _ (List.getElem_mem hlo')
        have hg : (z.getA lo >>= fun v => pure ((v.drop off).take k)) = .ok (column z k off)[lo] := by
          rw [Serie.getA_items h (by simp; omega)]; simp [column]
        have hp := Serie.putA_eq hr (i := lo) (v := (column z k off)[lo]) (by omega) (by omega)
        rw [forLoop_succ, forLoop_succ, hg, Res.ok_bind, hp, Res.ok_bind]
        have hstep : (if k = 1 then do
            let x ← z.scalar (u32 (lo * z.itemSize + off))
            r.putScalar lo x
          else do
            let values ← forLoop (fun j (v : List α) => do
              let x ← z.scalar (u32 (lo * z.itemSize + off + j))
              wr v j x) 0 k (List.replicate k 0)
            r.putValue lo values) =
            Res.ok { r with data := splice r.data (lo * r.itemSize) (column z k off)[lo] } := by
          by_cases h1 : k = 1
          · rw [if_pos h1]
            have e0 := hcol lo hlo' 0 (by omega)
            rw [Nat.add_zero] at e0
            have hrl : lo < r.data.length := by
              have := hr.count_le; omega
            rw [e0, Res.ok_bind, Serie.putScalar_eq hrl]
            congr 2
            rw [List.set_eq_take_append_cons_drop, if_pos hrl]
            have e1 : [(column z k off)[lo][0]'(by omega)] = (column z k off)[lo] := by
              apply List.ext_getElem
              · simp; omega
              · intro j h2 h3
                have : j = 0 := by simpa using h2
                subst this; rfl
            have e2 : lo * r.itemSize = lo := by rw [hrk, h1, Nat.mul_one]
            have e3 : lo + 1 = lo + (column z k off)[lo].length := by rw [hit, h1]
            rw [splice, e2, ← List.singleton_append, e1, e3, List.append_assoc]
          · rw [if_neg h1]
            have := wr_loop (v := (column z k off)[lo]) (w := List.replicate k (0 : α))
              (g := fun j => z.scalar (u32 (lo * z.itemSize + off + j))) (by simp [hit])
              (fun j hj => hcol lo hlo' j hj)
            rw [hit] at this
            rw [this, Res.ok_bind, Serie.putValue_eq hr (by omega) (by omega)]
        rw [hstep, Res.ok_bind]
        refine ih (lo + 1) _ (hr.of_data (splice_length ?_)) hrk hrc (by omega)
        have := hr.item_fits (by omega : lo < r.count)
        omega
    refine hinv z.count 0 _ ?_ rfl rfl (by omega)
    rw [zeros_eq_partialS (by omega)]
    exact WF_partialS hk (by omega) (by simp) (by simp) (by omega)
  · intro i hi
    rw [Serie.getA_items h (by simp; omega)]; simp [column]

/-- The output Series of `unzip`, from offset `off` on. -/
def columns (z : Serie α) : Nat → List Nat → List (Serie α)
  | _, [] => []
  | off, k :: ks => ofItems k (column z k off) :: columns z (off + k) ks

theorem unzipLoop {z : Serie α} (h : WF z) : ∀ (sizes : List Nat) (off : Nat) (acc : List (Serie α)),
    (∀ k ∈ sizes, 0 < k) → off + sizes.sum ≤ z.itemSize →
    sizes.foldlM (fun (st : List (Serie α) × Nat) k => do
      let s ← unzipOne z k st.2
      pure (st.1 ++ [s], u32 (st.2 + k))) (acc, off) =
    (.ok (acc ++ columns z off sizes, off + sizes.sum) : Res _) := by
  intro sizes
  induction sizes with
  | nil => intro off acc _ _; simp [columns]
  | cons k ks ih =>
    intro off acc hp ho
    have hint := h.int
    simp only [List.sum_cons] at ho ⊢
    rw [List.foldlM_cons, unzipOne_eq h (hp k (by simp)) (by omega)]
    simp only [Res.ok_bind, u32_of_lt (show off + k < 2 ^ 32 by omega)]
    have := ih (off + k) (acc ++ [ofItems k (column z k off)]) (fun k hk => hp k (by simp [hk])) (by omega)
    simp only [columns]
    refine Eq.trans this ?_
    simp [Nat.add_assoc]

theorem unzip_eq {z : Serie α} (h : WF z) {sizes : List Nat} (hne : sizes ≠ []) (hp : ∀ k ∈ sizes, 0 < k)
    (hsum : sizes.sum = z.itemSize) : unzip z sizes = .ok (columns z 0 sizes) := by
  have hint := h.int
  have ht : sizes.foldl (fun t k => u32 (t + k)) 0 = z.itemSize := by
    have := foldl_u32_sum (fun k : Nat => k) sizes 0 (by simp; omega)
    simp only [List.map_id'] at this
    rw [this]; omega
  unfold unzip
  rw [if_neg hne, if_neg (by simp [ht]), unzipLoop h sizes 0 [] hp (by omega)]
  simp

end

end DF
