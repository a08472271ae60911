import Verif.Lemmas.Param

/-!
# Related inputs give related results: the functions
-/

namespace DF

variable {α β : Type} {R : α → β → Prop}

section structural

variable [Zero α] [Zero β]

theorem binOp_rel (h0 : R 0 0) {f : α → α → α} {g : β → β → β} (hf : Rel2 R f g) {a b : Serie α} {c d : Serie β}
    (h1 : SRel R a c) (h2 : SRel R b d) : ResRel (SRel R) (binOp f a b) (binOp g c d) := by
  unfold binOp
  rw [h1.itemSize, h1.count, h2.itemSize, h2.count]
  split
  · exact .throw _
  · refine ResRel.forLoop _ 0 (SRel.zeros h0 _ _ _) fun i s t hs => ?_
    split
    · exact (h1.getD i).bind fun x y hx => (h2.getD i).bind fun x' y' hx' => hs.putD i (hf _ _ hx _ _ hx')
    · refine (h1.getA i).bind fun v w hv => (h2.getA i).bind fun v' w' hv' => ?_
      refine (ResRel.forLoop (S := List.Forall₂ R) _ 0 (Forall₂.replicate _ h0) fun j l m hl => ?_).bind fun l m hl => hs.putA i hl
      exact (Forall₂.rd hv j).bind fun x y hx => (Forall₂.rd hv' j).bind fun x' y' hx' => Forall₂.wr hl j (hf _ _ hx _ _ hx')

theorem opList_rel (h0 : R 0 0) {f : α → α → α} {g : β → β → β} (hf : Rel2 R f g) {l : List (Serie α)} {m : List (Serie β)}
    (h : List.Forall₂ (SRel R) l m) : ResRel (SRel R) (opList f l) (opList g m) := by
  unfold opList
  refine (Forall₂.rd h 0).bind fun a b hab => ?_
  rw [h.length_eq]
  refine (ResRel.forLoop (S := fun _ _ : Unit => True) _ 1 trivial fun j _ _ _ => ?_).bind fun _ _ _ => ?_
  · refine (Forall₂.rd h j).bind fun s t hs => ?_
    rw [hab.count, hab.itemSize, hs.count, hs.itemSize]
    split
    · exact .throw _
    · split
      · exact .throw _
      · exact .ok trivial
  · refine SRel.mapArr h0 hab fun v w hv i => ?_
    rw [hab.itemSize]
    refine ResRel.forLoop _ 1 hv fun j r r' hr => ?_
    refine (Forall₂.rd h j).bind fun s t hs => ResRel.updLoop _ hr fun k x y hx => ?_
    exact (hs.value i).bind fun _ _ hv => (Forall₂.rd hv k).bind fun _ _ hy => .ok (hf _ _ hx _ _ hy)

theorem scaleWith_rel (h0 : R 0 0) {f : α → Res α} {g : β → Res β} (hf : ∀ x y, R x y → ResRel R (f x) (g y)) {s : Serie α}
    {t : Serie β} (h : SRel R s t) (k : Nat) : ResRel (SRel R) (mapArr (fun a _ => updLoop k (fun _ y => f y) a) s)
      (mapArr (fun a _ => updLoop k (fun _ y => g y) a) t) :=
  SRel.mapArr h0 h fun _ _ hv _ => ResRel.updLoop _ hv fun _ _ _ hx => hf _ _ hx

theorem scaleAll_rel (h0 : R 0 0) {f : α → Res α} {g : β → Res β} (hf : ∀ x y, R x y → ResRel R (f x) (g y)) {s : Serie α}
    {t : Serie β} (h : SRel R s t) : ResRel (SRel R) (mapArr (fun a _ => updLoop a.length (fun _ y => f y) a) s)
      (mapArr (fun a _ => updLoop a.length (fun _ y => g y) a) t) :=
  SRel.mapArr h0 h fun _ _ hv _ => by rw [hv.length_eq]; exact ResRel.updLoop _ hv fun _ _ _ hx => hf _ _ hx

theorem scale_rel [Mul α] [Mul β] (h0 : R 0 0) (hm : Rel2 R (· * ·) (· * ·)) {s : Serie α} {t : Serie β} (h : SRel R s t)
    {x : α} {y : β} (hx : R x y) : ResRel (SRel R) (scale s x) (scale t y) := by
  unfold scale
  rw [h.itemSize]
  exact scaleWith_rel h0 (fun a b hab => .ok (hm _ _ hab _ _ hx)) h _

theorem scaleBy_rel [Mul α] [Mul β] (h0 : R 0 0) (hm : Rel2 R (· * ·) (· * ·)) {s : Serie α} {t : Serie β} (h : SRel R s t)
    {x : List α} {y : List β} (hx : List.Forall₂ R x y) : ResRel (SRel R) (scaleBy s x) (scaleBy t y) := by
  unfold scaleBy
  rw [h.itemSize, hx.length_eq]
  split
  · exact .throw _
  · exact SRel.mapArr h0 h fun _ _ hv _ => ResRel.updLoop _ hv fun k _ _ ha => (Forall₂.rd hx k).bind fun _ _ hb =>
      .ok (hm _ _ ha _ _ hb)

theorem negate_rel [One α] [One β] [Neg α] [Neg β] [Mul α] [Mul β] (h0 : R 0 0) (h1 : R (-1) (-1))
    (hm : Rel2 R (· * ·) (· * ·)) {s : Serie α} {t : Serie β} (h : SRel R s t) :
    ResRel (SRel R) (negate s) (negate t) := by
  unfold negate
  rw [h.itemSize]
  exact scaleWith_rel h0 (fun a b hab => .ok (hm _ _ hab _ _ h1)) h _

theorem mult_rel [Mul α] [Mul β] (h0 : R 0 0) (hm : Rel2 R (· * ·) (· * ·)) {s : Serie α} {t : Serie β} (h : SRel R s t)
    {x : α} {y : β} (hx : R x y) : ResRel (SRel R) (mult s x) (mult t y) :=
  scaleAll_rel h0 (fun _ _ hab => .ok (hm _ _ hab _ _ hx)) h

theorem multSerie_rel [Mul α] [Mul β] (h0 : R 0 0) (hm : Rel2 R (· * ·) (· * ·)) {s a : Serie α} {t b : Serie β}
    (h : SRel R s t) (h' : SRel R a b) : ResRel (SRel R) (multSerie s a) (multSerie t b) := by
  unfold multSerie
  rw [h.count, h.itemSize, h'.count, h'.itemSize, h.data.length_eq]
  split
  · exact .throw _
  · split
    · split
      · exact .throw _
      · refine (ResRel.forLoop (S := List.Forall₂ R) _ 0 (Forall₂.replicate _ h0) fun i l m hl => ?_).bind fun l m hl =>
          SRel.ofArray _ hl _
        exact (Forall₂.rd h.data i).bind fun x y hx => (Forall₂.rd h'.data i).bind fun _ _ hx' =>
          Forall₂.wr hl i (hm _ _ hx _ _ hx')
    · refine SRel.mapArr h0 h fun v w hv i => ?_
      rw [hv.length_eq]
      split
      · exact (h'.scalar i).bind fun x y hx => ResRel.updLoop _ hv fun _ _ _ hy => .ok (hm _ _ hy _ _ hx)
      · split
        · exact .throw _
        · exact (h'.value i).bind fun x y hx => ResRel.updLoop _ hv fun j _ _ hy => (Forall₂.rd hx j).bind fun _ _ hz =>
            .ok (hm _ _ hy _ _ hz)

theorem divNum_rel [Div α] [Div β] (h0 : R 0 0) {d : α} {e : β} (hd : ∀ x y, R x y → R (x / d) (y / e)) {s : Serie α}
    {t : Serie β} (h : SRel R s t) : ResRel (SRel R) (divNum d s) (divNum e t) :=
  scaleAll_rel h0 (fun _ _ hab => .ok (hd _ _ hab)) h

theorem weightedSum_rel [Add α] [Add β] [Mul α] [Mul β] (h0 : R 0 0) (ha : Rel2 R (· + ·) (· + ·))
    (hm : Rel2 R (· * ·) (· * ·)) {l : List (Serie α)} {m : List (Serie β)} (h : List.Forall₂ (SRel R) l m) {x : List α}
    {y : List β} (hx : List.Forall₂ R x y) : ResRel (SRel R) (weightedSum l x) (weightedSum m y) := by
  unfold weightedSum
  rw [h.length_eq, hx.length_eq]
  split
  · exact .throw _
  · refine (Forall₂.rd h 0).bind fun a b hab => ?_
    refine (ResRel.foldlM (S := fun _ _ : Unit => True) h trivial fun _ _ _ s t hs => ?_).bind fun _ _ _ => ?_
    · rw [hab.count, hab.itemSize, hs.count, hs.itemSize]
      split
      · exact .throw _
      · split
        · exact .throw _
        · exact .ok trivial
    · refine SRel.mapArr h0 hab fun v w hv i => ?_
      rw [hab.itemSize]
      refine ResRel.forLoop _ 0 (Forall₂.replicate _ h0) fun j r r' hr => ?_
      refine (Forall₂.rd h j).bind fun s t hs => (hs.value i).bind fun _ _ hv => (Forall₂.rd hx j).bind fun _ _ hw => ?_
      exact ResRel.updLoop _ hr fun k _ _ hp => (Forall₂.rd hv k).bind fun _ _ hy => .ok (ha _ _ hp _ _ (hm _ _ hy _ _ hw))

theorem divSerie_rel [Neg α] [Neg β] [LT α] [LT β] [DecidableLT α] [DecidableLT β] [Div α] [Div β] [OfScientific α]
    [OfScientific β] (h0 : R 0 0) (ht : ∀ x y, R x y → (absv x < (1e-10 : α) ↔ absv y < (1e-10 : β)))
    (hd : ∀ a b, R a b → ∀ x y, R x y → ¬ absv x < (1e-10 : α) → R (a / x) (b / y)) {s a : Serie α} {t b : Serie β}
    (h : SRel R s t) (h' : SRel R a b) : ResRel (SRel R) (divSerie s a) (divSerie t b) := by
  unfold divSerie
  rw [h.isValid, h'.isValid, h.count, h'.count, h.itemSize, h'.itemSize]
  split
  · exact .throw _
  · split
    · exact .throw _
    · split
      · exact .throw _
      · split
        · refine SRel.mapNum h' fun v w hv i => (h.getD i).bind fun x y hx => ?_
          by_cases c : absv x < (1e-10 : α)
          · rw [if_pos c, if_pos ((ht _ _ hx).1 c)]; exact .ok h0
          · rw [if_neg c, if_neg (fun c' => c ((ht _ _ hx).2 c'))]; exact .ok (hd _ _ hv _ _ hx c)
        · refine SRel.mapArr h0 h' fun v w hv i => (h.getD i).bind fun x y hx => ?_
          rw [hv.length_eq]
          by_cases c : absv x < (1e-10 : α)
          · rw [if_pos c, if_pos ((ht _ _ hx).1 c)]; exact .ok (Forall₂.replicate _ h0)
          · rw [if_neg c, if_neg (fun c' => c ((ht _ _ hx).2 c'))]
            exact ResRel.forLoop (S := List.Forall₂ R) _ 0 (Forall₂.replicate _ h0) fun j l m hl =>
              (Forall₂.rd hv j).bind fun _ _ hp => Forall₂.wr hl j (hd _ _ hp _ _ hx c)

end structural

theorem addNum_rel [Add α] [Add β] (ha : Rel2 R (· + ·) (· + ·)) {s : Serie α} {t : Serie β} (h : SRel R s t)
    {x : α} {y : β} (hx : R x y) : ResRel (SRel R) (addNum s x) (addNum t y) := by
  unfold addNum
  rw [h.itemSize]
  split
  · exact .throw _
  · exact h.mapNum fun _ _ hv _ => .ok (ha _ _ hv _ _ hx)

theorem subNum_rel [Sub α] [Sub β] (ha : Rel2 R (· - ·) (· - ·)) {s : Serie α} {t : Serie β} (h : SRel R s t)
    {x : α} {y : β} (hx : R x y) : ResRel (SRel R) (subNum s x) (subNum t y) := by
  unfold subNum
  rw [h.itemSize]
  split
  · exact .throw _
  · exact h.mapNum fun _ _ hv _ => .ok (ha _ _ hv _ _ hx)

section order

variable [LT α] [LT β] [DecidableLT α] [DecidableLT β]

theorem minv_rel (hl : ∀ a b, R a b → ∀ c d, R c d → (a < c ↔ b < d)) : Rel2 R minv minv := by
  intro a b hab c d hcd
  unfold minv
  by_cases h : c < a
  · rw [if_pos h, if_pos ((hl _ _ hcd _ _ hab).1 h)]; exact hcd
  · rw [if_neg h, if_neg (fun h' => h ((hl _ _ hcd _ _ hab).2 h'))]; exact hab

theorem maxv_rel (hl : ∀ a b, R a b → ∀ c d, R c d → (a < c ↔ b < d)) : Rel2 R maxv maxv := by
  intro a b hab c d hcd
  unfold maxv
  by_cases h : a < c
  · rw [if_pos h, if_pos ((hl _ _ hab _ _ hcd).1 h)]; exact hcd
  · rw [if_neg h, if_neg (fun h' => h ((hl _ _ hab _ _ hcd).2 h'))]; exact hab

theorem minMax_rel [Limits α] [Limits β] (hl : ∀ a b, R a b → ∀ c d, R c d → (a < c ↔ b < d))
    (hh : R Limits.highest Limits.highest) (hw : R Limits.lowest Limits.lowest) {s : Serie α} {t : Serie β} (h : SRel R s t) :
    ResRel (fun p q => List.Forall₂ R p.1 q.1 ∧ List.Forall₂ R p.2 q.2) (minMax s) (minMax t) := by
  unfold minMax
  rw [h.isValid, h.count, h.itemSize]
  split
  · exact .throw _
  · split
    · exact .ok ⟨.nil, .nil⟩
    · split
      · refine (ResRel.forLoop (S := fun p q : _ × _ => R p.1 q.1 ∧ R p.2 q.2) _ 0 ⟨hh, hw⟩ fun i p q hp => ?_).bind fun p q hp => ?_
        · exact (h.getD i).bind fun _ _ hv => .ok ⟨minv_rel hl _ _ hp.1 _ _ hv, maxv_rel hl _ _ hp.2 _ _ hv⟩
        · exact .ok ⟨.cons hp.1 .nil, .cons hp.2 .nil⟩
      · refine (h.getA 0).bind fun v w hv => ?_
        refine ResRel.forLoop (S := fun p q : _ × _ => List.Forall₂ R p.1 q.1 ∧ List.Forall₂ R p.2 q.2) _ 1 ⟨hv, hv⟩ fun i p q hp => ?_
        refine (h.getA i).bind fun v w hv => ?_
        rw [hv.length_eq]
        refine ResRel.forLoop (S := fun p q : _ × _ => List.Forall₂ R p.1 q.1 ∧ List.Forall₂ R p.2 q.2) _ 0 hp fun j p q hp => ?_
        exact (Forall₂.rd hv j).bind fun _ _ hx => (Forall₂.rd hp.1 j).bind fun _ _ ha => (Forall₂.rd hp.2 j).bind fun _ _ hb =>
          (Forall₂.wr hp.1 j (minv_rel hl _ _ ha _ _ hx)).bind fun _ _ h1 =>
            (Forall₂.wr hp.2 j (maxv_rel hl _ _ hb _ _ hx)).bind fun _ _ h2 => .ok ⟨h1, h2⟩

end order

section equality

theorem stdEqual_rel {p : α → α → Bool} {q : β → β → Bool} (hp : ∀ a b, R a b → ∀ c d, R c d → p a c = q b d) {l l' : List α}
    {m m' : List β} (h : List.Forall₂ R l m) (h' : List.Forall₂ R l' m') : stdEqual p l l' = stdEqual q m m' := by
  induction h generalizing l' m' with
  | nil => rfl
  | cons h1 _ ih =>
    cases h' with
    | nil => rfl
    | cons h2 h3 =>
      unfold stdEqual
      rw [hp _ _ h1 _ _ h2, ih h3]

theorem beq_rel [BEq α] [BEq β] (hp : ∀ a b, R a b → ∀ c d, R c d → (a == c) = (b == d)) {l l' : List α}
    {m m' : List β} (h : List.Forall₂ R l m) (h' : List.Forall₂ R l' m') : (l == l') = (m == m') := by
  induction h generalizing l' m' with
  | nil => cases h' <;> rfl
  | cons h1 _ ih =>
    cases h' with
    | nil => rfl
    | cons h2 h3 => rw [List.cons_beq_cons, List.cons_beq_cons, hp _ _ h1 _ _ h2, ih h3]

theorem equals_rel [BEq α] [BEq β] (hp : ∀ a b, R a b → ∀ c d, R c d → (a == c) = (b == d)) {s a : Serie α} {t b : Serie β}
    (h : SRel R s t) (h' : SRel R a b) : equals s a = equals t b := by
  unfold equals
  rw [h.isValid, h'.isValid, h.count, h'.count, h.itemSize, h'.itemSize, h.dimension, h'.dimension, beq_rel hp h.data h'.data]

theorem maskWith_rel [Zero α] [Zero β] [One α] [One β] (h0 : R 0 0) (h1 : R 1 1) {p : α → α → Bool} {q : β → β → Bool}
    (hp : ∀ a b, R a b → ∀ c d, R c d → p a c = q b d) {s a : Serie α} {t b : Serie β}
    (h : SRel R s t) (h' : SRel R a b) : ResRel (SRel R) (maskWith p s a) (maskWith q t b) := by
  have hb : ∀ c : Bool, R (if c then 1 else 0) (if c then 1 else 0) := fun c => by cases c <;> assumption
  unfold maskWith
  rw [h.isValid, h'.isValid, h.count, h'.count, h.itemSize, h'.itemSize]
  split
  · exact .throw _
  · refine ResRel.forLoop _ 0 (SRel.zeros h0 _ _ _) fun i r r' hr => ?_
    split
    · refine (h.scalar i).bind fun x y hx => (h'.scalar i).bind fun x' y' hx' => ?_
      rw [hp _ _ hx _ _ hx']
      exact hr.setScalar i (hb _)
    · refine (h.value i).bind fun x y hx => (h'.value i).bind fun x' y' hx' => ?_
      rw [stdEqual_rel hp hx hx']
      exact (ResRel.refl_eq _).bind fun c c' e => by subst e; exact hr.setScalar i (hb _)

theorem approximatelyEquals_rel [Zero α] [Neg α] [Sub α] [LT α] [DecidableLT α] [LE α] [DecidableLE α] [Zero β] [Neg β] [Sub β]
    [LT β] [DecidableLT β] [LE β] [DecidableLE β] {e : α} {e' : β}
    (hp : ∀ a b, R a b → ∀ c d, R c d → near e a c = near e' b d) {s a : Serie α} {t b : Serie β}
    (h : SRel R s t) (h' : SRel R a b) : approximatelyEquals s a e = approximatelyEquals t b e' := by
  unfold approximatelyEquals
  rw [h.isValid, h'.isValid, h.count, h'.count, h.itemSize, h'.itemSize, h.dimension, h'.dimension, stdEqual_rel hp h.data h'.data]

end equality

section algebra

variable [Zero α] [Zero β]

omit [Zero α] [Zero β] in
theorem pick_rel {v : List α} {w : List β} (h : List.Forall₂ R v w) (ks : List Nat) :
    ResRel (List.Forall₂ R) (pick v ks) (pick w ks) := ResRel.mapM_same ks fun i => Forall₂.rd h i

theorem transpose_rel (h0 : R 0 0) {s : Serie α} {t : Serie β} (h : SRel R s t) : ResRel (SRel R) (transpose s) (transpose t) := by
  unfold transpose
  rw [h.itemSize]
  split
  · exact .throw _
  · split
    · exact SRel.mapArr h0 h fun _ _ hv _ => pick_rel hv _
    · exact SRel.mapArr h0 h fun _ _ hv _ => pick_rel hv _

omit [Zero α] [Zero β] in
theorem crossItem_rel [Sub α] [Sub β] [Mul α] [Mul β] (hs : Rel2 R (· - ·) (· - ·)) (hm : Rel2 R (· * ·) (· * ·))
    {v v' : List α} {w w' : List β} (h : List.Forall₂ R v w) (h' : List.Forall₂ R v' w') :
    ResRel (List.Forall₂ R) (crossItem v v') (crossItem w w') := by
  unfold crossItem
  refine (Forall₂.rd h 0).bind fun _ _ a0 => (Forall₂.rd h 1).bind fun _ _ a1 => (Forall₂.rd h 2).bind fun _ _ a2 =>
    (Forall₂.rd h' 0).bind fun _ _ b0 => (Forall₂.rd h' 1).bind fun _ _ b1 => (Forall₂.rd h' 2).bind fun _ _ b2 => .ok ?_
  exact .cons (hs _ _ (hm _ _ a1 _ _ b2) _ _ (hm _ _ a2 _ _ b1)) (.cons (hs _ _ (hm _ _ a2 _ _ b0) _ _ (hm _ _ a0 _ _ b2))
    (.cons (hs _ _ (hm _ _ a0 _ _ b1) _ _ (hm _ _ a1 _ _ b0)) .nil))

theorem cross_rel [Sub α] [Sub β] [Mul α] [Mul β] (h0 : R 0 0) (hs : Rel2 R (· - ·) (· - ·)) (hm : Rel2 R (· * ·) (· * ·))
    {s a : Serie α} {t b : Serie β} (h : SRel R s t) (h' : SRel R a b) : ResRel (SRel R) (cross s a) (cross t b) := by
  unfold cross
  rw [h.isValid, h'.isValid, h.itemSize, h'.itemSize]
  repeat' split
  all_goals first | exact .throw _ | skip
  exact SRel.mapArr h0 h fun v w hv i => (h'.value i).bind fun _ _ hw => crossItem_rel hs hm hv hw

theorem dotItem_rel [Add α] [Add β] [Mul α] [Mul β] (h0 : R 0 0) (ha : Rel2 R (· + ·) (· + ·)) (hm : Rel2 R (· * ·) (· * ·))
    {v v' : List α} {w w' : List β} (h : List.Forall₂ R v w) (h' : List.Forall₂ R v' w') (n : Nat) :
    ResRel (List.Forall₂ R) (dotItem n v v') (dotItem n w w') :=
  ResRel.forLoop _ 0 (.cons h0 .nil) fun k _ _ hr => (Forall₂.rd hr 0).bind fun _ _ r0 => (Forall₂.rd h k).bind fun _ _ hx =>
    (Forall₂.rd h' k).bind fun _ _ hy => Forall₂.wr hr 0 (ha _ _ r0 _ _ (hm _ _ hx _ _ hy))

theorem dot_rel [Add α] [Add β] [Mul α] [Mul β] (h0 : R 0 0) (ha : Rel2 R (· + ·) (· + ·)) (hm : Rel2 R (· * ·) (· * ·))
    {s a : Serie α} {t b : Serie β} (h : SRel R s t) (h' : SRel R a b) : ResRel (SRel R) (dot s a) (dot t b) := by
  unfold dot
  rw [h.itemSize]
  exact SRel.mapArr h0 h fun v w hv i => (h'.value i).bind fun _ _ hw => dotItem_rel h0 ha hm hv hw _

theorem dotArray_rel [Add α] [Add β] [Mul α] [Mul β] (h0 : R 0 0) (ha : Rel2 R (· + ·) (· + ·)) (hm : Rel2 R (· * ·) (· * ·))
    {s : Serie α} {t : Serie β} (h : SRel R s t) {v : List α} {w : List β} (hv : List.Forall₂ R v w) :
    ResRel (SRel R) (dotArray s v) (dotArray t w) := by
  unfold dotArray
  refine (h.value 0).bind fun _ _ h1 => ?_
  rw [h1.length_eq, hv.length_eq, h.itemSize]
  split
  · exact .ok (SRel.empty h0)
  · exact SRel.mapArr h0 h fun _ _ hu _ => dotItem_rel h0 ha hm hu hv _

/-- Two matrices on related arrays. -/
inductive MRel (R : α → β → Prop) : MatView α → MatView β → Prop
  | of {v w} (m : Nat) (h : List.Forall₂ R v w) : MRel R (MatView.of v m) (MatView.of w m)
  | dangling (m : Nat) : MRel R (MatView.dangling m) (MatView.dangling m)

omit [Zero α] [Zero β] in
theorem MRel.at' {M : MatView α} {N : MatView β} (h : MRel R M N) (i j : Nat) : ResRel R (M.at' i j) (N.at' i j) := by
  cases h with
  | of m h => exact Forall₂.rd h _
  | dangling m => exact .ub

theorem symSquaredMatrix_rel (h0 : R 0 0) {v : List α} {w : List β} (h : List.Forall₂ R v w) :
    ResRel (MRel R) (symSquaredMatrix v) (symSquaredMatrix w) := by
  unfold symSquaredMatrix
  rw [h.length_eq]
  dsimp only
  split
  · exact .ub
  · refine (ResRel.forLoop (S := List.Forall₂ R) _ 0 (Forall₂.replicate _ h0) fun i p q hp => ?_).bind
      fun _ _ _ => .ok (.dangling _)
    refine ResRel.forLoop (S := List.Forall₂ R) _ 0 hp fun j p q hp => ?_
    refine (ResRel.refl_eq _).bind fun a b e => ?_
    subst e
    exact (Forall₂.rd h a).bind fun _ _ hx => Forall₂.wr hp _ hx

omit [Zero α] [Zero β] in
theorem squaredMatrix_rel {v : List α} {w : List β} (h : List.Forall₂ R v w) : MRel R (squaredMatrix v) (squaredMatrix w) := by
  unfold squaredMatrix
  rw [h.length_eq]
  exact .of _ h

omit [Zero α] [Zero β] in
theorem det2_rel [Sub α] [Sub β] [Mul α] [Mul β] (hs : Rel2 R (· - ·) (· - ·)) (hm : Rel2 R (· * ·) (· * ·)) {M : MatView α}
    {N : MatView β} (h : MRel R M N) : ResRel (List.Forall₂ R) (det2 M) (det2 N) :=
  (h.at' 0 0).bind fun _ _ a => (h.at' 1 1).bind fun _ _ b => (h.at' 0 1).bind fun _ _ c => (h.at' 1 0).bind fun _ _ d =>
    .ok (.cons (hs _ _ (hm _ _ a _ _ b) _ _ (hm _ _ c _ _ d)) .nil)

omit [Zero α] [Zero β] in
theorem det3_rel [Add α] [Add β] [Sub α] [Sub β] [Mul α] [Mul β] (ha : Rel2 R (· + ·) (· + ·)) (hs : Rel2 R (· - ·) (· - ·))
    (hm : Rel2 R (· * ·) (· * ·)) {M : MatView α} {N : MatView β} (h : MRel R M N) :
    ResRel (List.Forall₂ R) (det3 M) (det3 N) := by
  unfold det3
  refine (h.at' 0 0).bind fun _ _ m00 => (h.at' 0 1).bind fun _ _ m01 => (h.at' 0 2).bind fun _ _ m02 =>
    (h.at' 1 0).bind fun _ _ m10 => (h.at' 1 1).bind fun _ _ m11 => (h.at' 1 2).bind fun _ _ m12 =>
    (h.at' 2 0).bind fun _ _ m20 => (h.at' 2 1).bind fun _ _ m21 => (h.at' 2 2).bind fun _ _ m22 => .ok (.cons ?_ .nil)
  have m3 : ∀ {a a' a'' : α} {b b' b'' : β}, R a b → R a' b' → R a'' b'' → R (a * a' * a'') (b * b' * b'') :=
    fun x y z => hm _ _ (hm _ _ x _ _ y) _ _ z
  exact hs _ _ (ha _ _ (ha _ _ (hs _ _ (hs _ _ (m3 m00 m11 m22) _ _ (m3 m00 m12 m21)) _ _ (m3 m01 m10 m22)) _ _ (m3 m01 m12 m20)) _ _
    (m3 m02 m10 m21)) _ _ (m3 m02 m11 m20)

theorem det_rel [Add α] [Add β] [Sub α] [Sub β] [Mul α] [Mul β] (h0 : R 0 0) (ha : Rel2 R (· + ·) (· + ·))
    (hs : Rel2 R (· - ·) (· - ·)) (hm : Rel2 R (· * ·) (· * ·)) {s : Serie α} {t : Serie β} (h : SRel R s t) :
    ResRel (SRel R) (det s) (det t) := by
  unfold det
  rw [h.isValid, h.itemSize, h.dimension]
  split
  · exact .throw _
  · refine SRel.mapArr h0 h fun v w hv i => ?_
    rw [hv.length_eq]
    split
    · split
      · exact (symSquaredMatrix_rel h0 hv).bind fun _ _ hM => det2_rel hs hm hM
      · exact det2_rel hs hm (squaredMatrix_rel hv)
    · split
      · split
        · exact (symSquaredMatrix_rel h0 hv).bind fun _ _ hM => det3_rel ha hs hm hM
        · exact det3_rel ha hs hm (squaredMatrix_rel hv)
      · exact .throw _

section inv

variable [One α] [One β] [Add α] [Add β] [Sub α] [Sub β] [Mul α] [Mul β] [Div α] [Div β] [Neg α] [Neg β] [LT α] [LT β]
  [DecidableLT α] [DecidableLT β] [OfScientific α] [OfScientific β]

theorem invSym_rel (ha : Rel2 R (· + ·) (· + ·)) (hs : Rel2 R (· - ·) (· - ·)) (hm : Rel2 R (· * ·) (· * ·))
    (ht : ∀ x y, R x y → (absv x < (1e-10 : α) ↔ absv y < (1e-10 : β)))
    (hd : ∀ x y, R x y → ¬ absv x < (1e-10 : α) → R (1 / x) (1 / y)) {v : List α} {w : List β} (h : List.Forall₂ R v w) :
    ResRel (List.Forall₂ R) (invSym v) (invSym w) := by
  unfold invSym
  refine (Forall₂.rd h 0).bind fun _ _ xx => (Forall₂.rd h 1).bind fun _ _ xy => (Forall₂.rd h 2).bind fun _ _ xz =>
    (Forall₂.rd h 3).bind fun _ _ yy => (Forall₂.rd h 4).bind fun _ _ yz => (Forall₂.rd h 5).bind fun _ _ zz => ?_
  have c : ∀ {a a' c c' : α} {b b' d d' : β}, R a b → R a' b' → R c d → R c' d' → R (a * a' - c * c') (b * b' - d * d') :=
    fun x y z t => hs _ _ (hm _ _ x _ _ y) _ _ (hm _ _ z _ _ t)
  have D := ha _ _ (hs _ _ (hm _ _ xx _ _ (c yy zz yz yz)) _ _ (hm _ _ xy _ _ (c xy zz yz xz))) _ _ (hm _ _ xz _ _ (c xy yz yy xz))
  dsimp only at D ⊢
  split
  · rename_i k
    rw [if_pos ((ht _ _ D).1 k)]; exact .throw _
  · rename_i k
    rw [if_neg (fun k' => k ((ht _ _ D).2 k'))]
    have I := hd _ _ D k
    exact .ok (.cons (hm _ _ (c yy zz yz yz) _ _ I) (.cons (hm _ _ (c xz yz xy zz) _ _ I) (.cons (hm _ _ (c xy yz xz yy) _ _ I)
      (.cons (hm _ _ (c xx zz xz xz) _ _ I) (.cons (hm _ _ (c xy xz xx yz) _ _ I) (.cons (hm _ _ (c xx yy xy xy) _ _ I) .nil))))))

theorem invFull_rel (ha : Rel2 R (· + ·) (· + ·)) (hs : Rel2 R (· - ·) (· - ·)) (hm : Rel2 R (· * ·) (· * ·))
    (ht : ∀ x y, R x y → (absv x < (1e-10 : α) ↔ absv y < (1e-10 : β)))
    (hd : ∀ x y, R x y → ¬ absv x < (1e-10 : α) → R (1 / x) (1 / y)) {v : List α} {w : List β} (h : List.Forall₂ R v w) :
    ResRel (List.Forall₂ R) (invFull v) (invFull w) := by
  unfold invFull
  refine (Forall₂.rd h 0).bind fun _ _ xx => (Forall₂.rd h 1).bind fun _ _ xy => (Forall₂.rd h 2).bind fun _ _ xz =>
    (Forall₂.rd h 3).bind fun _ _ yx => (Forall₂.rd h 4).bind fun _ _ yy => (Forall₂.rd h 5).bind fun _ _ yz =>
    (Forall₂.rd h 6).bind fun _ _ zx => (Forall₂.rd h 7).bind fun _ _ zy => (Forall₂.rd h 8).bind fun _ _ zz => ?_
  have c : ∀ {a a' c c' : α} {b b' d d' : β}, R a b → R a' b' → R c d → R c' d' → R (a * a' - c * c') (b * b' - d * d') :=
    fun x y z t => hs _ _ (hm _ _ x _ _ y) _ _ (hm _ _ z _ _ t)
  have D := ha _ _ (hs _ _ (hm _ _ xx _ _ (c yy zz yz zy)) _ _ (hm _ _ xy _ _ (c yx zz yz zx))) _ _ (hm _ _ xz _ _ (c yx zy yy zx))
  dsimp only at D ⊢
  split
  · rename_i k
    rw [if_pos ((ht _ _ D).1 k)]; exact .throw _
  · rename_i k
    rw [if_neg (fun k' => k ((ht _ _ D).2 k'))]
    have I := hd _ _ D k
    exact .ok (.cons (hm _ _ (c yy zz yz zy) _ _ I) (.cons (hm _ _ (c xz zy xy zz) _ _ I) (.cons (hm _ _ (c xy yz xz yy) _ _ I)
      (.cons (hm _ _ (c yz zx yx zz) _ _ I) (.cons (hm _ _ (c xx zz xz zx) _ _ I) (.cons (hm _ _ (c zx xy xx zy) _ _ I)
      (.cons (hm _ _ (c yx zy yy zx) _ _ I) (.cons (hm _ _ (c xy zx xx zy) _ _ I) (.cons (hm _ _ (c xx yy xy yx) _ _ I) .nil)))))))))

theorem inv_rel (h0 : R 0 0) (ha : Rel2 R (· + ·) (· + ·)) (hs : Rel2 R (· - ·) (· - ·)) (hm : Rel2 R (· * ·) (· * ·))
    (ht : ∀ x y, R x y → (absv x < (1e-10 : α) ↔ absv y < (1e-10 : β)))
    (hd : ∀ x y, R x y → ¬ absv x < (1e-10 : α) → R (1 / x) (1 / y)) {s : Serie α} {t : Serie β} (h : SRel R s t) :
    ResRel (SRel R) (inv s) (inv t) := by
  unfold inv
  rw [h.isValid, h.itemSize, h.dimension]
  split
  · exact .ok (SRel.empty h0)
  · split
    · exact .ok (SRel.empty h0)
    · split
      · exact SRel.mapArr h0 h fun _ _ hv _ => invSym_rel ha hs hm ht hd hv
      · exact SRel.mapArr h0 h fun _ _ hv _ => invFull_rel ha hs hm ht hd hv

end inv

theorem norm2_rel [Add α] [Add β] [Mul α] [Mul β] [NatCast α] [NatCast β] (h0 : R 0 0) (ha : Rel2 R (· + ·) (· + ·))
    (hm : Rel2 R (· * ·) (· * ·)) (hn : ∀ n : Nat, R n n) {s : Serie α} {t : Serie β} (h : SRel R s t) :
    ResRel (SRel R) (norm2 s) (norm2 t) := by
  unfold norm2
  rw [h.isValid, h.itemSize, h.count]
  split
  · exact .ok (SRel.empty h0)
  · split
    · exact h.clone
    · refine (ResRel.forLoop (S := List.Forall₂ R) _ 0 (.cons (hn _) .nil) fun i l m hl => ?_).bind fun _ _ hl => SRel.ofArray _ hl _
      refine (h.value i).bind fun v w hv => ?_
      rw [hv.length_eq]
      refine (ResRel.forLoop (S := R) _ 0 h0 fun j x y hx => ?_).bind fun _ _ hx => Forall₂.wr hl i hx
      exact (Forall₂.rd hv j).bind fun _ _ hw => .ok (ha _ _ hx _ _ (hm _ _ hw _ _ hw))

theorem norm_rel [Add α] [Add β] [Mul α] [Mul β] [NatCast α] [NatCast β] [Sqrt α] [Sqrt β] (h0 : R 0 0)
    (ha : Rel2 R (· + ·) (· + ·)) (hm : Rel2 R (· * ·) (· * ·)) (hn : ∀ n : Nat, R n n)
    (hq : ∀ x y, R x y → R (Sqrt.sqrt x) (Sqrt.sqrt y)) {s : Serie α} {t : Serie β} (h : SRel R s t) :
    ResRel (SRel R) (norm s) (norm t) :=
  (norm2_rel h0 ha hm hn h).bind fun _ _ hs => SRel.mapArr h0 hs fun _ _ hv _ => (Forall₂.rd hv 0).bind fun _ _ hx =>
    .ok (.cons (hq _ _ hx) .nil)

end algebra

theorem normalize_rel [Zero α] [Zero β] [One α] [One β] [Add α] [Add β] [Sub α] [Sub β] [Mul α] [Mul β] [Div α] [Div β] [LT α] [LT β]
    [DecidableLT α] [DecidableLT β] [Limits α] [Limits β] [Sqrt α] [Sqrt β] {P : α → Prop} (h0 : R 0 0)
    (ha : Rel2 R (· + ·) (· + ·)) (hs : Rel2 R (· - ·) (· - ·)) (hm : Rel2 R (· * ·) (· * ·))
    (hl : ∀ a b, R a b → ∀ c d, R c d → (a < c ↔ b < d)) (hh : R Limits.highest Limits.highest)
    (hw : R Limits.lowest Limits.lowest) (hq : ∀ x y, R x y → R (Sqrt.sqrt x) (Sqrt.sqrt y))
    (hd : ∀ x y, R x y → P x → R (1 / x) (1 / y)) {s : Serie α} {t : Serie β} (h : SRel R s t)
    (p1 : s.itemSize = 1 → ∀ mn mx hi lo, minMax s = .ok (mn, mx) → rd mx 0 = .ok hi → rd mn 0 = .ok lo → P (hi - lo))
    (p2 : ∀ l : List α, P (Sqrt.sqrt (l.foldl (fun acc v => acc + v * v) 0))) :
    ResRel (SRel R) (normalize s) (normalize t) := by
  have hM := minMax_rel hl hh hw h
  unfold normalize
  rw [h.isValid, h.itemSize] at *
  split
  · exact .throw _
  · split
    · rename_i hk
      have p1' := p1 hk
      revert hM p1'
      generalize minMax s = M
      generalize minMax t = N
      intro hM p1'
      cases hM with
      | throw e => exact .throw e
      | ub => exact .ub
      | @ok x y hM =>
        obtain ⟨mn, mx⟩ := x
        obtain ⟨mn', mx'⟩ := y
        have h1 := Forall₂.rd hM.1 0
        have h2 := Forall₂.rd hM.2 0
        show ResRel _ (rd mx 0 >>= fun hi => _) (rd mx' 0 >>= fun hi => _)
        revert p1' h2
        generalize ehi : rd mx 0 = A
        generalize rd mx' 0 = B
        intro p1' h2
        cases h2 with
        | throw e => exact .throw e
        | ub => exact .ub
        | @ok hi hi' h2 =>
          show ResRel _ (rd mn 0 >>= fun lo => _) (rd mn' 0 >>= fun lo => _)
          generalize elo : rd mn 0 = A
          generalize elo' : rd mn' 0 = B
          rw [elo, elo'] at h1
          cases h1 with
          | throw e => exact .throw e
          | ub => exact .ub
          | @ok lo lo' h1 =>
            have I := hd _ _ (hs _ _ h2 _ _ h1) (p1' mn mx hi lo rfl ehi elo)
            refine h.mapNum fun v w hv _ => ?_
            exact .ok (hm _ _ I _ _ (hs _ _ hv _ _ h1))
    · refine SRel.mapArr h0 h fun v w hv _ => .ok ?_
      have I := hd _ _ (hq _ _ (Forall₂.foldl hv h0 fun _ _ hx _ _ hy => ha _ _ hx _ _ (hm _ _ hy _ _ hy))) (p2 v)
      exact Forall₂.map hv fun _ _ hx => hm _ _ hx _ _ I

section stats

variable [Zero α] [Zero β] [Add α] [Add β] [Div α] [Div β] [NatCast α] [NatCast β]

/-- Related results of `mean`. -/
inductive TRel (R : α → β → Prop) : Tuple α → Tuple β → Prop
  | number {x y} (h : R x y) : TRel R (.number x) (.number y)
  | array {l m} (h : List.Forall₂ R l m) : TRel R (.array l) (.array m)

theorem mean_rel (h0 : R 0 0) (ha : Rel2 R (· + ·) (· + ·)) (hd : ∀ x y, R x y → ∀ n : Nat, R (x / n) (y / n))
    {s : Serie α} {t : Serie β} (h : SRel R s t) : ResRel (TRel R) (mean s) (mean t) := by
  unfold mean
  rw [h.itemSize, h.count]
  split
  · exact (h.reduceS h0 (f := fun a v _ => .ok (a + v)) (g := fun a v _ => .ok (a + v)) fun _ _ hx _ _ hy _ =>
      .ok (ha _ _ hx _ _ hy)).bind fun _ _ hx => .ok (.number (hd _ _ hx _))
  · have key : EffRel (List.Forall₂ R) (fun _ _ : Unit => True)
        (forEachV (fun a _ => Eff.update (fun b => updLoop a.length (fun j x => do
          let y ← rd a j
          pure (x + y)) b)) s)
        (forEachV (fun a _ => Eff.update (fun b => updLoop a.length (fun j x => do
          let y ← rd a j
          pure (x + y)) b)) t) := by
      unfold forEachV
      rw [h.itemSize, h.count]
      split
      · exact EffRel.throw _
      · refine EffRel.forLoop _ 0 trivial fun i _ _ _ => (EffRel.lift (h.getA i)).bind fun v w hv => ?_
        refine EffRel.update fun l m hl => ?_
        rw [hv.length_eq]
        exact ResRel.updLoop _ hl fun j _ _ hx => (Forall₂.rd hv j).bind fun _ _ hy => .ok (ha _ _ hx _ _ hy)
    refine (exec_rel (key _ _ (Forall₂.replicate _ h0))).bind fun l m hl => .ok (.array ?_)
    exact Forall₂.map hl fun _ _ hx => hd _ _ hx _

theorem covariance_rel [Sub α] [Sub β] [Mul α] [Mul β] (h0 : R 0 0) (ha : Rel2 R (· + ·) (· + ·)) (hs : Rel2 R (· - ·) (· - ·))
    (hm : Rel2 R (· * ·) (· * ·)) (hd : ∀ x y, R x y → ∀ n : Nat, R (x / n) (y / n))
    {s a : Serie α} {t b : Serie β} (h : SRel R s t) (h' : SRel R a b) : ResRel R (covariance s a) (covariance t b) := by
  have hg : ∀ p q, TRel R p q → ResRel R p.getNumber q.getNumber := by
    intro p q hp
    cases hp with
    | number h => exact .ok h
    | array h => exact .ub
  unfold covariance
  rw [h.count, h'.count, h.itemSize, h'.itemSize, h.size]
  split
  · exact .throw _
  · split
    · exact .throw _
    · split
      · exact .throw _
      · refine ((mean_rel h0 ha hd h).bind hg).bind fun _ _ hx => ((mean_rel h0 ha hd h').bind hg).bind fun _ _ hy => ?_
        refine (subNum_rel hs h hx).bind fun _ _ hdx => (subNum_rel hs h' hy).bind fun _ _ hdy =>
          (multSerie_rel h0 hm hdx hdy).bind fun p q hp => ?_
        exact hp.reduceS h0 (f := fun a v _ => .ok (a + v / _)) (g := fun a v _ => .ok (a + v / _)) fun _ _ hx _ _ hy _ =>
          .ok (ha _ _ hx _ _ (hd _ _ hy _))

end stats

end DF
