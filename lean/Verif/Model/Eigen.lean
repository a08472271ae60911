import Verif.Model.Math

/-!
# `functional/algebra/eigen`

Source: src/functional/algebra/eigen.cxx. The Jacobi iteration is followed statement by statement, over any type of
numbers with the operations the code uses. Arrays shifted by `--a` and `--v` are addressed from 1 (`rd1`, `wr1`); forming
that shifted pointer, formally undefined in C++, is not modelled as such.
-/

namespace DF

variable {α : Type}

/-- `M_PI`, `std::atan`, `std::sin`, `std::cos`.
Source: src/functional/algebra/eigen.cxx:276-282. -/
class Trig (α : Type) where
  pi : α
  atan : α → α
  sin : α → α
  cos : α → α

/-- `a[k]` after `--a`.
Source: src/functional/algebra/eigen.cxx:221, 234. -/
def rd1 (a : List α) : Nat → Res α
  | 0 => .ub
  | k + 1 => rd a k

/-- `a[k] = x` after `--a`.
Source: src/functional/algebra/eigen.cxx:221, 234. -/
def wr1 (a : List α) : Nat → α → Res (List α)
  | 0, _ => .ub
  | k + 1, x => wr a k x

/-- The variables of the iteration: `a`, `v`, `thr`, `nb_iter`.
Source: src/functional/algebra/eigen.cxx:206-256. -/
structure Jacobi (α : Type) where
  a : List α
  v : List α
  thr : α
  iter : Nat

/-- The identity matrix stored in `v`, src/functional/algebra/eigen.cxx:224-232 (`ij` runs over all positions in order). -/
def jacobiId [Zero α] [One α] (n : Nat) : List α :=
  (List.range n).flatMap fun i => (List.range n).map fun j => if i = j then 1 else 0

/-- `a_norm`: sum of the squares below the diagonal, src/functional/algebra/eigen.cxx:235-246. The state is `(ij, a_norm)`. -/
def jacobiNorm [Zero α] [Add α] [Mul α] (n : Nat) (a : List α) : Res α := do
  let p ← forLoop (fun i (p : Nat × α) =>
    forLoop (fun j (p : Nat × α) =>
      if i ≠ j then do
        let x ← rd1 a p.1
        pure (p.1 + 1, p.2 + x * x)
      else pure (p.1 + 1, p.2)) 1 i p) 1 n (1, 0)
  pure p.2

/-- The angle, src/functional/algebra/eigen.cxx:272-279. -/
def jacobiAngle [Zero α] [Add α] [Sub α] [Div α] [Neg α] [OfNat α 2] [OfNat α 4] [DecidableEq α] [Trig α]
    (a_ll a_mm a_lm : α) : α :=
  let delta := a_ll - a_mm
  if delta = 0 then -Trig.pi / 4 else -Trig.atan ((a_lm + a_lm) / delta) / 2

/-- The update of the two entries of row `i`, src/functional/algebra/eigen.cxx:290-308. -/
def jacobiRow [Add α] [Sub α] [Mul α] (l m : Nat) (sinx cosx : α) (i : Nat) (a : List α) : Res (List α) :=
  if i ≠ l ∧ i ≠ m then do
    let iq := (i * i - i) / 2
    let im := if i < m then i + (m * m - m) / 2 else m + iq
    let a_im ← rd1 a im
    let il := if i < l then i + (l * l - l) / 2 else l + iq
    let a_il ← rd1 a il
    let a ← wr1 a il (a_il * cosx - a_im * sinx)
    wr1 a im (a_il * sinx + a_im * cosx)
  else pure a

/-- The rotation of component `i` of the two vectors, src/functional/algebra/eigen.cxx:310-315 (`ilv` is `n (l - 1) + i`, `imv` is
`n (m - 1) + i`). -/
def jacobiVec [Add α] [Sub α] [Mul α] (n l m : Nat) (sinx cosx : α) (i : Nat) (v : List α) : Res (List α) := do
  let ilv := n * (l - 1) + i
  let imv := n * (m - 1) + i
  let v_ilv ← rd1 v ilv
  let v_imv ← rd1 v imv
  let v ← wr1 v ilv (cosx * v_ilv - sinx * v_imv)
  wr1 v imv (sinx * v_ilv + cosx * v_imv)

/-- The rotation of `a` and `v`, src/functional/algebra/eigen.cxx:281-321. -/
def jacobiRotate [Zero α] [Add α] [Sub α] [Mul α] (n l m : Nat) (sinx cosx a_ll a_mm a_lm : α) (a v : List α) :
    Res (List α × List α) := do
  let sinx_2 := sinx * sinx
  let cosx_2 := cosx * cosx
  let sincos := sinx * cosx
  let p ← forLoop (fun i (p : List α × List α) => do
    let a ← jacobiRow l m sinx cosx i p.1
    let v ← jacobiVec n l m sinx cosx i p.2
    pure (a, v)) 1 n (a, v)
  let x := a_lm * sincos
  let x := x + x
  let a ← wr1 p.1 (l + (l * l - l) / 2) (a_ll * cosx_2 + a_mm * sinx_2 - x)
  let a ← wr1 a (m + (m * m - m) / 2) (a_ll * sinx_2 + a_mm * cosx_2 + x)
  let a ← wr1 a (l + (m * m - m) / 2) 0
  pure (a, p.2)

/-- The body of the two inner loops, src/functional/algebra/eigen.cxx:258-322. -/
def jacobiStep [Zero α] [Add α] [Sub α] [Mul α] [Div α] [Neg α] [OfNat α 2] [OfNat α 4] [DecidableEq α] [LT α]
    [DecidableLT α] [Trig α] (n : Nat) (thr_nn : α) (l m : Nat) (st : Jacobi α) : Res (Jacobi α) := do
  let a_lm ← rd1 st.a (l + (m * m - m) / 2)
  let a_lm_2 := a_lm * a_lm
  if a_lm_2 < thr_nn then pure st
  else do
    let a_ll ← rd1 st.a (l + (l * l - l) / 2)
    let a_mm ← rd1 st.a (m + (m * m - m) / 2)
    let x := jacobiAngle a_ll a_mm a_lm
    let p ← jacobiRotate n l m (Trig.sin x) (Trig.cos x) a_ll a_mm a_lm st.a st.v
    pure { st with a := p.1, v := p.2, thr := absv (st.thr - a_lm_2) }

/-- One iteration of the `while` loop, src/functional/algebra/eigen.cxx:253-324. -/
def jacobiSweep [Zero α] [Add α] [Sub α] [Mul α] [Div α] [Neg α] [OfNat α 2] [OfNat α 4] [DecidableEq α] [LT α]
    [DecidableLT α] [NatCast α] [Trig α] (n : Nat) (st : Jacobi α) : Res (Jacobi α) :=
  let nn := n * (n + 1) / 2
  let thr_nn := st.thr / (nn : α)
  forLoop (fun l st => forLoop (fun m st => jacobiStep n thr_nn l m st) (l + 1) (n - l) st) 1 (n - 1)
    { st with iter := st.iter + 1 }

/-- The `while` loop, src/functional/algebra/eigen.cxx:252-325. The recursion is on the number of iterations left before `MAX_ITER`. -/
def jacobiLoop [Zero α] [Add α] [Sub α] [Mul α] [Div α] [Neg α] [OfNat α 2] [OfNat α 4] [DecidableEq α] [LT α]
    [DecidableLT α] [NatCast α] [Trig α] (n : Nat) (a_normEPS : α) : Nat → Jacobi α → Res (Jacobi α)
  | 0, st => pure st
  | k + 1, st => if a_normEPS < st.thr then jacobiSweep n st >>= jacobiLoop n a_normEPS k else pure st

/-- The iteration from the start, src/functional/algebra/eigen.cxx:208-326. -/
def jacobi [Zero α] [One α] [Add α] [Sub α] [Mul α] [Div α] [Neg α] [OfNat α 2] [OfNat α 4] [DecidableEq α] [LT α]
    [DecidableLT α] [NatCast α] [OfScientific α] [Trig α] (n : Nat) (mat : List α) : Res (Jacobi α) := do
  let a ← (List.range (n * (n + 1) / 2)).mapM (rd mat)
  let a_norm ← jacobiNorm n a
  let st : Jacobi α := ⟨a, jacobiId n, a_norm, 0⟩
  if a_norm ≠ 0 then jacobiLoop n (a_norm * (0.00001 : α)) 100 st else pure st

/-- The choice of the greatest remaining value, src/functional/algebra/eigen.cxx:342-350: `(k, x)`. -/
def selectMax [LT α] [DecidableLT α] (n i : Nat) (val : List α) : Res (Nat × α) := do
  let x ← rd val i
  forLoop (fun j (p : Nat × α) => do
    let y ← rd val j
    if p.2 < y then pure (j, y) else pure p) (i + 1) (n - (i + 1)) (i, x)

/-- Selection sort of the values, with the permutation in `index`, src/functional/algebra/eigen.cxx:337-358. -/
def selectSort [LT α] [DecidableLT α] (n : Nat) (val : List α) : Res (List α × List Nat) :=
  forLoop (fun i (p : List α × List Nat) => do
    let (k, x) ← selectMax n i p.1
    let y ← rd p.1 i
    let val ← wr p.1 k y
    let val ← wr val i x
    let jj ← rd p.2 k
    let ii ← rd p.2 i
    let index ← wr p.2 k ii
    let index ← wr index i jj
    pure (val, index)) 0 (n - 1) (val, List.range n)

/-- `symmetricEigen(mat, n, eigen_vec, eigen_val)`, src/functional/algebra/eigen.cxx:206-372: the pair `(eigen_val, eigen_vec)`. -/
def symmetricEigen [Zero α] [One α] [Add α] [Sub α] [Mul α] [Div α] [Neg α] [OfNat α 2] [OfNat α 4] [DecidableEq α]
    [LT α] [DecidableLT α] [NatCast α] [OfScientific α] [Trig α] (mat : List α) (n : Nat) : Res (List α × List α) := do
  let st ← jacobi n mat
  let val ← (List.range n).mapM fun i => rd st.a (i + i * (i + 1) / 2)
  let (val, index) ← selectSort n val
  let rows ← index.mapM fun ik => (List.range n).mapM fun i => rd st.v (ik * n + i)
  pure (val, rows.flatten)

/-- The array `m` given to `symmetricEigen`, src/functional/algebra/eigen.cxx:47-49, 59-64, 86-88, 99-104, 141-143, 163-168. -/
def eigenInput (n : Nat) (mat : List α) : Res (List α) :=
  if n = 2 then [0, 1, 2].mapM (rd mat) else [0, 1, 3, 2, 4, 5].mapM (rd mat)

/-- The eigen values and vectors of one item.
Source: src/functional/algebra/eigen.cxx:47-64, 86-104, 141-168. -/
def eigenItem [Zero α] [One α] [Add α] [Sub α] [Mul α] [Div α] [Neg α] [OfNat α 2] [OfNat α 4] [DecidableEq α]
    [LT α] [DecidableLT α] [NatCast α] [OfScientific α] [Trig α] (n : Nat) (mat : List α) : Res (List α × List α) := do
  let m ← eigenInput n mat
  symmetricEigen m n

/-- `eigenValues(serie)`, src/functional/algebra/eigen.cxx:31-68. -/
def eigenValues [Zero α] [One α] [Add α] [Sub α] [Mul α] [Div α] [Neg α] [OfNat α 2] [OfNat α 4] [DecidableEq α]
    [LT α] [DecidableLT α] [NatCast α] [OfScientific α] [Trig α] (s : Serie α) : Res (Serie α) :=
  if s.dimension = 2 ∧ s.itemSize ≠ 3 then .throw .runtimeError
  else if s.dimension = 3 ∧ s.itemSize ≠ 6 then .throw .runtimeError
  else if s.dimension = 2 ∧ s.itemSize = 3 then mapArr (fun mat _ => eigenItem 2 mat >>= fun p => pure p.1) s
  else mapArr (fun mat _ => eigenItem 3 mat >>= fun p => pure p.1) s

/-- `eigenVectors(serie)`, src/functional/algebra/eigen.cxx:70-110. -/
def eigenVectors [Zero α] [One α] [Add α] [Sub α] [Mul α] [Div α] [Neg α] [OfNat α 2] [OfNat α 4] [DecidableEq α]
    [LT α] [DecidableLT α] [NatCast α] [OfScientific α] [Trig α] (s : Serie α) : Res (Serie α) :=
  if s.dimension = 2 ∧ s.itemSize ≠ 3 then .throw .runtimeError
  else if s.dimension = 3 ∧ s.itemSize ≠ 6 then .throw .runtimeError
  else if s.dimension = 2 ∧ s.itemSize = 3 then mapArr (fun mat _ => eigenItem 2 mat >>= fun p => pure p.2) s
  else mapArr (fun mat _ => eigenItem 3 mat >>= fun p => pure p.2) s

/-- The loop of src/functional/algebra/eigen.cxx:139-148 (`n = 2`) and 161-174 (`n = 3`). -/
def eigenSystemLoop [Zero α] [One α] [Add α] [Sub α] [Mul α] [Div α] [Neg α] [OfNat α 2] [OfNat α 4] [DecidableEq α]
    [LT α] [DecidableLT α] [NatCast α] [OfScientific α] [Trig α] (n : Nat) (s : Serie α) :
    Res (Serie α × Serie α) :=
  forLoop (fun i (p : Serie α × Serie α) => do
    let mat ← s.getA i
    let q ← eigenItem n mat
    let values ← p.1.putA i q.1
    let vectors ← p.2.putA i q.2
    pure (values, vectors)) 0 s.count (Serie.zeros n s.count, Serie.zeros (n * n) s.count)

/-- `eigenSystem(serie)`, src/functional/algebra/eigen.cxx:120-180. -/
def eigenSystem [Zero α] [One α] [Add α] [Sub α] [Mul α] [Div α] [Neg α] [OfNat α 2] [OfNat α 4] [DecidableEq α]
    [LT α] [DecidableLT α] [NatCast α] [OfScientific α] [Trig α] (s : Serie α) : Res (Serie α × Serie α) :=
  if s.dimension = 2 ∧ s.itemSize ≠ 3 then .throw .runtimeError
  else if s.dimension = 3 ∧ s.itemSize ≠ 6 then .throw .runtimeError
  else if s.dimension = 2 ∧ s.itemSize = 3 then eigenSystemLoop 2 s
  else if s.dimension = 3 ∧ s.itemSize = 6 then eigenSystemLoop 3 s
  else pure (Serie.empty, Serie.empty)

end DF
