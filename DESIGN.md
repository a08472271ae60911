# Formal model of xaliphostes/dataframe

The code under study is the C++ library in `/repo` (read as text, never built).
The model and the proofs are in Lean 4 under `lean/Verif`.

## Trusted base

* Lean's kernel (4.33.0) and the three standard axioms `propext`, `Classical.choice`, `Quot.sound`
  (each property theorem depends on a subset of these: `lean/Verif/Audit.lean` prints it for every theorem of the
  manifest, `AXIOMS.md` records the output).
  No other axiom, no `sorry`, no `native_decide`, no `bv_decide`.
* The reading of C++ recorded in the model definitions. Every definition cites file and lines. As a check of this
  reading, `lean/Verif/UnitTests.lean` replays on the model the assertions of the project's own unit tests
  (unitTest/*.cxx), with their inputs, expected values and tolerances: all of them hold, the numerical values of
  eigen.cxx included. These are tests on literals; no property of the manifest rests on them.
* Mathlib, as a library of checked definitions and lemmas.

## How C++ is represented

* **Outcomes.** `Res a` is `ok a`, `throw e` or `ub`. Out-of-bounds vector access, integer division by
  zero, an out-of-range double-to-unsigned conversion and use of a dangling reference are `ub`.
  Nothing is totalised: a read outside a vector is never given a default value.
* **Exceptions.** `Err` keeps the exception class (`invalid_argument`, `runtime_error`, `length_error`,
  other `std::exception`, non-`std` exception). Messages are not modelled.
* **Callbacks.** A user callback is any function `args -> Eff σ r` where `Eff σ r = σ -> Res r × σ`:
  it may read and write an arbitrary state `σ` (captured variables, output), throw, or be undefined.
  Theorems that need a pure callback say so.
* **Integers.** `uint32_t` arithmetic is `Nat` arithmetic followed by `% 2^32` wherever the code can wrap
  (`count*itemSize`, index computations, sums of counts). `int itemSize_` is stored as its 32-bit pattern;
  it is positive exactly when the pattern is in `1 .. 2^31-1`. `size_t` is unbounded except where the code subtracts.
* **Numbers.** Structural operations are polymorphic in the number type (they hold for IEEE doubles as they are).
  Arithmetic operations are written over the operations `+ - * / < ...` of an arbitrary type; their laws are
  proved over an ordered field, or over the reals when `sqrt`, `sin`, `cos`, `atan` occur.
  Rounding, NaN, infinities and signed zero are *outside* those theorems (see the next three points).
* **Rounding.** C86-C92, C99-C101, C108-C110 and C121 are about the same definitions instantiated with `Dbl R` (`Model/Float`): numbers with `p` binary
  digits, every operation giving the exact result rounded to a nearest such number (`R` is any choice for ties). They hold
  for every `p` and `R`; `double` is `p = 53`. The exponent is unlimited: no overflow, underflow, infinity, NaN or signed
  zero. A rounding exists for every `p` (`Rounding.halfUp`), so these theorems are not vacuous.
* **Special values.** C93-C98, C102-C104, C122 and C123 are about the same definitions instantiated with `Ext α` (`Model/Special`): the numbers of `α`,
  two infinities and one NaN, with the comparisons and operations of IEEE 754 on them. The finite operations are exact and do
  not overflow; there is one zero, taken as positive by the division.
* **Limited range.** C118-C120 are about the same definitions instantiated with `Ext (Num D)` (`Model/Ieee`), which has both:
  numbers with `p` digits from `2^emin` to a largest one, rounding to nearest, overflow to the infinities, gradual underflow.
  `IsDouble D` says that `D` is `double`; `binary64` is such a `D`. Still one zero and one NaN. C128 shows that one zero gives the same results up to the sign of zeros,
  except for the division by a negative zero.
* **std::sort** is any function meeting the standard's contract (permutation, sorted when the comparator is a
  strict weak order). **std::map** is a list of pairs sorted by key. **std::async** is an interleaving transition system.
* **Random numbers** are a stream of numbers in the interval given to the distribution; the generator is not modelled.
* **Text.** A stream is the text written so far. The format of a number is an arbitrary function.
* **References.** A reference to an object that no longer exists is `none`; using it is `ub`. The address of a Serie is a
  `Place`: a name in a Dataframe, or somewhere else.

## Well-formed Series

`WF s`: item size positive (as an `int`), `count*itemSize <= asArray().size() < 2^32`.
Every public constructor with a positive item size and every mutator establishes or keeps it (C06),
so theorems assuming `WF` apply to every Serie a program can build with fewer than 2^32 numbers.
`asArray()` hands out a mutable vector; resizing through it is outside the invariant.

## Layout

* `Verif/Model/*` – the model, one file per group of source files.
* `Verif/Spec/*` – small independent specifications (`items`, `Interleave`, `Matrix` identities, ...).
* `Verif/Lemmas/*` – helper lemmas.
* `Verif/Props/*` – the property theorems, each with a concrete instance showing its hypotheses can be met.
* `Verif/UnitTests.lean` – the assertions of /repo/unitTest replayed on the model.
* `Verif/Audit.lean` – `#print axioms` for every theorem of the manifest.

## Properties: plan

| Ids | What is modelled | How it is proved |
|---|---|---|
| C01-C07 | `Serie` class | slicing lemmas on lists, invariant by induction over operation lists; C04, C05 are violated by the code: negation + exact characterisation |
| C08-C11 | `map.h` | refinement to `List.mapM` over the list of items, for effectful callbacks; C11 empty case is UB: negation + partial |
| C12-C15, C21 | `filter.h`, `reject.h`, `find.h`, `partition.h` | refinement to list functions |
| C16-C17 | `reduce.h`, `forEach.h` | refinement to `List.foldlM` |
| C18 | scalar callbacks on vector Series | exact characterisation, negation for map/filter/... |
| C19-C20, C22-C23, C28 | `merge.h`, `pipe.h`, `compose.h`, `concat.h`, `partition_n.h`, `zip.h`, `unzip.h` | list refinement, round-trip laws |
| C24-C25 | `parallel_execute.h` | interleaving transition system, invariant over all executions, termination measure |
| C26-C27 | `memoize.h` | invariant over call histories; transparency is violated: two counterexamples + partial |
| C29, C34 | `sort.h` | contract of std::sort; comparator ignored for scalars: negation |
| C30-C33 | `Dataframe.cxx` | refinement to a finite map by induction over operation lists; C31/C32 violated in part |
| C35-C43 | `math/*` | component-wise refinement, then algebra |
| C44-C48 | `stats/*` | counting, convexity, monotonicity over ordered fields |
| C49-C55 | `algebra/*` without eigen | polynomial identities; C50, C52, C55 violated in part |
| C56-C58 | `eigen.cxx` | Jacobi rotations over the reals: similarity invariant, off-diagonal decrease, iteration bound |
| C59-C62 | `geo/*` | polynomial identities; C60 violated |
| C63-C64 | `view/*` | arithmetic; C64 violated |
| C65-C72 | `attributes/*` | refinement; C67-C69, C72 violated in part |
| C73-C85 | found while modelling: see `properties.jsonl` | as above |
| C86-C92 | the arithmetic of C35-C55 with rounding (`Model/Float`) | forward error analysis by induction over the operations; exactness on whole numbers; C86, C89, C91 violated in part |
| C99-C101 | quantiles, outliers, bins with rounding | the interpolation stays between its neighbours (rounding is monotone, the fraction is exact); bounds on the quotient by two-sided error analysis |
| C93-C98, C102-C104 | the same with infinities and NaN (`Model/Special`) | folds over lists with NaN; C98: invariant over call histories; C104: simulation by the exact `bins`; C94, C96, C97, C98, C102-C104 violated in part |
| C105 | `parallel_execute` with a functor that has a state, `memoize` in particular (`Model/ParallelMemo`) | each job calls a copy; refinement to C24 through the invariant of the cache (C26); that the cache survives is violated for two cores or more |
| C106 | laws between pipelines of `map`, `filter`, `reduce`, `concat`, `sort`, `partition` | both sides are computed on the items; violated for arrays when a Serie becomes empty, and for predicates that use the index |
| C107 | `parallel_execute` with functions of the library | the outcome of every schedule is the concatenation of the results of the parts; violated for 2D matrices, `normalize` of numbers, callbacks that use the index |
| C108 | `from_points`, `from_dims` in rounded arithmetic | error of one coordinate by composing the roundings; violated at the last point, and for the equality of the two functions |
| C109 | `fringes` in rounded arithmetic | monotonicity of rounding gives the interval, `std::floor` is exact; violated at the upper end for negative numbers |
| C110 | `normals` in rounded arithmetic | error of a difference of two products of two differences |
| C111 | `inv` in rounded arithmetic | error of the determinant and of each cofactor; violated for full matrices at one entry, and by a singular matrix that is accepted |
| C112 | `toSerie` | comparison with the constructor; violated: the dimension is ignored |
| C113, C114 | `Serie::dump`, `print(array)` | the text written, by induction over items and numbers; C113 violated for Series of numbers |
| C115 | `Source::stress` of the example parallel-postprocess | closed form by algebra, laws from it; rotations violated |
| C116 | `Model` and `main` of the same example | induction over the sources, refinement of the parallel run; the number of sources is violated |
| C117 | the example critical-stress | loops by known intermediate states, selection from the residual of C56; three violations |
| C118-C120 | the arithmetic of C86-C92 with the range of `double` (`Model/Ieee`) | forward error analysis as before, with an absolute term for small numbers and a bound for large ones; for C120 the theorem of C91 is carried over while nothing leaves the normal range; C119, C120 violated for extreme numbers |
| C121 | the eigen functions with `Dbl R`, trigonometric functions exact up to `ε` (`AccurateTrig`) | backward error analysis: after `j` rotations the matrix and the vectors are within `(1 + 120 ε)^j - 1` of exact orthogonal transforms; `thr` follows the sum of squares off the diagonal and falls by an eighth in each sweep |
| C122 | the same definitions with `Ext ℝ` (reals, infinities, NaN) | each operation of `Ext ℝ` is compared with that of Mathlib's `EReal`; sums by induction over the list |
| C123 | `approximatelyEquals` and the mask with `Ext ℝ` | `near` is the distance in `EReal`; violated for a Serie that has an infinity |
| C124, C125 | lifetimes of decomposers, dataframes and managers (`Model/Ownership`) | invariant by induction over programs: what a manager has is live, and nothing is handed over twice; violated in several ways |
| C126-C128 | doubles with two zeros (`Model/Zeros`), next to the same code run with one | relational parametricity: every function relates related arguments to related outcomes (`Lemmas/Param`, `Lemmas/ParamOps`); invariants for the range in `normalize`; violated by the division by a number |
| C129-C130 | no new code: two runs on the same numbers in two units | quantiles by uniqueness of the sorted list and of the interpolated value, reversed for negative factors; bins call by call: the index computed is the same |
| C131-C132 | no new code: the results of C56 and C121 compared with the roots of the characteristic polynomial | perturbation of eigen values (Weyl): two subspaces whose dimensions add up to more than n share a vector, whose quadratic form is estimated in both frames (`Lemmas/TrueValues`), with nearly orthonormal vectors for doubles |
| C133-C134 | no new code: programs that call several functions of `algebra/*` and `math/*` | the exact results of both programs, item by item; polynomial identities; C134 violated in part |
| C135 | the operations on doubles with infinities, NaN and a limited range | `Delivers z e` (Spec/Rounded) says what an operation with exact result `e` (an extended real number or none) must deliver. Each operation of Model/Ieee is compared with the one of the extended reals (Lemmas/Extended) case by case; sums by induction on the list. |
| C136 | doubles with two zeros (`Model/Zeros`) | `Negative` and `SignsDiffer` (Spec/ZeroSigns) say what the sign bit is; cases on the operands |
| C137 | `utils/utils.h` (`Model/Support`) | induction on the vector; `map` equals the monadic map of the library of Lean; NaN violates `contains` |
| C138 | functions of Series whose items are reordered | `Reordered` (Spec/Order): same item size, item lists that are permutations of one another; sums, extrema and counts are invariant under permutation; `bins` by showing that two of its updates commute, also when one of them is outside the array |
| C139 | `reduce`, `forEach`, `mean`, `minMax`, `bins`, `covariance`, `sort` of a concatenation | induction on the list of pieces, from the value of `concat` (C22) |
| C140 | `normals` of two related meshes | `Moved`, `Closed` (Spec/Motion); identity of the cross product of transformed vectors; for closed surfaces the sum over the directed edges is its own opposite |
| C141 | `Manager::serie`, `Components`, `zip`, `unzip` | every component is the column that `unzip` cuts out (C28) |
| C142 | `eigenValues` of related matrices | monotonicity of the true eigen values (a vector in two subspaces whose dimensions add up to more than n), then C131 |
| C143 | `from_points` of related corners and counts; `mean`, `minMax` of a grid | the list of the points as a nested list, its reversal and map; C62, C39 |
| C144 | no new code: `insar`, `fringes` before or after `add`, `scale`, `negate`; special values | both programs item by item; a fringe is the number up to a multiple of the spacing (C61); cases on the special values |
| C145 | no new code: `cross`, `det`, `inv`, `normals` over `Ext` | NaN is absorbing in each operation; the computation on finite numbers is the one of C51, C52 |
| C146 | no new code: `eigenValues`, `eigenVectors`, `eigenSystem` over any numbers, over `Ext` and over `Ext (Num D)` | invariant of the iteration on the lengths of its arrays for any operations; special values on the diagonal are absorbing for each rotation; off the diagonal the test of the loop fails at once |
| C147 | no new code: all arithmetic functions over `Dbl R`, rounding to nearest with ties to even, unbounded exponents | powers of two commute with rounding; relational parametricity with "is exactly k times" at the degree of each function; the extreme values and sorted Series are determined by the order |
| C148 | no new code: all functions on Series, over any number type with arbitrary operations | rules of a program logic for absence of `ub` (sequence, loop invariants, array accesses, updates of well-formed Series, callbacks with captured variables), applied function by function |
| C149 | no new code: `Manager::serie` and the decomposers | the rules of C148, with the number read for each ending of a name listed separately (`readBy`); violations by evaluation of the first decomposer |
| C150 | no new code: `Manager::serie` and the decomposers | induction on the list of decomposers; each decomposer gives an invalid Serie or one item per item of a well-formed Serie |
| C151 | no new code: expressions over the functions of `Model/Functional`, `Math`, `Combine` and `Algebra` (`Spec/Pipeline.lean`) | induction on the expression; invariant: exactly `count * itemSize` numbers, item size positive unless there is no item, at most `room` numbers |
| C152 | no new code: the same expressions on two number types (`Spec/Twin.lean`) | relational parametricity of every function (`Lemmas/ParamOps`, `ParamFlow`), then induction on the expression; the uses of numbers of an expression are read off its calls |
| C153 | no new code: `pipe`, `make_pipe`, `parallel_execute`, `concat` with functions that apply one recipe to each item (`Spec/ByItem.lean`) | each library function shown to apply a recipe; closure of the notion under composition; then the parts of `partition_n`, the pieces of a `concat` and selections of items |
| C154 | no new code: functions of several Series that apply one recipe to each row, and scripts that add their results as new columns (`Spec/Table.lean`) | each library function shown to apply a recipe to the rows; then induction on the script: a step commutes with the choice of rows and with `concat` of two tables |
| C155 | no new code: steps that read Series of a Dataframe by name and store a result (`Spec/Flow.lean`) | a step changes the map from names to Series that the Dataframe represents at one name only; two independent steps commute on this map; induction on the permutation; a Dataframe is determined by the map it represents |
| C156 | no new code: questions to a Manager as functions of the Dataframe (`Spec/RowAttributes.lean`) | each decomposer shown to be, for a given scheme, empty, undefined or row by row; induction on the decomposers of the Manager; then the theorems of C154 on functions that work row by row. The names: two reachable Dataframes of the same scheme list the same names in the same order |
| C157 | no new code: `mean`, `covariance`, `quantile`, `outliers` | algebra of sums over lists (exact arithmetic); the positions of a sorted list bound how many numbers are below and above an interpolation, the least sum of distances follows from these counts |
| C158 | no new code: `bins`, `mean` | from the counts of C44: induction on the bins for the sums of counts, which gives the refinement; induction on the values for the mean |
| C159 | no new code: `normals`, `concat` | from the value of `normals` triangle by triangle (C59); the sum of the normals written as a sum over the directed edges, which cancel |
| C160 | no new code: `sort`, `find`, `quantile`, `mean`, `iqr`, `minMax`, `partition_n`, `concat`, `negate` | induction on a sorted list for the rank of a number; two Series compared through the ranks, then through the interpolation (C47) |
| C161 | no new code: formulas (`Spec.Formula`) made of the vector and matrix functions, `mean`, `insar` | induction on the formula: each function carries items written in a frame (`Spec.InFrame`) to items written in the frame; violated by `inv` of matrices stored in full |
| C162 | no new code: `weigthedSum`, `mean`, `covariance` together | a combination of lists is carried through every quantity linear in the numbers, by induction on the list of Series; sums of squares |
| C163 | no new code: the members of `Vector` and `Matrix` against the functions on Series | both sides computed item by item with the operations in the same order, so for any arithmetic; violated by `Vector::norm`, which truncates |
| C164 | no new code: `Manager` with any list of decomposers | from the sorted set of C65 for the names, induction on the list for `serie`; decomposers are functions of their arguments, so one with a changing state is outside |
| C165 | no new code: `zip`, `unzip`, `map`, `filter`, `forEach`, `partition_n`, `concat` together | each function reduced to the rows of the table (C28, C11, C21), choosing rows commutes with taking them apart; the calls are compared as stateful computations |
| C166 | no new code: `Memoized` around a `Memoized` | invariant by induction on the history: without clears the two caches are equal; with clears the inner object sees a history of calls only, so C27 applies to it; the cache only holds answers of `f` |
| C167 | the calls of C151 as statements: variables, sequence, branch, loop, `try`/`catch` (Spec/Routine.lean) | invariant on all variables, kept by each call (C151), by induction on the routine and on the number of iterations; relation between two runs by induction on the twins (C152) |
| C168 | `add`, `sub`, `scale`, `mean`, `dot`, `sort`, `quantile`, the programs of C151 and routines of C167, over `Dbl R` | the order is a relation kept by the rounded operations, so the twins of C152 and C167 apply; sorting by counting the numbers below a bound; a quantile that falls on a number is that number; counterexample for a quantile between two numbers |
| C169 | `add`, `mean`, `dot` and the programs and routines of C168, over `Ext (Num D)` (Model/Ieee) | the order of values that are neither NaN nor negative is a relation kept by the sum with overflow, so the twins of C152 and C167 apply |
| C170 | the programs of C151 and routines of C167 over `Dbl R`, and over numbers that carry a count of roundings or an error bound (Spec/Error.lean) | "within the bound" is a relation kept by the rounded operations, so the twins of C152 and C167 apply; the exact parts follow in the same way |
| C171 | the programs of C151 and routines of C167, `dot`, `cross`, `det`, `mean` and `covariance`, over the values of `double` (`Ext (Num D)`), and over numbers that carry an exact value and an error bound, or nothing (Spec/Ranged.lean) | "finite and within the bound" is a relation kept by the operations of `double` as long as the result stays below the largest number, and a divisor away from zero; the exact parts follow in the same way |
| C172 | `quantile`, the quartiles and `IQR` over `Dbl R` and over the real numbers | the exact quantile is Lipschitz in the position, the position has one rounding and the interpolation three; errors of the data by C160 |
| C173 | `quantile`, the quartiles and `IQR` over `Ext (Num D)` (Model/Ieee, Model/IeeeTrunc) | the position and its fractional part never leave the range; the proof of C172 with an absolute term for the product; finite when twice the largest absolute value (four times for `IQR`) does not overflow; violated beyond; between its two neighbours when no difference of two values overflows, from the number before a normal number |
| C174 | `bins` over `Ext (Num D)` (Model/Ieee, Model/IeeeTrunc) | error analysis of the four roundings of an index, with an absolute term for the quotients; counting as in C101; proved for differences from 2^-980 to the largest double, violated beyond |

All properties can be expressed. Where the code does not satisfy a property, the negation is proved with a
concrete witness, and the largest part that does hold is proved under a name ending in `_partial`.

## What is modelled, file by file

| Source | Model | Simplifications |
|---|---|---|
| `Serie.h`, `inline/Serie.hxx`, `src/Serie.cxx`, `types.h` | `Model/Serie`, `Model/Print` | `Tuple` is a number or an array |
| `functional/map.h`, `filter.h`, `find.h`, `forEach.h`, `reduce.h`, `utils/reject.h`, `utils/partition.h`, `conditional/check.h`, `utils.h`, `utils/apply.h`, `utils/cut.h` | `Model/Functional` | overload resolution is a choice of function; `apply` is `map`, `cut` is `filter` |
| `functional/merge.h`, `pipe.h`, `macros.h`, `utils/compose.h`, `utils/concat.h`, `utils/partition_n.h`, `utils/zip.h`, `utils/unzip.h` | `Model/Combine` | tuples of results are lists |
| `utils/parallel_execute.h` | `Model/Parallel` | jobs take finitely many steps, the functor is a function of its part, a thread can always be created; the C++ memory model is not needed since jobs share nothing |
| the same with a memoized functor | `Model/ParallelMemo` | the state of the functor is copied with it |
| `utils/memoize.h`, `utils/sort.h` | `Model/Utils` | a search among keys that are not in a strict weak order is undefined behaviour; `std::sort` by contract |
| `Dataframe.h`, `src/Dataframe.cxx`, `utils/nameOfSerie` | `Model/Dataframe` | addresses are places |
| `math/*` | `Model/Math` | any number type |
| `stats/*` | `Model/Stats` | `floor` and the conversion to `uint32_t` belong to the number type (`Trunc`); conversion to `uint32_t` outside its range is `ub` |
| `view/*` | `Model/View` | exact numbers |
| `algebra/*` | `Model/Algebra`, `Model/Eigen` | exact numbers; `pi`, `atan`, `sin`, `cos` exact; the pointer arithmetic `--a` is an index shift |
| `geo/*` | `Model/Geo` | any number type; laws for exact numbers |
| `attributes/*` | `Model/Attributes` | a `char` is a byte; ownership of the decomposers is in `Model/Ownership` |
| lifetimes of `Manager`, `Decomposer`, `Dataframe` | `Model/Ownership` | which decomposers are asked is left to the program; memory itself is not modelled |
| `utils/print.h`, `operator<<` | `Model/Print` | text only, no flushing |
| `utils/utils.h` | `Model/Support` | the arguments of `log` are texts |
| `examples/parallel-postprocess`, `examples/critical-stress` | `Model/Examples` | exact numbers; printing left out; the other examples only print, are empty or do not compile |
| `double` (`types.h`) | `Model/Float` | unlimited exponent |
| infinities and NaN of `double` | `Model/Special` | exact finite operations, one NaN, one zero |
| `double` with its range | `Model/Ieee`, `Model/IeeeTrunc` | one NaN, one zero |
| `double` with signed zeros | `Model/Zeros` | one NaN; `std::abs` keeps the sign of a zero (only compared) |

Not modelled: allocation failure, timing, exception messages, IEEE rounding (except in the theorems that say so), code that
cannot be compiled or instantiated (`conditional/if.h`, which includes a file that does not exist and calls `map` with
its arguments in the wrong order; `Serie::pipe` with a single stage; the makers produced by `MAKE_OP` for functions whose
first argument is the Serie), `utils/inferring.h` (unused), the unit tests and the build files.

## Violations found

Each line is proved as a theorem whose name ends in `_violated`.

* Series: `get<Array>` and `value` do not check their index, `scalar` accepts `i == size` (C04); assignment keeps the
  dimension of the target, `clone` resets it to 3 (C05); `map` over an empty Serie calls the callback on item 0 (C11);
  scalar callbacks on vector Series see only part of the numbers (C18).
* Caches and combinators: the key of `memoize` ignores the item size, cached results lose their dimension (C26); the
  sum of the sizes given to `unzip` wraps around (C28); `sort` ignores the comparator for scalars (C34).
* Dataframe: non-const access inserts missing names (C31), dimensions are reset to 3 (C32), the empty name is not found
  (C74).
* Math: `approximatelyEquals` reads past the end when only the first Serie has spare numbers, `approximatelyEqualsAll` compares neighbours only (C41); the variadic `add` of
  `sub.h` subtracts (C75); functions built on `map` give an invalid Serie for an empty one (C76).
* Stats: `bins` is undefined for far values and for constant Series (C44).
* Algebra: wrong dimension of results and empty results (C49), dangling reference in `det` of symmetric storage (C50), a
  wrong entry in `inv` of full 3x3 matrices (C52), `norm` undefined from two vectors on (C55), other dimensions in the eigen functions
  (C79).
* Views: three functions return a view of a destroyed array, and `symSquaredMatrix` writes past the end of an array for some wrong lengths (C77); `Vector::norm` accumulates in an `int` (C64).
* Geo: `areas` always fails (C60), `insar` of an empty Serie (C61), sizes of grids wrap around (C62), grids with one point
  along an axis are not centred (C80).
* Attributes: see C65-C70, C72, C81, C82.
* Rounding: the mean of equal numbers can differ from them (C86), `sub(add(a, b), b)` is not `a` (C89), `normalize` does not
  give 1 for the largest value (C91).
* Special values: `minMax` depends on where the NaN is (C94), `normalize` of a constant Serie and of a zero vector is NaN
  (C96), `sort` with NaN breaks the contract of `std::sort` (C97), `memoize` takes a key that starts with NaN for every other key, or has
  undefined behaviour (C98); `quantile` next to an infinity is NaN and a NaN level is undefined (C102), NaN bounds lose all values
  (C103), `bins` of NaN or an infinity is undefined (C104).
* `parallel_execute` with two cores or more calls copies of a memoized functor: nothing is kept for the next call (C105).
* The parts given to the jobs have dimension 3: `det` and `eigenValues` of 2D matrices throw in parallel (C107). `normalize` of numbers and
  callbacks that use the index give another result in parallel (C107).
* `map` of arrays over a Serie that `filter` emptied is invalid, and such a result cannot be concatenated (C106).
* In rounded arithmetic the last point of a grid is not its second corner, and can be outside of the box (C108); a fringe can be equal to
  the spacing (C109).
* `inv` accepts singular matrices whose computed determinant is not small: `(1, 7, 0; 7, 49, 0; 0, 0, 2^53 - 3)` has
  determinant 0, the code computes 64 (C111).
* `toSerie` ignores its argument `dim` (C112).
* Text: `dump` of a Serie of numbers throws (C113), `print` of item size 0 (C83), `operator<<` writes to fixed streams (C84, C85).
* Examples: the stress of a source does not follow rotations (C115), the number of sources is ignored (C116), with the data of
  critical-stress nothing is selected and the mean is NaN, with its cohesion 0 no index is finite (C117).
* Range: the mean of two copies of `2^1023` is infinite (C119), `normalize` of `(2^600, 0)` is the zero vector, of `(2^-600, 0)` an
  infinity and a NaN (C120).
* C123: `approximatelyEquals(s, s, eps)` is false as soon as `s` has an infinity (`inf - inf` is NaN), although `equals(s, s)` is true.
* Lifetimes: destroying a Manager that has any decomposer of the library, or that was copied, or that was given a decomposer twice, is
  undefined behaviour, `clear` leaves the decomposers undeleted (C124); a Manager cannot be asked after the end of its Dataframe (C125).
* Dividing by a number sees the sign of zeros (C126, C128); `sub` is antisymmetric only up to that sign, adding zeros and `mean` lose it, `minMax` and
  `memoize` depend on which zero comes first (C127).
* Composition: `scale` loses the dimension of 2D matrices, so that `det` rejects them; `inv` refuses the inverse it returned for a matrix
  with a determinant above 1e10 (C134).
* C137: `contains(vec, item)` (`utils/utils.h`) is false for a NaN that is in the vector.
* C141 (`C141_full_violated`): the nine components of a full tensor put together give another tensor, `yy`, `yz`, `zz` being wrong (C68).
* C142 (`C142_scale_2d_violated`): `scale` of a Serie of 2D matrices gives a Serie of dimension 3, which `eigenValues` refuses.
* C146: a NaN or an infinity off the diagonal makes the threshold of the Jacobi iteration NaN or infinite, so that the loop is not entered: `eigenValues` returns the diagonal and `eigenVectors` the axes, without any sign of the NaN (`C146_dropped_violated`). The same happens to finite entries whose square overflows (`2^600`) or underflows (`2^-600`).
* C147: `inv` and `div` by a Serie compare with the absolute threshold 1e-10. The identity matrix in units of `2^-12` is refused as singular (`C147_inv_violated`); 1 divided by 1, both in units of `2^-40`, gives 0 (`C147_div_violated`).
* C148: undefined behaviour on well-formed Series: `mult` of two Series of numbers reads as many numbers as the first array has, spare numbers included (`C148_mult_violated`, and `C148_mult_partial` gives the exact condition); `normalize` of no numbers; `partition_n` in zero parts; `map` over several Series without items (`C148_map_several_violated`); `cross`, `dot` with fewer items in the second Serie and `dot` of no items with an array (`C148_vectors_violated`); `insar` of no items (`C148_insar_violated`).
* C149: `Components::serie` takes the number given by the ending of the name without looking at the item size: asked for `energy` while a scalar Serie `energ` is stored, a Manager reads out of bounds (`C149_components_violated`). The eigen decomposers read the last character of the empty name (`C149_eigen_violated`).
* C150: `Normals` and `Valence` ignore the item size asked for (`C150_mesh_violated`), and `Components` answers to item size 0 with numbers (`C150_zero_violated`).
* C151: a composition can have undefined behaviour although each call is given what the previous one returned: `normalize` or `map` over several Series after a `filter` that keeps nothing (`C151_others_violated`).
* C155: a Dataframe of count 0 takes the count of the first Serie stored, so the order of two independent steps is visible in `count` (`C155_count_violated`).
* C161: `inv` of matrices stored in full gives matrices that depend on the frame (the wrong entry of C52): `C161_inverse_violated`.
* C163: `norm` of a Serie and `Vector::norm` of its item differ: on the item (1/2, 0) the first one is 1/2 and the second one 0 (`C163_norm_violated`).
* C168: a quantile between two numbers can fall when a number is raised: in double precision the median of 5/8 and 2^53 + 6 is 2^52 + 4, that of 11/8 and 2^53 + 6 is 2^52 + 3 (`C168_quantile_violated`); src/functional/stats/quantile.cxx interpolates as `a + r * (b - a)`.
* C173: a quantile between two finite numbers can be an infinity, since src/functional/stats/quantile.cxx:54 computes `b - a` first: the median of -2^1023 and 2^1023 is +inf instead of 0 (`C173_median_violated`). A NaN level is not rejected and the behaviour is undefined (`C173_level_violated`).
* C174: src/functional/stats/bins.cxx:46-51 has undefined behaviour for some finite numbers: three bins from 0 to 2^-1074 have the width 0 and the index is NaN (`C174_small_violated`); between -2^1023 and 2^1023 the width is an infinity and the index of the largest value is NaN (`C174_large_violated`).

## Testing the theorems

`seeded/LOG.jsonl` records one line per wrong program tried: the definition edited, the edit, the claim it breaks, the
theorems that failed, the theorems tightened. The edits are made in a scratch copy; the whole project is rebuilt.
