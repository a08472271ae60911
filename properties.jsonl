{"id": "C01", "title": "Construction from flat values", "statement": "Serie(k, values) with k>0 stores the values unchanged (asArray() gives them back, including an incomplete trailing item), has count() = floor(values.size()/k), and its i-th item (i < count()) is values[i*k .. i*k+k-1]; reading any such item is defined behaviour. Serie(0, values) divides by zero.", "quantifier": "every positive item size, every flat array shorter than 2^32, every item index", "why_tests_cant": "A test fixes a few sizes; the slicing law is over all sizes, indices and non-multiple lengths.", "anchors": ["src/Serie.cxx:39-50 Serie::Serie(int,const Array&,uint)", "include/dataframe/inline/Serie.hxx:114-134 Serie::get"]}
{"id": "C02", "title": "set/get round trip and frame", "statement": "After a successful set(i, v) (or setValue / setScalar / set<double>), reading position i gives v, every other item reads as before, and count, itemSize, dimension and the array length are unchanged.", "quantifier": "every well-formed Serie, every index, every value, and every other index j", "why_tests_cant": "The frame part is a statement about all other positions after every write.", "anchors": ["include/dataframe/inline/Serie.hxx:151-175 Serie::set", "src/Serie.cxx:106-130 Serie::setValue, Serie::setScalar"]}
{"id": "C03", "title": "Writes are checked exactly", "statement": "set(i, Array v) and setValue(i, v) succeed exactly when i < count() and v.size() == itemSize(), set(i, double) and setScalar(i, x) exactly when i < asArray().size(); in every other case they throw invalid_argument and leave the Serie untouched; on a well-formed Serie they never write outside the array.", "quantifier": "every well-formed Serie, index and value (valid or not)", "why_tests_cant": "An 'exactly when' is two universally quantified implications, including absence of undefined behaviour.", "anchors": ["include/dataframe/inline/Serie.hxx:151-175 Serie::set", "src/Serie.cxx:106-130"]}
{"id": "C04", "title": "Reads are memory safe or rejected", "statement": "Reading an item at any index either returns the item or throws: it never reads outside the array.", "quantifier": "every well-formed Serie and every 32-bit index, for get<double>, get<Array>, value and scalar", "why_tests_cant": "Out-of-bounds reads usually return garbage silently, so a passing test does not show they are absent.", "anchors": ["src/Serie.cxx:88-104 Serie::value, Serie::scalar", "include/dataframe/inline/Serie.hxx:114-134 Serie::get"]}
{"id": "C05", "title": "Copies are faithful", "statement": "Copy construction, assignment and clone() give a Serie with the same item size, count, values and dimension as the source.", "quantifier": "every Serie and, for assignment, every previous target value", "why_tests_cant": "Tests compare values of hand-picked Series with the default dimension 3, which hides a dropped field.", "anchors": ["src/Serie.cxx:34-37 copy ctor", "src/Serie.cxx:59-66 operator=, clone"]}
{"id": "C06", "title": "Well-formedness is an invariant of every history", "statement": "Starting from any valid construction, after any sequence of set, setValue, setScalar, reCount, assignment, copy and clone (including calls that throw), the Serie still holds at least count()*itemSize() numbers, so every in-range read stays defined.", "quantifier": "every finite sequence of public mutating calls with arbitrary arguments", "why_tests_cant": "The claim ranges over unbounded histories of calls.", "anchors": ["src/Serie.cxx", "include/dataframe/inline/Serie.hxx"]}
{"id": "C07", "title": "reCount resets to zeros", "statement": "reCount(c) makes the Serie hold exactly c items of the same item size, all zero, with the dimension kept; previous contents are dropped.", "quantifier": "every Serie and every c with c*itemSize < 2^32", "why_tests_cant": "All sizes and all previous contents are covered.", "anchors": ["src/Serie.cxx:54-57 Serie::reCount"]}
{"id": "C08", "title": "map is pointwise and calls the callback once per item in order", "statement": "map(f, s) has the item f(item_i, i) at position i, count is preserved, and f is called exactly once per item in increasing index order, stopping at the first call that throws; for scalar->scalar, scalar->vector, vector->scalar and vector->vector callbacks.", "quantifier": "every well-formed Serie of every size and every callback, including callbacks with side effects or that throw", "why_tests_cant": "Universal over callbacks (functions), which cannot be enumerated.", "anchors": ["include/dataframe/functional/map.h:36-109 __map__", "include/dataframe/functional/map.h:114-165 map"]}
{"id": "C09", "title": "map functor laws", "statement": "map(identity, s) has the same items as s and map(g, map(f, s)) equals map(g after f, s) (index passed through), for non-empty s and callbacks producing items of one constant size.", "quantifier": "every non-empty well-formed Serie and every pair of callbacks", "why_tests_cant": "Equation between programs for all functions.", "anchors": ["include/dataframe/functional/map.h:36-109 __map__"]}
{"id": "C10", "title": "map never builds a ragged Serie", "statement": "When a vector-valued callback returns items of differing sizes, map throws runtime_error; whenever it returns, the result holds exactly count(s) items, all of one size; on an empty input it returns an invalid empty Serie.", "quantifier": "every well-formed Serie and every vector-valued callback", "why_tests_cant": "Every position of the first size mismatch must be covered.", "anchors": ["include/dataframe/functional/map.h:50-72", "include/dataframe/functional/map.h:85-107"]}
{"id": "C11", "title": "Multi-series map", "statement": "map(f, s1, ..., sn) throws invalid_argument when the counts differ; otherwise item i of the result is f(s1_i, ..., sn_i, i). It is defined for every input including empty Series.", "quantifier": "every list of two or more well-formed Series and every callback", "why_tests_cant": "All arities, counts and callbacks; and the empty case is undefined behaviour that a test may not notice.", "anchors": ["include/dataframe/functional/map.h:114-157 map", "include/dataframe/utils.h:47-58 countAndCheck"]}
{"id": "C12", "title": "filter keeps exactly the matching items in order", "statement": "filter(p, s) contains exactly the items for which p(item, index) holds, in their original order, with the same item size; p is called once per item in order.", "quantifier": "every well-formed Serie and every predicate (also effectful or throwing)", "why_tests_cant": "Universal over predicates and sizes.", "anchors": ["include/dataframe/functional/filter.h:87-125 __filter__", "include/dataframe/functional/filter.h:163-198 filter"]}
{"id": "C13", "title": "reject is the complement of filter", "statement": "reject(p, s) equals filter(not p, s); every item of s is in exactly one of filter(p, s) and reject(p, s), the counts add up to count(s), and interleaving the two results by p gives s back.", "quantifier": "every well-formed Serie and every pure predicate", "why_tests_cant": "Partition law over all predicates.", "anchors": ["include/dataframe/functional/utils/reject.h:36-74 __reject__", "include/dataframe/functional/utils/reject.h:78-114 reject"]}
{"id": "C14", "title": "find returns the first match; findAll agrees with filter", "statement": "find(p, s) reports found exactly when some item matches, and then returns the item with the smallest matching index and that index, calling p on no later item; when nothing matches it reports not found. findAll(p, s) equals filter(p, s).", "quantifier": "every well-formed Serie and every predicate of the matching kind", "why_tests_cant": "Minimality of the index quantifies over all earlier items.", "anchors": ["include/dataframe/functional/find.h:46-74 find", "include/dataframe/functional/find.h:91-119 findAll"]}
{"id": "C15", "title": "partition is the pair (filter, reject)", "statement": "partition(p, s) returns (filter(p, s), reject(p, s)).", "quantifier": "every well-formed Serie and every pure predicate", "why_tests_cant": "Equation for all predicates.", "anchors": ["include/dataframe/functional/utils/partition.h:42-93 partition"]}
{"id": "C16", "title": "reduce is the left fold in index order", "statement": "reduce(f, s, init) equals f(...f(f(init, item_0, 0), item_1, 1)..., item_{n-1}, n-1), init when s is empty; reducing a concatenation is reducing the second part from the result of the first (with shifted indices).", "quantifier": "every well-formed Serie, callback (also effectful) and initial value", "why_tests_cant": "Universal over callbacks and lengths.", "anchors": ["include/dataframe/functional/reduce.h:80-98 reduce"]}
{"id": "C17", "title": "forEach visits every item once in order", "statement": "forEach(cb, s...) calls cb exactly on (item_0,0), (item_1,1), ... in this order, nothing more, and stops at the first exception; a callback kind not matching the item size throws before any call.", "quantifier": "every well-formed Serie (or list of Series of equal count) and every callback with side effects", "why_tests_cant": "Statement about the complete trace of calls for all inputs.", "anchors": ["include/dataframe/functional/forEach.h:63-114 forEach"]}
{"id": "C18", "title": "A scalar callback on a vector Serie is rejected", "statement": "Applying a callback taking a single number to a Serie whose item size is not 1 throws instead of silently processing something else, consistently for forEach, find, partition, map, filter, reject, findAll, reduce and check.", "quantifier": "every well-formed Serie with itemSize > 1 and every scalar callback", "why_tests_cant": "Wrong-kind inputs silently produce plausible output; only a full characterisation shows what is computed.", "anchors": ["include/dataframe/functional/map.h:41-49", "include/dataframe/functional/filter.h:87-105", "include/dataframe/functional/reduce.h:80-88", "include/dataframe/functional/find.h:91-119", "include/dataframe/functional/forEach.h:96-100"]}
{"id": "C19", "title": "merge concatenates or interleaves without loss", "statement": "merge(a, b, true) has the items of a followed by those of b; merge(a, b, false) alternates a and b and appends the rest of the longer; the variadic form does the same for n Series (round robin). Item sizes that differ throw; no item is lost or duplicated.", "quantifier": "every list of well-formed Series of one item size with total size below 2^32", "why_tests_cant": "All length combinations.", "anchors": ["include/dataframe/functional/merge.h:35-65 merge", "include/dataframe/functional/merge.h:68-101 merge(bool, ...)"]}
{"id": "C20", "title": "pipe and compose laws", "statement": "pipe(x, f1, ..., fn) = fn(...f1(x)) (left to right), make_pipe(f1..fn)(x) is the same, compose(f1, ..., fn)(x) = f1(...fn(x)) (right to left), both are associative, exceptions stop the pipeline at the failing stage, and make_op(b)(a) calls op with the bound argument first: op(b, a).", "quantifier": "every list of stages, every input", "why_tests_cant": "Universal over number and behaviour of the stages.", "anchors": ["include/dataframe/functional/pipe.h:66-68,115-118,140-144", "include/dataframe/functional/utils/compose.h:31-61", "include/dataframe/functional/macros.h:40-45"]}
{"id": "C21", "title": "Multi-series filter keeps rows aligned", "statement": "filter/filterAll/reject/rejectAll over several Series evaluate the predicate once per row and keep the same row positions in every output Serie, in order; counts that differ throw.", "quantifier": "every list of two or more well-formed Series of equal count and every predicate", "why_tests_cant": "Alignment of rows across all outputs for all predicates.", "anchors": ["include/dataframe/functional/filter.h:163-198 filter", "include/dataframe/functional/filter.h:237-264 filterAll", "include/dataframe/functional/utils/reject.h:78-114, 124-151"]}
{"id": "C22", "title": "concat appends items", "statement": "concat({s1,...,sn}) throws when the list is empty, when a Serie is invalid or when item sizes differ; otherwise its items are the items of s1, then s2, ... ; it is associative and counts add up.", "quantifier": "every list of Series with total size below 2^32", "why_tests_cant": "All list lengths and sizes.", "anchors": ["include/dataframe/functional/utils/concat.h:36-68 concat"]}
{"id": "C23", "title": "partition_n splits without loss and evenly", "statement": "For n >= 1, partition_n(n, s) yields at most n Series which concatenated in order give s back, whose counts differ by at most one with the larger ones first; exactly n when count(s) >= n. The multi-series form yields exactly n parts for each Serie, with the same cut points.", "quantifier": "every well-formed Serie and every n", "why_tests_cant": "All counts and all n, including n > count and remainders.", "anchors": ["include/dataframe/functional/utils/partition_n.h:44-67 partition_n", "include/dataframe/functional/utils/partition_n.h:84-115"]}
{"id": "C24", "title": "parallel_execute equals sequential execution under every schedule", "statement": "For an item-wise functor f (f of a concatenation is the concatenation of f's), parallel_execute(f, s, n) returns f(s), whatever order the worker threads run and finish in.", "quantifier": "every thread count, every non-empty well-formed Serie, every item-wise functor, every interleaving of workers and the collecting thread", "why_tests_cant": "Schedules cannot be enumerated by tests.", "anchors": ["include/dataframe/functional/utils/parallel_execute.h:63-128 parallel_execute"]}
{"id": "C25", "title": "parallel_execute failures are deterministic and it never hangs", "statement": "If some job throws or returns a wrong count, parallel_execute throws invalid_argument for the first failing part in index order, independent of the schedule; every execution terminates, no reachable state is stuck, and no job is still running when the call returns or throws. (A thrown object not derived from std::exception passes through unchanged.)", "quantifier": "every functor, thread count, Serie and schedule", "why_tests_cant": "Deadlock freedom and determinism are properties of all interleavings.", "anchors": ["include/dataframe/functional/utils/parallel_execute.h:63-128"]}
{"id": "C26", "title": "memoize is transparent", "statement": "Calling memoize(f) always gives what f would give, for any history of earlier calls.", "quantifier": "every pure f, every sequence of calls and clears", "why_tests_cant": "A wrong cache hit depends on the whole history of previous inputs.", "anchors": ["include/dataframe/functional/utils/memoize.h:32-66 memoize"]}
{"id": "C27", "title": "memoize calls f at most once per input", "statement": "Between two clears, f is invoked at most once for a given array of values, a repeated call invokes nothing, and a call that throws caches nothing.", "quantifier": "every f, every history of calls", "why_tests_cant": "Histories are unbounded.", "anchors": ["include/dataframe/functional/utils/memoize.h:32-66 memoize"]}
{"id": "C28", "title": "zip / unzip round trip", "statement": "zip(s1,...,sn) has item i equal to the concatenation of the i-th items; unzip(zip(s1,...,sn), sizes) gives s1,...,sn back and zip(unzip(z, sizes)) gives z back when the sizes add up to z's item size; wrong sizes or counts throw.", "quantifier": "every list of well-formed Series of equal count; every split of the item size", "why_tests_cant": "Round-trip law for all arities and sizes.", "anchors": ["include/dataframe/functional/utils/zip.h:50-90 zip", "include/dataframe/functional/utils/zip.h:111-153 zipVector", "include/dataframe/functional/utils/unzip.h:38-73 unzip"]}
{"id": "C29", "title": "sort returns an ordered permutation", "statement": "sort(s, comp) on a Serie of vectors, and sort(s) on any Serie, is a permutation of the items of s, ordered by comp, resp. in ascending numeric or lexicographic order. (The comparator on scalar Series is C34.) The default sort does not depend on the std::sort implementation and is idempotent.", "quantifier": "every valid Serie and every strict weak order comp, every correct std::sort", "why_tests_cant": "Universal over inputs and orders.", "anchors": ["include/dataframe/functional/utils/sort.h:31-74 sort"]}
{"id": "C30", "title": "Dataframe behaves as a finite map from names to Series", "statement": "After any sequence of add/set/create/del/clear, contains(n) and get(n) answer as the abstract map updated by the same sequence: add replaces, del removes only that name, operations on one name do not affect the others, a missing name gives an invalid Serie through the const interface, and iteration visits each stored name once in increasing order.", "quantifier": "every finite sequence of operations with arbitrary names and Series", "why_tests_cant": "Refinement over unbounded histories.", "anchors": ["src/Dataframe.cxx:31-150 Dataframe"]}
{"id": "C31", "title": "Dataframe lookups do not modify", "statement": "Reading a Serie by name or testing contains leaves the Dataframe unchanged.", "quantifier": "every Dataframe and every name, const and non-const access", "why_tests_cant": "Requires comparing the whole state before and after for every name.", "anchors": ["src/Dataframe.cxx:94-132 operator[], get", "src/Dataframe.cxx:140-150 contains"]}
{"id": "C32", "title": "Dataframe stores Series faithfully", "statement": "get(name) after add(name, s) is equal to s, dimension included.", "quantifier": "every Dataframe, name and Serie", "why_tests_cant": "Tests use the default dimension; the dropped field needs a universally quantified equality.", "anchors": ["src/Dataframe.cxx:63-75 Dataframe::add", "src/Serie.cxx:59-64 Serie::operator="]}
{"id": "C33", "title": "setCount resizes every Serie", "statement": "setCount(c) with c > 0 different from the current count makes every stored Serie hold c zero items of its item size; otherwise nothing changes.", "quantifier": "every Dataframe history and every c", "why_tests_cant": "All stored Series, all sizes.", "anchors": ["src/Dataframe.cxx:44-58 Dataframe::setCount"]}
{"id": "C34", "title": "sort honours the comparator", "statement": "sort(s, comp) orders a scalar Serie by comp.", "quantifier": "every scalar Serie and comparator", "why_tests_cant": "A test with the default order cannot show that the comparator is used.", "anchors": ["include/dataframe/functional/utils/sort.h:31-74 sort"]}
{"id": "C35", "title": "add and sub are item-wise and inverse", "statement": "add(a,b) and sub(a,b) throw exactly when item sizes or counts differ; otherwise they are component-wise; add is commutative and associative and sub(add(a,b),b) equals a (exact arithmetic). The n-ary add is the component-wise sum.", "quantifier": "all well-formed Series of equal shape", "why_tests_cant": "Algebraic laws over all inputs.", "anchors": ["include/dataframe/functional/math/add.h:35-72", "src/functional/math/add.cxx:29-72", "include/dataframe/functional/math/sub.h", "src/functional/math/sub.cxx"]}
{"id": "C36", "title": "scale, negate, mult, div laws", "statement": "scale(s,x), negate(s), mult(x,s), div(x,s) act component-wise with the expected scalar operation, negate is an involution, scale by x then y is scale by x*y, and div(x, mult(x,s)) = s for x != 0.", "quantifier": "all well-formed Series, all scalars (exact arithmetic)", "why_tests_cant": "Algebraic laws over all inputs.", "anchors": ["src/functional/math/scale.cxx", "src/functional/math/negate.cxx", "src/functional/math/mult.cxx", "src/functional/math/div.cxx"]}
{"id": "C37", "title": "div by a Serie is guarded", "statement": "div(divider, s) never divides by a component with absolute value below 1e-10: the corresponding result component is 0; all others are the exact quotient; shape mismatches throw.", "quantifier": "all pairs of well-formed Series", "why_tests_cant": "Guard must hold at every component.", "anchors": ["src/functional/math/div.cxx:43-85 div"]}
{"id": "C38", "title": "weightedSum is the linear combination", "statement": "weightedSum({s1..sn},{w1..wn}) is component-wise w1*s1+...+wn*sn, throws when the numbers of Series and weights differ or shapes differ, and is linear in the weights and the Series.", "quantifier": "all lists of Series and weights", "why_tests_cant": "Linear law over all lists.", "anchors": ["src/functional/math/weightedSum.cxx:29-83"]}
{"id": "C39", "title": "minMax bounds are tight", "statement": "minMax(s) returns per component a lower and an upper bound of all items that are attained by some item.", "quantifier": "every non-empty valid Serie of finite numbers", "why_tests_cant": "Bound and attainment over all items.", "anchors": ["src/functional/math/minMax.cxx:29-66"]}
{"id": "C40", "title": "normalize range and unit length", "statement": "normalize of a non-constant scalar Serie has all values in [0,1], reaching 0 and 1, and preserves order; normalize of a vector Serie gives items of Euclidean length 1 parallel to the originals when they are non-zero.", "quantifier": "every non-empty Serie (exact real arithmetic)", "why_tests_cant": "Range property over all inputs.", "anchors": ["src/functional/math/normalize.cxx:35-65"]}
{"id": "C41", "title": "equals is an equivalence on valid Series", "statement": "equals(a,b) is true exactly when both are valid with the same item size, count, dimension and values; so it is symmetric, transitive, and reflexive on valid Series. approximatelyEquals(a,b,eps) is reflexive and symmetric, true exactly when all components are within eps; equals implies approximatelyEquals. equalsAll and approximatelyEqualsAll are true when all the Series are (approximately) equal to each other.", "quantifier": "all pairs and triples of Series", "why_tests_cant": "Relational laws over all inputs.", "anchors": ["include/dataframe/functional/math/equals.h:35-107"]}
{"id": "C42", "title": "equality masks are exact", "statement": "equalityMask(a,b) has 1 at position i exactly when the i-th items are equal and 0 otherwise; approximateEqualityMask similarly within eps; mismatched shapes are rejected.", "quantifier": "all pairs of well-formed Series", "why_tests_cant": "Per-position iff over all inputs.", "anchors": ["include/dataframe/functional/math/equals.h:122-181"]}
{"id": "C43", "title": "random fills the requested shape deterministically", "statement": "random(count, itemSize, min, max, seed) returns exactly count items of itemSize numbers, number j of item i being draw i*itemSize+j of the generator, all within [min,max) when the draws are, so equal generator streams give equal Series.", "quantifier": "every shape, interval and generator stream", "why_tests_cant": "Universal over streams.", "anchors": ["src/functional/math/random.cxx:45-64"]}
{"id": "C44", "title": "bins counts every value exactly once", "statement": "bins(s, nb, start, stop) returns nb counts whose total is count(s); bin i < nb-1 counts the values in [start+i*w, start+(i+1)*w) and the last bin counts the rest.", "quantifier": "every non-empty scalar Serie with values >= start, every nb >= 1, start < stop", "why_tests_cant": "Conservation over all inputs.", "anchors": ["src/functional/stats/bins.cxx:32-64"]}
{"id": "C45", "title": "mean is the arithmetic mean", "statement": "mean(s)*count(s) is the (component-wise) sum; the mean lies between minimum and maximum; it is translation equivariant and linear.", "quantifier": "every non-empty valid Serie (exact arithmetic)", "why_tests_cant": "Algebraic laws over all inputs.", "anchors": ["src/functional/stats/mean.cxx:32-58"]}
{"id": "C46", "title": "covariance laws", "statement": "covariance(x,y) = covariance(y,x), covariance(x,x) >= 0, it equals mean(xy)-mean(x)mean(y), is invariant under adding constants, and |cov(x,y)|^2 <= var(x)var(y); invalid shapes throw.", "quantifier": "all pairs of non-empty scalar Series of equal count (exact arithmetic)", "why_tests_cant": "Inequalities over all inputs.", "anchors": ["src/functional/stats/covariance.cxx:34-54"]}
{"id": "C47", "title": "quantile bounds, monotonicity, endpoints", "statement": "For q in [0,1], quantile(s,q) lies between min and max, is monotone in q, equals min at 0 and max at 1, does not depend on the order of the values, and q outside [0,1], invalid or non-scalar Series throw.", "quantifier": "every non-empty scalar Serie and all q (exact arithmetic)", "why_tests_cant": "Monotonicity quantifies over pairs of real q.", "anchors": ["src/functional/stats/quantile.cxx:35-65"]}
{"id": "C48", "title": "outliers / notOutliers split the Serie consistently with the mask", "statement": "outliers(s,m) and notOutliers(s,m) contain each value of s in exactly one of them, in order; isOutliers(s,m) is 1 exactly at the positions kept by outliers.", "quantifier": "every non-empty scalar Serie and every m", "why_tests_cant": "Partition law over all inputs.", "anchors": ["src/functional/stats/quantile.cxx:67-111"]}
{"id": "C49", "title": "transpose is an involution", "statement": "transpose(transpose(s)) = s for square 2x2 and 3x3 items, entry (i,j) of the transpose is entry (j,i); other item sizes throw.", "quantifier": "every well-formed Serie of item size 4 or 9", "why_tests_cant": "All entries of all items.", "anchors": ["src/functional/algebra/transpose.cxx:32-54"]}
{"id": "C50", "title": "det is the determinant", "statement": "det(s) gives for each item the determinant of the matrix it stores (full or symmetric storage, 2D or 3D); det of a transpose is the same; other shapes throw.", "quantifier": "every well-formed Serie of the four accepted shapes", "why_tests_cant": "Use of a dangling buffer is undefined behaviour that tests may not reveal; the algebraic identity is universal.", "anchors": ["src/functional/algebra/det.cxx:32-53", "src/view/Matrix.cxx:168-180"]}
{"id": "C51", "title": "inv of symmetric 3D matrices", "statement": "For item size 6, whenever inv(s) returns, each item is the two-sided matrix inverse of the corresponding item; it throws exactly when some |determinant| is below 1e-10.", "quantifier": "every well-formed Serie of item size 6, dimension 3 (exact arithmetic)", "why_tests_cant": "Matrix identity over all inputs.", "anchors": ["src/functional/algebra/inv.cxx:29-97"]}
{"id": "C52", "title": "inv of full 3x3 matrices", "statement": "For item size 9, each item of inv(s) is the matrix inverse of the corresponding item.", "quantifier": "every well-formed Serie of item size 9 with non-zero determinants", "why_tests_cant": "Tests use symmetric or diagonal matrices on which a wrong cofactor is invisible.", "anchors": ["src/functional/algebra/inv.cxx:63-97"]}
{"id": "C53", "title": "cross product laws", "statement": "cross(a,b) is orthogonal to both operands, antisymmetric, zero on parallel vectors and has squared length |a|^2|b|^2-(a.b)^2; item sizes other than 3 are rejected.", "quantifier": "all pairs of 3D Series of equal count (exact arithmetic)", "why_tests_cant": "Identities over all inputs.", "anchors": ["src/functional/algebra/cross.cxx:29-48"]}
{"id": "C54", "title": "dot product laws", "statement": "dot(a,b) is symmetric, bilinear, and dot(a,a) is the sum of squares, hence non-negative and zero only on zero items; dot(a, v) agrees with dot against the Serie repeating v; it satisfies Cauchy-Schwarz.", "quantifier": "all pairs of well-formed Series of equal shape (exact arithmetic)", "why_tests_cant": "Identities and inequalities over all inputs.", "anchors": ["src/functional/algebra/dot.cxx:29-55"]}
{"id": "C55", "title": "norm is the Euclidean length per item", "statement": "norm(s) has count(s) items, each the Euclidean length of the corresponding item.", "quantifier": "every well-formed Serie", "why_tests_cant": "An overflowing buffer write may go unnoticed in a test.", "anchors": ["src/functional/algebra/norm.cxx:31-58"]}
{"id": "C56", "title": "Eigenvectors are orthonormal and reconstruct the matrix up to the stated residual", "statement": "For every symmetric 2x2 or 3x3 item the returned vectors are orthonormal, the eigenvalues sum to the trace, and sum_k |A v_k - lambda_k v_k|^2 <= 2*1e-5*(sum of squared off-diagonal entries); the iteration always stops before its iteration cap.", "quantifier": "all symmetric 2x2 and 3x3 real matrices (exact real arithmetic)", "why_tests_cant": "Convergence and residual bounds quantify over all matrices.", "anchors": ["src/functional/algebra/eigen.cxx:206-372 symmetricEigen", "src/functional/algebra/eigen.cxx:31-180"]}
{"id": "C57", "title": "Eigenvalues are sorted in decreasing order, with their vectors", "statement": "eigenValues/eigenSystem return values in decreasing order and the k-th vector belongs to the k-th value.", "quantifier": "all symmetric 2x2 and 3x3 matrices", "why_tests_cant": "Ordering for all inputs.", "anchors": ["src/functional/algebra/eigen.cxx:330-372"]}
{"id": "C58", "title": "2D eigen decomposition is exact", "statement": "For symmetric 2x2 matrices A v_k = lambda_k v_k exactly (exact real arithmetic).", "quantifier": "all symmetric 2x2 real matrices", "why_tests_cant": "Universal over reals.", "anchors": ["src/functional/algebra/eigen.cxx:206-372"]}
{"id": "C59", "title": "normals are perpendicular to their triangle", "statement": "normals(positions, indices) returns one 3-vector per triangle, perpendicular to its edges, of length twice the area, reversed when two vertices are swapped.", "quantifier": "all meshes with in-range integer indices (exact arithmetic)", "why_tests_cant": "Universal over meshes.", "anchors": ["src/functional/geo/normals.cxx:36-71"]}
{"id": "C60", "title": "areas gives triangle areas", "statement": "areas(positions, indices) returns the area of each triangle.", "quantifier": "all meshes", "why_tests_cant": "The only test for it does not exist; the overload chosen by the compiler makes it fail for all inputs.", "anchors": ["src/functional/geo/areas.cxx:32-37"]}
{"id": "C61", "title": "fringes are bounded and periodic", "statement": "fringes(s, spacing) lies in [0, |spacing|), depends only on v modulo spacing for v and spacing of equal sign, and insar is the per-item projection on the line of sight.", "quantifier": "every scalar Serie and non-zero spacing (exact arithmetic)", "why_tests_cant": "Range and periodicity over all reals.", "anchors": ["src/functional/geo/insar.cxx:37-65"]}
{"id": "C62", "title": "Cartesian grids cover the box", "statement": "from_points(n, p1, p2) and from_dims(n, center, dims) return n1*n2*n3 points, x varying fastest, the first at the low corner, the last at the high corner, all inside the box and equally spaced.", "quantifier": "all point counts >= 2 per axis with product below 2^32 and all boxes", "why_tests_cant": "Universal over sizes.", "anchors": ["include/dataframe/functional/geo/cartesian_grid.h:50-152"]}
{"id": "C63", "title": "Matrix views address each entry once", "statement": "The packed symmetric index is a bijection between the entries on or above the diagonal and 0..m(m+1)/2-1 and is symmetric in (i,j); the full index is a bijection onto 0..n*m-1; multVec is the matrix-vector product and rejects wrong lengths; trace sums the diagonal; isSymmetric is exact.", "quantifier": "every dimension", "why_tests_cant": "Bijection for all m.", "anchors": ["src/view/Matrix.cxx:29-180"]}
{"id": "C64", "title": "Vector::norm is the Euclidean length", "statement": "Vector(a).norm() is the square root of the sum of squares, and normalize gives a unit vector.", "quantifier": "all non-zero arrays", "why_tests_cant": "Accumulating in an int truncates; integer-valued tests do not notice.", "anchors": ["src/view/Vector.cxx:58-72"]}
{"id": "C65", "title": "Manager::names lists sorted names without duplicates", "statement": "names(k) is strictly increasing, contains the stored names of item size k and exactly the names offered by the registered decomposers for the stored Series (positions/indices excluded).", "quantifier": "every Dataframe, every list of decomposers", "why_tests_cant": "Universal over dataframes.", "anchors": ["src/attributes/Manager.cxx:85-114"]}
{"id": "C66", "title": "Manager::serie prefers stored Series, then the first decomposer that answers", "statement": "serie(k, name) returns the stored Serie when one of that name has item size k, else the result of the first registered decomposer returning a valid Serie, else an invalid Serie; contains(k, name) is true exactly when names(k) has it.", "quantifier": "every Dataframe and decomposer list", "why_tests_cant": "Universal over lists.", "anchors": ["src/attributes/Manager.cxx:59-83,116-120"]}
{"id": "C67", "title": "Every listed attribute can be obtained", "statement": "For every name in names(k), serie(k, name) is a valid Serie of item size k with one item per stored item.", "quantifier": "every Dataframe and every built-in decomposer", "why_tests_cant": "Relates two functions for all dataframes.", "anchors": ["src/attributes/*.cxx"]}
{"id": "C68", "title": "Components extracts the named component", "statement": "The component attribute 'Nij' (resp. 'Nx', ...) of a stored Serie N is the scalar Serie of the matching component of each item.", "quantifier": "every stored vector, symmetric or full tensor Serie and every component name", "why_tests_cant": "All components of all storages.", "anchors": ["src/attributes/Components.cxx:53-185"]}
{"id": "C69", "title": "Eigen attributes give eigenvalues and eigenvectors", "statement": "Attribute 'N1','N2','N3' of a symmetric tensor Serie N is the corresponding eigenvalue (resp. eigenvector) Serie.", "quantifier": "every stored tensor Serie", "why_tests_cant": "No test exercises the lookups; must hold for all dataframes.", "anchors": ["src/attributes/EigenValues.cxx", "src/attributes/EigenVectors.cxx"]}
{"id": "C70", "title": "Coordinates gives x, y, z of the positions", "statement": "The coordinate attributes are the components of 'positions', under the configured names.", "quantifier": "every Dataframe with a 3D positions Serie", "why_tests_cant": "Universal over dataframes.", "anchors": ["src/attributes/Coordinates.cxx:36-58"]}
{"id": "C71", "title": "Valence counts triangles per vertex", "statement": "The valence attribute has one entry per vertex equal to the number of triangle corners at it; the total is three times the number of triangles.", "quantifier": "all meshes with in-range indices", "why_tests_cant": "Counting law for all meshes.", "anchors": ["src/attributes/Valence.cxx:36-70"]}
{"id": "C72", "title": "Geometry attributes are listed only when available", "statement": "Normal, Area and Valence names are listed exactly when both positions and indices are stored.", "quantifier": "every Dataframe", "why_tests_cant": "The guard must be right for all combinations.", "anchors": ["src/attributes/Normals.cxx", "src/attributes/Areas.cxx", "src/attributes/Valence.cxx"]}
{"id": "C73", "title": "check gives a 0/1 mask", "statement": "check(s, p) is a scalar Serie with one number per item of s, 1 where p(item, index) holds and 0 elsewhere; p is called once per item in order and the first exception stops it.", "quantifier": "every well-formed Serie, every predicate (throwing or not)", "why_tests_cant": "tests only try a few Series and predicates; the claim is about every length, every predicate and every point where it may throw", "anchors": ["include/dataframe/functional/conditional/check.h: check"]}
{"id": "C74", "title": "contains(serie) and nameOfSerie find a stored Serie", "statement": "contains(serie) is true and nameOfSerie gives the name exactly when the given Serie object is the one stored under that name.", "quantifier": "every Dataframe history, every name, every Serie object", "why_tests_cant": "Universal over histories and names, the empty name included.", "anchors": ["src/Dataframe.cxx:134-138 contains", "src/utils/nameOfSerie.cxx:30-39 nameOfSerie"]}
{"id": "C75", "title": "Every function named add adds", "statement": "The variadic add(a,b,c,...) available to a user who includes functional/math/sub.h returns the component-wise sum of its arguments, as the one of functional/math/add.h does.", "quantifier": "all lists of Series of equal shape", "why_tests_cant": "Component-wise law over all lists; the template of sub.h is never instantiated by the tests.", "anchors": ["include/dataframe/functional/math/sub.h:57-71 add", "include/dataframe/functional/math/add.h:58-72 add"]}
{"id": "C76", "title": "Arithmetic keeps the item size, also for empty Series", "statement": "add, sub, scale, negate, mult and div return a Serie with the item size and the count of their argument, also when it has no item, so the result can be combined with it again.", "quantifier": "all well-formed Series, including those with count 0", "why_tests_cant": "The empty case of each function composes with every later call.", "anchors": ["src/functional/math/scale.cxx:29-55", "src/functional/math/negate.cxx:29-38", "src/functional/math/mult.cxx:29-38", "src/functional/math/div.cxx:30-41", "include/dataframe/functional/map.h:85-107", "include/dataframe/functional/math/add.h:35-56"]}
{"id": "C77", "title": "Matrices returned by value can be read", "statement": "The matrices returned by Matrix::transpose, Matrix::multMat and symSquaredMatrix hold the transposed matrix, the matrix product and the unpacked symmetric matrix: reading entry (i,j) of them gives the corresponding number.", "quantifier": "all square matrices of equal size; all packed arrays", "why_tests_cant": "The returned object refers to an array that no longer exists: undefined behaviour that a test may not reveal.", "anchors": ["src/view/Matrix.cxx:103-115", "src/view/Matrix.cxx:137-180", "include/dataframe/view/Matrix.h:47-49"]}
{"id": "C78", "title": "Vector arithmetic is component-wise", "statement": "Vector::mult, add and sub combine the components one by one with those of a Vector of the same length; dot is the sum of the products, is symmetric and vanishes on a Vector with itself only if it is zero; a longer argument is truncated, a shorter one is read out of bounds.", "quantifier": "all pairs of arrays (exact arithmetic)", "why_tests_cant": "Every length and every component; out-of-bounds reads may go unnoticed.", "anchors": ["src/view/Vector.cxx:74-117"]}
{"id": "C79", "title": "The eigen functions reject every other shape", "statement": "eigenValues, eigenVectors and eigenSystem throw, or return empty Series, for every Serie that is neither of dimension 2 with item size 3 nor of dimension 3 with item size 6; on an empty Serie of a right shape they return an empty Serie with the item size of the result.", "quantifier": "every well-formed Serie", "why_tests_cant": "The dimension is a free parameter of the constructor; the missing case reads out of bounds, which tests may not reveal.", "anchors": ["src/functional/algebra/eigen.cxx:31-180"]}
{"id": "C80", "title": "from_dims is centred", "statement": "The grid returned by from_dims(npts, center, dimensions) is symmetric about center: each point and the opposite point of the grid have center as midpoint.", "quantifier": "all point counts with product below 2^32/3, all centers and dimensions", "why_tests_cant": "Universal over sizes; existing tests do not use an axis with one point and a non-zero extent.", "anchors": ["include/dataframe/functional/geo/cartesian_grid.h:50-93"]}
{"id": "C81", "title": "Normals and Area attributes give the geometry of the stored mesh", "statement": "The Normals attribute is, per triangle, the cross product of two sides; the Area attribute is the area of each triangle; any other name gives an invalid Serie.", "quantifier": "every Dataframe storing a mesh (positions and indices in range)", "why_tests_cant": "Geometric identity for all meshes.", "anchors": ["src/attributes/Normals.cxx:37-57", "src/attributes/Areas.cxx:39-65"]}
{"id": "C82", "title": "A user-defined decomposer exposes the Serie of its callable", "statement": "A UserDefinedDecomposer(size, name, f) lists its name, for that item size, exactly when f(dataframe) is valid, and its value is f(dataframe); other names and sizes give an invalid Serie; exceptions of f reach the caller.", "quantifier": "every Dataframe, callable, name and size, at any time after construction", "why_tests_cant": "Universal over callables; the lifetime of the callable is not observable by a passing test.", "anchors": ["include/dataframe/attributes/UserDefinedDecomposer.h:33-77"]}
{"id": "C83", "title": "Printing writes exactly the shape and the items of the Series", "statement": "print(serie) writes to the standard output, and to no other stream, the item size, the count, the dimension and then every item once, in order, scalars as numbers and vectors in parentheses; print(s1, s2, ...) writes each Serie after its number counted from 1. The text determines the shape of the Serie and the text of each of its numbers.", "quantifier": "every Serie, of every item size and count, every list of Series, every number format without separators, every prior content of the streams", "why_tests_cant": "A test compares a few outputs; it cannot show that distinct Series never print alike, nor that no Serie makes it read out of bounds.", "anchors": ["include/dataframe/functional/utils/print.h:31-79"]}
{"id": "C84", "title": "Inserting a Serie in a stream writes it to this stream", "statement": "stream << serie writes the shape and the numbers of the Serie to the given stream and to no other one; stream << series writes the number of Series and then each of them, to this stream.", "quantifier": "every stream, every Serie, every list of Series, every number format", "why_tests_cant": "Tests that look at the terminal cannot tell std::cout from std::cerr, and use Series without spare numbers.", "anchors": ["include/dataframe/inline/Serie.hxx:69-93"]}
{"id": "C85", "title": "Inserting arrays and lists of names in a stream, and dumping a Dataframe", "statement": "stream << array writes its numbers in brackets to the given stream, stream << names writes one name per line to the given stream, and dataframe.dump() writes one line per stored Serie, in the order of the names, with its item size and count.", "quantifier": "every stream, array, list of names, Dataframe and number format", "why_tests_cant": "The unit tests never look at the text; the stream actually used is not visible on a terminal.", "anchors": ["include/dataframe/types.h:52-75", "src/Dataframe.cxx:151-160"]}
{"id": "C86", "title": "The mean in double precision", "statement": "mean(serie) computed with rounded doubles differs from the average of the stored numbers by at most the relative error of count+1 roundings applied to the average of the absolute values; means of whole numbers whose sum of absolute values is at most 2^53 are the average rounded once; and the mean lies between the smallest and the largest value.", "quantifier": "every Serie (every count and item size), every way of breaking ties, every precision of at least 32 bits", "why_tests_cant": "Rounding errors depend on all the values and their order; tests compare with a tolerance on a few values.", "anchors": ["src/functional/stats/mean.cxx:28-50", "include/dataframe/types.h:29"]}
{"id": "C87", "title": "dot, insar and weigthedSum in double precision", "statement": "The computed dot product differs from the exact one by at most the relative error of itemSize+1 roundings applied to the dot product of the absolute values (same for insar, and for weigthedSum with the number of Series); it is exact on whole numbers up to 2^53; dot(a,b) and dot(b,a) are the same bit for bit; dot(a,a) is never negative and at least the square of every component.", "quantifier": "every pair of Series of the same shape, every precision and rounding to nearest", "why_tests_cant": "A test cannot bound the error over all inputs.", "anchors": ["src/functional/algebra/dot.cxx:29-55", "src/functional/geo/insar.cxx", "src/functional/math/weightedSum.cxx"]}
{"id": "C88", "title": "The covariance in double precision", "statement": "The computed covariance differs from the exact one by at most the error of count+4 roundings on the products of deviations plus the product of the errors of the two means; the covariance of a Serie with itself is never negative; covariance(x,y) and covariance(y,x) are the same bit for bit.", "quantifier": "every pair of scalar Series of the same count, every precision of at least 32 bits, every rounding to nearest", "why_tests_cant": "Cancellation depends on the data; a negative variance would only appear on particular inputs.", "anchors": ["src/functional/stats/covariance.cxx:28-60"]}
{"id": "C89", "title": "add and sub in double precision", "statement": "add and sub are exact on whole numbers when the results are at most 2^53; subtracting what was added gives back the Serie; add does not depend on the order of two operands.", "quantifier": "every pair of Series of the same shape, every precision and rounding to nearest", "why_tests_cant": "Only particular magnitudes show absorption.", "anchors": ["src/functional/math/add.cxx:50-70", "src/functional/math/sub.cxx:50-70"]}
{"id": "C90", "title": "det and cross in double precision", "statement": "The computed determinant of a full 2x2 (3x3) matrix differs from the exact one by at most the error of 2 (7) roundings relative to the sum of the absolute values of the products of its expansion, and is exact on whole numbers small enough; each component of cross is within 2 roundings; cross(b,a) is cross(a,b) with every sign changed, bit for bit.", "quantifier": "every Serie of full matrices or of 3D vectors, every precision and rounding to nearest", "why_tests_cant": "Cancellation depends on the data.", "anchors": ["src/functional/algebra/det.cxx:32-53", "src/functional/algebra/cross.cxx:29-48"]}
{"id": "C91", "title": "normalize in double precision", "statement": "normalize of a scalar Serie with two different values gives numbers in [0,1], in the order of the values, within 5 roundings of (x-min)/(max-min), 0 for the smallest value and 1 for the largest one; normalize of a vector Serie gives vectors proportional to the items whose squared length differs from 1 by at most 2^-49 for doubles and 2 or 3 components.", "quantifier": "every Serie, every precision and rounding to nearest", "why_tests_cant": "Tests use values such as 0..10 where the scale is nearly exact.", "anchors": ["src/functional/math/normalize.cxx:28-70"]}
{"id": "C92", "title": "Approximate equality in double precision", "statement": "approximatelyEquals and approximateEqualityMask accept every pair of numbers at distance at most epsilon, and never accept a pair at a distance above epsilon/(1-2^-53).", "quantifier": "every pair of Series of the same shape, every epsilon, every precision and rounding to nearest", "why_tests_cant": "The difference that is compared is itself rounded; tests do not look at the boundary.", "anchors": ["include/dataframe/functional/math/equals.h:52-130"]}
{"id": "C93", "title": "NaN is never equal", "statement": "equals, approximatelyEquals, equalityMask and approximateEqualityMask never take a NaN for equal to anything: a Serie with a NaN equals no Serie, not even itself; an item with a NaN has 0 in both masks; no tolerance, even infinite, accepts it; without NaN, equals means same shape, dimension and numbers, infinities included.", "quantifier": "every pair of Series with finite numbers, infinities and NaN, every tolerance", "why_tests_cant": "Tests use finite numbers; reflexivity of equality silently depends on the values.", "anchors": ["include/dataframe/functional/math/equals.h:30-140"]}
{"id": "C94", "title": "minMax leaves NaN out", "statement": "minMax gives the smallest and the largest finite numbers of a Serie (component by component), leaving NaN out, and the result does not depend on the order of the items.", "quantifier": "every Serie without infinities with at least one finite number per component", "why_tests_cant": "Where the NaN stands changes the result; tests use finite numbers.", "anchors": ["src/functional/math/minMax.cxx:28-70"]}
{"id": "C95", "title": "A NaN stays where it is", "statement": "In Series without infinities, add, sub, dot and weigthedSum give NaN exactly at the places that have a NaN in an operand (a zero weight does not remove it), mean gives NaN exactly for the components that have one, and covariance gives NaN as soon as one of the two Series has one.", "quantifier": "every Series of the same shape with finite numbers and NaN", "why_tests_cant": "NaN contamination can only be excluded by looking at all places.", "anchors": ["src/functional/math/add.cxx:50-70", "src/functional/math/sub.cxx:50-70", "src/functional/algebra/dot.cxx:29-55", "src/functional/math/weightedSum.cxx", "src/functional/stats/mean.cxx:28-50", "src/functional/stats/covariance.cxx:28-60"]}
{"id": "C96", "title": "Finite numbers in, finite numbers out", "statement": "normalize, mean, div by a number and div by a Serie of a Serie of finite numbers give finite numbers, or report an error.", "quantifier": "every Serie of finite numbers, constant or empty Series, zero items and zero dividers included", "why_tests_cant": "Degenerate values are rarely in the tests.", "anchors": ["src/functional/math/normalize.cxx:28-70", "src/functional/stats/mean.cxx:28-50", "src/functional/math/div.cxx:28-75"]}
{"id": "C97", "title": "Sorting Series with NaN", "statement": "sort has a defined result on every scalar Serie, NaN included.", "quantifier": "every scalar Serie, every standard library whose std::sort meets its contract", "why_tests_cant": "Undefined behaviour of std::sort depends on the library and on the size.", "anchors": ["include/dataframe/functional/utils/sort.h"]}
{"id": "C98", "title": "Memoized functions on Series with special values", "statement": "Calling a memoized function gives what the plain function gives, also on Series that hold infinities or NaN, and the calls never have undefined behaviour.", "quantifier": "every function, every history of calls and clears, Series with finite numbers, infinities and NaN", "why_tests_cant": "Whether a NaN breaks the cache depends on the keys cached before it.", "anchors": ["include/dataframe/functional/utils/memoize.h:30-60"]}
{"id": "C99", "title": "quantile in floating point", "statement": "With rounding, quantile(s,q) lies between two neighbours of the sorted values (those around (n-1)q, up to one rounding), so between the minimum and the maximum; it is monotone in q, equals the minimum at 0 and the maximum at 1 exactly, does not depend on the order of the values; the quartiles are in ascending order, IQR is not negative, the median of an odd number of values is the middle value.", "quantifier": "every non-empty scalar Serie of rounded numbers, all q in [0,1], every way of breaking ties", "why_tests_cant": "Interpolation computed with three roundings could leave the interval for some pair of neighbours; no sample of doubles excludes it.", "anchors": ["src/functional/stats/quantile.cxx:35-80"]}
{"id": "C100", "title": "outliers in floating point", "statement": "With rounding, outliers(s,m) and notOutliers(s,m) hold each value in exactly one of them, in order, consistently with isOutliers(s,m); for m >= 0 a value between the quartiles is never an outlier, and a larger m leaves no more outliers.", "quantifier": "every non-empty scalar Serie of rounded numbers and every m", "why_tests_cant": "The bounds are rounded several times; for some data a bound could land on the wrong side of a quartile.", "anchors": ["src/functional/stats/quantile.cxx:67-111"]}
{"id": "C101", "title": "bins in floating point", "statement": "With rounding, for values between start and stop, bins gives nb exact counts that sum to the number of values; larger values are never counted in an earlier bin; start is counted in the first bin and stop in the last; a value counted in bin i lies in that bin up to the relative error of four roundings.", "quantifier": "every scalar Serie of rounded numbers within the range, every number of bins below 2^32", "why_tests_cant": "A value next to a boundary, or the maximum, could by rounding get an index outside the bins for some width.", "anchors": ["src/functional/stats/bins.cxx"]}
{"id": "C102", "title": "quantile with special values", "statement": "For values without NaN, infinities included, and a level in [0,1], quantile lies between two neighbours of the sorted values and equals the minimum at 0 and the maximum at 1; any other level, NaN included, is rejected.", "quantifier": "every non-empty scalar Serie without NaN and every level, special values included", "why_tests_cant": "Which neighbours are infinite depends on the whole Serie.", "anchors": ["src/functional/stats/quantile.cxx:35-57"]}
{"id": "C103", "title": "outliers with special values", "statement": "outliers(s,m) and notOutliers(s,m) hold each value of s that is not NaN in exactly one of them, also with infinities among the values or as mustache.", "quantifier": "every non-empty scalar Serie and every mustache, special values included", "why_tests_cant": "Loss happens only when the bounds become NaN, which depends on all the values.", "anchors": ["src/functional/stats/quantile.cxx:67-111"]}
{"id": "C104", "title": "bins with special values", "statement": "bins never has undefined behaviour: special values among the values are counted or rejected; on finite values it counts as with exact numbers.", "quantifier": "every scalar Serie with special values, every number of bins", "why_tests_cant": "A single NaN anywhere changes the outcome.", "anchors": ["src/functional/stats/bins.cxx:32-64"]}
{"id": "C105", "title": "parallel_execute with a memoized functor", "statement": "parallel_execute(memoize(f), s, n) returns f(s), whatever was computed with the memoized object before; and as for a direct call the results stay in its cache, so that repeating the call does not invoke f again.", "quantifier": "every item-wise f, Serie, history of calls, number of cores, schedule", "why_tests_cant": "The jobs run concurrently on copies of the functor; the outcome has to hold for all schedules and all histories of the cache.", "anchors": ["include/dataframe/functional/utils/parallel_execute.h:63-128", "include/dataframe/functional/utils/memoize.h:32-67"]}
{"id": "C106", "title": "Steps of a pipeline can be rearranged", "statement": "Filtering twice is filtering by both predicates; filter after map is map after filter; reduce after map or filter is one reduce; map and filter of a concatenation are the concatenation of the results; filter and increasing maps commute with sort; sort does not depend on the order of the Series concatenated; the two halves of partition hold the items.", "quantifier": "every valid Serie, list of Series, callbacks that do not use the index", "why_tests_cant": "Equalities between programs over all Series and all callbacks.", "anchors": ["include/dataframe/functional/map.h", "include/dataframe/functional/filter.h", "include/dataframe/functional/reduce.h", "include/dataframe/functional/utils/concat.h", "include/dataframe/functional/utils/partition.h", "include/dataframe/functional/utils/sort.h"]}
{"id": "C107", "title": "parallel_execute with the functions of the library", "statement": "parallel_execute(f, s, n) returns f(s) for f one of scale, negate, mult, div by a number, transpose, insar, normalize, det, eigenValues, eigenVectors, and for map with a callback that uses the index; a filter that drops an item is rejected.", "quantifier": "every non-empty valid Serie, number of cores, schedule", "why_tests_cant": "The outcome has to hold for all schedules, numbers of cores and sizes of the parts.", "anchors": ["include/dataframe/functional/utils/parallel_execute.h:63-128", "include/dataframe/functional/utils/partition_n.h", "src/functional/algebra/det.cxx", "src/functional/algebra/eigen.cxx:31-110", "src/functional/math/normalize.cxx:35-65"]}
{"id": "C108", "title": "Grids in floating point", "statement": "With rounded arithmetic from_points and from_dims give the points of the exact grid up to a few roundings relative to the corner and the size of the box; the first point is the first corner exactly, coordinates never decrease along an axis, the last point is the opposite corner, all points lie in the box, and from_dims gives the grid of from_points between the two corners.", "quantifier": "every grid of one to three axes, all corners, every precision of at least 32 digits, every rounding to nearest", "why_tests_cant": "Rounding errors depend on all the bits of the corners and of the number of points; tests compare with a tolerance on a few grids.", "anchors": ["include/dataframe/functional/geo/cartesian_grid.h:50-152"]}
{"id": "C109", "title": "Fringes in floating point", "statement": "With rounded arithmetic each fringe lies in [0, |spacing|) and equals the number plus or minus an integer number of spacings up to a few roundings; multiples of the spacing give zero.", "quantifier": "every non-empty valid Serie of numbers, every spacing other than zero, every rounding to nearest", "why_tests_cant": "A value on the wrong side of a fringe appears only for particular bit patterns.", "anchors": ["src/functional/geo/insar.cxx:49-65"]}
{"id": "C110", "title": "Normals in floating point", "statement": "With rounded arithmetic the normal of a triangle is the cross product of two edges up to four roundings relative to the products; it is exact for whole coordinates of moderate size, zero for triangles with coincident vertices, and reversed when the last two vertices are exchanged.", "quantifier": "every mesh, every precision of at least 32 digits, every rounding to nearest", "why_tests_cant": "The bound has to hold for all coordinates, including those with cancellation.", "anchors": ["src/functional/geo/normals.cxx:36-71"]}
{"id": "C111", "title": "Inverses in floating point", "statement": "With rounded arithmetic inv throws for a matrix whose determinant is below 1e-10 by more than the rounding errors and returns for one above it by more than them; each entry of the result times the computed determinant is the entry of the adjugate up to four roundings relative to its products, so that the product with the matrix misses the identity by a bounded amount; a singular matrix is never inverted.", "quantifier": "every Serie of 3x3 matrices in dimension 3, symmetric or full, every rounding to nearest", "why_tests_cant": "Whether a nearly singular matrix is refused, and how wrong its inverse is, depends on all bits of the entries.", "anchors": ["src/functional/algebra/inv.cxx:29-97"]}
{"id": "C112", "title": "toSerie builds what the constructor builds", "statement": "toSerie(k, values, dim) gives the same Serie as Serie(k, values, dim).", "quantifier": "every positive item size, every flat array shorter than 2^32, every dimension", "why_tests_cant": "Tests use the default dimension, for which the ignored argument makes no difference.", "anchors": ["src/Serie.cxx:144-146 toSerie"]}
{"id": "C113", "title": "dump shows a Serie", "statement": "dump() writes to std::cerr one line for each item, with its index and its numbers in order, and then an empty line; it changes nothing else.", "quantifier": "every well-formed Serie", "why_tests_cant": "Tests do not look at the error stream, and try few shapes.", "anchors": ["src/Serie.cxx:76-86 Serie::dump"]}
{"id": "C114", "title": "print shows an array", "statement": "print(array) writes the numbers of the array in brackets, separated by commas, to std::cerr, for the empty array too.", "quantifier": "every array shorter than 2^32", "why_tests_cant": "Tests do not look at the error stream; the boundary cases are the empty array and the last number.", "anchors": ["src/Serie.cxx:133-142 print"]}
{"id": "C115", "title": "stress of a point source", "statement": "In the example parallel-postprocess the stress of a source at a point is zero closer than 1e-10 and elsewhere given by a closed form: it depends only on the relative position, is the same when source and point are exchanged, is linear in the displacement, decreases as the cube of the distance, treats the axes alike, and follows rotations.", "quantifier": "every source, every point, every displacement, every numbering of the axes", "why_tests_cant": "The laws quantify over all points and displacements; a test compares numbers at a few points.", "anchors": ["examples/parallel-postprocess/main.cxx Source::stress"]}
{"id": "C116", "title": "superposition of sources, in parallel", "statement": "The model of the example has as many sources as asked for and returns for each point the sum of the stresses of its sources, whatever their order; joining two models adds the results; parallel_execute with any number of threads returns the same.", "quantifier": "every list of sources, every Serie of points, every number of threads, every schedule", "why_tests_cant": "A test fixes the number of sources, the points and the threads, and sees one schedule.", "anchors": ["examples/parallel-postprocess/main.cxx Model, main", "include/dataframe/functional/utils/parallel_execute.h parallel_execute"]}
{"id": "C117", "title": "critical stress", "statement": "The example critical-stress returns one index for each tensor under compression in all directions, in order, computed from the principal values and the depth at the position with the same index; for sensible parameters the indices are not negative; the printed mean is a number.", "quantifier": "every Serie of tensors and positions, every cohesion and friction angle", "why_tests_cant": "The selection depends on the accuracy of the eigen values and the alignment of two Series; tests have no oracle for all tensors.", "anchors": ["examples/critical-stress/main.cxx main"]}
{"id": "C118", "title": "one operation on doubles of limited range", "statement": "add, sub, scale, mult and div give for each pair of finite doubles the exact result up to one rounding (plus half the smallest positive number for products and quotients), or the infinity with the right sign when the exact result is beyond the largest number; a finite result only comes from finite operands; a difference of finite numbers is zero only for equal numbers.", "quantifier": "every Serie of doubles including infinities, NaN and subnormal numbers, every way to break ties", "why_tests_cant": "Overflow and underflow depend on the magnitudes of all numbers; tests use numbers of ordinary size.", "anchors": ["src/functional/math/add.cxx add", "src/functional/math/sub.cxx sub", "src/functional/math/scale.cxx scale", "src/functional/math/mult.cxx mult", "src/functional/math/div.cxx div"]}
{"id": "C119", "title": "sums of doubles of limited range", "statement": "The mean of finite doubles is finite; dot, insar and weigthedSum of finite doubles are finite if the absolute values of the products add up to at most half the largest double; where these results are finite, all the numbers are, and the results are the exact values up to roundings relative to the absolute values plus a multiple of the smallest positive number.", "quantifier": "every Serie of doubles including infinities, NaN and subnormal numbers, every length", "why_tests_cant": "The intermediate sum can overflow although the result does not; tests do not come near the largest number.", "anchors": ["src/functional/stats/mean.cxx mean", "src/functional/algebra/dot.cxx dot", "src/functional/geo/insar.cxx insar", "src/functional/math/weightedSum.cxx weigthedSum"]}
{"id": "C120", "title": "normalize of doubles of limited range", "statement": "normalize turns each non-zero vector of finite doubles into a finite vector whose length is 1 up to rounding.", "quantifier": "every vector Serie of finite doubles without zero vectors", "why_tests_cant": "The squares of the components overflow or underflow for vectors far from those in tests.", "anchors": ["src/functional/math/normalize.cxx normalize"]}
{"id": "C121", "title": "eigen values and vectors of doubles", "statement": "With doubles and trigonometric functions accurate to the last digit or so, eigenSystem, eigenValues and eigenVectors return for each symmetric 2x2 or 3x3 item vectors that are orthonormal up to 2^-32, values in decreasing order whose sum is the trace up to 2^-32 times the norm of the matrix, and A v = e v up to the threshold of the iteration (square root of 2.04e-5 times the sum of squares off the diagonal) plus 2^-32 times the norm of the matrix; in 2D only the rounding term remains; rounding never prevents the iteration from stopping before its limit of 100 sweeps.", "quantifier": "every Serie of symmetric matrices of finite doubles (unlimited exponent), every way to break ties, every accuracy of the trigonometric functions up to 2^-40", "why_tests_cant": "The error accumulates over a number of rotations that depends on the matrix; tests look at a few matrices.", "anchors": ["src/functional/algebra/eigen.cxx symmetricEigen", "src/functional/algebra/eigen.cxx eigenSystem", "src/functional/algebra/eigen.cxx eigenValues", "src/functional/algebra/eigen.cxx eigenVectors"]}
{"id": "C122", "title": "Infinities follow extended arithmetic", "statement": "add, sub, mult, scale, negate, div by a number, dot, weigthedSum and mean give, number by number, the sum, difference, product and quotient of the extended real numbers; the result is NaN exactly when an operand is NaN or the operation is undetermined (infinity minus infinity, zero times infinity, 0/0, infinity over infinity).", "quantifier": "every Series and numbers, infinities and NaN included", "why_tests_cant": "Which combinations of special values meet depends on all the values of the Series.", "anchors": ["src/functional/math/add.cxx:50-70", "src/functional/math/sub.cxx:50-70", "src/functional/math/mult.cxx:29-38", "src/functional/math/scale.cxx", "src/functional/math/negate.cxx:29-38", "src/functional/math/div.cxx:28-41", "src/functional/algebra/dot.cxx:29-55", "src/functional/math/weightedSum.cxx", "src/functional/stats/mean.cxx:28-50"]}
{"id": "C123", "title": "Equal Series are approximately equal", "statement": "A Serie that equals another one is approximately equal to it for every tolerance that is not negative, infinities included; approximatelyEquals and approximateEqualityMask accept exactly the values whose distance is at most the tolerance.", "quantifier": "every Series, every tolerance, special values included", "why_tests_cant": "A test would need an infinity at the place in question.", "anchors": ["include/dataframe/functional/math/equals.h:52-70", "include/dataframe/functional/math/equals.h:157-181"]}
{"id": "C124", "title": "Decomposers are deleted once", "statement": "The decomposers handed over to a Manager are deleted exactly once, when the Manager is destroyed: never twice, never not at all; a program that creates, fills, copies, clears and destroys Managers is defined.", "quantifier": "every program (any number of steps) that uses objects between their creation and their end", "why_tests_cant": "Undefined behaviour and leaks do not show in the results of a test.", "anchors": ["src/attributes/Manager.cxx:32-57 Manager::Manager, ~Manager, add, clear", "include/dataframe/attributes/Decomposer.h:36-41 Decomposer"]}
{"id": "C125", "title": "A Manager can be asked as long as it exists", "statement": "serie, names and contains of a Manager are defined as long as the Manager exists, and change nothing.", "quantifier": "every program, every Manager, every number of decomposers that have to answer", "why_tests_cant": "Reading a destroyed object often gives the expected result in a test.", "anchors": ["src/attributes/Manager.cxx:59-120 Manager::serie, names, contains", "include/dataframe/attributes/Manager.h:57-58 df_, ds_"]}
{"id": "C126", "title": "The sign of zeros does not matter", "statement": "Arguments that differ only in the sign of zeros give results that differ only in the sign of zeros, or the same exception: for add, sub, scale, mult, div, negate, weightedSum, normalize, minMax, mean, covariance, transpose, det, inv, cross, dot, norm; and the comparisons give the same answers.", "quantifier": "all Series of doubles (any counts and item sizes, infinities and NaN included), all numbers and arrays given as arguments", "why_tests_cant": "A test compares with ==, for which both zeros are equal, and rarely has negative zeros in its data.", "anchors": ["src/functional/math/div.cxx:29-80 div", "src/functional/math/normalize.cxx:35-65 normalize", "src/functional/math/minMax.cxx:29-66 minMax", "src/functional/algebra/inv.cxx inv"]}
{"id": "C127", "title": "Laws that hold for the sign of zeros", "statement": "Negating twice, scaling or dividing by one, subtracting zeros give back every number bit for bit; add does not depend on the order of its arguments; sub is antisymmetric; the mean, minimum and maximum of negative zeros are negative zeros in any order; a memoized function distinguishes what the function distinguishes.", "quantifier": "all Series of doubles", "why_tests_cant": "A test compares with ==, which does not see the sign of a zero.", "anchors": ["src/functional/math/negate.cxx:29-40 negate", "src/functional/math/sub.cxx sub", "src/functional/stats/mean.cxx:29-60 mean", "include/dataframe/functional/utils/memoize.h:36-65 Memoized"]}
{"id": "C128", "title": "One zero is enough", "statement": "Computing with a single zero gives the results of doubles with two zeros, up to the sign of zeros, for all functions of C126: nothing proved with a single zero depends on the sign of a zero.", "quantifier": "all Series of doubles, all arguments", "why_tests_cant": "It relates two arithmetics; only one of them runs.", "anchors": ["include/dataframe/types.h:29 Array", "src/functional/math/div.cxx:29-80 div", "src/functional/math/normalize.cxx:35-65 normalize"]}
{"id": "C129", "title": "Statistics follow a change of unit", "statement": "When all numbers x of a Serie are replaced by a x + b, the mean, the median and the quantiles at q become a m + b (of the quantile at 1 - q if a is negative), the minimum and maximum likewise (exchanged if a is negative), the IQR is multiplied by |a|, and the covariance of two Series by the product of both factors.", "quantifier": "all scalar Series, all a and b (a nonzero for quantiles), all q in [0,1]", "why_tests_cant": "A metamorphic relation between two runs on arbitrary data; a test checks a few numbers.", "anchors": ["src/functional/stats/mean.cxx mean", "src/functional/stats/quantile.cxx:35-65 quantile", "src/functional/stats/quantile.cxx:67-80 iqr", "src/functional/stats/covariance.cxx covariance", "src/functional/math/minMax.cxx minMax"]}
{"id": "C130", "title": "Outliers, histograms and normalisation do not depend on the unit", "statement": "When all numbers x of a Serie are replaced by a x + b (a nonzero), the same items are outliers and not outliers, isOutliers gives the same mask, bins gives the same counts (with the range converted too), and normalize gives the same numbers (1 - x if a is negative).", "quantifier": "all scalar Series, all a nonzero and b, all multipliers, all numbers of bins and ranges", "why_tests_cant": "A metamorphic relation between two runs on arbitrary data, including the items just at a boundary.", "anchors": ["src/functional/stats/quantile.cxx:67-111 outliers", "src/functional/stats/bins.cxx:32-64 bins", "src/functional/math/normalize.cxx:35-65 normalize"]}
{"id": "C131", "title": "eigenValues returns the true eigen values", "statement": "The numbers that eigenValues returns for a symmetric matrix are the roots of its characteristic polynomial, each with its multiplicity, in decreasing order: exactly in dimension 2, in dimension 3 up to sqrt(2 * 1e-5 * the sum of the squared entries above the diagonal). They do not depend on the orthonormal frame the matrices are given in, up to the same errors. The vector returned with a value is close to a true eigenvector, up to this error divided by the distance to the other eigen values.", "quantifier": "all Series of symmetric matrices of dimension 2 or 3, all frames", "why_tests_cant": "A test compares with known eigen values of a few matrices; closeness of a residual does not tell which eigen value was found nor that none is missing.", "anchors": ["src/functional/algebra/eigen.cxx:31-180 eigenValues", "src/functional/algebra/eigen.cxx:206-372 symmetricEigen"]}
{"id": "C132", "title": "eigenValues returns the true eigen values in double precision", "statement": "With rounded operations and trigonometric functions exact up to eps, the numbers returned by eigenValues are the true eigen values in decreasing order, with multiplicities, up to the threshold of the iteration plus 2^24 eps times the norm of the matrix (2^-27 times the norm for doubles); in dimension 2 only the second term. The vectors are close to true eigenvectors, up to this error divided by the distance to the other eigen values.", "quantifier": "all Series of symmetric matrices of doubles, all roundings to nearest", "why_tests_cant": "The error depends on the whole history of rotations; tests sample a few matrices.", "anchors": ["src/functional/algebra/eigen.cxx:31-180 eigenValues", "include/dataframe/types.h:29 Array"]}
{"id": "C133", "title": "Laws of vector products", "statement": "cross is linear in its arguments (add, scale); dot(cross(a,b),c) = dot(a,cross(b,c)) = det(zip(a,b,c)); cross(a,cross(b,c)) = (a.c) b - (a.b) c. Each law is between programs that call the functions one after the other.", "quantifier": "all Series of 3D vectors with the same count, all factors", "why_tests_cant": "Relates the results of four functions on arbitrary data.", "anchors": ["src/functional/algebra/cross.cxx:29-48 cross", "src/functional/algebra/dot.cxx:29-55 dot", "src/functional/algebra/det.cxx det", "include/dataframe/functional/utils/zip.h:50-90 zip"]}
{"id": "C134", "title": "Laws of matrices", "statement": "The transpose of a sum is the sum of the transposes; the determinant of a multiple by k of matrices of dimension n is the determinant times k^n; the inverse of the inverse is the matrix; the determinant of the inverse is the inverse of the determinant.", "quantifier": "all Series of matrices that inv accepts, all factors", "why_tests_cant": "Relates the results of several functions on arbitrary data; fails only for matrices with a large determinant or of dimension 2.", "anchors": ["src/functional/algebra/transpose.cxx transpose", "src/functional/algebra/det.cxx det", "src/functional/algebra/inv.cxx:29-97 inv", "src/functional/math/scale.cxx scale"]}
{"id": "C135", "title": "Operations deliver the rounded result for all operands", "statement": "add, sub, mult, scale, div and negate on doubles deliver, for every number, what the operation on extended real numbers demands: NaN where it has no result, the infinity where it is infinite, and otherwise a double nearest to the exact result, or the infinity on its side when it is beyond the largest double. mean is NaN when there is NaN or both infinities, infinite when there is one infinity, and never NaN for finite numbers. normalize makes NaN of vectors with NaN, and NaN and zeros of vectors with infinities.", "quantifier": "all Series, all formats, all operands including infinities and NaN", "why_tests_cant": "Every combination of finite, infinite and missing operands at every place of a Series.", "anchors": ["src/functional/math/add.cxx:29-70 add", "src/functional/math/sub.cxx:29-70 sub", "src/functional/math/mult.cxx:29-89 mult", "src/functional/math/div.cxx:29-40 div", "src/functional/math/negate.cxx:29-38 negate", "src/functional/stats/mean.cxx:29-60 mean", "src/functional/math/normalize.cxx:29-80 normalize"]}
{"id": "C136", "title": "The sign of zero results", "statement": "A sum is the negative zero exactly when both numbers are; a difference exactly when it is the negative zero minus the positive one; a product or quotient that is zero is negative exactly when the signs of the two numbers differ; what is divided by a zero becomes infinite with the sign given by both signs, the one of the zero included.", "quantifier": "all Series of doubles, all operands", "why_tests_cant": "A test compares with ==, which does not see the sign of a zero.", "anchors": ["src/functional/math/add.cxx:29-70 add", "src/functional/math/sub.cxx:29-70 sub", "src/functional/math/mult.cxx:29-89 mult", "src/functional/math/scale.cxx:29-40 scale", "src/functional/math/div.cxx:29-40 div"]}
{"id": "C137", "title": "Support functions", "statement": "map on a vector calls the function on every element in order, collects the results in order and stops at the first exception; contains is membership; log writes its arguments separated by one space; info, warning and error write one line on their stream and nothing elsewhere.", "quantifier": "all vectors, all functions with effects and exceptions, all texts", "why_tests_cant": "Quantifies over functions with effects and over all vectors.", "anchors": ["include/dataframe/utils/utils.h:30-69 info, warning, error, log, map, contains"]}
{"id": "C138", "title": "Results do not depend on the order of the items", "statement": "Reordering the items of a Serie (by sort, by partition and concat, by merge instead of concat, or in any other way) changes neither the mean, nor minMax, nor covariance when both Series are reordered together, nor the counts of bins, nor the sorted Serie, nor which values are outliers and how often each occurs, nor a reduce whose callback gives the same result for two items in either order.", "quantifier": "all Series, all permutations of their items, all callbacks, all limits of bins including those for which bins writes outside its array", "why_tests_cant": "The number of orders of n items grows as the factorial of n; a test runs a few of them.", "anchors": ["src/functional/stats/mean.cxx:29-60 mean", "src/functional/math/minMax.cxx:29-66 minMax", "src/functional/stats/covariance.cxx:28-60 covariance", "src/functional/stats/bins.cxx:32-64 bins", "src/functional/stats/quantile.cxx:67-111 outliers, notOutliers", "include/dataframe/functional/utils/sort.h:31-74 sort", "include/dataframe/functional/reduce.h:80-98 reduce"]}
{"id": "C139", "title": "Results for Series made of pieces", "statement": "For a concatenation of Series: reduce and forEach go through one piece after the other with the same effects; the mean is the mean of the means weighted by the numbers of items; the minimum is the least of the minima and the maximum the greatest of the maxima; the counts of bins are the sums of the counts; the covariance of two concatenations follows from the covariances, the means and the numbers of items of the pieces; sorting sorted pieces gives the sorted whole. The parts made by partition_n are such pieces.", "quantifier": "all lists of Series, all callbacks with effects and exceptions, all numbers of parts", "why_tests_cant": "Quantifies over the number and sizes of the pieces and over callbacks with effects.", "anchors": ["include/dataframe/functional/utils/concat.h:36-68 concat", "include/dataframe/functional/utils/partition_n.h:44-67 partition_n", "include/dataframe/functional/reduce.h:80-98 reduce", "include/dataframe/functional/forEach.h:63-114 forEach", "src/functional/stats/mean.cxx:29-60 mean", "src/functional/math/minMax.cxx:29-66 minMax", "src/functional/stats/bins.cxx:32-64 bins"]}
{"id": "C140", "title": "Normals of meshes that are moved, renumbered or closed", "statement": "When the points of a mesh are moved by x -> A x + b, the normals are multiplied by the transposed adjugate of A: a translation changes nothing, a rotation rotates them, a reflection also reverses them, a scaling by k multiplies them by the square of k. Numbering the points differently, or starting the triangles at another vertex, changes nothing. The normals of a closed surface add up to zero.", "quantifier": "all meshes, all affine maps, all numberings, all closed oriented surfaces of any number of triangles", "why_tests_cant": "Quantifies over all meshes and all motions; closedness is a property of the whole list of triangles.", "anchors": ["src/functional/geo/normals.cxx:36-60 normals", "src/functional/stats/mean.cxx:29-60 mean", "src/functional/math/scale.cxx:29-40 scale", "src/functional/math/add.cxx:29-70 add"]}
{"id": "C141", "title": "The component attributes put together give the Serie back", "statement": "The components of a stored vector or symmetric tensor asked one by one from the manager (for example Ux, Uy, Uz) are the Series given by unzip, and zip puts them together into the items of the stored Serie.", "quantifier": "all Dataframes obtained with the operations of the class, all stored names and Series, all further decomposers, when no stored name is another stored name followed by the name of a component", "why_tests_cant": "Relates three modules for all Series and all Dataframes.", "anchors": ["src/attributes/Components.cxx:53-185 Components::serie", "src/attributes/Manager.cxx:59-83 Manager::serie", "include/dataframe/functional/utils/zip.h:50-90 zip", "include/dataframe/functional/utils/unzip.h:38-73 unzip"]}
{"id": "C142", "title": "Laws of eigen values", "statement": "The values returned by eigenValues follow the matrices, up to the tolerance of the iteration: along every direction the matrix is between its extreme eigen values; a change of the matrix changes them at most by its norm; adding c in all directions adds c to them; scaling the matrix scales them and a negative factor exchanges them; the values of a sum are between those of one matrix plus the extreme values of the other; they are not below a lower bound of the matrix in all directions.", "quantifier": "all Series of symmetric matrices of dimension 2 or 3, all directions, all factors", "why_tests_cant": "Quantifies over all matrices and all directions; the iteration stops after a number of steps that depends on the matrix.", "anchors": ["src/functional/algebra/eigen.cxx:31-180 eigenValues", "src/functional/math/scale.cxx:29-40 scale", "src/functional/math/add.cxx:29-70 add"]}
{"id": "C143", "title": "Laws of grids", "statement": "For the points of a grid between two corners: stretching or translating the corners along the axes moves all the points in the same way; exchanging the corners reverses the order of the points; the grid with the same corners and steps divided by an integer contains all the points; the points are all different when the corners differ along the axes with several points; the mean of the points is the middle of the corners; their minMax is the pair of corners.", "quantifier": "all numbers of points along one, two or three axes, all corners, all factors and offsets", "why_tests_cant": "Quantifies over all sizes and corners; compares the results of several calls.", "anchors": ["include/dataframe/functional/geo/cartesian_grid.h:113-152 from_points", "src/functional/stats/mean.cxx:29-60 mean", "src/functional/math/minMax.cxx:29-66 minMax"]}
{"id": "C144", "title": "insar and fringes together with the arithmetic of Series", "statement": "insar is linear in the displacements and in the line of sight; displacements perpendicular to the line of sight are not seen. The fringes of a sum can be computed from the fringes of the terms; fringes of fringes with a multiple of the spacing are the fringes; a change of unit of the numbers and of the spacing multiplies the fringes; the fringe of the opposite number is the spacing minus the fringe; exactly the Series with numbers between zero and the spacing are left unchanged. With infinite or undefined numbers, or a spacing that is zero, infinite or undefined, the fringe is NaN.", "quantifier": "all Series of displacements or numbers, all lines of sight, all spacings and factors", "why_tests_cant": "Quantifies over all numbers and spacings; relates the results of several calls.", "anchors": ["src/functional/geo/insar.cxx:37-65 insar, fringes", "src/functional/math/add.cxx:29-70 add", "src/functional/math/scale.cxx:29-40 scale", "src/functional/math/negate.cxx negate"]}
{"id": "C145", "title": "NaN in the vector and matrix functions", "statement": "A component of a cross product is NaN exactly where a NaN is used, the determinant of a matrix with a NaN is NaN, its inverse is made of NaN only and no exception is thrown for it; the other items of the Serie have the results they have in a Serie without NaN, and a singular matrix is still rejected. A NaN in a point changes the normals of the triangles of this point only.", "quantifier": "all Series of vectors, matrices or meshes with NaN at any places (infinities too for cross and det)", "why_tests_cant": "Quantifies over all places of the NaN among all items.", "anchors": ["src/functional/algebra/cross.cxx:29-48 cross", "src/functional/algebra/det.cxx:32-53 det", "src/functional/algebra/inv.cxx:29-97 inv", "src/functional/geo/normals.cxx:36-60 normals"]}
{"id": "C146", "title": "Eigen functions on NaN, infinities and extreme numbers", "statement": "The eigen functions return for every matrix, whatever its numbers are, with the shapes documented; the values and vectors of a matrix depend on that matrix only. A NaN or an infinity in a matrix shows in its eigen values. Violated off the diagonal: a NaN or an infinity there is ignored, as are finite entries whose square overflows or underflows, and the numbers of the diagonal are returned as the eigen values with the axes as vectors.", "quantifier": "all types of numbers and operations for returning and for the independence of items; all matrices over the extended numbers of an ordered field for the special values; double for the extreme numbers", "why_tests_cant": "Quantifies over all places of the special values, over all results of the arithmetic and over all runs of the iteration.", "anchors": ["src/functional/algebra/eigen.cxx:206-372 symmetricEigen", "src/functional/algebra/eigen.cxx:31-180 eigenValues, eigenVectors, eigenSystem"]}
{"id": "C147", "title": "Changing the unit by a power of two changes no digit", "statement": "In floating-point arithmetic, multiplying all the numbers by a power of two multiplies the results by the matching power exactly, rounding included: sums, differences, means, quantiles, extreme values and eigen values by the factor, covariances and products by the product of the factors, determinants by its square or cube. Normalised Series, counts of bins, sets of outliers and eigen vectors do not change at all. Violated where the code compares with an absolute threshold: inv throws and div returns zeros in the smaller unit.", "quantifier": "all precisions, all roundings to nearest with ties to even, all powers of two of both signs where the claim allows it, all Series, all trigonometric functions in the eigen functions; exponents unbounded (no overflow or underflow)", "why_tests_cant": "Tests sample a few scales; the claim is about every rounding error of every operation in the sequence, for all data.", "anchors": ["src/functional/math/add.cxx add", "src/functional/math/sub.cxx sub", "src/functional/math/scale.cxx scale", "src/functional/math/mult.cxx mult", "src/functional/math/div.cxx div", "src/functional/math/weightedSum.cxx weightedSum", "src/functional/math/minMax.cxx minMax", "src/functional/math/normalize.cxx normalize", "src/functional/stats/mean.cxx mean", "src/functional/stats/covariance.cxx covariance", "src/functional/stats/quantile.cxx quantile, isOutliers, outliers", "src/functional/stats/bins.cxx bins", "src/functional/algebra/dot.cxx dot", "src/functional/algebra/cross.cxx cross", "src/functional/algebra/det.cxx det", "src/functional/algebra/inv.cxx inv", "src/functional/algebra/eigen.cxx eigenValues, eigenVectors", "src/functional/geo/normals.cxx normals", "src/functional/geo/insar.cxx insar, fringes"]}
{"id": "C148", "title": "No undefined behaviour on well-formed Series", "statement": "Called on Series whose arrays hold at least count times item size numbers, every function either returns or throws: it never reads or writes outside an array, divides an integer by zero or uses a dead object, whatever the numbers are. This includes sizes that do not match, callbacks that throw, NaN and infinities. Where the claim is false the exact condition is given: mult of two Series of numbers when the first one has more spare numbers, normalize of no numbers, partition_n in zero parts, map over several empty Series, cross and dot with a shorter second Serie, insar and dot with an array on no items, det of symmetric matrices.", "quantifier": "all number types and all arithmetic operations (no law assumed), all well-formed Series, all item sizes and counts below the integer limits, all arguments, all callbacks without undefined behaviour of their own and all captured variables", "why_tests_cant": "Absence of out-of-bounds accesses over all sizes and callbacks cannot be settled by running samples: undefined behaviour may show no symptom.", "anchors": ["src/functional/math add, sub, scale, negate, mult, div, weightedSum, minMax, normalize, random", "include/dataframe/functional/math/equals.h equalityMask, approximateEqualityMask, approximatelyEquals", "include/dataframe/functional/map.h map", "include/dataframe/functional/filter.h filter, filterAll", "include/dataframe/functional/utils/reject.h reject, rejectAll", "include/dataframe/functional/find.h find, findAll", "include/dataframe/functional/forEach.h forEach", "include/dataframe/functional/reduce.h reduce", "include/dataframe/functional/utils/partition.h partition", "include/dataframe/functional/conditional/check.h check", "include/dataframe/functional/merge.h merge", "include/dataframe/functional/utils/concat.h concat", "include/dataframe/functional/utils/partition_n.h partition_n", "include/dataframe/functional/utils/zip.h zip, zipVector", "include/dataframe/functional/utils/unzip.h unzip", "src/functional/stats/mean.cxx mean", "src/functional/stats/covariance.cxx covariance", "src/functional/algebra transpose, det, inv, cross, dot", "src/functional/geo/normals.cxx normals", "src/functional/geo/insar.cxx insar, fringes", "include/dataframe/functional/geo/cartesian_grid.h from_points, from_dims"]}
{"id": "C149", "title": "Asking for an attribute is memory safe", "statement": "Asking a Manager for an attribute by name and item size never reads outside an array, whatever the name, when the stored Series are well-formed. The claim is false: a name made of a stored name and an axis its items do not have (for instance energy when a scalar Serie energ is stored) reads out of bounds, so does the empty name with eigen values. It holds for names that designate existing components and end with an ordinary character, with three coordinate names, positions in space and indices of existing points.", "quantifier": "all number types, all Dataframes obtained with the operations of the class and holding well-formed Series, all lists of the decomposers considered, all names, all item sizes", "why_tests_cant": "Undefined behaviour may show no symptom, and names are arbitrary strings: the clash between a name and another name with a suffix is not found by sampling.", "anchors": ["src/attributes/Manager.cxx Manager::serie", "src/attributes/Components.cxx Components::serie", "src/attributes/Coordinates.cxx Coordinates::serie", "src/attributes/EigenValues.cxx EigenValues::serie", "src/attributes/EigenVectors.cxx EigenVectors::serie", "src/attributes/Normals.cxx Normals::serie", "src/attributes/Valence.cxx Valence::serie"]}
{"id": "C150", "title": "The attribute given has the item size asked for", "statement": "The Serie a Manager gives for an attribute has the item size asked for, and all its items can be read; otherwise it is invalid. True of the stored Series, of the components and coordinates for item sizes from 1, of normals asked with 3 and of valences asked with 1; false of normals and valences asked with any other item size, of components asked with 0 and of eigen vectors.", "quantifier": "all Dataframes obtained with the operations of the class and holding well-formed Series, all lists of these decomposers, all names, all item sizes", "why_tests_cant": "The name and the item size asked for are arbitrary, and the decomposers composed in any order.", "anchors": ["src/attributes/Manager.cxx Manager::serie", "src/attributes/Components.cxx Components::serie", "src/attributes/Coordinates.cxx Coordinates::serie", "src/attributes/Normals.cxx Normals::serie", "src/attributes/Valence.cxx Valence::serie"]}
{"id": "C151", "title": "Programs made of library calls have no undefined behaviour", "statement": "Take any expression whose leaves are Series that contain exactly the numbers of their items and whose nodes are calls to the functions of the library (arithmetic, map, filter, reject, find, check, partition, partition_n, unzip, transpose, inv, masks, merge, concat, zip, weightedSum), at any depth, with callbacks that may change shared captured variables. As long as the sizes stay below 2^31 numbers, the whole expression returns or throws and never reads or writes outside an array, and what it returns is again a Serie that contains exactly the numbers of its items. This fails once normalize or map over several Series is applied to a Serie without items, which filter can return.", "quantifier": "all number types and operations, all expressions of any size and depth over the listed functions, all Series given, all callbacks without undefined behaviour, all values of the captured variables", "why_tests_cant": "The property is about every composition of calls: no finite set of programs covers them, and intermediate Series (empty ones, ones without item size) depend on what the callbacks answer.", "anchors": ["include/dataframe/functional/map.h map", "include/dataframe/functional/filter.h filter", "include/dataframe/functional/merge.h merge", "include/dataframe/functional/utils/zip.h zip", "include/dataframe/functional/utils/unzip.h unzip", "include/dataframe/functional/utils/partition_n.h partition_n", "include/dataframe/functional/utils/concat.h concat", "include/dataframe/functional/pipe.h pipe", "src/functional/math/mult.cxx mult", "src/functional/math/div.cxx div", "src/functional/math/weightedSum.cxx weigthedSum"]}
{"id": "C152", "title": "Programs made of library calls depend on numbers only through the operations they name", "statement": "Take any expression of calls to the library, at any depth, and run it twice with the same calls on Series of the same shape whose numbers are related one by one, with callbacks that answer the same on related items. If the relation holds between the zeros and is kept by the arithmetic operations the expression uses (none for cutting, gluing, filtering, transposing), both runs return Series of the same shape with related numbers, or throw the same exception, or are both undefined. So: replacing numbers before or after a program that only moves them is the same; exact rational results are the real ones; in doubles, the signs of zeros given to a program that does not divide by a number only change signs of zeros in its result; for a program of sums and differences, a power of two as unit changes no digit.", "quantifier": "all expressions of any size and depth over the listed functions, all relations between two number types, all pairs of related Series, numbers, callbacks and captured variables", "why_tests_cant": "It compares two runs over different number types for every expression and every relation; a test compares finitely many values in one type.", "anchors": ["include/dataframe/functional/map.h map", "include/dataframe/functional/filter.h filter", "include/dataframe/functional/merge.h merge", "include/dataframe/functional/utils/zip.h zip", "include/dataframe/functional/utils/unzip.h unzip", "include/dataframe/functional/utils/partition_n.h partition_n", "include/dataframe/functional/utils/concat.h concat", "include/dataframe/functional/math/equals.h equalityMask", "src/functional/math/div.cxx div", "src/functional/algebra/inv.cxx inv"]}
{"id": "C153", "title": "Pipelines of item-by-item functions can be run in parallel, on pieces and on selections", "statement": "A function works item by item when it applies one recipe to each item of the Serie it is given, and throws when the recipe throws on some item. Scaling, negating, multiplying and dividing by a number, transposing, determinants and inverses of 3D matrices, projections, normalizing vectors, eigen values and vectors of symmetric 3D matrices, and map with a callback that ignores the index work item by item; so does every pipeline made of such functions, of any length. Such a pipeline is free of undefined behaviour on non-empty Series of dimension 3; it returns on a concatenation exactly when it returns on every piece, and then the result is the concatenation of the results; parallel_execute with any number of cores and under every schedule returns what the pipeline returns on the whole Serie, and throws invalid_argument when it throws; run on a selection of the items, in any order and with repetitions, it gives the same selection of the results.", "quantifier": "all pipelines of any length over functions that work item by item, including user callbacks that throw on some items, all well-formed non-empty Series of dimension 3, all ways of cutting them, all selections, all numbers of cores, all schedules", "why_tests_cant": "Pipelines, cuttings, schedules and selections are unbounded; a test runs a few of them on a few cores.", "anchors": ["include/dataframe/functional/pipe.h pipe make_pipe", "include/dataframe/functional/utils/parallel_execute.h parallel_execute", "include/dataframe/functional/utils/partition_n.h partition_n", "include/dataframe/functional/utils/concat.h concat", "include/dataframe/functional/map.h map", "src/functional/algebra/inv.cxx inv", "src/functional/algebra/det.cxx det", "src/functional/algebra/eigen.cxx eigenValues eigenVectors", "src/functional/math/scale.cxx scale"]}
{"id": "C154", "title": "Scripts that compute new columns row by row can be run on chosen rows and in batches", "statement": "A table is a list of Series with the same number of items; its rows are the items at the same place. A function works row by row when it applies one recipe to each row and throws when the recipe throws on some row. Functions that work item by item, add, sub, mult and div on two Series, dot, cross, add and sub of a list, weighted sums, zip and map over several Series with a callback that ignores the index work row by row. A script applies such functions one after the other to chosen columns and adds each result as a new column. On a table with at least one row a script has no undefined behaviour: it throws, or returns a table with as many rows whose first columns are the given ones. Run on chosen rows, in any order and with repetitions, it gives the same rows of the table it gives on all the rows; filtering the rows first or last gives the same table; run on two batches put together with concat it returns exactly when it returns on both batches, and then its table is theirs put together with concat.", "quantifier": "all scripts of any length over functions that work row by row, including user callbacks that throw on some rows, all tables with any number of columns and at least one row, all choices of rows, all predicates on rows satisfied by some row, all cuttings in two batches", "why_tests_cant": "Scripts, tables, choices of rows and batches are unbounded; a test runs a few scripts on a few tables.", "anchors": ["include/dataframe/functional/map.h map", "include/dataframe/functional/filter.h filter", "include/dataframe/functional/utils/zip.h zip", "include/dataframe/functional/utils/concat.h concat", "src/functional/math/add.cxx add", "src/functional/math/sub.cxx sub", "src/functional/math/mult.cxx mult", "src/functional/math/div.cxx div", "src/functional/math/weightedSum.cxx weightedSum", "src/functional/algebra/cross.cxx cross", "src/functional/algebra/dot.cxx dot"]}
{"id": "C155", "title": "The order of independent computations on a Dataframe does not matter", "statement": "A step reads Series of a Dataframe by name, computes a Serie from them and stores it under a name with add. A step that returns stores its result, dimension aside, and changes no Serie found under another name, even when reading a missing name inserts an empty Serie. When no step writes what an earlier one has read or written, any two such orders of the same steps lead to the same Dataframe, count included; this fails on a Dataframe of count 0, which takes the count of the first Serie stored. When moreover no step writes what it reads, the final Dataframe is consistent (each Serie computed is what its step computes from the final Dataframe), and running any of the steps again, in any order, changes nothing. Changing some Series first changes only the results that depend on them.", "quantifier": "all Dataframes reached by any history of operations, all lists of steps with any computations, including ones that throw, reading with or without insertion, all permutations", "why_tests_cant": "Histories, lists of steps and their orders are unbounded; a test runs one order of a few steps.", "anchors": ["src/Dataframe.cxx:31-150 Dataframe"]}
{"id": "C156", "title": "Attributes follow a choice of rows and can be asked for in batches", "statement": "The scheme of a Dataframe is the list of the names and item sizes of its Series, which all have the same number of items: the rows. For a Manager whose decomposers are Components, Coordinates, EigenValues, EigenVectors and user-defined ones that compute row by row, the scheme alone decides whether a question has no answer (the empty Serie), is undefined, or is answered row by row from some columns. When the columns of a Dataframe hold chosen rows of the columns of another one, in any order and with repetitions, so does every attribute; such a Dataframe can be built. When the columns are, by concat, those of two Dataframes one after the other, an attribute is obtained exactly when it is obtained from both, and is then their concatenation. The names offered by the decomposers of the library, Normals, Area and Valence included, depend on the scheme only.", "quantifier": "all schemes, all Dataframes reached by any history of operations that have this scheme, with any number of rows (at least one), all lists of such decomposers, all names and item sizes asked for, all choices of rows, all cuttings in two batches", "why_tests_cant": "Schemes, Dataframes, choices of rows and lists of decomposers are unbounded; a test asks for a few attributes of a few Dataframes.", "anchors": ["src/attributes/Manager.cxx Manager::serie, Manager::names", "src/attributes/Components.cxx", "src/attributes/Coordinates.cxx", "src/attributes/EigenValues.cxx", "src/attributes/EigenVectors.cxx", "include/dataframe/attributes/UserDefinedDecomposer.h"]}
{"id": "C157", "title": "What the statistics are best at, and how they are related", "statement": "The distances to mean(s), with their signs, add up to zero, and the mean is the only number with the least sum of squares of the distances. covariance(s,s) is the mean of these squares; it is zero exactly if all numbers are equal, at most (b-m)(m-a) and a quarter of the square of b-a if all numbers are between a and b; no number is farther from the mean than the square root of n-1 times the variance, and at most n v/t^2 numbers are at a distance of t or more. The line of slope covariance(x,y)/covariance(x,x) through the means has the least sum of squares of the errors, n (vy - c^2/vx). Fewer than (n-1)q+1 numbers are below quantile(s,q) and fewer than (n-1)(1-q)+1 above it; at most half of the numbers are on either side of the median, and no number has a smaller sum of distances; mean and median differ at most by the square root of the variance. At most half of the numbers and one more are outliers, for every mustache not below 0.", "quantifier": "all scalar Series of any length, all fractions q in [0,1], all distances t, all straight lines, all mustaches not below 0", "why_tests_cant": "Quantifies over all competing numbers and straight lines, and over Series of all lengths.", "anchors": ["src/functional/stats/mean.cxx mean", "src/functional/stats/covariance.cxx:34-54 covariance", "src/functional/stats/quantile.cxx quantile, outliers", "include/dataframe/functional/stats/quantile.h q50"]}
{"id": "C158", "title": "Reading a histogram", "statement": "For values between start and stop: the first i counts of bins(s, nb, start, stop) add up to the number of values below start + i w, w = (stop - start)/nb; a histogram with k times as many bins, its counts added in groups of k, is the histogram; the mean read from the histogram, with all values of a bin at its middle, differs from mean(s) at most by w/2.", "quantifier": "all scalar Series of any length with values between start and stop, all numbers of bins and factors below 2^32, all ranges", "why_tests_cant": "Series, numbers of bins and factors are unbounded; a test compares a few histograms.", "anchors": ["src/functional/stats/bins.cxx:37-66 bins", "src/functional/stats/mean.cxx mean"]}
{"id": "C159", "title": "Normals of meshes made of parts", "statement": "The normals of chosen triangles are the chosen normals, in any order and with repetitions. The normals of two lists of triangles on the same points, or of two meshes put together (points after points, triangles after triangles with the numbers of the vertices shifted), are the normals of the first followed by those of the second. Two surfaces with the same border have normals with the same sum; so a point put in a triangle, wherever it is, gives three normals that add up to the one of the triangle.", "quantifier": "all meshes with any number of points and triangles, all choices of triangles, all surfaces with the same border", "why_tests_cant": "Meshes, choices and surfaces are unbounded; a test computes the normals of a few meshes.", "anchors": ["src/functional/geo/normals.cxx:36-60 normals", "include/dataframe/functional/utils/concat.h:36-68 concat"]}
{"id": "C160", "title": "Reading a sorted Serie, and how far statistics can move", "statement": "Number k of a sorted Serie is at most v exactly when more than k numbers of the Serie are, and find of the first number that is at least v gives the index that counts the numbers below v. The ends of the sorted Serie are the minimum and the maximum, and the quantile at k / (n - 1) is its number k. Its parts by partition_n are sorted and in order. Sorting the pieces first, then their concatenation, changes nothing; the sorted negation is the sorted Serie negated and reversed. When the numbers of two Series differ by at most d at every place, so do the sorted numbers, the means and the quantiles, and the IQR by at most 2 d; and smaller numbers never give a greater mean or quantile.", "quantifier": "all scalar Series of any length, all numbers v and d, all quantiles in [0, 1], all numbers of parts and of pieces, every correct std::sort", "why_tests_cant": "The claims compare the results for all pairs of Series and for all thresholds; a test sorts a few literals.", "anchors": ["include/dataframe/functional/utils/sort.h:31-74 sort", "include/dataframe/functional/find.h:46-74 find", "include/dataframe/functional/utils/partition_n.h:44-67 partition_n", "src/functional/stats/quantile.cxx:35-80", "src/functional/stats/mean.cxx:29-60 mean", "src/functional/math/minMax.cxx:29-66 minMax", "src/functional/math/negate.cxx:29-38 negate"]}
{"id": "C161", "title": "Results do not depend on the frame", "statement": "The same vectors and matrices written in two orthonormal frames give the same results: a formula made of add, sub, scale, negate, mult, dot, cross, det, transpose and inv gives the same scalars, vectors and matrices written in the new frame, and throws in one frame exactly when it throws in the other. Under a reflection, cross changes its sign and nothing else changes. The mean follows every linear map, and insar gives the same when the line of sight follows.", "quantifier": "all formulas of any depth, all orthonormal frames, all Series of scalars, vectors, matrices and symmetric matrices of dimension 3 with the same number of items, in exact arithmetic", "why_tests_cant": "Frames, formulas and Series are unbounded; a test compares a few numbers in one frame.", "anchors": ["src/functional/math/add.cxx", "src/functional/math/mult.cxx:40-89 mult", "src/functional/algebra/dot.cxx dot", "src/functional/algebra/cross.cxx cross", "src/functional/algebra/det.cxx det", "src/functional/algebra/inv.cxx:36-110 inv", "src/functional/algebra/transpose.cxx transpose", "src/functional/stats/mean.cxx:29-60 mean", "src/functional/geo/insar.cxx insar"]}
{"id": "C162", "title": "Means and covariances of combinations", "statement": "The mean of weigthedSum(series, weights) is the same combination of the means, its covariance with any Serie is the same combination of the covariances, and its variance is the quadratic form of the weights in the matrix of the covariances of the series. That matrix is therefore symmetric and positive: no weights give a negative variance, and they give zero exactly when the combination is constant.", "quantifier": "all non-empty lists of scalar Series with the same positive number of items, all weights, in exact arithmetic", "why_tests_cant": "Any number of Series of any length with any weights; a test evaluates a few sums.", "anchors": ["src/functional/math/weightedSum.cxx weigthedSum", "src/functional/stats/mean.cxx:29-60 mean", "src/functional/stats/covariance.cxx covariance"]}
{"id": "C163", "title": "Vector and Matrix agree with the functions on Series", "statement": "Item i of add, sub, mult, scale or dot of Series is what the corresponding member function of Vector gives on the Vectors of item i, with the same roundings. norm agrees as well. The product of a Matrix and a Vector is linear, and a symmetric Matrix can be moved to the other side of a dot.", "quantifier": "all Series of the same shape with items of any size, all indices, all numbers in any arithmetic; all matrices and vectors of any size for the last sentence, in exact arithmetic", "why_tests_cant": "Two implementations of the same operations must be compared on all shapes and all indices.", "anchors": ["src/view/Vector.cxx:58-117 norm, mult, add, sub, dot", "src/view/Matrix.cxx:117-135 multVec", "include/dataframe/functional/math/add.h:34-55 add", "include/dataframe/functional/math/sub.h:34-55 sub", "src/functional/math/scale.cxx scale", "src/functional/math/mult.cxx:29-89 mult", "src/functional/algebra/dot.cxx:29-39 dot", "src/functional/algebra/norm.cxx norm"]}
{"id": "C164", "title": "Which decomposers a Manager has, and in what order", "statement": "The names listed by a Manager depend on which decomposers were added, not on their order nor on how many times each was added. Adding a decomposer removes no name and changes no answer of serie other than an invalid Serie. A decomposer of the base class changes nothing, and a decomposer added twice answers as if added once. Two neighbours can be exchanged when one of them has no answer; when both have one, the first wins.", "quantifier": "all Dataframes, all lists of decomposers (of the library or user-defined, failing ones included), all item sizes and names", "why_tests_cant": "The decomposers are user-defined classes and their lists have any length.", "anchors": ["src/attributes/Manager.cxx:49-120 add, serie, names, contains", "src/attributes/Decomposer.cxx:29-35 Decomposer::names, Decomposer::serie"]}
{"id": "C165", "title": "One Serie of rows or several columns", "statement": "Working on several columns together is the same as zipping them and working on the rows: map, forEach, filter and reject make the same calls with the same effects and give the same result, before or after zip and unzip. Zipping in several steps is zipping at once. Cutting in parts and concatenating can be done before or after zip.", "quantifier": "any number of columns with any item sizes and any common count, all callbacks (with state, with exceptions), any number of parts; the zipped Serie has fewer than 2^32 numbers and items of fewer than 2^31", "why_tests_cant": "Two ways of writing the same computation must agree for any number of columns and any callback.", "anchors": ["include/dataframe/functional/utils/zip.h:50-90 zip", "include/dataframe/functional/utils/unzip.h:38-73 unzip", "include/dataframe/functional/map.h map", "include/dataframe/functional/filter.h filter", "include/dataframe/functional/utils/reject.h reject", "include/dataframe/functional/forEach.h forEach", "include/dataframe/functional/utils/partition_n.h:44-115 partition_n", "include/dataframe/functional/utils/concat.h:36-68 concat"]}
{"id": "C166", "title": "A memoized function memoized again", "statement": "Memoizing a function that is already memoized is harmless: without clears, every call has the same outcome and the function underneath runs exactly as often, on the same Series, as with one memoize. Clearing the outer cache does not make the function run again on numbers it has answered. Over any history of calls and clears the outcome is that of the function, up to the dimension of the result, when the function looks at the numbers only.", "quantifier": "all functions (with state, with exceptions), all histories of calls and clears of the outer object, all Series", "why_tests_cant": "Two caches are in step only if every history keeps them so; a test follows one history.", "anchors": ["include/dataframe/functional/utils/memoize.h:31-65 Memoized::operator(), clear_cache", "include/dataframe/functional/utils/memoize.h memoize"]}
{"id": "C167", "title": "Routines with variables, loops and handlers", "statement": "Code that keeps Series in variables, calls the arithmetic, map, filter, partition, zip, merge and matrix functions on them, branches, loops and catches exceptions has no undefined behaviour: it ends normally or with an exception, and every variable then holds a Serie with exactly the numbers of its items. A loop whose body does not make Series longer may run any number of times. Run on two kinds of numbers that agree through the operations used, the routine ends the same way with agreeing Series in all variables.", "quantifier": "all routines of any length and nesting, all callbacks and tests without undefined behaviour, all contents of the variables, any number of iterations; the largest Serie has fewer than 2^31 numbers", "why_tests_cant": "The paths through loops, branches and handlers are unbounded in number, and what one step leaves is the argument of the next.", "anchors": ["include/dataframe/Serie.h:71-140 Serie", "src/Serie.cxx", "include/dataframe/functional/math/add.h add", "include/dataframe/functional/math/sub.h sub", "include/dataframe/functional/math/scale.h scale", "include/dataframe/functional/map.h map", "include/dataframe/functional/filter.h filter", "include/dataframe/functional/utils/zip.h zip", "include/dataframe/functional/utils/concat.h concat", "include/dataframe/functional/merge.h merge", "include/dataframe/functional/algebra/inv.h inv"]}
{"id": "C168", "title": "Rounding keeps the order of numbers", "statement": "In rounded arithmetic larger numbers give larger results: add, sums and programs made of additions on Series whose numbers are at least as large return numbers at least as large; for numbers that are not negative the same holds with products, masks and dot, also in routines with loops; sub grows with its first argument and falls with its second; scale by a number that is not negative, mean, sort, and the quantiles that fall on a number, such as the median of an odd count, grow with the numbers.", "quantifier": "all Series, all roundings to nearest of any precision (quantile: at least 32 bits), all programs and routines of any size", "why_tests_cant": "Each operation rounds; that no combination of roundings reverses an order concerns all pairs of inputs, and the exception, a median that falls when a number is raised, needs numbers 2^53 apart.", "anchors": ["src/functional/math/add.cxx add", "src/functional/math/sub.cxx sub", "src/functional/math/scale.cxx scale", "src/functional/stats/mean.cxx mean", "src/functional/stats/quantile.cxx quantile", "include/dataframe/functional/utils/sort.h sort", "src/functional/algebra/dot.cxx dot"]}
{"id": "C169", "title": "Sums of numbers that are not negative survive overflow", "statement": "On values of double that are not NaN and not negative, infinities included, additions in any combination (add, sums of several Series, programs, routines with loops) give neither NaN nor anything negative, however much overflows, and larger values give larger values; the same holds for the mean of a Serie with at least one item, and for dot on finite numbers. With further products it does not hold: an overflowing product times zero is NaN.", "quantifier": "all Series of values that are not NaN and not negative, all programs and routines made of additions and of calls that move numbers, any number of loop iterations, all roundings to nearest with limited range", "why_tests_cant": "Overflow, infinities and rounding meet in combinations of unbounded size; a test only sees the ones it runs.", "anchors": ["src/functional/math/add.cxx add", "include/dataframe/functional/math/add.h add", "src/functional/stats/mean.cxx mean", "src/functional/algebra/dot.cxx dot", "src/functional/math/mult.cxx mult"]}
{"id": "C170", "title": "Error bounds for whole programs", "statement": "For any program or routine made of calls of the library that add, subtract, multiply, negate and move numbers, running it a second time on numbers that carry an error bound tells how far each rounded result is from the exact one. On numbers that are not negative, with sums and products only, each result is the exact one up to one relative rounding unit per rounding that lies behind it.", "quantifier": "all programs and routines of any size, any number of loop iterations, all Series, all roundings to nearest with any number of digits (without limit on exponents)", "why_tests_cant": "The bound concerns the result of every sequence of calls on every input; tests compare a few outputs with tolerances chosen by hand.", "anchors": ["src/functional/math/add.cxx add", "src/functional/math/sub.cxx sub", "src/functional/math/mult.cxx mult", "src/functional/math/scale.cxx scale", "src/functional/math/negate.cxx negate", "include/dataframe/functional/math/weightedSum.h weightedSum", "include/dataframe/functional/map.h map"]}
{"id": "C171", "title": "Error bounds for whole programs in double, with overflow and underflow", "statement": "For any program or routine made of calls of the library that add, subtract, multiply, divide, negate and move numbers, and for dot, cross, det, mean and covariance, running it a second time on numbers that carry an exact value and an error bound tells which results in double are finite and how far they are from the exact ones. Overflow, underflow and division by zero are taken into account.", "quantifier": "all programs and routines of any size, any number of loop iterations, all Series of values of double (infinities and NaN included)", "why_tests_cant": "The bound concerns every sequence of calls on every input, also those that overflow halfway; tests compare a few outputs with tolerances chosen by hand.", "anchors": ["src/functional/math/add.cxx add", "src/functional/math/sub.cxx sub", "src/functional/math/mult.cxx mult", "src/functional/math/div.cxx div", "src/functional/math/negate.cxx negate", "src/functional/stats/mean.cxx mean", "src/functional/stats/covariance.cxx covariance", "src/functional/algebra/dot.cxx dot", "src/functional/algebra/cross.cxx cross", "src/functional/algebra/det.cxx det"]}
{"id": "C172", "title": "Error of quantiles in rounded arithmetic", "statement": "For numbers of absolute value at most M, each within d of an exact number, quantile at any level computed with rounding is within d + 2 (n + 2) u M of the exact quantile of the exact numbers, where n is the number of values and u the rounding unit. The same bound holds for the three quartiles, and IQR is within 2 d + (4 n + 10) u M.", "quantifier": "all non-empty Series of numbers, all levels in [0, 1], all errors of the data, all roundings to nearest with at least 32 digits, all correct sorting algorithms", "why_tests_cant": "The sorted order, the position and the interpolation all change with the data; tests check a few quantiles with a tolerance chosen by hand.", "anchors": ["src/functional/stats/quantile.cxx quantile", "src/functional/stats/quantile.cxx q25", "src/functional/stats/quantile.cxx q50", "src/functional/stats/quantile.cxx q75", "src/functional/stats/quantile.cxx IQR", "include/dataframe/functional/utils/sort.h sort"]}
{"id": "C173", "title": "Quantiles in double with overflow and underflow", "statement": "For finite doubles, each within d of an exact number and of absolute value at most M, quantile at any level is finite and within d + 2 (n + 2) u M + 2 t of the exact quantile of the exact numbers, where n is the number of values, u = 2^-53 and t is half of the smallest positive double. The same bound holds for the three quartiles; IQR is finite and within 2 d + (4 n + 11) u M + 5 t. A level outside [0, 1], infinite or NaN is rejected. Rounding never carries a quantile past the two sorted values it is interpolated from: it lies between them, so between the smallest and the largest value. It never decreases when the level grows; level 0 gives the smallest value and level 1 the largest; the quartiles are in ascending order and IQR is not negative.", "quantifier": "all non-empty Series of finite doubles, all levels in [0, 1], all errors of the data, all correct sorting algorithms", "why_tests_cant": "The extreme doubles and the very small ones are not in the tests, and a finite difference of two numbers can overflow although every quantile is in range.", "anchors": ["src/functional/stats/quantile.cxx quantile", "src/functional/stats/quantile.cxx q25", "src/functional/stats/quantile.cxx q50", "src/functional/stats/quantile.cxx q75", "src/functional/stats/quantile.cxx IQR", "include/dataframe/functional/utils/sort.h sort"]}
{"id": "C174", "title": "bins in double with overflow and underflow", "statement": "For finite doubles between start and stop, bins gives nb exact counts that sum to the number of values; larger values are never counted in an earlier bin; start is counted in the first bin and stop in the last; a value counted in bin i lies in that bin up to 8 u (stop - start), u = 2^-53.", "quantifier": "all scalar Series of finite doubles, all finite bounds, all numbers of bins below 2^32", "why_tests_cant": "The behaviour depends on the size of the range: for very small or very large ranges the width of a bin underflows or overflows; tests use ordinary numbers.", "anchors": ["src/functional/stats/bins.cxx bins"]}
