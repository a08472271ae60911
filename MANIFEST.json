{
 "claims": [
  {
   "property": "C01",
   "status": "proved",
   "theorems": [
    "DF.C01_construct",
    "DF.C01_itemSize_zero",
    "DF.C01_zeros",
    "DF.C01_zeros_overflow"
   ],
   "note": ""
  },
  {
   "property": "C02",
   "status": "proved",
   "theorems": [
    "DF.C02_set_array",
    "DF.C02_setValue",
    "DF.C02_set_double",
    "DF.C02_setScalar"
   ],
   "note": ""
  },
  {
   "property": "C03",
   "status": "proved",
   "theorems": [
    "DF.C03_set_array",
    "DF.C03_setValue",
    "DF.C03_set_double",
    "DF.C03_setScalar"
   ],
   "note": ""
  },
  {
   "property": "C04",
   "status": "partial",
   "theorems": [
    "DF.C04_violated",
    "DF.C04_partial",
    "DF.C04_scalar_at_size",
    "DF.C04_get_past_end",
    "DF.C04_get_wraps"
   ],
   "note": "Violated by the code: several reads are unchecked (get<Array>, value) or checked with an off-by-one (scalar); C04_violated and the theorems beside it give the inputs, C04_partial the range where reads are safe."
  },
  {
   "property": "C05",
   "status": "partial",
   "theorems": [
    "DF.C05_copy",
    "DF.C05_violated",
    "DF.C05_partial",
    "DF.C05_clone_invalid"
   ],
   "note": "Violated by the code: assignment keeps the target's dimension and clone resets it to 3; C05_partial covers everything else, C05_copy the copy constructor."
  },
  {
   "property": "C06",
   "status": "proved",
   "theorems": [
    "DF.C06_reachable_wellformed",
    "DF.C06_reachable_reads"
   ],
   "note": ""
  },
  {
   "property": "C07",
   "status": "proved",
   "theorems": [
    "DF.C07_reCount"
   ],
   "note": ""
  },
  {
   "property": "C08",
   "status": "proved",
   "theorems": [
    "DF.C08_map_number_to_number",
    "DF.C08_map_array_to_number",
    "DF.C08_map_number_to_array",
    "DF.C08_map_array_to_array",
    "DF.C08_map_number_to_number_stateful",
    "DF.C08_map_array_to_number_stateful",
    "DF.C08_map_observe"
   ],
   "note": ""
  },
  {
   "property": "C09",
   "status": "proved",
   "theorems": [
    "DF.C09_map_id",
    "DF.C09_map_comp",
    "DF.C09_map_scalar_id_comp"
   ],
   "note": ""
  },
  {
   "property": "C10",
   "status": "proved",
   "theorems": [
    "DF.C10_ragged_throws",
    "DF.C10_ragged_throws_number",
    "DF.C10_never_ragged",
    "DF.C10_never_ragged_number",
    "DF.C10_empty",
    "DF.C10_empty_rows_undefined",
    "DF.C10_ragged_throws_multi",
    "DF.C10_never_ragged_multi"
   ],
   "note": ""
  },
  {
   "property": "C11",
   "status": "partial",
   "theorems": [
    "DF.C11_counts_differ",
    "DF.C11_partial",
    "DF.C11_partial_array",
    "DF.C11_violated"
   ],
   "note": "Violated by the code on empty Series (row 0 is read and passed to the callback); C11_partial covers non-empty Series."
  },
  {
   "property": "C12",
   "status": "proved",
   "theorems": [
    "DF.C12_filter_number",
    "DF.C12_filter_array",
    "DF.C12_filter_stateful",
    "DF.C12_filter_pure"
   ],
   "note": ""
  },
  {
   "property": "C13",
   "status": "proved",
   "theorems": [
    "DF.C13_reject_is_filter_not",
    "DF.C13_complement",
    "DF.C13_complement_number"
   ],
   "note": ""
  },
  {
   "property": "C14",
   "status": "proved",
   "theorems": [
    "DF.C14_find_number",
    "DF.C14_find_array",
    "DF.C14_findAll_is_filter"
   ],
   "note": ""
  },
  {
   "property": "C15",
   "status": "proved",
   "theorems": [
    "DF.C15_partition",
    "DF.C15_partition_throws"
   ],
   "note": ""
  },
  {
   "property": "C16",
   "status": "proved",
   "theorems": [
    "DF.C16_reduce",
    "DF.C16_reduce_pure",
    "DF.C16_reduce_array",
    "DF.C16_reduce_empty",
    "DF.C16_reduce_concat"
   ],
   "note": ""
  },
  {
   "property": "C17",
   "status": "proved",
   "theorems": [
    "DF.C17_forEach_number",
    "DF.C17_forEach_array",
    "DF.C17_forEach_generic",
    "DF.C17_forEach_multi",
    "DF.C17_forEach_kind"
   ],
   "note": ""
  },
  {
   "property": "C18",
   "status": "partial",
   "theorems": [
    "DF.C18_partial",
    "DF.C18_violated",
    "DF.C18_silent"
   ],
   "note": "Violated by map, filter, reject, findAll, reduce and check; holds for forEach, find and partition (C18_partial)."
  },
  {
   "property": "C19",
   "status": "proved",
   "theorems": [
    "DF.C19_merge_concatenate",
    "DF.C19_merge_interleave",
    "DF.C19_merge_variadic",
    "DF.C19_no_loss",
    "DF.C19_sizes_differ"
   ],
   "note": ""
  },
  {
   "property": "C20",
   "status": "proved",
   "theorems": [
    "DF.C20_pipe_left_to_right",
    "DF.C20_compose_right_to_left",
    "DF.C20_pipe_associative",
    "DF.C20_compose_associative",
    "DF.C20_exception_stops",
    "DF.C20_make_op"
   ],
   "note": ""
  },
  {
   "property": "C21",
   "status": "proved",
   "theorems": [
    "DF.C21_filter_multi",
    "DF.C21_reject_multi",
    "DF.C21_filterAll_rejectAll",
    "DF.C21_counts_differ"
   ],
   "note": ""
  },
  {
   "property": "C22",
   "status": "proved",
   "theorems": [
    "DF.C22_concat",
    "DF.C22_concat_throws",
    "DF.C22_concat_associative"
   ],
   "note": ""
  },
  {
   "property": "C23",
   "status": "proved",
   "theorems": [
    "DF.C23_partition",
    "DF.C23_even",
    "DF.C23_partition_multi",
    "DF.C23_multi_throws"
   ],
   "note": ""
  },
  {
   "property": "C24",
   "status": "proved",
   "theorems": [
    "DF.C24_parallel_is_sequential",
    "DF.C24_map_numbers",
    "DF.C24_map_arrays"
   ],
   "note": ""
  },
  {
   "property": "C25",
   "status": "proved",
   "theorems": [
    "DF.C25_deterministic",
    "DF.C25_first_failure",
    "DF.C25_terminates",
    "DF.C25_no_job_left",
    "DF.C25_zero_cores"
   ],
   "note": ""
  },
  {
   "property": "C26",
   "status": "partial",
   "theorems": [
    "DF.C26_transparent_partial",
    "DF.C26_same_item_size_partial",
    "DF.C26_item_size_violated",
    "DF.C26_dimension_violated"
   ],
   "note": "Violated by the code: the cache key ignores the item size and cached results lose their dimension. C26_same_item_size_partial gives exact transparency when item sizes agree and results have dimension 3; C26_transparent_partial covers every history up to the dimension."
  },
  {
   "property": "C27",
   "status": "proved",
   "theorems": [
    "DF.C27_at_most_once",
    "DF.C27_at_most_once_total",
    "DF.C27_repeat_invokes_nothing",
    "DF.C27_throw_caches_nothing",
    "DF.C27_clear_then_invokes"
   ],
   "note": ""
  },
  {
   "property": "C28",
   "status": "partial",
   "theorems": [
    "DF.C28_zip",
    "DF.C28_unzip_zip",
    "DF.C28_zip_unzip",
    "DF.C28_throws_partial",
    "DF.C28_wrong_sizes_violated"
   ],
   "note": "Round trips and throwing on bad input are proved; the sum of the sizes given to unzip is computed modulo 2^32, so wrong sizes with a wrapped sum are accepted (C28_wrong_sizes_violated)."
  },
  {
   "property": "C29",
   "status": "proved",
   "theorems": [
    "DF.C29_sort_comparator",
    "DF.C29_sort_numbers",
    "DF.C29_sort_vectors",
    "DF.C29_deterministic",
    "DF.C29_idempotent"
   ],
   "note": ""
  },
  {
   "property": "C30",
   "status": "proved",
   "theorems": [
    "DF.C30_refines_map",
    "DF.C30_frame"
   ],
   "note": ""
  },
  {
   "property": "C31",
   "status": "partial",
   "theorems": [
    "DF.C31_lookup_violated",
    "DF.C31_lookup_partial"
   ],
   "note": "Violated by the code: non-const [] and get insert a missing name; C31_lookup_partial says exactly what an access changes."
  },
  {
   "property": "C32",
   "status": "partial",
   "theorems": [
    "DF.C32_dimension_violated",
    "DF.C32_stores_partial"
   ],
   "note": "Violated by the code: the dimension is reset to 3; C32_stores_partial covers everything else."
  },
  {
   "property": "C33",
   "status": "proved",
   "theorems": [
    "DF.C33_setCount"
   ],
   "note": ""
  },
  {
   "property": "C34",
   "status": "partial",
   "theorems": [
    "DF.C34_comparator_violated",
    "DF.C34_comparator_partial"
   ],
   "note": "Violated by the code: for item size 1 the comparator is ignored and ascending order is used; C34_comparator_partial characterises the result."
  },
  {
   "property": "C35",
   "status": "proved",
   "theorems": [
    "DF.C35_add",
    "DF.C35_sub",
    "DF.C35_add_comm",
    "DF.C35_add_assoc",
    "DF.C35_sub_add",
    "DF.C35_add_sub",
    "DF.C35_add_variadic",
    "DF.C35_add_variadic_throws",
    "DF.C35_add_list",
    "DF.C35_sub_list",
    "DF.C35_number"
   ],
   "note": ""
  },
  {
   "property": "C36",
   "status": "proved",
   "theorems": [
    "DF.C36_scale",
    "DF.C36_scale_by",
    "DF.C36_negate",
    "DF.C36_mult",
    "DF.C36_div",
    "DF.C36_negate_negate",
    "DF.C36_scale_scale",
    "DF.C36_div_mult",
    "DF.C36_mult_serie"
   ],
   "note": ""
  },
  {
   "property": "C37",
   "status": "proved",
   "theorems": [
    "DF.C37_div_serie",
    "DF.C37_div_serie_throws"
   ],
   "note": ""
  },
  {
   "property": "C38",
   "status": "proved",
   "theorems": [
    "DF.C38_weightedSum",
    "DF.C38_weightedSum_throws",
    "DF.C38_linear_in_weights",
    "DF.C38_homogeneous",
    "DF.C38_linear_in_series"
   ],
   "note": ""
  },
  {
   "property": "C39",
   "status": "proved",
   "theorems": [
    "DF.C39_minMax",
    "DF.C39_minMax_edge"
   ],
   "note": ""
  },
  {
   "property": "C40",
   "status": "proved",
   "theorems": [
    "DF.C40_normalize_scalar",
    "DF.C40_normalize_items",
    "DF.C40_normalize_empty"
   ],
   "note": ""
  },
  {
   "property": "C41",
   "status": "partial",
   "theorems": [
    "DF.C41_equals_iff",
    "DF.C41_equals_equivalence",
    "DF.C41_equalsAll",
    "DF.C41_approximatelyEquals_partial",
    "DF.C41_approximatelyEquals_violated",
    "DF.C41_approximately_laws",
    "DF.C41_approximatelyEqualsAll_partial",
    "DF.C41_approximatelyEqualsAll_violated"
   ],
   "note": "equals and equalsAll fully proved. approximatelyEquals compares with the three-iterator std::equal: when the first Serie has trailing numbers beyond count*itemSize and the second has not, it reads past the end (C41_approximatelyEquals_violated); proved for arrays of equal length. approximatelyEqualsAll only compares neighbours: the i-th Serie is within i * eps of the first, not within eps (C41_approximatelyEqualsAll_violated)."
  },
  {
   "property": "C42",
   "status": "proved",
   "theorems": [
    "DF.C42_equalityMask",
    "DF.C42_approximateEqualityMask"
   ],
   "note": ""
  },
  {
   "property": "C43",
   "status": "proved",
   "theorems": [
    "DF.C43_random",
    "DF.C43_random_stream"
   ],
   "note": ""
  },
  {
   "property": "C44",
   "status": "partial",
   "theorems": [
    "DF.C44_violated",
    "DF.C44_bins_partial",
    "DF.C44_bins_range",
    "DF.C44_constant_violated",
    "DF.C44_edge"
   ],
   "note": "Violated for values at or above start + 2^32*w (index conversion to uint32 is undefined) and for bins(s, nb) of a constant Serie (0/0). Proved for all values in [start, start + 2^32*w): every count, total, and empty/invalid cases."
  },
  {
   "property": "C45",
   "status": "proved",
   "theorems": [
    "DF.C45_mean",
    "DF.C45_between",
    "DF.C45_additive",
    "DF.C45_homogeneous",
    "DF.C45_translation"
   ],
   "note": "Exact arithmetic in an ordered field."
  },
  {
   "property": "C46",
   "status": "proved",
   "theorems": [
    "DF.C46_covariance",
    "DF.C46_throws",
    "DF.C46_symmetric",
    "DF.C46_cauchy_schwarz",
    "DF.C46_shift"
   ],
   "note": "Exact arithmetic; Cauchy-Schwarz stated with squares."
  },
  {
   "property": "C47",
   "status": "proved",
   "theorems": [
    "DF.C47_interpolates",
    "DF.C47_monotone",
    "DF.C47_endpoints",
    "DF.C47_between",
    "DF.C47_quartiles",
    "DF.C47_order_independent",
    "DF.C47_throws",
    "DF.C47_empty"
   ],
   "note": "Exact arithmetic with floor; std::sort by contract. Hypothesis count < 2^32. C47_empty shows the empty Serie is undefined behaviour."
  },
  {
   "property": "C48",
   "status": "proved",
   "theorems": [
    "DF.C48_outliers",
    "DF.C48_split",
    "DF.C48_antitone"
   ],
   "note": "Follows the interquartile bounds of C47."
  },
  {
   "property": "C49",
   "status": "partial",
   "theorems": [
    "DF.C49_entries",
    "DF.C49_involution_partial",
    "DF.C49_involution_dim3_partial",
    "DF.C49_dimension_violated",
    "DF.C49_empty_violated",
    "DF.C49_throws"
   ],
   "note": "Violated as stated: the result always has dimension 3, so transposing a 2x2 Serie of dimension 2 changes its dimension, and transposing an empty Serie gives an invalid Serie. Entry-wise transposition and the rejection of other item sizes are proved for every non-empty Serie; double transposition restores the entries in general and the Serie itself for dimension 3."
  },
  {
   "property": "C50",
   "status": "partial",
   "theorems": [
    "DF.C50_full_partial",
    "DF.C50_symmetric_violated",
    "DF.C50_throws",
    "DF.C50_transpose_partial",
    "DF.C50_transpose_2d_violated"
   ],
   "note": "Violated: with symmetric storage (item size 3 or 6) the code reads a dangling reference, and det of the transpose of a 2x2 Serie throws. Proved: full storage gives the determinant; unsupported shapes throw; det of the transpose equals det for item size 9."
  },
  {
   "property": "C51",
   "status": "proved",
   "theorems": [
    "DF.C51_inverse",
    "DF.C51_throws",
    "DF.C51_returns_iff",
    "DF.C51_other_shapes"
   ],
   "note": ""
  },
  {
   "property": "C52",
   "status": "partial",
   "theorems": [
    "DF.C52_violated",
    "DF.C52_entries_partial",
    "DF.C52_symmetric_partial",
    "DF.C52_throws"
   ],
   "note": "Violated: one off-diagonal entry of the inverse of a full 3x3 matrix is wrong (witness over the rationals). Proved: all the other entries are those of the inverse, the result is the inverse when the matrix is symmetric, and near-singular matrices throw."
  },
  {
   "property": "C53",
   "status": "proved",
   "theorems": [
    "DF.C53_cross",
    "DF.C53_antisymmetric",
    "DF.C53_parallel",
    "DF.C53_throws",
    "DF.C53_shorter_ub"
   ],
   "note": ""
  },
  {
   "property": "C54",
   "status": "proved",
   "theorems": [
    "DF.C54_dot",
    "DF.C54_symmetric",
    "DF.C54_additive",
    "DF.C54_homogeneous",
    "DF.C54_self",
    "DF.C54_cauchy_schwarz",
    "DF.C54_array",
    "DF.C54_array_length"
   ],
   "note": ""
  },
  {
   "property": "C55",
   "status": "partial",
   "theorems": [
    "DF.C55_vectors_violated",
    "DF.C55_scalars_violated",
    "DF.C55_empty_violated",
    "DF.C55_one_item_partial",
    "DF.C55_norm2_partial"
   ],
   "note": "Violated: undefined behaviour for two or more vectors, one item returned for an empty Serie, and the square root of a scalar instead of its absolute value. Proved: the Euclidean norm for a single vector, and the sum of squares for norm2 of a single vector."
  },
  {
   "property": "C56",
   "status": "proved",
   "theorems": [
    "DF.C56_system",
    "DF.C56_functions_agree",
    "DF.C56_stops",
    "DF.C56_rebuild"
   ],
   "note": "Exact real arithmetic with exact pi, atan, sin and cos. The residual bound is 2e-5 times the sum of squares above the diagonal. The number of items must be such that the vectors fit in a Serie."
  },
  {
   "property": "C57",
   "status": "proved",
   "theorems": [
    "DF.C57_sorted"
   ],
   "note": "Exact real arithmetic, as C56."
  },
  {
   "property": "C58",
   "status": "proved",
   "theorems": [
    "DF.C58_exact"
   ],
   "note": "Exact real arithmetic, as C56."
  },
  {
   "property": "C59",
   "status": "proved",
   "theorems": [
    "DF.C59_normals",
    "DF.C59_perpendicular",
    "DF.C59_swapped",
    "DF.C59_shape",
    "DF.C59_area"
   ],
   "note": "Exact arithmetic, over any ordered field with a floor; the area over the reals."
  },
  {
   "property": "C60",
   "status": "partial",
   "theorems": [
    "DF.C60_violated",
    "DF.C60_shape_partial"
   ],
   "note": "Violated: math::div(norms, 2) is the overload on two Series, so areas of every mesh with at most one triangle throws, and with two or more triangles is undefined behaviour (through the norm function). C60_shape_partial: other shapes also throw."
  },
  {
   "property": "C61",
   "status": "partial",
   "theorems": [
    "DF.C61_insar",
    "DF.C61_insar_shape",
    "DF.C61_insar_empty_violated",
    "DF.C61_fringes",
    "DF.C61_periodic"
   ],
   "note": "Exact arithmetic. C61_fringes gives the value; C61_periodic the equivalence for equal signs. insar of an empty Serie is undefined behaviour (C61_insar_empty_violated)."
  },
  {
   "property": "C62",
   "status": "partial",
   "theorems": [
    "DF.C62_points",
    "DF.C62_dims",
    "DF.C62_corners",
    "DF.C62_inside",
    "DF.C62_throws",
    "DF.C62_overflow_violated"
   ],
   "note": "Holds for products below 2^32/3 (C62_points, C62_dims, C62_corners, C62_inside); violated between 2^32/3 and 2^32 (C62_overflow_violated): the size of the data wraps around and points are written past its end."
  },
  {
   "property": "C63",
   "status": "proved",
   "theorems": [
    "DF.C63_packed_symmetric",
    "DF.C63_packed_bijection",
    "DF.C63_full_bijection",
    "DF.C63_entry",
    "DF.C63_multVec",
    "DF.C63_multVec_throws",
    "DF.C63_trace",
    "DF.C63_isSymmetric",
    "DF.C63_array_symmetric",
    "DF.C63_array_full"
   ],
   "note": ""
  },
  {
   "property": "C64",
   "status": "partial",
   "theorems": [
    "DF.C64_integers_partial",
    "DF.C64_normalize_partial",
    "DF.C64_truncation_violated",
    "DF.C64_overflow_violated",
    "DF.C64_upper_bound_partial"
   ],
   "note": "Violated: the sum of squares is accumulated in an int, so fractions are truncated at each step and a number of absolute value 2^16 or more is undefined behaviour. Proved: the Euclidean length and unit normalization for integer-valued arrays whose sum of squares is below 2^31, and an upper bound for all arrays."
  },
  {
   "property": "C65",
   "status": "partial",
   "theorems": [
    "DF.C65_names",
    "DF.C65_builtin",
    "DF.C65_dimension_violated"
   ],
   "note": "Holds for stored Series of the dimension of the manager. C65_dimension_violated: the Dataframe forgets the dimension, so a manager of dimension 2 lists no stored name."
  },
  {
   "property": "C66",
   "status": "partial",
   "theorems": [
    "DF.C66_stored",
    "DF.C66_first",
    "DF.C66_none",
    "DF.C66_contains",
    "DF.C66_zero_violated",
    "DF.C66_add"
   ],
   "note": "Proved for stored Series whose count matches their numbers. C66_zero_violated: item size 0 (an invalid Serie stored by operator[]) divides by zero in clone()."
  },
  {
   "property": "C67",
   "status": "partial",
   "theorems": [
    "DF.C67_eigen_violated",
    "DF.C67_empty_violated",
    "DF.C67_components_partial",
    "DF.C67_mesh_violated",
    "DF.C67_coordinates_partial",
    "DF.C67_mesh_partial"
   ],
   "note": "Violated by eigenvalues (C67_eigen_violated), Series of no items (C67_empty_violated) and meshes without indices (C67_mesh_violated). Proved with Components, Coordinates, Normals or Valence under stated conditions."
  },
  {
   "property": "C68",
   "status": "partial",
   "theorems": [
    "DF.C68_names",
    "DF.C68_others_violated",
    "DF.C68_number_partial",
    "DF.C68_plane_names",
    "DF.C68_no_names",
    "DF.C68_vector",
    "DF.C68_symmetric",
    "DF.C68_full_partial",
    "DF.C68_full_violated",
    "DF.C68_clash_violated",
    "DF.C68_plane_violated"
   ],
   "note": "Vectors and symmetric tensors proved. Violated: yy, yz, zz of full tensors give yx, yy, yz (C68_full_violated); a stored 'Nx' makes 'Nxy' read out of bounds (C68_clash_violated); plane Series get the names of 3D ones (C68_plane_violated); other item sizes list only '0' (C68_others_violated)."
  },
  {
   "property": "C69",
   "status": "partial",
   "theorems": [
    "DF.C69_violated",
    "DF.C69_values_partial",
    "DF.C69_vectors_violated",
    "DF.C69_names",
    "DF.C69_plane_names"
   ],
   "note": "Violated for every Dataframe: the character code 49..51 is compared with 1..3, so the attributes are always invalid (C69_violated). With control characters 1..3 in place of digits the values are right (C69_values_partial); the vectors are still scalars (C69_vectors_violated)."
  },
  {
   "property": "C70",
   "status": "partial",
   "theorems": [
    "DF.C70_names",
    "DF.C70_coordinates",
    "DF.C70_other",
    "DF.C70_few_names_violated",
    "DF.C70_plane_violated"
   ],
   "note": "Proved for three distinct names and 3D positions. With fewer names (C70_few_names_violated) or 2D positions (C70_plane_violated) the lookup reads out of bounds."
  },
  {
   "property": "C71",
   "status": "proved",
   "theorems": [
    "DF.C71_valence",
    "DF.C71_other",
    "DF.C71_missing"
   ],
   "note": "Exact numbers; vertex numbers converted to size_t by truncation."
  },
  {
   "property": "C72",
   "status": "partial",
   "theorems": [
    "DF.C72_violated",
    "DF.C72_partial"
   ],
   "note": "Violated: with only one of positions and indices stored the names are listed (C72_violated)."
  },
  {
   "property": "C73",
   "status": "proved",
   "theorems": [
    "DF.C73_check"
   ],
   "note": ""
  },
  {
   "property": "C74",
   "status": "partial",
   "theorems": [
    "DF.C74_empty_name_violated",
    "DF.C74_contains_serie_partial"
   ],
   "note": "Violated by the code for the empty name; holds for every other name."
  },
  {
   "property": "C75",
   "status": "partial",
   "theorems": [
    "DF.C75_variadic_of_sub_header",
    "DF.C75_variadic_of_sub_header_violated"
   ],
   "note": "Violated: the template of sub.h calls sub, so add(a,b,c) = -(a+b+c); proved in general and on a witness."
  },
  {
   "property": "C76",
   "status": "partial",
   "theorems": [
    "DF.C76_add_sub_empty",
    "DF.C76_empty_item_size_violated",
    "DF.C76_item_size_partial"
   ],
   "note": "Violated for the functions built on map: an empty Serie gives Serie(0,0), which is not valid. Holds for the binary add and sub, and for non-empty Series (C76_item_size_partial)."
  },
  {
   "property": "C77",
   "status": "partial",
   "theorems": [
    "DF.C77_transpose_violated",
    "DF.C77_multMat_violated",
    "DF.C77_multMat_throws",
    "DF.C77_symSquaredMatrix_violated",
    "DF.C77_symSquaredMatrix_length_violated",
    "DF.C77_symSquaredMatrix_returns",
    "DF.C77_unusable_violated",
    "DF.C77_squaredMatrix_partial"
   ],
   "note": "Violated: the three functions return a Matrix referring to a destroyed local array, so every read is undefined behaviour. Proved: squaredMatrix, whose array belongs to the caller, can be read."
  },
  {
   "property": "C78",
   "status": "proved",
   "theorems": [
    "DF.C78_add",
    "DF.C78_sub",
    "DF.C78_mult",
    "DF.C78_shorter_ub",
    "DF.C78_scale",
    "DF.C78_dot",
    "DF.C78_dot_shorter_ub",
    "DF.C78_dot_symmetric",
    "DF.C78_dot_self"
   ],
   "note": ""
  },
  {
   "property": "C79",
   "status": "partial",
   "theorems": [
    "DF.C79_throws",
    "DF.C79_system_partial",
    "DF.C79_dimension_violated",
    "DF.C79_empty_violated"
   ],
   "note": "Violated: for a dimension other than 2 and 3 with items of fewer than 6 numbers eigenValues and eigenVectors read out of bounds; on an empty Serie they return an invalid Serie."
  },
  {
   "property": "C80",
   "status": "partial",
   "theorems": [
    "DF.C80_centred_partial",
    "DF.C80_one_point_violated"
   ],
   "note": "Violated along an axis with one point and a non-zero extent (C80_one_point_violated, the default arguments); C80_centred_partial covers axes with at least two points or an extent of zero."
  },
  {
   "property": "C81",
   "status": "partial",
   "theorems": [
    "DF.C81_normals",
    "DF.C81_other",
    "DF.C81_area_violated",
    "DF.C81_area_empty_violated",
    "DF.C81_area_partial"
   ],
   "note": "Normals proved. Areas: undefined behaviour from two triangles on (C81_area_violated), one area for no triangle (C81_area_empty_violated); right for one triangle (C81_area_partial)."
  },
  {
   "property": "C82",
   "status": "partial",
   "theorems": [
    "DF.C82_user",
    "DF.C82_dangling_violated",
    "DF.C82_throws"
   ],
   "note": "Proved while the callable exists. The decomposer keeps a reference: undefined behaviour once the callable is gone (C82_dangling_violated)."
  },
  {
   "property": "C83",
   "status": "partial",
   "theorems": [
    "DF.C83_print_partial",
    "DF.C83_print_multi_partial",
    "DF.C83_print_single",
    "DF.C83_text_determines",
    "DF.C83_text_items",
    "DF.C83_print_violated"
   ],
   "note": "Proved for every well-formed Serie (positive item size, enough numbers): exact text, numbering, and injectivity of the text. Missing, and false: a Serie of item size 0 with items (Serie(0, n)) is undefined behaviour."
  },
  {
   "property": "C84",
   "status": "partial",
   "theorems": [
    "DF.C84_text_partial",
    "DF.C84_cerr_partial",
    "DF.C84_stream_violated",
    "DF.C84_spare_violated",
    "DF.C84_nodata_violated",
    "DF.C84_series_partial"
   ],
   "note": "Violated: the operator writes to std::cerr whatever the stream, writes spare numbers, and reads outside an empty array. Proved part: exact text sent to std::cerr, and the split of the text of a list of Series between the two streams."
  },
  {
   "property": "C85",
   "status": "partial",
   "theorems": [
    "DF.C85_array_partial",
    "DF.C85_array_empty_violated",
    "DF.C85_array_stream_violated",
    "DF.C85_names_partial",
    "DF.C85_names_stream_violated",
    "DF.C85_dump"
   ],
   "note": "Violated: arrays go to std::cout and names to std::cerr whatever the stream; the empty array is written '[[]'. Proved: the exact texts and where they go, and dump()."
  },
  {
   "property": "C86",
   "status": "partial",
   "theorems": [
    "DF.C86_mean_error",
    "DF.C86_mean_double",
    "DF.C86_mean_whole",
    "DF.C86_mean_range_violated"
   ],
   "note": "Error bound, explicit bound for double and exactness on whole numbers proved for all Series. The last part (mean between min and max) is violated: five copies of 2^p-1 have mean 2^p-2, for every p >= 32 and every rounding to nearest. Model: unlimited exponents (no overflow, underflow, infinity, NaN)."
  },
  {
   "property": "C87",
   "status": "proved",
   "theorems": [
    "DF.C87_dot_error",
    "DF.C87_dot_whole",
    "DF.C87_dot_symmetric",
    "DF.C87_dot_self_nonneg",
    "DF.C87_insar_error",
    "DF.C87_weightedSum_error"
   ],
   "note": "Model: unlimited exponents (no overflow, underflow, infinity, NaN)."
  },
  {
   "property": "C88",
   "status": "proved",
   "theorems": [
    "DF.C88_covariance_error",
    "DF.C88_variance_nonneg",
    "DF.C88_covariance_symmetric"
   ],
   "note": "Model: unlimited exponents (no overflow, underflow, infinity, NaN)."
  },
  {
   "property": "C89",
   "status": "partial",
   "theorems": [
    "DF.C89_add_sub_whole",
    "DF.C89_add_sub_cancel",
    "DF.C89_add_sub_cancel_violated",
    "DF.C89_add_commutative"
   ],
   "note": "Exactness, cancellation on whole numbers and commutativity proved. sub(add(a,b),b)=a fails in general: a=1, b=2^(p+1) for every precision and rounding."
  },
  {
   "property": "C90",
   "status": "proved",
   "theorems": [
    "DF.C90_det2_error",
    "DF.C90_det3_error",
    "DF.C90_det_whole",
    "DF.C90_cross_error",
    "DF.C90_cross_antisymmetric"
   ],
   "note": "The symmetry of cross is for roundings symmetric around zero (IEEE); an example shows that one exists. Symmetric storage of matrices (3 or 6 numbers) is not covered by the error bounds."
  },
  {
   "property": "C91",
   "status": "partial",
   "theorems": [
    "DF.C91_normalize_scalar",
    "DF.C91_max_violated",
    "DF.C91_normalize_items",
    "DF.C91_normalize_double"
   ],
   "note": "Everything proved except that the largest value gives 1: it gives at least 1-2^-p, and {0,49} in double gives (1-2^-53), whatever the rounding to nearest."
  },
  {
   "property": "C92",
   "status": "proved",
   "theorems": [
    "DF.C92_approximatelyEquals",
    "DF.C92_approximateEqualityMask"
   ],
   "note": "Model: unlimited exponents (no overflow, underflow, infinity, NaN)."
  },
  {
   "property": "C93",
   "status": "proved",
   "theorems": [
    "DF.C93_equals",
    "DF.C93_not_reflexive",
    "DF.C93_approximatelyEquals",
    "DF.C93_masks"
   ],
   "note": "Values: finite numbers of any type, two infinities, one NaN."
  },
  {
   "property": "C94",
   "status": "partial",
   "theorems": [
    "DF.C94_minMax_scalar",
    "DF.C94_all_nan_violated",
    "DF.C94_minMax_items_partial",
    "DF.C94_first_item_violated",
    "DF.C94_infinite_violated"
   ],
   "note": "Proved for scalar Series (numbers within the limits of double), and for the components of vector Series whose first item is finite. Violated otherwise: a NaN in the first item of a vector Serie makes that component NaN whatever the other items, a scalar Serie of NaN only gives (DBL_MAX, -DBL_MAX), and the minimum of a scalar Serie of +inf is DBL_MAX."
  },
  {
   "property": "C95",
   "status": "proved",
   "theorems": [
    "DF.C95_add_sub",
    "DF.C95_dot",
    "DF.C95_weightedSum",
    "DF.C95_mean",
    "DF.C95_covariance"
   ],
   "note": "Finite numbers in a linearly ordered field for mean and covariance (no overflow)."
  },
  {
   "property": "C96",
   "status": "partial",
   "theorems": [
    "DF.C96_normalize_constant_violated",
    "DF.C96_normalize_items",
    "DF.C96_mean_empty_violated",
    "DF.C96_div_zero_violated",
    "DF.C96_div_serie"
   ],
   "note": "div by a Serie proved. normalize of a vector Serie: finite except for zero items, which become NaN (proved exactly). Violated: normalize of a constant scalar Serie is NaN everywhere, the mean of an empty scalar Serie is NaN, div by the number 0 gives infinities and NaN."
  },
  {
   "property": "C97",
   "status": "partial",
   "theorems": [
    "DF.C97_not_strict_weak",
    "DF.C97_sort_partial",
    "DF.C97_sort_violated"
   ],
   "note": "Proved when no number is NaN (infinities included). Violated otherwise: with a NaN and two different numbers, < is not a strict weak order, so a std::sort that meets its contract may do anything."
  },
  {
   "property": "C98",
   "status": "partial",
   "theorems": [
    "DF.C98_nan_captures_all_violated",
    "DF.C98_wrong_result_violated",
    "DF.C98_nan_lost_violated",
    "DF.C98_undefined_violated",
    "DF.C98_transparent_partial",
    "DF.C98_at_most_once_partial"
   ],
   "note": "Holds without NaN, infinities included (up to the dimension of cached results, see C26). Violated with NaN: a key that starts with NaN is equivalent to every other non-empty key, so once such a Serie has been cached every later call answers with its result (proved for all functions and histories), and with two different keys cached a NaN key is undefined behaviour of std::map."
  },
  {
   "property": "C99",
   "status": "proved",
   "theorems": [
    "DF.C99_between_neighbours",
    "DF.C99_monotone",
    "DF.C99_node",
    "DF.C99_endpoints",
    "DF.C99_in_range",
    "DF.C99_quartiles",
    "DF.C99_median_odd",
    "DF.C99_order_independent"
   ],
   "note": "For p >= 32 binary digits and every choice of ties."
  },
  {
   "property": "C100",
   "status": "proved",
   "theorems": [
    "DF.C100_outliers",
    "DF.C100_split",
    "DF.C100_quartiles_kept",
    "DF.C100_antitone"
   ],
   "note": "For p >= 32 binary digits and every choice of ties."
  },
  {
   "property": "C101",
   "status": "proved",
   "theorems": [
    "DF.C101_bins",
    "DF.C101_bins_range"
   ],
   "note": "For p >= 34 binary digits and every choice of ties. The last bin also takes what rounding pushes above it, so only its lower bound is stated."
  },
  {
   "property": "C102",
   "status": "partial",
   "theorems": [
    "DF.C102_quantile_partial",
    "DF.C102_finite",
    "DF.C102_minimum_violated",
    "DF.C102_maximum",
    "DF.C102_nan_level_violated",
    "DF.C102_infinite_level"
   ],
   "note": "Holds for finite values (C102_finite) and at level 1. Violated: from an infinite value, or to one with fraction 0, the interpolation gives NaN (0 * inf, inf - inf), so with -inf among two values or more the quantile at 0 is NaN; a NaN level passes the check and is undefined behaviour. The partial theorem gives the result in every case without NaN."
  },
  {
   "property": "C103",
   "status": "partial",
   "theorems": [
    "DF.C103_split_partial",
    "DF.C103_infinite_values_violated",
    "DF.C103_infinite_mustache_violated"
   ],
   "note": "Holds when the quartiles and the mustache are finite. Violated: when all values are +inf, or when the values are constant and the mustache infinite, the bounds are NaN and all values are lost."
  },
  {
   "property": "C104",
   "status": "partial",
   "theorems": [
    "DF.C104_bins_violated",
    "DF.C104_bins_range_violated",
    "DF.C104_finite"
   ],
   "note": "Violated: one NaN or infinity among the values makes bins undefined (conversion to uint32_t), for given bounds and for the range of the values. With finite values bins does exactly what it does with exact numbers."
  },
  {
   "property": "C105",
   "status": "partial",
   "theorems": [
    "DF.C105_same_result",
    "DF.C105_one_core_keeps",
    "DF.C105_nothing_kept_violated",
    "DF.C105_caller_untouched",
    "DF.C105_map_numbers"
   ],
   "note": "The result is f(s) for all schedules. That the cache is kept holds with one core and is violated with two or more: each job works on a copy of the object, so every call invokes f on every part again."
  },
  {
   "property": "C106",
   "status": "partial",
   "theorems": [
    "DF.C106_filter_filter_numbers",
    "DF.C106_filter_filter_arrays",
    "DF.C106_filter_index_violated",
    "DF.C106_filter_map_numbers",
    "DF.C106_filter_map_arrays_partial",
    "DF.C106_filter_map_arrays_violated",
    "DF.C106_reduce_map",
    "DF.C106_reduce_filter",
    "DF.C106_map_concat_numbers",
    "DF.C106_filter_concat_numbers",
    "DF.C106_filter_concat_arrays",
    "DF.C106_map_concat_arrays_partial",
    "DF.C106_map_concat_arrays_violated",
    "DF.C106_filter_sort",
    "DF.C106_map_sort",
    "DF.C106_sort_concat",
    "DF.C106_partition_concat"
   ],
   "note": "The laws hold for numbers. For arrays map after filter is invalid when nothing is kept, and mapped Series cannot be concatenated when one of them is empty: proved for the other cases. Predicates that use the index break the first law."
  },
  {
   "property": "C107",
   "status": "partial",
   "theorems": [
    "DF.C107_numbers",
    "DF.C107_items",
    "DF.C107_det_2d_violated",
    "DF.C107_normalize_items",
    "DF.C107_normalize_numbers_violated",
    "DF.C107_eigen",
    "DF.C107_eigen_2d_violated",
    "DF.C107_filter_throws",
    "DF.C107_index",
    "DF.C107_index_violated"
   ],
   "note": "Holds for the functions that work item by item. Violated for 2D matrices (det, eigenValues: the parts have dimension 3, so the jobs throw), for normalize of numbers (each part is normalized on its own) and for callbacks that use the index (it restarts in each part)."
  },
  {
   "property": "C108",
   "status": "partial",
   "theorems": [
    "DF.C108_points_error",
    "DF.C108_first",
    "DF.C108_monotone",
    "DF.C108_last_partial",
    "DF.C108_last_violated",
    "DF.C108_dims_error",
    "DF.C108_dims_points_violated"
   ],
   "note": "The error bounds, the exact first point and the monotonicity are proved. Violated: the last point is not the second corner and can lie outside of the box (12 points from 0 to 25 end past 25, 50 points from 0 to 1 end before 1); from_dims and from_points of the two corners differ (center 3*2^53, size 3)."
  },
  {
   "property": "C109",
   "status": "partial",
   "theorems": [
    "DF.C109_fringes_error",
    "DF.C109_below_partial",
    "DF.C109_multiples",
    "DF.C109_below_violated"
   ],
   "note": "The error bound, the closed interval and the multiples are proved; the half-open interval holds for numbers that are not negative. Violated: the fringe of -2^-55 for the spacing 1 is 1."
  },
  {
   "property": "C110",
   "status": "proved",
   "theorems": [
    "DF.C110_normals_error",
    "DF.C110_degenerate",
    "DF.C110_swapped",
    "DF.C110_whole"
   ],
   "note": ""
  },
  {
   "property": "C111",
   "status": "partial",
   "theorems": [
    "DF.C111_error",
    "DF.C111_returns",
    "DF.C111_throws",
    "DF.C111_residual",
    "DF.C111_full_partial",
    "DF.C111_full_returns",
    "DF.C111_singular_violated"
   ],
   "note": "All proved for symmetric matrices but the last clause; for full matrices every entry except that of row 2, column 3, which the code computes with the formula of row 3, column 2. Violated: the singular matrix (1, 7, 0; 7, 49, 0; 0, 0, 2^53-3) is inverted, its computed determinant is 64."
  },
  {
   "property": "C112",
   "status": "partial",
   "theorems": [
    "DF.C112_toSerie_partial",
    "DF.C112_toSerie_violated"
   ],
   "note": "Proved for dimension 3, and for the values, count and items in any dimension. Violated in every other dimension: the argument is ignored."
  },
  {
   "property": "C113",
   "status": "partial",
   "theorems": [
    "DF.C113_dump_partial",
    "DF.C113_dump_violated"
   ],
   "note": "Proved for item sizes other than 1. Violated for every Serie of numbers: the callback takes an array, so forEach throws invalid_argument and nothing is written."
  },
  {
   "property": "C114",
   "status": "proved",
   "theorems": [
    "DF.C114_print_array"
   ],
   "note": ""
  },
  {
   "property": "C115",
   "status": "partial",
   "theorems": [
    "DF.C115_stress",
    "DF.C115_translation",
    "DF.C115_exchange",
    "DF.C115_linear",
    "DF.C115_scale",
    "DF.C115_axes",
    "DF.C115_bound",
    "DF.C115_rotation_violated"
   ],
   "note": "All laws are proved in exact arithmetic except rotations, which the formula of the example violates: the terms -1/r^3 of the shear stresses have no direction."
  },
  {
   "property": "C116",
   "status": "partial",
   "theorems": [
    "DF.C116_sum",
    "DF.C116_order",
    "DF.C116_superposition",
    "DF.C116_parallel",
    "DF.C116_sources_partial",
    "DF.C116_sources_violated",
    "DF.C116_program"
   ],
   "note": "The number of sources is not the one asked for: always 10000. The rest is proved in exact arithmetic."
  },
  {
   "property": "C117",
   "status": "partial",
   "theorems": [
    "DF.C117_select_partial",
    "DF.C117_select_violated",
    "DF.C117_definite",
    "DF.C117_pipeline_partial",
    "DF.C117_nonneg",
    "DF.C117_program_violated",
    "DF.C117_cohesion_violated"
   ],
   "note": "Proved when there are enough positions and the cohesion is not zero, in exact arithmetic. Violated: too few positions are read out of bounds; the program has cohesion 0, for which no index is finite; with its tensors nothing is selected and the mean is NaN."
  },
  {
   "property": "C118",
   "status": "proved",
   "theorems": [
    "DF.C118_add",
    "DF.C118_sub",
    "DF.C118_scale",
    "DF.C118_div",
    "DF.C118_mult"
   ],
   "note": "One zero without sign. Any format with p digits, smallest number 2^emin and any largest number."
  },
  {
   "property": "C119",
   "status": "partial",
   "theorems": [
    "DF.C119_mean_partial",
    "DF.C119_mean_violated",
    "DF.C119_dot",
    "DF.C119_insar",
    "DF.C119_weightedSum"
   ],
   "note": "dot, insar and weigthedSum are finite when the sum of the absolute values of the products is at most half the largest number; mean likewise with the sum of the absolute values. Violated for mean: the mean of two copies of 2^1023 is infinite."
  },
  {
   "property": "C120",
   "status": "partial",
   "theorems": [
    "DF.C120_normalize_partial",
    "DF.C120_normalize_double_partial",
    "DF.C120_large_violated",
    "DF.C120_small_violated"
   ],
   "note": "Proved when every number is zero or between 2^-400 and 2^400 in absolute value. Violated: (2^600, 0) normalizes to the zero vector and (2^-600, 0) to an infinity and a NaN."
  },
  {
   "property": "C121",
   "status": "proved",
   "theorems": [
    "DF.C121_system",
    "DF.C121_dim2",
    "DF.C121_functions_agree",
    "DF.C121_stops",
    "DF.C121_double"
   ],
   "note": "Any number of digits with unit roundoff at most the error \u03b5 \u2264 2^-40 of the trigonometric functions; the exponent is unlimited."
  },
  {
   "property": "C122",
   "status": "proved",
   "theorems": [
    "DF.C122_add_sub",
    "DF.C122_mult",
    "DF.C122_negate",
    "DF.C122_div",
    "DF.C122_dot",
    "DF.C122_weightedSum",
    "DF.C122_mean"
   ],
   "note": ""
  },
  {
   "property": "C123",
   "status": "partial",
   "theorems": [
    "DF.C123_approximatelyEquals_partial",
    "DF.C123_mask",
    "DF.C123_equal_partial",
    "DF.C123_infinite_violated"
   ],
   "note": "Violated: the distance of an infinity to itself is NaN, so a Serie with an infinity is not approximately equal to itself. Proved without infinities; the arrays are compared only when they have the same length (C41)."
  },
  {
   "property": "C124",
   "status": "partial",
   "theorems": [
    "DF.C124_once_partial",
    "DF.C124_derived_violated",
    "DF.C124_copy_violated",
    "DF.C124_twice_violated",
    "DF.C124_clear_violated"
   ],
   "note": "Violated: no virtual destructor (any derived decomposer), copies of a Manager and repeated decomposers delete twice, clear forgets. Proved for programs that hand over each decomposer once and copy no Manager, for objects of the class Decomposer itself."
  },
  {
   "property": "C125",
   "status": "partial",
   "theorems": [
    "DF.C125_destroyed",
    "DF.C125_never_again",
    "DF.C125_use_partial",
    "DF.C125_dataframe_violated",
    "DF.C125_made",
    "DF.C125_shared_violated"
   ],
   "note": "Violated: the Manager refers to its Dataframe and to decomposers that another Manager may delete. The exact condition is proved."
  },
  {
   "property": "C126",
   "status": "partial",
   "theorems": [
    "DF.C126_add_sub",
    "DF.C126_mult",
    "DF.C126_div_partial",
    "DF.C126_algebra",
    "DF.C126_stats",
    "DF.C126_compare",
    "DF.C126_div_violated"
   ],
   "note": "Violated by div with a number: the two zeros give opposite infinities. Proved for everything else, and for div with any other divisor (Series as divisors included: they are guarded by 1e-10)."
  },
  {
   "property": "C127",
   "status": "partial",
   "theorems": [
    "DF.C127_negate",
    "DF.C127_negate_negate",
    "DF.C127_neutral",
    "DF.C127_zeros",
    "DF.C127_add_comm",
    "DF.C127_sub_violated",
    "DF.C127_add_zero_violated",
    "DF.C127_mean_violated",
    "DF.C127_minMax_violated",
    "DF.C127_memoize_violated"
   ],
   "note": "Violated by sub (antisymmetry), adding positive zeros, mean, minMax (order) and memoize; the other laws are proved."
  },
  {
   "property": "C128",
   "status": "partial",
   "theorems": [
    "DF.C128_add_sub",
    "DF.C128_mult",
    "DF.C128_div_partial",
    "DF.C128_algebra",
    "DF.C128_stats",
    "DF.C128_normalize",
    "DF.C128_compare",
    "DF.C128_div_violated"
   ],
   "note": "Violated by div with a negative zero as number; proved for everything else."
  },
  {
   "property": "C129",
   "status": "proved",
   "theorems": [
    "DF.C129_change",
    "DF.C129_mean",
    "DF.C129_covariance",
    "DF.C129_quantile",
    "DF.C129_quantile_reversed",
    "DF.C129_quartiles",
    "DF.C129_minMax"
   ],
   "note": "Exact arithmetic (any ordered field); minimum and maximum for numbers within the limits of the type."
  },
  {
   "property": "C130",
   "status": "proved",
   "theorems": [
    "DF.C130_outliers",
    "DF.C130_binsIn",
    "DF.C130_bins",
    "DF.C130_normalize"
   ],
   "note": "Exact arithmetic (any ordered field); bins without a range, and normalize, for numbers within the limits of the type, not all equal."
  },
  {
   "property": "C131",
   "status": "proved",
   "theorems": [
    "DF.C131_true_values",
    "DF.C131_values",
    "DF.C131_vectors",
    "DF.C131_dim2",
    "DF.C131_frame"
   ],
   "note": "Real arithmetic with exact trigonometric functions."
  },
  {
   "property": "C132",
   "status": "proved",
   "theorems": [
    "DF.C132_values",
    "DF.C132_dim2",
    "DF.C132_vectors",
    "DF.C132_double"
   ],
   "note": "Unlimited exponent range (see DESIGN.md)."
  },
  {
   "property": "C133",
   "status": "proved",
   "theorems": [
    "DF.C133_cross_add",
    "DF.C133_cross_scale",
    "DF.C133_triple",
    "DF.C133_triple_det",
    "DF.C133_cross_cross"
   ],
   "note": "Commutative rings."
  },
  {
   "property": "C134",
   "status": "partial",
   "theorems": [
    "DF.C134_transpose_add",
    "DF.C134_det_scale",
    "DF.C134_det_scale_2d_violated",
    "DF.C134_inv_inv_partial",
    "DF.C134_inv_inv_violated",
    "DF.C134_det_inv"
   ],
   "note": "Violated: scale loses the dimension of 2D matrices, so that det rejects them; inv refuses the inverse of matrices with a determinant above 1e10. Determinant of the inverse: symmetric matrices (see C52)."
  },
  {
   "property": "C135",
   "status": "proved",
   "theorems": [
    "DF.C135_add_sub",
    "DF.C135_scale",
    "DF.C135_mult",
    "DF.C135_div",
    "DF.C135_negate",
    "DF.C135_mean",
    "DF.C135_normalize"
   ],
   "note": "Numbers of limited range; one zero and one NaN (signed zeros: C126-C128)."
  },
  {
   "property": "C136",
   "status": "proved",
   "theorems": [
    "DF.C136_add",
    "DF.C136_sub",
    "DF.C136_scale",
    "DF.C136_mult",
    "DF.C136_div"
   ],
   "note": "Doubles with both zeros."
  },
  {
   "property": "C137",
   "status": "partial",
   "theorems": [
    "DF.C137_map",
    "DF.C137_map_throws",
    "DF.C137_contains",
    "DF.C137_contains_member",
    "DF.C137_nan_violated",
    "DF.C137_log",
    "DF.C137_messages"
   ],
   "note": "contains does not find NaN in a vector of doubles (violated); for types whose == is equality it is membership."
  },
  {
   "property": "C138",
   "status": "proved",
   "theorems": [
    "DF.C138_sort",
    "DF.C138_partition",
    "DF.C138_merge",
    "DF.C138_mean",
    "DF.C138_minMax",
    "DF.C138_covariance",
    "DF.C138_binsIn",
    "DF.C138_bins",
    "DF.C138_sorted",
    "DF.C138_outliers",
    "DF.C138_reduce"
   ],
   "note": ""
  },
  {
   "property": "C139",
   "status": "proved",
   "theorems": [
    "DF.C139_reduce",
    "DF.C139_forEach",
    "DF.C139_mean",
    "DF.C139_minMax",
    "DF.C139_bins",
    "DF.C139_covariance",
    "DF.C139_sort",
    "DF.C139_partition"
   ],
   "note": ""
  },
  {
   "property": "C140",
   "status": "proved",
   "theorems": [
    "DF.C140_affine",
    "DF.C140_isometry",
    "DF.C140_translate",
    "DF.C140_scale",
    "DF.C140_renumber",
    "DF.C140_turned",
    "DF.C140_closed"
   ],
   "note": ""
  },
  {
   "property": "C141",
   "status": "partial",
   "theorems": [
    "DF.C141_unzip",
    "DF.C141_zip",
    "DF.C141_full_violated"
   ],
   "note": "For full tensors (nine components) three attributes hold another component (C68), so the tensor put together is another one (violated)."
  },
  {
   "property": "C142",
   "status": "partial",
   "theorems": [
    "DF.C142_stable",
    "DF.C142_extremes",
    "DF.C142_positive",
    "DF.C142_sum",
    "DF.C142_shift",
    "DF.C142_scale",
    "DF.C142_scale_2d_violated"
   ],
   "note": "Proved in dimension 3 for programs that call scale or add, in dimensions 2 and 3 otherwise. scale on a Serie of dimension 2 gives a Serie of dimension 3 whose eigen values are refused (violated)."
  },
  {
   "property": "C143",
   "status": "proved",
   "theorems": [
    "DF.C143_affine",
    "DF.C143_reversed",
    "DF.C143_refined",
    "DF.C143_distinct",
    "DF.C143_mean",
    "DF.C143_bounds"
   ],
   "note": "Reversal, mean and minMax are stated for corners that agree along the axes with a single point (such an axis stays at the first corner)."
  },
  {
   "property": "C144",
   "status": "proved",
   "theorems": [
    "DF.C144_insar_add",
    "DF.C144_insar_scale",
    "DF.C144_insar_los",
    "DF.C144_insar_hidden",
    "DF.C144_fringes_coarse",
    "DF.C144_fringes_add",
    "DF.C144_fringes_scale",
    "DF.C144_fringes_negate",
    "DF.C144_fringes_unchanged",
    "DF.C144_fringes_special"
   ],
   "note": "Stated for positive spacings where the sign matters; special values over Ext (exact arithmetic on finite numbers)."
  },
  {
   "property": "C145",
   "status": "proved",
   "theorems": [
    "DF.C145_cross",
    "DF.C145_det",
    "DF.C145_inv",
    "DF.C145_inv_throws",
    "DF.C145_normals"
   ],
   "note": "det is stated for full matrices (4 or 9 numbers): det of symmetric ones is undefined behaviour (C50)."
  },
  {
   "property": "C146",
   "status": "partial",
   "theorems": [
    "DF.C146_returns",
    "DF.C146_items",
    "DF.C146_diagonal_partial",
    "DF.C146_dropped_violated",
    "DF.C146_overflow_violated",
    "DF.C146_underflow_violated"
   ],
   "note": "C146_diagonal_partial covers the numbers on the diagonal; the claim is false for the others, for every matrix (C146_dropped_violated) and for finite double matrices (C146_overflow_violated, C146_underflow_violated)."
  },
  {
   "property": "C147",
   "status": "partial",
   "theorems": [
    "DF.C147_powers",
    "DF.C147_operations",
    "DF.C147_addSub",
    "DF.C147_addSub2",
    "DF.C147_weights",
    "DF.C147_mean",
    "DF.C147_covariance",
    "DF.C147_quantiles",
    "DF.C147_outliers",
    "DF.C147_normalize",
    "DF.C147_binsIn",
    "DF.C147_products",
    "DF.C147_det",
    "DF.C147_eigen",
    "DF.C147_normals",
    "DF.C147_fringes",
    "DF.C147_grids",
    "DF.C147_inv_partial",
    "DF.C147_inv_violated",
    "DF.C147_div_partial",
    "DF.C147_div_violated"
   ],
   "note": "The claim is false for inv and div by a Serie (C147_inv_violated, C147_div_violated: absolute threshold 1e-10); C147_inv_partial and C147_div_partial cover what holds of them. All other functions are proved."
  },
  {
   "property": "C148",
   "status": "partial",
   "theorems": [
    "DF.C148_add_sub",
    "DF.C148_products",
    "DF.C148_mult_partial",
    "DF.C148_mult_violated",
    "DF.C148_compare",
    "DF.C148_normalize_partial",
    "DF.C148_stats",
    "DF.C148_map",
    "DF.C148_numbers",
    "DF.C148_arrays",
    "DF.C148_loops",
    "DF.C148_several",
    "DF.C148_map_several_partial",
    "DF.C148_map_several_violated",
    "DF.C148_merge",
    "DF.C148_partition_n_partial",
    "DF.C148_zip",
    "DF.C148_unzip",
    "DF.C148_matrices",
    "DF.C148_det_partial",
    "DF.C148_vectors_partial",
    "DF.C148_vectors_violated",
    "DF.C148_grids",
    "DF.C148_insar_partial",
    "DF.C148_insar_violated",
    "DF.C148_normals"
   ],
   "note": "False in the cases listed in the statement (C148_*_violated, C50_symmetric_violated, C55_vectors_violated, C60_violated); the _partial theorems exclude exactly or sufficiently those cases. The eigen functions are covered by C146_returns; sort, quantile, bins and memoize by C47, C48, C98 to C104."
  },
  {
   "property": "C149",
   "status": "partial",
   "theorems": [
    "DF.C149_manager",
    "DF.C149_components_partial",
    "DF.C149_components_violated",
    "DF.C149_coordinates_partial",
    "DF.C149_eigen_partial",
    "DF.C149_eigen_violated",
    "DF.C149_mesh",
    "DF.C149_library_partial"
   ],
   "note": "False in the cases of C149_components_violated, C149_eigen_violated, C70_few_names_violated, C70_plane_violated and C81_area_violated; C149_library_partial composes the decomposers under the conditions that exclude them."
  },
  {
   "property": "C150",
   "status": "partial",
   "theorems": [
    "DF.C150_manager",
    "DF.C150_library_partial",
    "DF.C150_mesh_violated",
    "DF.C150_zero_violated"
   ],
   "note": "False in the cases of C150_mesh_violated, C150_zero_violated and C69_vectors_violated."
  },
  {
   "property": "C151",
   "status": "partial",
   "theorems": [
    "DF.C151_programs_partial",
    "DF.C151_others_violated"
   ],
   "note": "Functions left out of the programs: those that C148 shows to have undefined behaviour on some well-formed Series (normalize, map over several Series, cross, dot, det of symmetric matrices, norm, insar)."
  },
  {
   "property": "C152",
   "status": "proved",
   "theorems": [
    "DF.C152_programs",
    "DF.C152_moves",
    "DF.C152_rationals",
    "DF.C152_signs",
    "DF.C152_signs_division",
    "DF.C152_units"
   ],
   "note": ""
  },
  {
   "property": "C153",
   "status": "proved",
   "theorems": [
    "DF.C153_numbers",
    "DF.C153_matrices",
    "DF.C153_vectors",
    "DF.C153_eigen",
    "DF.C153_map",
    "DF.C153_pipe",
    "DF.C153_defined",
    "DF.C153_pieces",
    "DF.C153_parallel",
    "DF.C153_select"
   ],
   "note": "Series of dimension 3 because partition_n and concat return Series of dimension 3 (C107); norm is left out because norm2 is undefined on more than one item (C55), det of symmetric matrices because of C50. The exceptions of a recipe derive from std::exception."
  },
  {
   "property": "C154",
   "status": "proved",
   "theorems": [
    "DF.C154_one",
    "DF.C154_pairs",
    "DF.C154_products",
    "DF.C154_many",
    "DF.C154_map",
    "DF.C154_defined",
    "DF.C154_rows",
    "DF.C154_batches",
    "DF.C154_stack",
    "DF.C154_filter"
   ],
   "note": "a script is a sequence of steps, each adding one column computed row by row from chosen columns; tables have at least one row and exact arrays of dimension 3"
  },
  {
   "property": "C155",
   "status": "partial",
   "theorems": [
    "DF.C155_order_partial",
    "DF.C155_count_violated",
    "DF.C155_again",
    "DF.C155_step",
    "DF.C155_consistent",
    "DF.C155_unaffected"
   ],
   "note": "The count of a Dataframe that starts at 0 depends on the order (C155_count_violated); C155_order_partial assumes a non-zero count or results of the same size."
  },
  {
   "property": "C156",
   "status": "proved",
   "theorems": [
    "DF.C156_components",
    "DF.C156_eigen",
    "DF.C156_user",
    "DF.C156_manager",
    "DF.C156_defined",
    "DF.C156_rows",
    "DF.C156_choose",
    "DF.C156_batches",
    "DF.C156_names",
    "DF.C156_library"
   ],
   "note": ""
  },
  {
   "property": "C157",
   "status": "proved",
   "theorems": [
    "DF.C157_mean",
    "DF.C157_variance",
    "DF.C157_range",
    "DF.C157_farthest",
    "DF.C157_tails",
    "DF.C157_line",
    "DF.C157_quantile",
    "DF.C157_median",
    "DF.C157_mean_median",
    "DF.C157_outliers"
   ],
   "note": ""
  },
  {
   "property": "C158",
   "status": "proved",
   "theorems": [
    "DF.C158_below",
    "DF.C158_refine",
    "DF.C158_mean"
   ],
   "note": ""
  },
  {
   "property": "C159",
   "status": "proved",
   "theorems": [
    "DF.C159_choose",
    "DF.C159_triangles",
    "DF.C159_together",
    "DF.C159_border",
    "DF.C159_insert"
   ],
   "note": ""
  },
  {
   "property": "C160",
   "status": "proved",
   "theorems": [
    "DF.C160_rank",
    "DF.C160_find",
    "DF.C160_ends",
    "DF.C160_parts",
    "DF.C160_pieces",
    "DF.C160_negate",
    "DF.C160_quantile",
    "DF.C160_dominated",
    "DF.C160_close"
   ],
   "note": "exact arithmetic; C160_ends assumes that the numbers lie within numeric_limits, as C39 does"
  },
  {
   "property": "C161",
   "status": "partial",
   "theorems": [
    "DF.C161_cross",
    "DF.C161_insar",
    "DF.C161_formulas_partial",
    "DF.C161_mean",
    "DF.C161_inverse_violated",
    "DF.C161_scalars_partial"
   ],
   "note": "exact arithmetic; formulas without the inverse of matrices stored in full, which is violated (C161_inverse_violated)"
  },
  {
   "property": "C162",
   "status": "proved",
   "theorems": [
    "DF.C162_mean",
    "DF.C162_covariance",
    "DF.C162_variance"
   ],
   "note": "Proved in exact arithmetic for any number of Series and any weights."
  },
  {
   "property": "C163",
   "status": "partial",
   "theorems": [
    "DF.C163_add_sub_mult",
    "DF.C163_scale",
    "DF.C163_dot",
    "DF.C163_norm_violated",
    "DF.C163_matrix"
   ],
   "note": "Proved, except that Vector::norm drops fractional parts and so differs from norm (C163_norm_violated)."
  },
  {
   "property": "C164",
   "status": "proved",
   "theorems": [
    "DF.C164_names",
    "DF.C164_names_grow",
    "DF.C164_serie_grow",
    "DF.C164_base",
    "DF.C164_twice",
    "DF.C164_exchange",
    "DF.C164_wins"
   ],
   "note": "For decomposers whose answers depend on their arguments only."
  },
  {
   "property": "C165",
   "status": "proved",
   "theorems": [
    "DF.C165_map",
    "DF.C165_forEach",
    "DF.C165_filter",
    "DF.C165_filter_unzip",
    "DF.C165_nested",
    "DF.C165_parts",
    "DF.C165_stack"
   ],
   "note": "map over several columns needs at least one row (see C11_violated); forEach needs at least two columns, because an array callback on a Serie of numbers throws."
  },
  {
   "property": "C166",
   "status": "proved",
   "theorems": [
    "DF.C166_twice",
    "DF.C166_kept",
    "DF.C166_transparent"
   ],
   "note": "Outcomes up to the dimension, because the cache itself drops it (C26). The function underneath is a stateful one in C166_twice and C166_kept."
  },
  {
   "property": "C167",
   "status": "proved",
   "theorems": [
    "DF.C167_routines",
    "DF.C167_loops",
    "DF.C167_twins"
   ],
   "note": "The calls are those of C151; normalize and the map over several Series are not among them because they have undefined behaviour on empty Series (C151_others_violated)."
  },
  {
   "property": "C168",
   "status": "partial",
   "theorems": [
    "DF.C168_programs",
    "DF.C168_nonneg",
    "DF.C168_routines",
    "DF.C168_sub",
    "DF.C168_scale",
    "DF.C168_mean",
    "DF.C168_dot",
    "DF.C168_sort",
    "DF.C168_quantile_partial",
    "DF.C168_quantile_violated"
   ],
   "note": "Programs, routines, sub, scale, mean, dot and sort for all inputs; quantile only where it falls on a number, because between two numbers the rounded interpolation can reverse the order (C168_quantile_violated)."
  },
  {
   "property": "C169",
   "status": "proved",
   "theorems": [
    "DF.C169_programs",
    "DF.C169_routines",
    "DF.C169_mean",
    "DF.C169_dot",
    "DF.C169_product_nan"
   ],
   "note": "Additions in programs and routines, mean and dot for all inputs; C169_product_nan shows why further products are left out."
  },
  {
   "property": "C170",
   "status": "proved",
   "theorems": [
    "DF.C170_relative",
    "DF.C170_absolute",
    "DF.C170_routines",
    "DF.C170_routines_relative",
    "DF.C170_exact_counted",
    "DF.C170_exact_bounded"
   ],
   "note": "Sums, differences, products and negation in programs and routines of any size; divisions are treated function by function (C86, C91, C109, C111)."
  },
  {
   "property": "C171",
   "status": "proved",
   "theorems": [
    "DF.C171_programs",
    "DF.C171_routines",
    "DF.C171_exact",
    "DF.C171_algebra",
    "DF.C171_stats",
    "DF.C171_functions_exact"
   ],
   "note": "Comparisons, square roots and the functions built on them are outside the bound; see C160 and C168 for those."
  },
  {
   "property": "C172",
   "status": "proved",
   "theorems": [
    "DF.C172_quantile",
    "DF.C172_quartiles"
   ],
   "note": "Without limit on exponents; infinities and NaN are in C102."
  },
  {
   "property": "C173",
   "status": "partial",
   "theorems": [
    "DF.C173_quantile_partial",
    "DF.C173_quartiles_partial",
    "DF.C173_median_violated",
    "DF.C173_level_throws",
    "DF.C173_level_violated",
    "DF.C173_between_neighbours_partial",
    "DF.C173_in_range_partial",
    "DF.C173_monotone_partial",
    "DF.C173_quartiles_order_partial"
   ],
   "note": "Proved when twice the largest absolute value (four times for IQR) does not exceed the largest double, and between the neighbours when no difference of two values does; beyond, the claim is false: C173_median_violated. A NaN level is not rejected: C173_level_violated."
  },
  {
   "property": "C174",
   "status": "partial",
   "theorems": [
    "DF.C174_bins_partial",
    "DF.C174_bins_range_partial",
    "DF.C174_small_violated",
    "DF.C174_large_violated"
   ],
   "note": "Proved when stop - start is at least 2^-980 and does not overflow; beyond, the claim is false: C174_small_violated, C174_large_violated."
  }
 ]
}