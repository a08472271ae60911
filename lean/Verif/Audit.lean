import Verif.Props.Algebra
import Verif.Props.Answer
import Verif.Props.Attributes
import Verif.Props.Best
import Verif.Props.BinsRange
import Verif.Props.ByItem
import Verif.Props.Combinations
import Verif.Props.Combine
import Verif.Props.Dataframe
import Verif.Props.Decomposers
import Verif.Props.Digits
import Verif.Props.Eigen
import Verif.Props.Examples
import Verif.Props.Float
import Verif.Props.FloatEigen
import Verif.Props.FloatGeo
import Verif.Props.FloatInv
import Verif.Props.FloatNorm
import Verif.Props.FloatStats
import Verif.Props.Flow
import Verif.Props.Frames
import Verif.Props.Functional
import Verif.Props.Geo
import Verif.Props.Grids
import Verif.Props.Histogram
import Verif.Props.Ieee
import Verif.Props.IeeeNorm
import Verif.Props.Insar
import Verif.Props.Laws
import Verif.Props.Math
import Verif.Props.Meshes
import Verif.Props.Monotone
import Verif.Props.MonotoneRange
import Verif.Props.Motion
import Verif.Props.Nested
import Verif.Props.Order
import Verif.Props.Ownership
import Verif.Props.Parallel
import Verif.Props.ParallelMemo
import Verif.Props.ParallelOps
import Verif.Props.Pieces
import Verif.Props.Pipeline
import Verif.Props.Principal
import Verif.Props.Print
import Verif.Props.Products
import Verif.Props.QuantileError
import Verif.Props.QuantileRange
import Verif.Props.RangedError
import Verif.Props.Reassemble
import Verif.Props.Rounded
import Verif.Props.Routine
import Verif.Props.RowAttributes
import Verif.Props.RunningError
import Verif.Props.Safe
import Verif.Props.Serie
import Verif.Props.Sorted
import Verif.Props.Special
import Verif.Props.SpecialAlgebra
import Verif.Props.SpecialEigen
import Verif.Props.SpecialMemo
import Verif.Props.SpecialReal
import Verif.Props.SpecialStats
import Verif.Props.Stats
import Verif.Props.Support
import Verif.Props.Table
import Verif.Props.TrueValues
import Verif.Props.Twin
import Verif.Props.Units
import Verif.Props.Utils
import Verif.Props.VectorOfItem
import Verif.Props.View
import Verif.Props.ZeroSigns
import Verif.Props.Zeros
import Verif.Props.Zipped

/-!
# Axioms of every property theorem

The build prints, for each theorem of the manifest, the axioms it depends on.
-/

/-! C01 -/
#print axioms DF.C01_construct
#print axioms DF.C01_itemSize_zero
#print axioms DF.C01_zeros
#print axioms DF.C01_zeros_overflow

/-! C02 -/
#print axioms DF.C02_set_array
#print axioms DF.C02_setValue
#print axioms DF.C02_set_double
#print axioms DF.C02_setScalar

/-! C03 -/
#print axioms DF.C03_set_array
#print axioms DF.C03_setValue
#print axioms DF.C03_set_double
#print axioms DF.C03_setScalar

/-! C04 -/
#print axioms DF.C04_violated
#print axioms DF.C04_partial
#print axioms DF.C04_scalar_at_size
#print axioms DF.C04_get_past_end
#print axioms DF.C04_get_wraps

/-! C05 -/
#print axioms DF.C05_copy
#print axioms DF.C05_violated
#print axioms DF.C05_partial
#print axioms DF.C05_clone_invalid

/-! C06 -/
#print axioms DF.C06_reachable_wellformed
#print axioms DF.C06_reachable_reads

/-! C07 -/
#print axioms DF.C07_reCount

/-! C08 -/
#print axioms DF.C08_map_number_to_number
#print axioms DF.C08_map_array_to_number
#print axioms DF.C08_map_number_to_array
#print axioms DF.C08_map_array_to_array
#print axioms DF.C08_map_number_to_number_stateful
#print axioms DF.C08_map_array_to_number_stateful
#print axioms DF.C08_map_observe

/-! C09 -/
#print axioms DF.C09_map_id
#print axioms DF.C09_map_comp
#print axioms DF.C09_map_scalar_id_comp

/-! C10 -/
#print axioms DF.C10_ragged_throws
#print axioms DF.C10_ragged_throws_number
#print axioms DF.C10_never_ragged
#print axioms DF.C10_never_ragged_number
#print axioms DF.C10_empty
#print axioms DF.C10_empty_rows_undefined
#print axioms DF.C10_ragged_throws_multi
#print axioms DF.C10_never_ragged_multi

/-! C11 -/
#print axioms DF.C11_counts_differ
#print axioms DF.C11_partial
#print axioms DF.C11_partial_array
#print axioms DF.C11_violated

/-! C12 -/
#print axioms DF.C12_filter_number
#print axioms DF.C12_filter_array
#print axioms DF.C12_filter_stateful
#print axioms DF.C12_filter_pure

/-! C13 -/
#print axioms DF.C13_reject_is_filter_not
#print axioms DF.C13_complement
#print axioms DF.C13_complement_number

/-! C14 -/
#print axioms DF.C14_find_number
#print axioms DF.C14_find_array
#print axioms DF.C14_findAll_is_filter

/-! C15 -/
#print axioms DF.C15_partition
#print axioms DF.C15_partition_throws

/-! C16 -/
#print axioms DF.C16_reduce
#print axioms DF.C16_reduce_pure
#print axioms DF.C16_reduce_array
#print axioms DF.C16_reduce_empty
#print axioms DF.C16_reduce_concat

/-! C17 -/
#print axioms DF.C17_forEach_number
#print axioms DF.C17_forEach_array
#print axioms DF.C17_forEach_generic
#print axioms DF.C17_forEach_multi
#print axioms DF.C17_forEach_kind

/-! C18 -/
#print axioms DF.C18_partial
#print axioms DF.C18_violated
#print axioms DF.C18_silent

/-! C19 -/
#print axioms DF.C19_merge_concatenate
#print axioms DF.C19_merge_interleave
#print axioms DF.C19_merge_variadic
#print axioms DF.C19_no_loss
#print axioms DF.C19_sizes_differ

/-! C20 -/
#print axioms DF.C20_pipe_left_to_right
#print axioms DF.C20_compose_right_to_left
#print axioms DF.C20_pipe_associative
#print axioms DF.C20_compose_associative
#print axioms DF.C20_exception_stops
#print axioms DF.C20_make_op

/-! C21 -/
#print axioms DF.C21_filter_multi
#print axioms DF.C21_reject_multi
#print axioms DF.C21_filterAll_rejectAll
#print axioms DF.C21_counts_differ

/-! C22 -/
#print axioms DF.C22_concat
#print axioms DF.C22_concat_throws
#print axioms DF.C22_concat_associative

/-! C23 -/
#print axioms DF.C23_partition
#print axioms DF.C23_even
#print axioms DF.C23_partition_multi
#print axioms DF.C23_multi_throws

/-! C24 -/
#print axioms DF.C24_parallel_is_sequential
#print axioms DF.C24_map_numbers
#print axioms DF.C24_map_arrays

/-! C25 -/
#print axioms DF.C25_deterministic
#print axioms DF.C25_first_failure
#print axioms DF.C25_terminates
#print axioms DF.C25_no_job_left
#print axioms DF.C25_zero_cores

/-! C26 -/
#print axioms DF.C26_transparent_partial
#print axioms DF.C26_same_item_size_partial
#print axioms DF.C26_item_size_violated
#print axioms DF.C26_dimension_violated

/-! C27 -/
#print axioms DF.C27_at_most_once
#print axioms DF.C27_at_most_once_total
#print axioms DF.C27_repeat_invokes_nothing
#print axioms DF.C27_throw_caches_nothing
#print axioms DF.C27_clear_then_invokes

/-! C28 -/
#print axioms DF.C28_zip
#print axioms DF.C28_unzip_zip
#print axioms DF.C28_zip_unzip
#print axioms DF.C28_throws_partial
#print axioms DF.C28_wrong_sizes_violated

/-! C29 -/
#print axioms DF.C29_sort_comparator
#print axioms DF.C29_sort_numbers
#print axioms DF.C29_sort_vectors
#print axioms DF.C29_deterministic
#print axioms DF.C29_idempotent

/-! C30 -/
#print axioms DF.C30_refines_map
#print axioms DF.C30_frame

/-! C31 -/
#print axioms DF.C31_lookup_violated
#print axioms DF.C31_lookup_partial

/-! C32 -/
#print axioms DF.C32_dimension_violated
#print axioms DF.C32_stores_partial

/-! C33 -/
#print axioms DF.C33_setCount

/-! C34 -/
#print axioms DF.C34_comparator_violated
#print axioms DF.C34_comparator_partial

/-! C35 -/
#print axioms DF.C35_add
#print axioms DF.C35_sub
#print axioms DF.C35_add_comm
#print axioms DF.C35_add_assoc
#print axioms DF.C35_sub_add
#print axioms DF.C35_add_sub
#print axioms DF.C35_add_variadic
#print axioms DF.C35_add_variadic_throws
#print axioms DF.C35_add_list
#print axioms DF.C35_sub_list
#print axioms DF.C35_number

/-! C36 -/
#print axioms DF.C36_scale
#print axioms DF.C36_scale_by
#print axioms DF.C36_negate
#print axioms DF.C36_mult
#print axioms DF.C36_div
#print axioms DF.C36_negate_negate
#print axioms DF.C36_scale_scale
#print axioms DF.C36_div_mult
#print axioms DF.C36_mult_serie

/-! C37 -/
#print axioms DF.C37_div_serie
#print axioms DF.C37_div_serie_throws

/-! C38 -/
#print axioms DF.C38_weightedSum
#print axioms DF.C38_weightedSum_throws
#print axioms DF.C38_linear_in_weights
#print axioms DF.C38_homogeneous
#print axioms DF.C38_linear_in_series

/-! C39 -/
#print axioms DF.C39_minMax
#print axioms DF.C39_minMax_edge

/-! C40 -/
#print axioms DF.C40_normalize_scalar
#print axioms DF.C40_normalize_items
#print axioms DF.C40_normalize_empty

/-! C41 -/
#print axioms DF.C41_equals_iff
#print axioms DF.C41_equals_equivalence
#print axioms DF.C41_equalsAll
#print axioms DF.C41_approximatelyEquals_partial
#print axioms DF.C41_approximatelyEquals_violated
#print axioms DF.C41_approximately_laws
#print axioms DF.C41_approximatelyEqualsAll_partial
#print axioms DF.C41_approximatelyEqualsAll_violated

/-! C42 -/
#print axioms DF.C42_equalityMask
#print axioms DF.C42_approximateEqualityMask

/-! C43 -/
#print axioms DF.C43_random
#print axioms DF.C43_random_stream

/-! C44 -/
#print axioms DF.C44_violated
#print axioms DF.C44_bins_partial
#print axioms DF.C44_bins_range
#print axioms DF.C44_constant_violated
#print axioms DF.C44_edge

/-! C45 -/
#print axioms DF.C45_mean
#print axioms DF.C45_between
#print axioms DF.C45_additive
#print axioms DF.C45_homogeneous
#print axioms DF.C45_translation

/-! C46 -/
#print axioms DF.C46_covariance
#print axioms DF.C46_throws
#print axioms DF.C46_symmetric
#print axioms DF.C46_cauchy_schwarz
#print axioms DF.C46_shift

/-! C47 -/
#print axioms DF.C47_interpolates
#print axioms DF.C47_monotone
#print axioms DF.C47_endpoints
#print axioms DF.C47_between
#print axioms DF.C47_quartiles
#print axioms DF.C47_order_independent
#print axioms DF.C47_throws
#print axioms DF.C47_empty

/-! C48 -/
#print axioms DF.C48_outliers
#print axioms DF.C48_split
#print axioms DF.C48_antitone

/-! C49 -/
#print axioms DF.C49_entries
#print axioms DF.C49_involution_partial
#print axioms DF.C49_involution_dim3_partial
#print axioms DF.C49_dimension_violated
#print axioms DF.C49_empty_violated
#print axioms DF.C49_throws

/-! C50 -/
#print axioms DF.C50_full_partial
#print axioms DF.C50_symmetric_violated
#print axioms DF.C50_throws
#print axioms DF.C50_transpose_partial
#print axioms DF.C50_transpose_2d_violated

/-! C51 -/
#print axioms DF.C51_inverse
#print axioms DF.C51_throws
#print axioms DF.C51_returns_iff
#print axioms DF.C51_other_shapes

/-! C52 -/
#print axioms DF.C52_violated
#print axioms DF.C52_entries_partial
#print axioms DF.C52_symmetric_partial
#print axioms DF.C52_throws

/-! C53 -/
#print axioms DF.C53_cross
#print axioms DF.C53_antisymmetric
#print axioms DF.C53_parallel
#print axioms DF.C53_throws
#print axioms DF.C53_shorter_ub

/-! C54 -/
#print axioms DF.C54_dot
#print axioms DF.C54_symmetric
#print axioms DF.C54_additive
#print axioms DF.C54_homogeneous
#print axioms DF.C54_self
#print axioms DF.C54_cauchy_schwarz
#print axioms DF.C54_array
#print axioms DF.C54_array_length

/-! C55 -/
#print axioms DF.C55_vectors_violated
#print axioms DF.C55_scalars_violated
#print axioms DF.C55_empty_violated
#print axioms DF.C55_one_item_partial
#print axioms DF.C55_norm2_partial

/-! C56 -/
#print axioms DF.C56_system
#print axioms DF.C56_functions_agree
#print axioms DF.C56_stops
#print axioms DF.C56_rebuild

/-! C57 -/
#print axioms DF.C57_sorted

/-! C58 -/
#print axioms DF.C58_exact

/-! C59 -/
#print axioms DF.C59_normals
#print axioms DF.C59_perpendicular
#print axioms DF.C59_swapped
#print axioms DF.C59_shape
#print axioms DF.C59_area

/-! C60 -/
#print axioms DF.C60_violated
#print axioms DF.C60_shape_partial

/-! C61 -/
#print axioms DF.C61_insar
#print axioms DF.C61_insar_shape
#print axioms DF.C61_insar_empty_violated
#print axioms DF.C61_fringes
#print axioms DF.C61_periodic

/-! C62 -/
#print axioms DF.C62_points
#print axioms DF.C62_dims
#print axioms DF.C62_corners
#print axioms DF.C62_inside
#print axioms DF.C62_throws
#print axioms DF.C62_overflow_violated

/-! C63 -/
#print axioms DF.C63_packed_symmetric
#print axioms DF.C63_packed_bijection
#print axioms DF.C63_full_bijection
#print axioms DF.C63_entry
#print axioms DF.C63_multVec
#print axioms DF.C63_multVec_throws
#print axioms DF.C63_trace
#print axioms DF.C63_isSymmetric
#print axioms DF.C63_array_symmetric
#print axioms DF.C63_array_full

/-! C64 -/
#print axioms DF.C64_integers_partial
#print axioms DF.C64_normalize_partial
#print axioms DF.C64_truncation_violated
#print axioms DF.C64_overflow_violated
#print axioms DF.C64_upper_bound_partial

/-! C65 -/
#print axioms DF.C65_names
#print axioms DF.C65_builtin
#print axioms DF.C65_dimension_violated

/-! C66 -/
#print axioms DF.C66_stored
#print axioms DF.C66_first
#print axioms DF.C66_none
#print axioms DF.C66_contains
#print axioms DF.C66_zero_violated
#print axioms DF.C66_add

/-! C67 -/
#print axioms DF.C67_eigen_violated
#print axioms DF.C67_empty_violated
#print axioms DF.C67_components_partial
#print axioms DF.C67_mesh_violated
#print axioms DF.C67_coordinates_partial
#print axioms DF.C67_mesh_partial

/-! C68 -/
#print axioms DF.C68_names
#print axioms DF.C68_others_violated
#print axioms DF.C68_number_partial
#print axioms DF.C68_plane_names
#print axioms DF.C68_no_names
#print axioms DF.C68_vector
#print axioms DF.C68_symmetric
#print axioms DF.C68_full_partial
#print axioms DF.C68_full_violated
#print axioms DF.C68_clash_violated
#print axioms DF.C68_plane_violated

/-! C69 -/
#print axioms DF.C69_violated
#print axioms DF.C69_values_partial
#print axioms DF.C69_vectors_violated
#print axioms DF.C69_names
#print axioms DF.C69_plane_names

/-! C70 -/
#print axioms DF.C70_names
#print axioms DF.C70_coordinates
#print axioms DF.C70_other
#print axioms DF.C70_few_names_violated
#print axioms DF.C70_plane_violated

/-! C71 -/
#print axioms DF.C71_valence
#print axioms DF.C71_other
#print axioms DF.C71_missing

/-! C72 -/
#print axioms DF.C72_violated
#print axioms DF.C72_partial

/-! C73 -/
#print axioms DF.C73_check

/-! C74 -/
#print axioms DF.C74_empty_name_violated
#print axioms DF.C74_contains_serie_partial

/-! C75 -/
#print axioms DF.C75_variadic_of_sub_header
#print axioms DF.C75_variadic_of_sub_header_violated

/-! C76 -/
#print axioms DF.C76_add_sub_empty
#print axioms DF.C76_empty_item_size_violated
#print axioms DF.C76_item_size_partial

/-! C77 -/
#print axioms DF.C77_transpose_violated
#print axioms DF.C77_multMat_violated
#print axioms DF.C77_multMat_throws
#print axioms DF.C77_symSquaredMatrix_violated
#print axioms DF.C77_symSquaredMatrix_length_violated
#print axioms DF.C77_symSquaredMatrix_returns
#print axioms DF.C77_unusable_violated
#print axioms DF.C77_squaredMatrix_partial

/-! C78 -/
#print axioms DF.C78_add
#print axioms DF.C78_sub
#print axioms DF.C78_mult
#print axioms DF.C78_shorter_ub
#print axioms DF.C78_scale
#print axioms DF.C78_dot
#print axioms DF.C78_dot_shorter_ub
#print axioms DF.C78_dot_symmetric
#print axioms DF.C78_dot_self

/-! C79 -/
#print axioms DF.C79_throws
#print axioms DF.C79_system_partial
#print axioms DF.C79_dimension_violated
#print axioms DF.C79_empty_violated

/-! C80 -/
#print axioms DF.C80_centred_partial
#print axioms DF.C80_one_point_violated

/-! C81 -/
#print axioms DF.C81_normals
#print axioms DF.C81_other
#print axioms DF.C81_area_violated
#print axioms DF.C81_area_empty_violated
#print axioms DF.C81_area_partial

/-! C82 -/
#print axioms DF.C82_user
#print axioms DF.C82_dangling_violated
#print axioms DF.C82_throws

/-! C83 -/
#print axioms DF.C83_print_partial
#print axioms DF.C83_print_multi_partial
#print axioms DF.C83_print_single
#print axioms DF.C83_text_determines
#print axioms DF.C83_text_items
#print axioms DF.C83_print_violated

/-! C84 -/
#print axioms DF.C84_text_partial
#print axioms DF.C84_cerr_partial
#print axioms DF.C84_stream_violated
#print axioms DF.C84_spare_violated
#print axioms DF.C84_nodata_violated
#print axioms DF.C84_series_partial

/-! C85 -/
#print axioms DF.C85_array_partial
#print axioms DF.C85_array_empty_violated
#print axioms DF.C85_array_stream_violated
#print axioms DF.C85_names_partial
#print axioms DF.C85_names_stream_violated
#print axioms DF.C85_dump

/-! C86 -/
#print axioms DF.C86_mean_error
#print axioms DF.C86_mean_double
#print axioms DF.C86_mean_whole
#print axioms DF.C86_mean_range_violated

/-! C87 -/
#print axioms DF.C87_dot_error
#print axioms DF.C87_dot_whole
#print axioms DF.C87_dot_symmetric
#print axioms DF.C87_dot_self_nonneg
#print axioms DF.C87_insar_error
#print axioms DF.C87_weightedSum_error

/-! C88 -/
#print axioms DF.C88_covariance_error
#print axioms DF.C88_variance_nonneg
#print axioms DF.C88_covariance_symmetric

/-! C89 -/
#print axioms DF.C89_add_sub_whole
#print axioms DF.C89_add_sub_cancel
#print axioms DF.C89_add_sub_cancel_violated
#print axioms DF.C89_add_commutative

/-! C90 -/
#print axioms DF.C90_det2_error
#print axioms DF.C90_det3_error
#print axioms DF.C90_det_whole
#print axioms DF.C90_cross_error
#print axioms DF.C90_cross_antisymmetric

/-! C91 -/
#print axioms DF.C91_normalize_scalar
#print axioms DF.C91_max_violated
#print axioms DF.C91_normalize_items
#print axioms DF.C91_normalize_double

/-! C92 -/
#print axioms DF.C92_approximatelyEquals
#print axioms DF.C92_approximateEqualityMask

/-! C93 -/
#print axioms DF.C93_equals
#print axioms DF.C93_not_reflexive
#print axioms DF.C93_approximatelyEquals
#print axioms DF.C93_masks

/-! C94 -/
#print axioms DF.C94_minMax_scalar
#print axioms DF.C94_all_nan_violated
#print axioms DF.C94_minMax_items_partial
#print axioms DF.C94_first_item_violated
#print axioms DF.C94_infinite_violated

/-! C95 -/
#print axioms DF.C95_add_sub
#print axioms DF.C95_dot
#print axioms DF.C95_weightedSum
#print axioms DF.C95_mean
#print axioms DF.C95_covariance

/-! C96 -/
#print axioms DF.C96_normalize_constant_violated
#print axioms DF.C96_normalize_items
#print axioms DF.C96_mean_empty_violated
#print axioms DF.C96_div_zero_violated
#print axioms DF.C96_div_serie

/-! C97 -/
#print axioms DF.C97_not_strict_weak
#print axioms DF.C97_sort_partial
#print axioms DF.C97_sort_violated

/-! C98 -/
#print axioms DF.C98_nan_captures_all_violated
#print axioms DF.C98_wrong_result_violated
#print axioms DF.C98_nan_lost_violated
#print axioms DF.C98_undefined_violated
#print axioms DF.C98_transparent_partial
#print axioms DF.C98_at_most_once_partial

/-! C99 -/
#print axioms DF.C99_between_neighbours
#print axioms DF.C99_monotone
#print axioms DF.C99_node
#print axioms DF.C99_endpoints
#print axioms DF.C99_in_range
#print axioms DF.C99_quartiles
#print axioms DF.C99_median_odd
#print axioms DF.C99_order_independent

/-! C100 -/
#print axioms DF.C100_outliers
#print axioms DF.C100_split
#print axioms DF.C100_quartiles_kept
#print axioms DF.C100_antitone

/-! C101 -/
#print axioms DF.C101_bins
#print axioms DF.C101_bins_range

/-! C102 -/
#print axioms DF.C102_quantile_partial
#print axioms DF.C102_finite
#print axioms DF.C102_minimum_violated
#print axioms DF.C102_maximum
#print axioms DF.C102_nan_level_violated
#print axioms DF.C102_infinite_level

/-! C103 -/
#print axioms DF.C103_split_partial
#print axioms DF.C103_infinite_values_violated
#print axioms DF.C103_infinite_mustache_violated

/-! C104 -/
#print axioms DF.C104_bins_violated
#print axioms DF.C104_bins_range_violated
#print axioms DF.C104_finite

/-! C105 -/
#print axioms DF.C105_same_result
#print axioms DF.C105_one_core_keeps
#print axioms DF.C105_nothing_kept_violated
#print axioms DF.C105_caller_untouched
#print axioms DF.C105_map_numbers

/-! C106 -/
#print axioms DF.C106_filter_filter_numbers
#print axioms DF.C106_filter_filter_arrays
#print axioms DF.C106_filter_index_violated
#print axioms DF.C106_filter_map_numbers
#print axioms DF.C106_filter_map_arrays_partial
#print axioms DF.C106_filter_map_arrays_violated
#print axioms DF.C106_reduce_map
#print axioms DF.C106_reduce_filter
#print axioms DF.C106_map_concat_numbers
#print axioms DF.C106_filter_concat_numbers
#print axioms DF.C106_filter_concat_arrays
#print axioms DF.C106_map_concat_arrays_partial
#print axioms DF.C106_map_concat_arrays_violated
#print axioms DF.C106_filter_sort
#print axioms DF.C106_map_sort
#print axioms DF.C106_sort_concat
#print axioms DF.C106_partition_concat

/-! C107 -/
#print axioms DF.C107_numbers
#print axioms DF.C107_items
#print axioms DF.C107_det_2d_violated
#print axioms DF.C107_normalize_items
#print axioms DF.C107_normalize_numbers_violated
#print axioms DF.C107_eigen
#print axioms DF.C107_eigen_2d_violated
#print axioms DF.C107_filter_throws
#print axioms DF.C107_index
#print axioms DF.C107_index_violated

/-! C108 -/
#print axioms DF.C108_points_error
#print axioms DF.C108_first
#print axioms DF.C108_monotone
#print axioms DF.C108_last_partial
#print axioms DF.C108_last_violated
#print axioms DF.C108_dims_error
#print axioms DF.C108_dims_points_violated

/-! C109 -/
#print axioms DF.C109_fringes_error
#print axioms DF.C109_below_partial
#print axioms DF.C109_multiples
#print axioms DF.C109_below_violated

/-! C110 -/
#print axioms DF.C110_normals_error
#print axioms DF.C110_degenerate
#print axioms DF.C110_swapped
#print axioms DF.C110_whole

/-! C111 -/
#print axioms DF.C111_error
#print axioms DF.C111_returns
#print axioms DF.C111_throws
#print axioms DF.C111_residual
#print axioms DF.C111_full_partial
#print axioms DF.C111_full_returns
#print axioms DF.C111_singular_violated

/-! C112 -/
#print axioms DF.C112_toSerie_partial
#print axioms DF.C112_toSerie_violated

/-! C113 -/
#print axioms DF.C113_dump_partial
#print axioms DF.C113_dump_violated

/-! C114 -/
#print axioms DF.C114_print_array

/-! C115 -/
#print axioms DF.C115_stress
#print axioms DF.C115_translation
#print axioms DF.C115_exchange
#print axioms DF.C115_linear
#print axioms DF.C115_scale
#print axioms DF.C115_axes
#print axioms DF.C115_bound
#print axioms DF.C115_rotation_violated

/-! C116 -/
#print axioms DF.C116_sum
#print axioms DF.C116_order
#print axioms DF.C116_superposition
#print axioms DF.C116_parallel
#print axioms DF.C116_sources_partial
#print axioms DF.C116_sources_violated
#print axioms DF.C116_program

/-! C117 -/
#print axioms DF.C117_select_partial
#print axioms DF.C117_select_violated
#print axioms DF.C117_definite
#print axioms DF.C117_pipeline_partial
#print axioms DF.C117_nonneg
#print axioms DF.C117_program_violated
#print axioms DF.C117_cohesion_violated

/-! C118 -/
#print axioms DF.C118_add
#print axioms DF.C118_sub
#print axioms DF.C118_scale
#print axioms DF.C118_div
#print axioms DF.C118_mult

/-! C119 -/
#print axioms DF.C119_mean_partial
#print axioms DF.C119_mean_violated
#print axioms DF.C119_dot
#print axioms DF.C119_insar
#print axioms DF.C119_weightedSum

/-! C120 -/
#print axioms DF.C120_normalize_partial
#print axioms DF.C120_normalize_double_partial
#print axioms DF.C120_large_violated
#print axioms DF.C120_small_violated

/-! C121 -/
#print axioms DF.C121_system
#print axioms DF.C121_dim2
#print axioms DF.C121_functions_agree
#print axioms DF.C121_stops
#print axioms DF.C121_double

/-! C122 -/
#print axioms DF.C122_add_sub
#print axioms DF.C122_mult
#print axioms DF.C122_negate
#print axioms DF.C122_div
#print axioms DF.C122_dot
#print axioms DF.C122_weightedSum
#print axioms DF.C122_mean

/-! C123 -/
#print axioms DF.C123_approximatelyEquals_partial
#print axioms DF.C123_mask
#print axioms DF.C123_equal_partial
#print axioms DF.C123_infinite_violated

/-! C124 -/
#print axioms DF.C124_once_partial
#print axioms DF.C124_derived_violated
#print axioms DF.C124_copy_violated
#print axioms DF.C124_twice_violated
#print axioms DF.C124_clear_violated

/-! C125 -/
#print axioms DF.C125_destroyed
#print axioms DF.C125_never_again
#print axioms DF.C125_use_partial
#print axioms DF.C125_dataframe_violated
#print axioms DF.C125_made
#print axioms DF.C125_shared_violated

/-! C126 -/
#print axioms DF.C126_add_sub
#print axioms DF.C126_mult
#print axioms DF.C126_div_partial
#print axioms DF.C126_algebra
#print axioms DF.C126_stats
#print axioms DF.C126_compare
#print axioms DF.C126_div_violated

/-! C127 -/
#print axioms DF.C127_negate
#print axioms DF.C127_negate_negate
#print axioms DF.C127_neutral
#print axioms DF.C127_zeros
#print axioms DF.C127_add_comm
#print axioms DF.C127_sub_violated
#print axioms DF.C127_add_zero_violated
#print axioms DF.C127_mean_violated
#print axioms DF.C127_minMax_violated
#print axioms DF.C127_memoize_violated

/-! C128 -/
#print axioms DF.C128_add_sub
#print axioms DF.C128_mult
#print axioms DF.C128_div_partial
#print axioms DF.C128_algebra
#print axioms DF.C128_stats
#print axioms DF.C128_normalize
#print axioms DF.C128_compare
#print axioms DF.C128_div_violated

/-! C129 -/
#print axioms DF.C129_change
#print axioms DF.C129_mean
#print axioms DF.C129_covariance
#print axioms DF.C129_quantile
#print axioms DF.C129_quantile_reversed
#print axioms DF.C129_quartiles
#print axioms DF.C129_minMax

/-! C130 -/
#print axioms DF.C130_outliers
#print axioms DF.C130_binsIn
#print axioms DF.C130_bins
#print axioms DF.C130_normalize

/-! C131 -/
#print axioms DF.C131_true_values
#print axioms DF.C131_values
#print axioms DF.C131_vectors
#print axioms DF.C131_dim2
#print axioms DF.C131_frame

/-! C132 -/
#print axioms DF.C132_values
#print axioms DF.C132_dim2
#print axioms DF.C132_vectors
#print axioms DF.C132_double

/-! C133 -/
#print axioms DF.C133_cross_add
#print axioms DF.C133_cross_scale
#print axioms DF.C133_triple
#print axioms DF.C133_triple_det
#print axioms DF.C133_cross_cross

/-! C134 -/
#print axioms DF.C134_transpose_add
#print axioms DF.C134_det_scale
#print axioms DF.C134_det_scale_2d_violated
#print axioms DF.C134_inv_inv_partial
#print axioms DF.C134_inv_inv_violated
#print axioms DF.C134_det_inv

/-! C135 -/
#print axioms DF.C135_add_sub
#print axioms DF.C135_scale
#print axioms DF.C135_mult
#print axioms DF.C135_div
#print axioms DF.C135_negate
#print axioms DF.C135_mean
#print axioms DF.C135_normalize

/-! C136 -/
#print axioms DF.C136_add
#print axioms DF.C136_sub
#print axioms DF.C136_scale
#print axioms DF.C136_mult
#print axioms DF.C136_div

/-! C137 -/
#print axioms DF.C137_map
#print axioms DF.C137_map_throws
#print axioms DF.C137_contains
#print axioms DF.C137_contains_member
#print axioms DF.C137_nan_violated
#print axioms DF.C137_log
#print axioms DF.C137_messages

/-! C138 -/
#print axioms DF.C138_sort
#print axioms DF.C138_partition
#print axioms DF.C138_merge
#print axioms DF.C138_mean
#print axioms DF.C138_minMax
#print axioms DF.C138_covariance
#print axioms DF.C138_binsIn
#print axioms DF.C138_bins
#print axioms DF.C138_sorted
#print axioms DF.C138_outliers
#print axioms DF.C138_reduce

/-! C139 -/
#print axioms DF.C139_reduce
#print axioms DF.C139_forEach
#print axioms DF.C139_mean
#print axioms DF.C139_minMax
#print axioms DF.C139_bins
#print axioms DF.C139_covariance
#print axioms DF.C139_sort
#print axioms DF.C139_partition

/-! C140 -/
#print axioms DF.C140_affine
#print axioms DF.C140_isometry
#print axioms DF.C140_translate
#print axioms DF.C140_scale
#print axioms DF.C140_renumber
#print axioms DF.C140_turned
#print axioms DF.C140_closed

/-! C141 -/
#print axioms DF.C141_unzip
#print axioms DF.C141_zip
#print axioms DF.C141_full_violated

/-! C142 -/
#print axioms DF.C142_stable
#print axioms DF.C142_extremes
#print axioms DF.C142_positive
#print axioms DF.C142_sum
#print axioms DF.C142_shift
#print axioms DF.C142_scale
#print axioms DF.C142_scale_2d_violated

/-! C143 -/
#print axioms DF.C143_affine
#print axioms DF.C143_reversed
#print axioms DF.C143_refined
#print axioms DF.C143_distinct
#print axioms DF.C143_mean
#print axioms DF.C143_bounds

/-! C144 -/
#print axioms DF.C144_insar_add
#print axioms DF.C144_insar_scale
#print axioms DF.C144_insar_los
#print axioms DF.C144_insar_hidden
#print axioms DF.C144_fringes_coarse
#print axioms DF.C144_fringes_add
#print axioms DF.C144_fringes_scale
#print axioms DF.C144_fringes_negate
#print axioms DF.C144_fringes_unchanged
#print axioms DF.C144_fringes_special

/-! C145 -/
#print axioms DF.C145_cross
#print axioms DF.C145_det
#print axioms DF.C145_inv
#print axioms DF.C145_inv_throws
#print axioms DF.C145_normals

/-! C146 -/
#print axioms DF.C146_returns
#print axioms DF.C146_items
#print axioms DF.C146_diagonal_partial
#print axioms DF.C146_dropped_violated
#print axioms DF.C146_overflow_violated
#print axioms DF.C146_underflow_violated

/-! C147 -/
#print axioms DF.C147_powers
#print axioms DF.C147_operations
#print axioms DF.C147_addSub
#print axioms DF.C147_addSub2
#print axioms DF.C147_weights
#print axioms DF.C147_mean
#print axioms DF.C147_covariance
#print axioms DF.C147_quantiles
#print axioms DF.C147_outliers
#print axioms DF.C147_normalize
#print axioms DF.C147_binsIn
#print axioms DF.C147_products
#print axioms DF.C147_det
#print axioms DF.C147_eigen
#print axioms DF.C147_normals
#print axioms DF.C147_fringes
#print axioms DF.C147_grids
#print axioms DF.C147_inv_partial
#print axioms DF.C147_inv_violated
#print axioms DF.C147_div_partial
#print axioms DF.C147_div_violated

/-! C148 -/
#print axioms DF.C148_add_sub
#print axioms DF.C148_products
#print axioms DF.C148_mult_partial
#print axioms DF.C148_mult_violated
#print axioms DF.C148_compare
#print axioms DF.C148_normalize_partial
#print axioms DF.C148_stats
#print axioms DF.C148_map
#print axioms DF.C148_numbers
#print axioms DF.C148_arrays
#print axioms DF.C148_loops
#print axioms DF.C148_several
#print axioms DF.C148_map_several_partial
#print axioms DF.C148_map_several_violated
#print axioms DF.C148_merge
#print axioms DF.C148_partition_n_partial
#print axioms DF.C148_zip
#print axioms DF.C148_unzip
#print axioms DF.C148_matrices
#print axioms DF.C148_det_partial
#print axioms DF.C148_vectors_partial
#print axioms DF.C148_vectors_violated
#print axioms DF.C148_grids
#print axioms DF.C148_insar_partial
#print axioms DF.C148_insar_violated
#print axioms DF.C148_normals

/-! C149 -/
#print axioms DF.C149_manager
#print axioms DF.C149_components_partial
#print axioms DF.C149_components_violated
#print axioms DF.C149_coordinates_partial
#print axioms DF.C149_eigen_partial
#print axioms DF.C149_eigen_violated
#print axioms DF.C149_mesh
#print axioms DF.C149_library_partial

/-! C150 -/
#print axioms DF.C150_manager
#print axioms DF.C150_library_partial
#print axioms DF.C150_mesh_violated
#print axioms DF.C150_zero_violated

/-! C151 -/
#print axioms DF.C151_programs_partial
#print axioms DF.C151_others_violated

/-! C152 -/
#print axioms DF.C152_programs
#print axioms DF.C152_moves
#print axioms DF.C152_rationals
#print axioms DF.C152_signs
#print axioms DF.C152_signs_division
#print axioms DF.C152_units

/-! C153 -/
#print axioms DF.C153_numbers
#print axioms DF.C153_matrices
#print axioms DF.C153_vectors
#print axioms DF.C153_eigen
#print axioms DF.C153_map
#print axioms DF.C153_pipe
#print axioms DF.C153_defined
#print axioms DF.C153_pieces
#print axioms DF.C153_parallel
#print axioms DF.C153_select

/-! C154 -/
#print axioms DF.C154_one
#print axioms DF.C154_pairs
#print axioms DF.C154_products
#print axioms DF.C154_many
#print axioms DF.C154_map
#print axioms DF.C154_defined
#print axioms DF.C154_rows
#print axioms DF.C154_batches
#print axioms DF.C154_stack
#print axioms DF.C154_filter

/-! C155 -/
#print axioms DF.C155_order_partial
#print axioms DF.C155_count_violated
#print axioms DF.C155_again
#print axioms DF.C155_step
#print axioms DF.C155_consistent
#print axioms DF.C155_unaffected

/-! C156 -/
#print axioms DF.C156_components
#print axioms DF.C156_eigen
#print axioms DF.C156_user
#print axioms DF.C156_manager
#print axioms DF.C156_defined
#print axioms DF.C156_rows
#print axioms DF.C156_choose
#print axioms DF.C156_batches
#print axioms DF.C156_names
#print axioms DF.C156_library

/-! C157 -/
#print axioms DF.C157_mean
#print axioms DF.C157_variance
#print axioms DF.C157_range
#print axioms DF.C157_farthest
#print axioms DF.C157_tails
#print axioms DF.C157_line
#print axioms DF.C157_quantile
#print axioms DF.C157_median
#print axioms DF.C157_mean_median
#print axioms DF.C157_outliers

/-! C158 -/
#print axioms DF.C158_below
#print axioms DF.C158_refine
#print axioms DF.C158_mean

/-! C159 -/
#print axioms DF.C159_choose
#print axioms DF.C159_triangles
#print axioms DF.C159_together
#print axioms DF.C159_border
#print axioms DF.C159_insert

/-! C160 -/
#print axioms DF.C160_rank
#print axioms DF.C160_find
#print axioms DF.C160_ends
#print axioms DF.C160_parts
#print axioms DF.C160_pieces
#print axioms DF.C160_negate
#print axioms DF.C160_quantile
#print axioms DF.C160_dominated
#print axioms DF.C160_close

/-! C161 -/
#print axioms DF.C161_cross
#print axioms DF.C161_insar
#print axioms DF.C161_formulas_partial
#print axioms DF.C161_mean
#print axioms DF.C161_inverse_violated
#print axioms DF.C161_scalars_partial

/-! C162 -/
#print axioms DF.C162_mean
#print axioms DF.C162_covariance
#print axioms DF.C162_variance

/-! C163 -/
#print axioms DF.C163_add_sub_mult
#print axioms DF.C163_scale
#print axioms DF.C163_dot
#print axioms DF.C163_norm_violated
#print axioms DF.C163_matrix

/-! C164 -/
#print axioms DF.C164_names
#print axioms DF.C164_names_grow
#print axioms DF.C164_serie_grow
#print axioms DF.C164_base
#print axioms DF.C164_twice
#print axioms DF.C164_exchange
#print axioms DF.C164_wins

/-! C165 -/
#print axioms DF.C165_map
#print axioms DF.C165_forEach
#print axioms DF.C165_filter
#print axioms DF.C165_filter_unzip
#print axioms DF.C165_nested
#print axioms DF.C165_parts
#print axioms DF.C165_stack

/-! C166 -/
#print axioms DF.C166_twice
#print axioms DF.C166_kept
#print axioms DF.C166_transparent

/-! C167 -/
#print axioms DF.C167_routines
#print axioms DF.C167_loops
#print axioms DF.C167_twins

/-! C168 -/
#print axioms DF.C168_programs
#print axioms DF.C168_nonneg
#print axioms DF.C168_routines
#print axioms DF.C168_sub
#print axioms DF.C168_scale
#print axioms DF.C168_mean
#print axioms DF.C168_dot
#print axioms DF.C168_sort
#print axioms DF.C168_quantile_partial
#print axioms DF.C168_quantile_violated

/-! C169 -/
#print axioms DF.C169_programs
#print axioms DF.C169_routines
#print axioms DF.C169_mean
#print axioms DF.C169_dot
#print axioms DF.C169_product_nan

/-! C170 -/
#print axioms DF.C170_relative
#print axioms DF.C170_absolute
#print axioms DF.C170_routines
#print axioms DF.C170_routines_relative
#print axioms DF.C170_exact_counted
#print axioms DF.C170_exact_bounded

/-! C171 -/
#print axioms DF.C171_programs
#print axioms DF.C171_routines
#print axioms DF.C171_exact
#print axioms DF.C171_algebra
#print axioms DF.C171_stats
#print axioms DF.C171_functions_exact

/-! C172 -/
#print axioms DF.C172_quantile
#print axioms DF.C172_quartiles

/-! C173 -/
#print axioms DF.C173_quantile_partial
#print axioms DF.C173_quartiles_partial
#print axioms DF.C173_median_violated
#print axioms DF.C173_level_throws
#print axioms DF.C173_level_violated
#print axioms DF.C173_between_neighbours_partial
#print axioms DF.C173_in_range_partial
#print axioms DF.C173_monotone_partial
#print axioms DF.C173_quartiles_order_partial

/-! C174 -/
#print axioms DF.C174_bins_partial
#print axioms DF.C174_bins_range_partial
#print axioms DF.C174_small_violated
#print axioms DF.C174_large_violated

