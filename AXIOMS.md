# Axioms of the property theorems

Output of `lean/Verif/Audit.lean` (`#print axioms`), grouped by the set of axioms.

## none (5 theorems)

`DF.C01_itemSize_zero`, `DF.C05_copy`, `DF.C05_violated`, `DF.C05_clone_invalid`, `DF.C20_make_op`

## propext (52 theorems)

`DF.C01_zeros_overflow`, `DF.C04_violated`, `DF.C10_empty`, `DF.C16_reduce_empty`, `DF.C17_forEach_kind`, `DF.C18_partial`, `DF.C18_violated`, `DF.C22_concat_throws`, `DF.C25_zero_cores`, `DF.C26_dimension_violated`, `DF.C41_equals_iff`, `DF.C41_equals_equivalence`, `DF.C49_dimension_violated`, `DF.C49_throws`, `DF.C53_throws`, `DF.C53_shorter_ub`, `DF.C61_insar_shape`, `DF.C63_packed_symmetric`, `DF.C63_multVec_throws`, `DF.C66_first`, `DF.C66_none`, `DF.C66_add`, `DF.C70_names`, `DF.C70_few_names_violated`, `DF.C71_other`, `DF.C75_variadic_of_sub_header_violated`, `DF.C77_transpose_violated`, `DF.C77_multMat_violated`, `DF.C77_multMat_throws`, `DF.C77_symSquaredMatrix_violated`, `DF.C77_unusable_violated`, `DF.C78_scale`, `DF.C82_user`, `DF.C82_dangling_violated`, `DF.C82_throws`, `DF.C83_print_single`, `DF.C84_nodata_violated`, `DF.C93_equals`, `DF.C93_not_reflexive`, `DF.C97_not_strict_weak`, `DF.C105_caller_untouched`, `DF.C106_filter_index_violated`, `DF.C113_dump_violated`, `DF.C117_select_violated`, `DF.C125_destroyed`, `DF.C125_dataframe_violated`, `DF.C148_mult_violated`, `DF.C148_map_several_violated`, `DF.C148_vectors_violated`, `DF.C148_insar_violated`, `DF.C151_others_violated`, `DF.C164_wins`

## propext, Quot.sound (113 theorems)

`DF.C01_construct`, `DF.C01_zeros`, `DF.C02_set_array`, `DF.C02_setValue`, `DF.C02_set_double`, `DF.C02_setScalar`, `DF.C03_set_array`, `DF.C03_setValue`, `DF.C03_set_double`, `DF.C03_setScalar`, `DF.C04_partial`, `DF.C04_scalar_at_size`, `DF.C04_get_wraps`, `DF.C05_partial`, `DF.C06_reachable_wellformed`, `DF.C06_reachable_reads`, `DF.C07_reCount`, `DF.C08_map_number_to_number_stateful`, `DF.C08_map_array_to_number_stateful`, `DF.C09_map_id`, `DF.C10_ragged_throws`, `DF.C10_ragged_throws_number`, `DF.C10_never_ragged`, `DF.C10_never_ragged_number`, `DF.C11_counts_differ`, `DF.C14_find_number`, `DF.C14_find_array`, `DF.C16_reduce`, `DF.C16_reduce_pure`, `DF.C16_reduce_array`, `DF.C16_reduce_concat`, `DF.C17_forEach_generic`, `DF.C19_merge_concatenate`, `DF.C19_merge_interleave`, `DF.C19_merge_variadic`, `DF.C19_no_loss`, `DF.C19_sizes_differ`, `DF.C20_pipe_left_to_right`, `DF.C20_compose_right_to_left`, `DF.C20_pipe_associative`, `DF.C20_compose_associative`, `DF.C20_exception_stops`, `DF.C21_counts_differ`, `DF.C23_multi_throws`, `DF.C26_item_size_violated`, `DF.C28_wrong_sizes_violated`, `DF.C35_sub_add`, `DF.C35_add_sub`, `DF.C35_add_variadic`, `DF.C41_equalsAll`, `DF.C43_random`, `DF.C43_random_stream`, `DF.C44_edge`, `DF.C46_throws`, `DF.C47_throws`, `DF.C49_empty_violated`, `DF.C54_array_length`, `DF.C59_shape`, `DF.C62_throws`, `DF.C63_entry`, `DF.C63_isSymmetric`, `DF.C63_array_symmetric`, `DF.C63_array_full`, `DF.C67_mesh_violated`, `DF.C70_other`, `DF.C71_missing`, `DF.C72_violated`, `DF.C72_partial`, `DF.C75_variadic_of_sub_header`, `DF.C76_add_sub_empty`, `DF.C81_other`, `DF.C83_print_violated`, `DF.C85_array_empty_violated`, `DF.C85_names_partial`, `DF.C85_dump`, `DF.C93_approximatelyEquals`, `DF.C96_mean_empty_violated`, `DF.C98_nan_captures_all_violated`, `DF.C102_infinite_level`, `DF.C104_bins_violated`, `DF.C112_toSerie_partial`, `DF.C112_toSerie_violated`, `DF.C124_derived_violated`, `DF.C124_copy_violated`, `DF.C124_twice_violated`, `DF.C125_never_again`, `DF.C125_use_partial`, `DF.C125_made`, `DF.C125_shared_violated`, `DF.C137_map`, `DF.C137_map_throws`, `DF.C137_nan_violated`, `DF.C137_log`, `DF.C137_messages`, `DF.C138_merge`, `DF.C148_map`, `DF.C148_loops`, `DF.C148_map_several_partial`, `DF.C148_merge`, `DF.C148_zip`, `DF.C149_manager`, `DF.C150_manager`, `DF.C152_programs`, `DF.C152_moves`, `DF.C153_map`, `DF.C153_pipe`, `DF.C153_defined`, `DF.C153_select`, `DF.C154_one`, `DF.C154_defined`, `DF.C154_rows`, `DF.C164_exchange`, `DF.C167_twins`

## propext, Classical.choice, Quot.sound (751 theorems)

`DF.C04_get_past_end`, `DF.C08_map_number_to_number`, `DF.C08_map_array_to_number`, `DF.C08_map_number_to_array`, `DF.C08_map_array_to_array`, `DF.C08_map_observe`, `DF.C09_map_comp`, `DF.C09_map_scalar_id_comp`, `DF.C10_empty_rows_undefined`, `DF.C10_ragged_throws_multi`, `DF.C10_never_ragged_multi`, `DF.C11_partial`, `DF.C11_partial_array`, `DF.C11_violated`, `DF.C12_filter_number`, `DF.C12_filter_array`, `DF.C12_filter_stateful`, `DF.C12_filter_pure`, `DF.C13_reject_is_filter_not`, `DF.C13_complement`, `DF.C13_complement_number`, `DF.C14_findAll_is_filter`, `DF.C15_partition`, `DF.C15_partition_throws`, `DF.C17_forEach_number`, `DF.C17_forEach_array`, `DF.C17_forEach_multi`, `DF.C18_silent`, `DF.C21_filter_multi`, `DF.C21_reject_multi`, `DF.C21_filterAll_rejectAll`, `DF.C22_concat`, `DF.C22_concat_associative`, `DF.C23_partition`, `DF.C23_even`, `DF.C23_partition_multi`, `DF.C24_parallel_is_sequential`, `DF.C24_map_numbers`, `DF.C24_map_arrays`, `DF.C25_deterministic`, `DF.C25_first_failure`, `DF.C25_terminates`, `DF.C25_no_job_left`, `DF.C26_transparent_partial`, `DF.C26_same_item_size_partial`, `DF.C27_at_most_once`, `DF.C27_at_most_once_total`, `DF.C27_repeat_invokes_nothing`, `DF.C27_throw_caches_nothing`, `DF.C27_clear_then_invokes`, `DF.C28_zip`, `DF.C28_unzip_zip`, `DF.C28_zip_unzip`, `DF.C28_throws_partial`, `DF.C29_sort_comparator`, `DF.C29_sort_numbers`, `DF.C29_sort_vectors`, `DF.C29_deterministic`, `DF.C29_idempotent`, `DF.C30_refines_map`, `DF.C30_frame`, `DF.C31_lookup_violated`, `DF.C31_lookup_partial`, `DF.C32_dimension_violated`, `DF.C32_stores_partial`, `DF.C33_setCount`, `DF.C34_comparator_violated`, `DF.C34_comparator_partial`, `DF.C35_add`, `DF.C35_sub`, `DF.C35_add_comm`, `DF.C35_add_assoc`, `DF.C35_add_variadic_throws`, `DF.C35_add_list`, `DF.C35_sub_list`, `DF.C35_number`, `DF.C36_scale`, `DF.C36_scale_by`, `DF.C36_negate`, `DF.C36_mult`, `DF.C36_div`, `DF.C36_negate_negate`, `DF.C36_scale_scale`, `DF.C36_div_mult`, `DF.C36_mult_serie`, `DF.C37_div_serie`, `DF.C37_div_serie_throws`, `DF.C38_weightedSum`, `DF.C38_weightedSum_throws`, `DF.C38_linear_in_weights`, `DF.C38_homogeneous`, `DF.C38_linear_in_series`, `DF.C39_minMax`, `DF.C39_minMax_edge`, `DF.C40_normalize_scalar`, `DF.C40_normalize_items`, `DF.C40_normalize_empty`, `DF.C41_approximatelyEquals_partial`, `DF.C41_approximatelyEquals_violated`, `DF.C41_approximately_laws`, `DF.C41_approximatelyEqualsAll_partial`, `DF.C41_approximatelyEqualsAll_violated`, `DF.C42_equalityMask`, `DF.C42_approximateEqualityMask`, `DF.C44_violated`, `DF.C44_bins_partial`, `DF.C44_bins_range`, `DF.C44_constant_violated`, `DF.C45_mean`, `DF.C45_between`, `DF.C45_additive`, `DF.C45_homogeneous`, `DF.C45_translation`, `DF.C46_covariance`, `DF.C46_symmetric`, `DF.C46_cauchy_schwarz`, `DF.C46_shift`, `DF.C47_interpolates`, `DF.C47_monotone`, `DF.C47_endpoints`, `DF.C47_between`, `DF.C47_quartiles`, `DF.C47_order_independent`, `DF.C47_empty`, `DF.C48_outliers`, `DF.C48_split`, `DF.C48_antitone`, `DF.C49_entries`, `DF.C49_involution_partial`, `DF.C49_involution_dim3_partial`, `DF.C50_full_partial`, `DF.C50_symmetric_violated`, `DF.C50_throws`, `DF.C50_transpose_partial`, `DF.C50_transpose_2d_violated`, `DF.C51_inverse`, `DF.C51_throws`, `DF.C51_returns_iff`, `DF.C51_other_shapes`, `DF.C52_violated`, `DF.C52_entries_partial`, `DF.C52_symmetric_partial`, `DF.C52_throws`, `DF.C53_cross`, `DF.C53_antisymmetric`, `DF.C53_parallel`, `DF.C54_dot`, `DF.C54_symmetric`, `DF.C54_additive`, `DF.C54_homogeneous`, `DF.C54_self`, `DF.C54_cauchy_schwarz`, `DF.C54_array`, `DF.C55_vectors_violated`, `DF.C55_scalars_violated`, `DF.C55_empty_violated`, `DF.C55_one_item_partial`, `DF.C55_norm2_partial`, `DF.C56_system`, `DF.C56_functions_agree`, `DF.C56_stops`, `DF.C56_rebuild`, `DF.C57_sorted`, `DF.C58_exact`, `DF.C59_normals`, `DF.C59_perpendicular`, `DF.C59_swapped`, `DF.C59_area`, `DF.C60_violated`, `DF.C60_shape_partial`, `DF.C61_insar`, `DF.C61_insar_empty_violated`, `DF.C61_fringes`, `DF.C61_periodic`, `DF.C62_points`, `DF.C62_dims`, `DF.C62_corners`, `DF.C62_inside`, `DF.C62_overflow_violated`, `DF.C63_packed_bijection`, `DF.C63_full_bijection`, `DF.C63_multVec`, `DF.C63_trace`, `DF.C64_integers_partial`, `DF.C64_normalize_partial`, `DF.C64_truncation_violated`, `DF.C64_overflow_violated`, `DF.C64_upper_bound_partial`, `DF.C65_names`, `DF.C65_builtin`, `DF.C65_dimension_violated`, `DF.C66_stored`, `DF.C66_contains`, `DF.C66_zero_violated`, `DF.C67_eigen_violated`, `DF.C67_empty_violated`, `DF.C67_components_partial`, `DF.C67_coordinates_partial`, `DF.C67_mesh_partial`, `DF.C68_names`, `DF.C68_others_violated`, `DF.C68_number_partial`, `DF.C68_plane_names`, `DF.C68_no_names`, `DF.C68_vector`, `DF.C68_symmetric`, `DF.C68_full_partial`, `DF.C68_full_violated`, `DF.C68_clash_violated`, `DF.C68_plane_violated`, `DF.C69_violated`, `DF.C69_values_partial`, `DF.C69_vectors_violated`, `DF.C69_names`, `DF.C69_plane_names`, `DF.C70_coordinates`, `DF.C70_plane_violated`, `DF.C71_valence`, `DF.C73_check`, `DF.C74_empty_name_violated`, `DF.C74_contains_serie_partial`, `DF.C76_empty_item_size_violated`, `DF.C76_item_size_partial`, `DF.C77_symSquaredMatrix_length_violated`, `DF.C77_symSquaredMatrix_returns`, `DF.C77_squaredMatrix_partial`, `DF.C78_add`, `DF.C78_sub`, `DF.C78_mult`, `DF.C78_shorter_ub`, `DF.C78_dot`, `DF.C78_dot_shorter_ub`, `DF.C78_dot_symmetric`, `DF.C78_dot_self`, `DF.C79_throws`, `DF.C79_system_partial`, `DF.C79_dimension_violated`, `DF.C79_empty_violated`, `DF.C80_centred_partial`, `DF.C80_one_point_violated`, `DF.C81_normals`, `DF.C81_area_violated`, `DF.C81_area_empty_violated`, `DF.C81_area_partial`, `DF.C83_print_partial`, `DF.C83_print_multi_partial`, `DF.C83_text_determines`, `DF.C83_text_items`, `DF.C84_text_partial`, `DF.C84_cerr_partial`, `DF.C84_stream_violated`, `DF.C84_spare_violated`, `DF.C84_series_partial`, `DF.C85_array_partial`, `DF.C85_array_stream_violated`, `DF.C85_names_stream_violated`, `DF.C86_mean_error`, `DF.C86_mean_double`, `DF.C86_mean_whole`, `DF.C86_mean_range_violated`, `DF.C87_dot_error`, `DF.C87_dot_whole`, `DF.C87_dot_symmetric`, `DF.C87_dot_self_nonneg`, `DF.C87_insar_error`, `DF.C87_weightedSum_error`, `DF.C88_covariance_error`, `DF.C88_variance_nonneg`, `DF.C88_covariance_symmetric`, `DF.C89_add_sub_whole`, `DF.C89_add_sub_cancel`, `DF.C89_add_sub_cancel_violated`, `DF.C89_add_commutative`, `DF.C90_det2_error`, `DF.C90_det3_error`, `DF.C90_det_whole`, `DF.C90_cross_error`, `DF.C90_cross_antisymmetric`, `DF.C91_normalize_scalar`, `DF.C91_max_violated`, `DF.C91_normalize_items`, `DF.C91_normalize_double`, `DF.C92_approximatelyEquals`, `DF.C92_approximateEqualityMask`, `DF.C93_masks`, `DF.C94_minMax_scalar`, `DF.C94_all_nan_violated`, `DF.C94_minMax_items_partial`, `DF.C94_first_item_violated`, `DF.C94_infinite_violated`, `DF.C95_add_sub`, `DF.C95_dot`, `DF.C95_weightedSum`, `DF.C95_mean`, `DF.C95_covariance`, `DF.C96_normalize_constant_violated`, `DF.C96_normalize_items`, `DF.C96_div_zero_violated`, `DF.C96_div_serie`, `DF.C97_sort_partial`, `DF.C97_sort_violated`, `DF.C98_wrong_result_violated`, `DF.C98_nan_lost_violated`, `DF.C98_undefined_violated`, `DF.C98_transparent_partial`, `DF.C98_at_most_once_partial`, `DF.C99_between_neighbours`, `DF.C99_monotone`, `DF.C99_node`, `DF.C99_endpoints`, `DF.C99_in_range`, `DF.C99_quartiles`, `DF.C99_median_odd`, `DF.C99_order_independent`, `DF.C100_outliers`, `DF.C100_split`, `DF.C100_quartiles_kept`, `DF.C100_antitone`, `DF.C101_bins`, `DF.C101_bins_range`, `DF.C102_quantile_partial`, `DF.C102_finite`, `DF.C102_minimum_violated`, `DF.C102_maximum`, `DF.C102_nan_level_violated`, `DF.C103_split_partial`, `DF.C103_infinite_values_violated`, `DF.C103_infinite_mustache_violated`, `DF.C104_bins_range_violated`, `DF.C104_finite`, `DF.C105_same_result`, `DF.C105_one_core_keeps`, `DF.C105_nothing_kept_violated`, `DF.C105_map_numbers`, `DF.C106_filter_filter_numbers`, `DF.C106_filter_filter_arrays`, `DF.C106_filter_map_numbers`, `DF.C106_filter_map_arrays_partial`, `DF.C106_filter_map_arrays_violated`, `DF.C106_reduce_map`, `DF.C106_reduce_filter`, `DF.C106_map_concat_numbers`, `DF.C106_filter_concat_numbers`, `DF.C106_filter_concat_arrays`, `DF.C106_map_concat_arrays_partial`, `DF.C106_map_concat_arrays_violated`, `DF.C106_filter_sort`, `DF.C106_map_sort`, `DF.C106_sort_concat`, `DF.C106_partition_concat`, `DF.C107_numbers`, `DF.C107_items`, `DF.C107_det_2d_violated`, `DF.C107_normalize_items`, `DF.C107_normalize_numbers_violated`, `DF.C107_eigen`, `DF.C107_eigen_2d_violated`, `DF.C107_filter_throws`, `DF.C107_index`, `DF.C107_index_violated`, `DF.C108_points_error`, `DF.C108_first`, `DF.C108_monotone`, `DF.C108_last_partial`, `DF.C108_last_violated`, `DF.C108_dims_error`, `DF.C108_dims_points_violated`, `DF.C109_fringes_error`, `DF.C109_below_partial`, `DF.C109_multiples`, `DF.C109_below_violated`, `DF.C110_normals_error`, `DF.C110_degenerate`, `DF.C110_swapped`, `DF.C110_whole`, `DF.C111_error`, `DF.C111_returns`, `DF.C111_throws`, `DF.C111_residual`, `DF.C111_full_partial`, `DF.C111_full_returns`, `DF.C111_singular_violated`, `DF.C113_dump_partial`, `DF.C114_print_array`, `DF.C115_stress`, `DF.C115_translation`, `DF.C115_exchange`, `DF.C115_linear`, `DF.C115_scale`, `DF.C115_axes`, `DF.C115_bound`, `DF.C115_rotation_violated`, `DF.C116_sum`, `DF.C116_order`, `DF.C116_superposition`, `DF.C116_parallel`, `DF.C116_sources_partial`, `DF.C116_sources_violated`, `DF.C116_program`, `DF.C117_select_partial`, `DF.C117_definite`, `DF.C117_pipeline_partial`, `DF.C117_nonneg`, `DF.C117_program_violated`, `DF.C117_cohesion_violated`, `DF.C118_add`, `DF.C118_sub`, `DF.C118_scale`, `DF.C118_div`, `DF.C118_mult`, `DF.C119_mean_partial`, `DF.C119_mean_violated`, `DF.C119_dot`, `DF.C119_insar`, `DF.C119_weightedSum`, `DF.C120_normalize_partial`, `DF.C120_normalize_double_partial`, `DF.C120_large_violated`, `DF.C120_small_violated`, `DF.C121_system`, `DF.C121_dim2`, `DF.C121_functions_agree`, `DF.C121_stops`, `DF.C121_double`, `DF.C122_add_sub`, `DF.C122_mult`, `DF.C122_negate`, `DF.C122_div`, `DF.C122_dot`, `DF.C122_weightedSum`, `DF.C122_mean`, `DF.C123_approximatelyEquals_partial`, `DF.C123_mask`, `DF.C123_equal_partial`, `DF.C123_infinite_violated`, `DF.C124_once_partial`, `DF.C124_clear_violated`, `DF.C126_add_sub`, `DF.C126_mult`, `DF.C126_div_partial`, `DF.C126_algebra`, `DF.C126_stats`, `DF.C126_compare`, `DF.C126_div_violated`, `DF.C127_negate`, `DF.C127_negate_negate`, `DF.C127_neutral`, `DF.C127_zeros`, `DF.C127_add_comm`, `DF.C127_sub_violated`, `DF.C127_add_zero_violated`, `DF.C127_mean_violated`, `DF.C127_minMax_violated`, `DF.C127_memoize_violated`, `DF.C128_add_sub`, `DF.C128_mult`, `DF.C128_div_partial`, `DF.C128_algebra`, `DF.C128_stats`, `DF.C128_normalize`, `DF.C128_compare`, `DF.C128_div_violated`, `DF.C129_change`, `DF.C129_mean`, `DF.C129_covariance`, `DF.C129_quantile`, `DF.C129_quantile_reversed`, `DF.C129_quartiles`, `DF.C129_minMax`, `DF.C130_outliers`, `DF.C130_binsIn`, `DF.C130_bins`, `DF.C130_normalize`, `DF.C131_true_values`, `DF.C131_values`, `DF.C131_vectors`, `DF.C131_dim2`, `DF.C131_frame`, `DF.C132_values`, `DF.C132_dim2`, `DF.C132_vectors`, `DF.C132_double`, `DF.C133_cross_add`, `DF.C133_cross_scale`, `DF.C133_triple`, `DF.C133_triple_det`, `DF.C133_cross_cross`, `DF.C134_transpose_add`, `DF.C134_det_scale`, `DF.C134_det_scale_2d_violated`, `DF.C134_inv_inv_partial`, `DF.C134_inv_inv_violated`, `DF.C134_det_inv`, `DF.C135_add_sub`, `DF.C135_scale`, `DF.C135_mult`, `DF.C135_div`, `DF.C135_negate`, `DF.C135_mean`, `DF.C135_normalize`, `DF.C136_add`, `DF.C136_sub`, `DF.C136_scale`, `DF.C136_mult`, `DF.C136_div`, `DF.C137_contains`, `DF.C137_contains_member`, `DF.C138_sort`, `DF.C138_partition`, `DF.C138_mean`, `DF.C138_minMax`, `DF.C138_covariance`, `DF.C138_binsIn`, `DF.C138_bins`, `DF.C138_sorted`, `DF.C138_outliers`, `DF.C138_reduce`, `DF.C139_reduce`, `DF.C139_forEach`, `DF.C139_mean`, `DF.C139_minMax`, `DF.C139_bins`, `DF.C139_covariance`, `DF.C139_sort`, `DF.C139_partition`, `DF.C140_affine`, `DF.C140_isometry`, `DF.C140_translate`, `DF.C140_scale`, `DF.C140_renumber`, `DF.C140_turned`, `DF.C140_closed`, `DF.C141_unzip`, `DF.C141_zip`, `DF.C141_full_violated`, `DF.C142_stable`, `DF.C142_extremes`, `DF.C142_positive`, `DF.C142_sum`, `DF.C142_shift`, `DF.C142_scale`, `DF.C142_scale_2d_violated`, `DF.C143_affine`, `DF.C143_reversed`, `DF.C143_refined`, `DF.C143_distinct`, `DF.C143_mean`, `DF.C143_bounds`, `DF.C144_insar_add`, `DF.C144_insar_scale`, `DF.C144_insar_los`, `DF.C144_insar_hidden`, `DF.C144_fringes_coarse`, `DF.C144_fringes_add`, `DF.C144_fringes_scale`, `DF.C144_fringes_negate`, `DF.C144_fringes_unchanged`, `DF.C144_fringes_special`, `DF.C145_cross`, `DF.C145_det`, `DF.C145_inv`, `DF.C145_inv_throws`, `DF.C145_normals`, `DF.C146_returns`, `DF.C146_items`, `DF.C146_diagonal_partial`, `DF.C146_dropped_violated`, `DF.C146_overflow_violated`, `DF.C146_underflow_violated`, `DF.C147_powers`, `DF.C147_operations`, `DF.C147_addSub`, `DF.C147_addSub2`, `DF.C147_weights`, `DF.C147_mean`, `DF.C147_covariance`, `DF.C147_quantiles`, `DF.C147_outliers`, `DF.C147_normalize`, `DF.C147_binsIn`, `DF.C147_products`, `DF.C147_det`, `DF.C147_eigen`, `DF.C147_normals`, `DF.C147_fringes`, `DF.C147_grids`, `DF.C147_inv_partial`, `DF.C147_inv_violated`, `DF.C147_div_partial`, `DF.C147_div_violated`, `DF.C148_add_sub`, `DF.C148_products`, `DF.C148_mult_partial`, `DF.C148_compare`, `DF.C148_normalize_partial`, `DF.C148_stats`, `DF.C148_numbers`, `DF.C148_arrays`, `DF.C148_several`, `DF.C148_partition_n_partial`, `DF.C148_unzip`, `DF.C148_matrices`, `DF.C148_det_partial`, `DF.C148_vectors_partial`, `DF.C148_grids`, `DF.C148_insar_partial`, `DF.C148_normals`, `DF.C149_components_partial`, `DF.C149_components_violated`, `DF.C149_coordinates_partial`, `DF.C149_eigen_partial`, `DF.C149_eigen_violated`, `DF.C149_mesh`, `DF.C149_library_partial`, `DF.C150_library_partial`, `DF.C150_mesh_violated`, `DF.C150_zero_violated`, `DF.C151_programs_partial`, `DF.C152_rationals`, `DF.C152_signs`, `DF.C152_signs_division`, `DF.C152_units`, `DF.C153_numbers`, `DF.C153_matrices`, `DF.C153_vectors`, `DF.C153_eigen`, `DF.C153_pieces`, `DF.C153_parallel`, `DF.C154_pairs`, `DF.C154_products`, `DF.C154_many`, `DF.C154_map`, `DF.C154_batches`, `DF.C154_stack`, `DF.C154_filter`, `DF.C155_order_partial`, `DF.C155_count_violated`, `DF.C155_again`, `DF.C155_step`, `DF.C155_consistent`, `DF.C155_unaffected`, `DF.C156_components`, `DF.C156_eigen`, `DF.C156_user`, `DF.C156_manager`, `DF.C156_defined`, `DF.C156_rows`, `DF.C156_choose`, `DF.C156_batches`, `DF.C156_names`, `DF.C156_library`, `DF.C157_mean`, `DF.C157_variance`, `DF.C157_range`, `DF.C157_farthest`, `DF.C157_tails`, `DF.C157_line`, `DF.C157_quantile`, `DF.C157_median`, `DF.C157_mean_median`, `DF.C157_outliers`, `DF.C158_below`, `DF.C158_refine`, `DF.C158_mean`, `DF.C159_choose`, `DF.C159_triangles`, `DF.C159_together`, `DF.C159_border`, `DF.C159_insert`, `DF.C160_rank`, `DF.C160_find`, `DF.C160_ends`, `DF.C160_parts`, `DF.C160_pieces`, `DF.C160_negate`, `DF.C160_quantile`, `DF.C160_dominated`, `DF.C160_close`, `DF.C161_cross`, `DF.C161_insar`, `DF.C161_formulas_partial`, `DF.C161_mean`, `DF.C161_inverse_violated`, `DF.C161_scalars_partial`, `DF.C162_mean`, `DF.C162_covariance`, `DF.C162_variance`, `DF.C163_add_sub_mult`, `DF.C163_scale`, `DF.C163_dot`, `DF.C163_norm_violated`, `DF.C163_matrix`, `DF.C164_names`, `DF.C164_names_grow`, `DF.C164_serie_grow`, `DF.C164_base`, `DF.C164_twice`, `DF.C165_map`, `DF.C165_forEach`, `DF.C165_filter`, `DF.C165_filter_unzip`, `DF.C165_nested`, `DF.C165_parts`, `DF.C165_stack`, `DF.C166_twice`, `DF.C166_kept`, `DF.C166_transparent`, `DF.C167_routines`, `DF.C167_loops`, `DF.C168_programs`, `DF.C168_nonneg`, `DF.C168_routines`, `DF.C168_sub`, `DF.C168_scale`, `DF.C168_mean`, `DF.C168_dot`, `DF.C168_sort`, `DF.C168_quantile_partial`, `DF.C168_quantile_violated`, `DF.C169_programs`, `DF.C169_routines`, `DF.C169_mean`, `DF.C169_dot`, `DF.C169_product_nan`, `DF.C170_relative`, `DF.C170_absolute`, `DF.C170_routines`, `DF.C170_routines_relative`, `DF.C170_exact_counted`, `DF.C170_exact_bounded`, `DF.C171_programs`, `DF.C171_routines`, `DF.C171_exact`, `DF.C171_algebra`, `DF.C171_stats`, `DF.C171_functions_exact`, `DF.C172_quantile`, `DF.C172_quartiles`, `DF.C173_quantile_partial`, `DF.C173_quartiles_partial`, `DF.C173_median_violated`, `DF.C173_level_throws`, `DF.C173_level_violated`, `DF.C173_between_neighbours_partial`, `DF.C173_in_range_partial`, `DF.C173_monotone_partial`, `DF.C173_quartiles_order_partial`, `DF.C174_bins_partial`, `DF.C174_bins_range_partial`, `DF.C174_small_violated`, `DF.C174_large_violated`
