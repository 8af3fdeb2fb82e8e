# Axioms of the manifest theorems

Generated by tools/gen_axioms.py from `#print axioms`.

## Classical.choice, Quot.sound, propext (626 theorems)

Dissect.C01_accepts_iff, Dissect.C01_result, Dissect.C01_rejects, Dissect.C01_maps_inverse, Dissect.C02_every_history_partial, Dissect.C02_refuted, Dissect.C03_get_row, Dissect.C03_get_row_missing, Dissect.C03_get_rows, Dissect.C03_get_rows_missing, Dissect.C03_get_rows_eq_get_row, Dissect.C04_accepts_iff, Dissect.C04_words_keep_vectors, Dissect.C04_rejects, Dissect.C04_lookup, Dissect.C04_plain_rows, Dissect.C05_apply, Dissect.C05_scaling_keeps_columns, Dissect.C05_dimred_drops_columns, Dissect.C05_featsel_keeps_labels, Dissect.C05_apply_total, Dissect.C06_resolve_type_conflict, Dissect.C06_no_conflict_no_change, Dissect.C07_wrong_rows_partial, Dissect.C07_accepts_iff_partial, Dissect.C07_uses_new_matrix_partial, Dissect.C07_refuted, Dissect.C08_missing, Dissect.C08_measure_of_rows, Dissect.C08_width_mismatch, Dissect.C08_get_sims, Dissect.C08_get_sims_total, Dissect.C09_top_n, Dissect.C09_unknown_word, Dissect.C10_scores_are_get_sim, Dissect.C11_batched_eq_pairwise, Dissect.C11_shape_mismatch, Dissect.C12_sorted_permutation, Dissect.C13_formula, Dissect.C13_symmetric, Dissect.C13_bounded, Dissect.C13_self, Dissect.C13_scale_free, Dissect.C14_formula, Dissect.C14_symmetric, Dissect.C14_range, Dissect.C14_strictly_decreasing, Dissect.C15_formula_partial, Dissect.C15_computed, Dissect.C15_symmetric, Dissect.C15_range, Dissect.C15_refuted, Dissect.C16_no_division_by_zero, Dissect.C16_epmi, Dissect.C16_ppmi, Dissect.C16_plmi, Dissect.C16_negative_rejected, Dissect.C16_nonnegative, Dissect.C17_plog, Dissect.C17_plog_in_place, Dissect.C18_row_normalization, Dissect.C18_idempotent, Dissect.C18_length_zero_iff, Dissect.C19_normalization, Dissect.C20_top_feature_selection, Dissect.C21_dense, Dissect.C21_sparse, Dissect.C21_columns_orthogonal, Dissect.C21_inner_products, Dissect.C21_dense_rank_zero, Dissect.C21_dimension_zero, Dissect.C22_factors, Dissect.C22_rejects_negative, Dissect.C23_nmf_not_worse, Dissect.C23_half_iteration, Dissect.C24_core_rows_reproduced, Dissect.C25_batches, Dissect.C25_stackRows_last, Dissect.C26_columns_of_core, Dissect.C27_applied_once_partial, Dissect.C27_project_first_partial, Dissect.C27_featsel_refuted, Dissect.C27_stateless_refuted, Dissect.C28_old_words_partial, Dissect.C28_first_duplicate_partial, Dissect.C28_refuted, Dissect.C29_unshared_partial, Dissect.C29_default_is_unshared_partial, Dissect.C29_refuted, Dissect.C30_sparse_row_access, Dissect.C31_get_non_negative, Dissect.C31_to_non_negative, Dissect.C31_to_ones, Dissect.C31_remove_small_values, Dissect.C31_assert_positive, Dissect.C31_plog, Dissect.C31_norm, Dissect.C31_sparse_branch, Dissect.C32_sparse_reshape_row_major, Dissect.C32_sparse_reshape_round_trip, Dissect.C32_sparse_reshape_eq_dense, Dissect.C33_words_exact, Dissect.C33_sparse_reshape_no_overflow, Dissect.C34_sparse_is_mostly_positive_partial, Dissect.C34_dense_true_is_right_partial, Dissect.C34_dense_no_zeros_partial, Dissect.C34_dense_refuted, Dissect.C35_all_close_refl_partial, Dissect.C35_sparse_symmetric_partial, Dissect.C35_sparse_implies_dense_partial, Dissect.C35_refuted, Dissect.C36_mixed_types, Dissect.C36_mul, Dissect.C36_stack, Dissect.C36_scalar, Dissect.C37_padd_matrix, Dissect.C38_compose, Dissect.C38_no_known_triple, Dissect.C38_duplicate_phrase, Dissect.C38_bad_spaces, Dissect.C38_columns, Dissect.C38_duplicate_phrases, Dissect.C39_partial, Dissect.C39_refuted, Dissect.C40_weighted, Dissect.C40_parameters, Dissect.C41_dilation, Dissect.C41_parameters, Dissect.C42_multiplicative, Dissect.C42_no_training, Dissect.C42_width_mismatch, Dissect.C43_given_matrices, Dissect.C43_intercept, Dissect.C43_untrained, Dissect.C44_full_additive, Dissect.C44_no_learner, Dissect.C44_lstsq_optimal, Dissect.C45_compose, Dissect.C45_untrained, Dissect.C45_no_known_triple, Dissect.C46_train, Dissect.C46_train_compose, Dissect.C46_no_function, Dissect.C46_tensor_arguments, Dissect.C47_maximal_runs, Dissect.C48_used_partial, Dissect.C48_whole_chunks_partial, Dissect.C48_refuted, Dissect.C49_dilation, Dissect.C50_partial, Dissect.C50_refuted, Dissect.C51_ridge, Dissect.C52_dense, Dissect.C52_sparse, Dissect.C52_mismatch, Dissect.C52_same_error, Dissect.C53_first_minimiser, Dissect.C53_succeeds, Dissect.C54_unknown_keyword, Dissect.C54_configuration, Dissect.C55_index_structs, Dissect.C55_error, Dissect.C56_sum_of_counts, Dissect.C56_bad_record, Dissect.C57_first_record, Dissect.C57_errors, Dissect.C58_dm_roundtrip, Dissect.C59_sm_roundtrip_partial, Dissect.C59_refuted, Dissect.C60_one_line_per_entry, Dissect.C61_label_files_partial, Dissect.C61_refuted, Dissect.C62_save_partial, Dissect.C62_directory, Dissect.C62_create_directories, Dissect.C62_export_partial, Dissect.C62_refuted, Dissect.C63_column_mismatch, Dissect.C63_missing_arguments, Dissect.C63_sm_needs_columns, Dissect.C63_built_space, Dissect.C64_submatrices, Dissect.C65_too_few, Dissect.C65_invalid_first, Dissect.C65_value_partial, Dissect.C65_no_ties_partial, Dissect.C65_one_class, Dissect.C65_range, Dissect.C65_order_invariant, Dissect.C65_monotone_invariant, Dissect.C65_invalid_gold, Dissect.C65_refuted, Dissect.C66_length_mismatch, Dissect.C66_dispatch, Dissect.C67_every_combination, Dissect.C67_any_options, Dissect.C67_other_files, Dissect.C67_bad_input, Dissect.C67_succeeds, Dissect.C68_values_partial, Dissect.C68_missing_config, Dissect.C68_refuted_crossvalidation, Dissect.C68_refuted_log_default, Dissect.C68_refuted_sim_measure, Dissect.C68_refuted_lambda_range, Dissect.C69_lambda_partial, Dissect.C69_no_lambda_partial, Dissect.C69_refuted, Dissect.C70_refuted, Dissect.C70_short_partial, Dissect.C71_scores, Dissect.C71_other_files, Dissect.C71_unknown_measures, Dissect.C71_succeeds, Dissect.C71_batch, Dissect.C71_total, Dissect.C72_matrix_elements_partial, Dissect.C72_type_error_partial, Dissect.C72_refuted, Dissect.C73_plain_partial, Dissect.C73_refuted, Dissect.C74_refuted, Dissect.C74_unknown_option_refuted, Dissect.C74_unhandled_partial, Dissect.C75_tuples, Dissect.C75_tuples_error, Dissect.C75_field, Dissect.C76_succeeds, Dissect.C76_saves, Dissect.C76_other_files, Dissect.C76_unknown_model, Dissect.C77_with_regression_partial, Dissect.C77_refuted, Dissect.C78_accepted_partial, Dissect.C78_refuted, Dissect.C79_unknown_model, Dissect.C79_saves, Dissect.C79_other_files, Dissect.C79_succeeds, Dissect.C79_xor, Dissect.C80_chain, Dissect.C81_saves, Dissect.C81_other_files, Dissect.C81_succeeds, Dissect.C81_bad_input, Dissect.C81_batch, Dissect.C81_batch_other_files, Dissect.C81_batch_no_dir, Dissect.C82_neighbours, Dissect.C82_other_files, Dissect.C82_succeeds, Dissect.C82_unknown_measure, Dissect.C82_total, Dissect.C83_scores, Dissect.C83_batch, Dissect.C83_bad_columns, Dissect.C84_build_core_space, Dissect.C84_build_peripheral_space, Dissect.C84_compute_similarities, Dissect.C84_compute_neighbours, Dissect.C84_train_composition, Dissect.C84_apply_composition, Dissect.C84_evaluate_similarities, Dissect.C84_missing_option, Dissect.C84_missing_measure, Dissect.C85_refuted, Dissect.C85_log_partial, Dissect.C86_weighted_additive, Dissect.C86_dilation, Dissect.C86_full_additive, Dissect.C86_nothing_to_export, Dissect.C86_no_parameters, Dissect.C86_untrained, Dissect.C87_help_partial, Dissect.C87_help_alone, Dissect.C87_refuted, Dissect.C88_missing_column_partial, Dissect.C88_refuted, Dissect.C89_core_reproduced, Dissect.C90_build_core_space, Dissect.C90_build_core_space_returns, Dissect.C90_build_peripheral_space, Dissect.C90_build_peripheral_space_batch, Dissect.C90_compute_similarities, Dissect.C90_compute_similarities_batch, Dissect.C90_compute_neighbours, Dissect.C90_train_composition, Dissect.C90_apply_composition, Dissect.C91_refuted, Dissect.C91_save_partial, Dissect.C92_build_core_space, Dissect.C92_build_peripheral_space, Dissect.C92_build_peripheral_space_batch, Dissect.C92_compute_similarities, Dissect.C92_compute_similarities_batch, Dissect.C92_compute_neighbours, Dissect.C92_train_composition, Dissect.C92_apply_composition, Dissect.C92_main_core, Dissect.C92_main_peripheral, Dissect.C92_main_peripheral_batch, Dissect.C92_main_similarities, Dissect.C92_main_similarities_batch, Dissect.C92_main_neighbours, Dissect.C92_main_train, Dissect.C92_main_apply, Dissect.C93_unchanged, Dissect.C93_history, Dissect.C93_constructor, Dissect.C93_scaling, Dissect.C93_project, Dissect.C93_lexical, Dissect.C93_lin, Dissect.C94_independent_partial, Dissect.C94_convert, Dissect.C94_refuted, Dissect.C95_receiver, Dissect.C95_refuted, Dissect.C95_others_partial, Dissect.C96_nndsvd_dense_iff, Dissect.C96_nndsvd_dense, Dissect.C96_nndsvd_sparse, Dissect.C96_random, Dissect.C96_nmf_from_start, Dissect.C97_sm, Dissect.C97_dm, Dissect.C97_sm_succeeds, Dissect.C98_positional, Dissect.C98_partial, Dissect.C98_refuted, Dissect.C99_dense, Dissect.C99_sparse, Dissect.C100_never_apart, Dissect.C100_rank_preserved, Dissect.C100_total, Dissect.C101_cosine_unchanged, Dissect.C101_cosine_two_spaces, Dissect.C101_neighbours_unchanged, Dissect.C102_epmi_ppmi, Dissect.C102_plmi, Dissect.C102_normalisations, Dissect.C103_row_order, Dissect.C103_sequences, Dissect.C104_own_neighbour, Dissect.C105_dilation, Dissect.C105_weighted, Dissect.C105_full_additive, Dissect.C105_lexical, Dissect.C106_similarity, Dissect.C106_neighbours, Dissect.C106_scaling, Dissect.C106_sequences, Dissect.C107_rows, Dissect.C108_missing, Dissect.C108_regular_file, Dissect.C108_no_match, Dissect.C109_unknown_keyword, Dissect.C109_criterion, Dissect.C109_dimension, Dissect.C109_setters, Dissect.C110_lexical_refuted, Dissect.C110_full_additive_refuted, Dissect.C110_lexical_partial, Dissect.C110_lexical_refuses_partial, Dissect.C110_full_additive_partial, Dissect.C110_full_additive_accepts_partial, Dissect.C110_lexical_learner_partial, Dissect.C110_full_additive_refuses_partial, Dissect.C111_refuted, Dissect.C111_partial, Dissect.C111_train_partial, Dissect.C112_second_roundtrip, Dissect.C113_projected_never_apart, Dissect.C113_total, Dissect.C114_dilation_partial, Dissect.C114_weighted_partial, Dissect.C114_full_additive_partial, Dissect.C114_lexical_partial, Dissect.C114_weighted_refuted, Dissect.C115_own_triple, Dissect.C115_two_parts, Dissect.C115_lexical, Dissect.C116_symmetric, Dissect.C117_stacked_sim, Dissect.C117_same_part, Dissect.C118_chain, Dissect.C119_larger_parameter, Dissect.C119_zero_is_lstsq, Dissect.C119_between, Dissect.C119_bounds, Dissect.C120_prefix, Dissect.C121_symmetric, Dissect.C121_one_space, Dissect.C122_normalization_twice, Dissect.C122_select_in_steps, Dissect.C123_additive_svd, Dissect.C123_feature_selection, Dissect.C124_no_interference, Dissect.C124_progress, Dissect.C124_not_sooner, Dissect.C124_untouched, Dissect.C124_schedules_agree, Dissect.C125_scripts, Dissect.C125_scripts_end, Dissect.C125_scripts_untouched, Dissect.C125_by_name, Dissect.C126_save_partial, Dissect.C126_refuted_new_directory, Dissect.C126_refuted_scripts, Dissect.C127_disk_partial, Dissect.C127_complete_partial, Dissect.C127_load_partial, Dissect.C127_refuted_half_written, Dissect.C128_load, Dissect.C128_space, Dissect.C128_model, Dissect.C128_core, Dissect.C128_periph, Dissect.C128_sims, Dissect.C128_neighbours, Dissect.C128_train, Dissect.C128_apply, Dissect.C129_row, Dissect.C129_rows, Dissect.C129_cols, Dissect.C129_single, Dissect.C129_rows_rows, Dissect.C129_rows_cols, Dissect.C130_dm, Dissect.C130_sm, Dissect.C130_missing, Dissect.C131_learner, Dissect.C131_weighted, Dissect.C131_full_additive, Dissect.C131_lexical_iff, Dissect.C131_lexical_optimal, Dissect.C132_evaluate, Dissect.C132_evaluate_cases, Dissect.C132_similarities, Dissect.C132_neighbours, Dissect.C132_train_numbers, Dissect.C132_apply_numbers, Dissect.C132_count, Dissect.C133_train_succeeds, Dissect.C133_train_refuses, Dissect.C133_apply_succeeds, Dissect.C133_train_then_apply, Dissect.C133_main_train, Dissect.C134_svd_dense, Dissect.C134_svd_sparse, Dissect.C134_core_succeeds, Dissect.C134_core_then_peripheral, Dissect.C135_train_partial, Dissect.C135_full_additive_partial, Dissect.C135_full_additive_any_partial, Dissect.C135_compose_partial, Dissect.C135_history_partial, Dissect.C135_lexical_partial, Dissect.C135_lexical_trained_partial, Dissect.C135_lexical_refuted, Dissect.C135_columns_refuted, Dissect.C136_save, Dissect.C136_scripts, Dissect.C136_same_command, Dissect.C137_last_partial, Dissect.C137_refuted_mixture, Dissect.C137_refuted_hole, Dissect.C138_dilation_partial, Dissect.C138_weighted_partial, Dissect.C138_full_additive_partial, Dissect.C138_lexical_partial, Dissect.C138_ridge_partial, Dissect.C138_weighted_refuted, Dissect.C138_lexical_refuted, Dissect.C139_file, Dissect.C139_final_newline, Dissect.C139_ignored, Dissect.C139_no_section, Dissect.C139_junk_line, Dissect.C139_indented_first, Dissect.C139_only_error, Dissect.C139_as_command_line, Dissect.C139_scripts, Dissect.C139_unparsable, Dissect.C139_values, Dissect.C140_range, Dissect.C140_symmetric, Dissect.C140_order, Dissect.C140_pearson_scale, Dissect.C140_spearman_scale, Dissect.C140_pearson_perfect, Dissect.C140_spearman_perfect, Dissect.C140_line_order, Dissect.C141_epmi, Dissect.C141_epmi_average, Dissect.C141_positive, Dissect.C141_independent, Dissect.C141_mutual_information, Dissect.C142_columns, Dissect.C142_similarity, Dissect.C143_dot_is_cosine, Dissect.C143_euclid_from_cosine, Dissect.C143_neighbours, Dissect.C144_never_apart, Dissect.C144_enough_features, Dissect.C144_keeps_most, Dissect.C145_full_additive_of_scalars, Dissect.C145_weights_one_zero, Dissect.C145_dilation_geometry, Dissect.C145_multiplicative_neutral, Dissect.C145_lexical_scalar, Dissect.C146_normalised_words, Dissect.C146_common_unit, Dissect.C147_ridge_zero, Dissect.C147_dense_sparse, Dissect.C147_full_additive, Dissect.C147_lexical, Dissect.C148_same_scores, Dissect.C149_two_runs, Dissect.C149_as_one_run, Dissect.C150_dm_partial, Dissect.C150_sm_partial, Dissect.C150_stale_labels_refuted, Dissect.C151_no_convergence, Dissect.C151_other_exceptions, Dissect.C151_learner, Dissect.C151_least_squares, Dissect.C151_not_a_minimiser, Dissect.C152_learner, Dissect.C152_weighted, Dissect.C152_full_additive, Dissect.C152_lexical, Dissect.C153_similarity, Dissect.C153_neighbours, Dissect.C153_learner, Dissect.C153_full_additive, Dissect.C153_lexical, Dissect.C153_weighted, Dissect.C153_dilation, Dissect.C153_compose, Dissect.C154_weighted, Dissect.C154_full_additive, Dissect.C155_entries, Dissect.C155_kept, Dissect.C155_count, Dissect.C155_word, Dissect.C155_peripheral, Dissect.C155_added, Dissect.C156_core, Dissect.C156_peripheral, Dissect.C156_proportional, Dissect.C156_peripheral_proportional, Dissect.C156_added, Dissect.C156_added_again, Dissect.C157_peripheral, Dissect.C157_core, Dissect.C158_triangle, Dissect.C158_angles, Dissect.C158_consistent, Dissect.C159_grouping, Dissect.C159_order, Dissect.C159_rowwise, Dissect.C159_compose_iff, Dissect.C159_compose, Dissect.C160_train_partial, Dissect.C160_lexical_partial, Dissect.C160_stacked_partial, Dissect.C160_weighted_refuted, Dissect.C161_convert, Dissect.C161_sim, Dissect.C161_neighbours, Dissect.C161_apply, Dissect.C161_chain_partial, Dissect.C161_compose_iff, Dissect.C161_compose, Dissect.C161_train_dilation, Dissect.C161_train_weighted, Dissect.C161_train_full, Dissect.C161_train_lexical, Dissect.C161_svd_refuted, Dissect.C162_reverse_partial, Dissect.C162_classes_partial, Dissect.C162_both, Dissect.C162_no_ties_partial, Dissect.C162_refuted, Dissect.C162_perfect, Dissect.C163_new, Dissect.C163_same_class_partial, Dissect.C163_reduced_partial, Dissect.C163_other_class_refuted, Dissect.C164_size_partial, Dissect.C164_size_error_partial, Dissect.C164_refuted, Dissect.C165_core_partial, Dissect.C165_two_inputs_partial, Dissect.C165_refuted, Dissect.C165_trained, Dissect.C165_composed, Dissect.C165_periph_partial, Dissect.C165_sims_partial, Dissect.C165_neighbours_partial, Dissect.C165_kind_core, Dissect.C165_kind_periph, Dissect.C165_kind_train, Dissect.C165_kind_apply, Dissect.C165_kind_sims, Dissect.C165_kind_neighbours, Dissect.C166_left_partial, Dissect.C166_right_partial, Dissect.C166_grouping, Dissect.C166_grouping_weights, Dissect.C166_refuted, Dissect.C166_lexical, Dissect.C167_columns, Dissect.C167_builds, Dissect.C167_never_apart, Dissect.C167_enough_features_partial, Dissect.C167_refuted, Dissect.C168_own_counts, Dissect.C168_similarities, Dissect.C168_core_or_peripheral, Dissect.C169_same_vector, Dissect.C169_finds_itself, Dissect.C170_weighting, Dissect.C170_weightings, Dissect.C170_similarities

## Quot.sound, propext (22 theorems)

Dissect.C06_conversion_preserves_values, Dissect.C06_conversion_total, Dissect.C06_to_compatible, Dissect.C20_rejects_nonpositive, Dissect.C30_sparse_row_out_of_range, Dissect.C32_sparse_reshape_wrong_size, Dissect.C36_add_sub, Dissect.C36_sparse_add_shape, Dissect.C36_dense_add_shape, Dissect.C36_multiply, Dissect.C37_scale_rows, Dissect.C37_scale_columns, Dissect.C37_scale_wrong_length, Dissect.C64_balanced_partition, Dissect.C64_errors, Dissect.C67_distinct_names, Dissect.C75_all_words, Dissect.C107_nary_vstack, Dissect.C107_nary_hstack, Dissect.C107_empty, Dissect.C125_different_scripts, Dissect.C132_whole_numbers

## propext (2 theorems)

Dissect.C75_lines, Dissect.C125_different_directories
