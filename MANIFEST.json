{
 "claims": [
  {
   "property": "C01",
   "status": "proved",
   "theorems": [
    "Dissect.C01_accepts_iff",
    "Dissect.C01_result",
    "Dissect.C01_rejects",
    "Dissect.C01_maps_inverse"
   ],
   "note": ""
  },
  {
   "property": "C02",
   "status": "partial",
   "theorems": [
    "Dissect.C02_every_history_partial",
    "Dissect.C02_refuted"
   ],
   "note": "false (C02_refuted: a peripheral space built on another space's row dictionary object and then grown leaves the other space inconsistent); proved for every finite history of calls in which add_rows succeeds and is made on spaces with an unshared dictionary object"
  },
  {
   "property": "C03",
   "status": "proved",
   "theorems": [
    "Dissect.C03_get_row",
    "Dissect.C03_get_row_missing",
    "Dissect.C03_get_rows",
    "Dissect.C03_get_rows_missing",
    "Dissect.C03_get_rows_eq_get_row"
   ],
   "note": ""
  },
  {
   "property": "C04",
   "status": "proved",
   "theorems": [
    "Dissect.C04_accepts_iff",
    "Dissect.C04_words_keep_vectors",
    "Dissect.C04_rejects",
    "Dissect.C04_lookup",
    "Dissect.C04_plain_rows"
   ],
   "note": ""
  },
  {
   "property": "C05",
   "status": "proved",
   "theorems": [
    "Dissect.C05_apply",
    "Dissect.C05_scaling_keeps_columns",
    "Dissect.C05_dimred_drops_columns",
    "Dissect.C05_featsel_keeps_labels",
    "Dissect.C05_apply_total"
   ],
   "note": ""
  },
  {
   "property": "C06",
   "status": "proved",
   "theorems": [
    "Dissect.C06_conversion_preserves_values",
    "Dissect.C06_conversion_total",
    "Dissect.C06_resolve_type_conflict",
    "Dissect.C06_no_conflict_no_change",
    "Dissect.C06_to_compatible"
   ],
   "note": "dense/sparse conversions, resolve_type_conflict, to_compatible_matrix_types"
  },
  {
   "property": "C07",
   "status": "partial",
   "theorems": [
    "Dissect.C07_wrong_rows_partial",
    "Dissect.C07_accepts_iff_partial",
    "Dissect.C07_uses_new_matrix_partial",
    "Dissect.C07_refuted"
   ],
   "note": "false (C07_refuted: the row and column label structures are passed in the wrong order, so a 2x3 space refuses its own matrix); proved: exactly which matrices are accepted, and that an accepted one is used"
  },
  {
   "property": "C08",
   "status": "proved",
   "theorems": [
    "Dissect.C08_missing",
    "Dissect.C08_measure_of_rows",
    "Dissect.C08_width_mismatch",
    "Dissect.C08_get_sims",
    "Dissect.C08_get_sims_total"
   ],
   "note": ""
  },
  {
   "property": "C09",
   "status": "proved",
   "theorems": [
    "Dissect.C09_top_n",
    "Dissect.C09_unknown_word"
   ],
   "note": ""
  },
  {
   "property": "C10",
   "status": "proved",
   "theorems": [
    "Dissect.C10_scores_are_get_sim"
   ],
   "note": ""
  },
  {
   "property": "C11",
   "status": "proved",
   "theorems": [
    "Dissect.C11_batched_eq_pairwise",
    "Dissect.C11_shape_mismatch"
   ],
   "note": ""
  },
  {
   "property": "C12",
   "status": "proved",
   "theorems": [
    "Dissect.C12_sorted_permutation"
   ],
   "note": ""
  },
  {
   "property": "C13",
   "status": "proved",
   "theorems": [
    "Dissect.C13_formula",
    "Dissect.C13_symmetric",
    "Dissect.C13_bounded",
    "Dissect.C13_self",
    "Dissect.C13_scale_free"
   ],
   "note": ""
  },
  {
   "property": "C14",
   "status": "proved",
   "theorems": [
    "Dissect.C14_formula",
    "Dissect.C14_symmetric",
    "Dissect.C14_range",
    "Dissect.C14_strictly_decreasing"
   ],
   "note": ""
  },
  {
   "property": "C15",
   "status": "partial",
   "theorems": [
    "Dissect.C15_formula_partial",
    "Dissect.C15_computed",
    "Dissect.C15_symmetric",
    "Dissect.C15_range",
    "Dissect.C15_refuted"
   ],
   "note": "false (C15_refuted: the sign test is on the product, so components negative in both vectors count); proved when no component is negative in both vectors"
  },
  {
   "property": "C16",
   "status": "proved",
   "theorems": [
    "Dissect.C16_no_division_by_zero",
    "Dissect.C16_epmi",
    "Dissect.C16_ppmi",
    "Dissect.C16_plmi",
    "Dissect.C16_negative_rejected",
    "Dissect.C16_nonnegative"
   ],
   "note": ""
  },
  {
   "property": "C17",
   "status": "proved",
   "theorems": [
    "Dissect.C17_plog",
    "Dissect.C17_plog_in_place"
   ],
   "note": ""
  },
  {
   "property": "C18",
   "status": "proved",
   "theorems": [
    "Dissect.C18_row_normalization",
    "Dissect.C18_idempotent",
    "Dissect.C18_length_zero_iff"
   ],
   "note": ""
  },
  {
   "property": "C19",
   "status": "proved",
   "theorems": [
    "Dissect.C19_normalization"
   ],
   "note": ""
  },
  {
   "property": "C20",
   "status": "proved",
   "theorems": [
    "Dissect.C20_top_feature_selection",
    "Dissect.C20_rejects_nonpositive"
   ],
   "note": ""
  },
  {
   "property": "C21",
   "status": "proved",
   "theorems": [
    "Dissect.C21_dense",
    "Dissect.C21_sparse",
    "Dissect.C21_columns_orthogonal",
    "Dissect.C21_inner_products",
    "Dissect.C21_dense_rank_zero",
    "Dissect.C21_dimension_zero"
   ],
   "note": ""
  },
  {
   "property": "C22",
   "status": "proved",
   "theorems": [
    "Dissect.C22_factors",
    "Dissect.C22_rejects_negative"
   ],
   "note": ""
  },
  {
   "property": "C23",
   "status": "proved",
   "theorems": [
    "Dissect.C23_nmf_not_worse",
    "Dissect.C23_half_iteration"
   ],
   "note": ""
  },
  {
   "property": "C24",
   "status": "proved",
   "theorems": [
    "Dissect.C24_core_rows_reproduced"
   ],
   "note": ""
  },
  {
   "property": "C25",
   "status": "proved",
   "theorems": [
    "Dissect.C25_batches",
    "Dissect.C25_stackRows_last"
   ],
   "note": ""
  },
  {
   "property": "C26",
   "status": "proved",
   "theorems": [
    "Dissect.C26_columns_of_core"
   ],
   "note": ""
  },
  {
   "property": "C27",
   "status": "partial",
   "theorems": [
    "Dissect.C27_applied_once_partial",
    "Dissect.C27_project_first_partial",
    "Dissect.C27_featsel_refuted",
    "Dissect.C27_stateless_refuted"
   ],
   "note": "false for feature selection (AttributeError) and for the scalings without statistics (C27_*_refuted); proved for the others over every history of calls"
  },
  {
   "property": "C28",
   "status": "partial",
   "theorems": [
    "Dissect.C28_old_words_partial",
    "Dissect.C28_first_duplicate_partial",
    "Dissect.C28_refuted"
   ],
   "note": "false (C28_refuted: for every peripheral space a failing add_rows leaves the new labels in the dictionary); proved: the old words keep their vectors; a first duplicate label changes nothing"
  },
  {
   "property": "C29",
   "status": "partial",
   "theorems": [
    "Dissect.C29_unshared_partial",
    "Dissect.C29_default_is_unshared_partial",
    "Dissect.C29_refuted"
   ],
   "note": "false for a shared dictionary object (C29_refuted, in every world); proved for objects that do not hold the same dictionary object"
  },
  {
   "property": "C30",
   "status": "proved",
   "theorems": [
    "Dissect.C30_sparse_row_access",
    "Dissect.C30_sparse_row_out_of_range"
   ],
   "note": ""
  },
  {
   "property": "C31",
   "status": "proved",
   "theorems": [
    "Dissect.C31_get_non_negative",
    "Dissect.C31_to_non_negative",
    "Dissect.C31_to_ones",
    "Dissect.C31_remove_small_values",
    "Dissect.C31_assert_positive",
    "Dissect.C31_plog",
    "Dissect.C31_norm",
    "Dissect.C31_sparse_branch"
   ],
   "note": ""
  },
  {
   "property": "C32",
   "status": "proved",
   "theorems": [
    "Dissect.C32_sparse_reshape_row_major",
    "Dissect.C32_sparse_reshape_wrong_size",
    "Dissect.C32_sparse_reshape_round_trip",
    "Dissect.C32_sparse_reshape_eq_dense"
   ],
   "note": ""
  },
  {
   "property": "C33",
   "status": "proved",
   "theorems": [
    "Dissect.C33_words_exact",
    "Dissect.C33_sparse_reshape_no_overflow"
   ],
   "note": ""
  },
  {
   "property": "C34",
   "status": "partial",
   "theorems": [
    "Dissect.C34_sparse_is_mostly_positive_partial",
    "Dissect.C34_dense_true_is_right_partial",
    "Dissect.C34_dense_no_zeros_partial",
    "Dissect.C34_dense_refuted"
   ],
   "note": "false of the dense implementation (C34_dense_refuted: it compares with half of ALL cells); true for sparse without stored zeros, dense True answers are right, dense exact when no zero cell"
  },
  {
   "property": "C35",
   "status": "partial",
   "theorems": [
    "Dissect.C35_all_close_refl_partial",
    "Dissect.C35_sparse_symmetric_partial",
    "Dissect.C35_sparse_implies_dense_partial",
    "Dissect.C35_refuted"
   ],
   "note": "false (C35_refuted): numpy allclose is asymmetric and the sparse test has no relative tolerance; proved: reflexive, sparse symmetric, sparse True implies dense True"
  },
  {
   "property": "C36",
   "status": "proved",
   "theorems": [
    "Dissect.C36_mixed_types",
    "Dissect.C36_add_sub",
    "Dissect.C36_sparse_add_shape",
    "Dissect.C36_dense_add_shape",
    "Dissect.C36_mul",
    "Dissect.C36_multiply",
    "Dissect.C36_stack",
    "Dissect.C36_scalar"
   ],
   "note": ""
  },
  {
   "property": "C37",
   "status": "proved",
   "theorems": [
    "Dissect.C37_scale_rows",
    "Dissect.C37_scale_columns",
    "Dissect.C37_scale_wrong_length",
    "Dissect.C37_padd_matrix"
   ],
   "note": ""
  },
  {
   "property": "C38",
   "status": "proved",
   "theorems": [
    "Dissect.C38_compose",
    "Dissect.C38_no_known_triple",
    "Dissect.C38_duplicate_phrase",
    "Dissect.C38_bad_spaces",
    "Dissect.C38_columns",
    "Dissect.C38_duplicate_phrases"
   ],
   "note": ""
  },
  {
   "property": "C39",
   "status": "partial",
   "theorems": [
    "Dissect.C39_partial",
    "Dissect.C39_refuted"
   ],
   "note": "false on an empty list (C39_refuted: UnboundLocalError instead of ValueError); proved for non-empty data"
  },
  {
   "property": "C40",
   "status": "proved",
   "theorems": [
    "Dissect.C40_weighted",
    "Dissect.C40_parameters"
   ],
   "note": ""
  },
  {
   "property": "C41",
   "status": "proved",
   "theorems": [
    "Dissect.C41_dilation",
    "Dissect.C41_parameters"
   ],
   "note": ""
  },
  {
   "property": "C42",
   "status": "proved",
   "theorems": [
    "Dissect.C42_multiplicative",
    "Dissect.C42_no_training",
    "Dissect.C42_width_mismatch"
   ],
   "note": ""
  },
  {
   "property": "C43",
   "status": "proved",
   "theorems": [
    "Dissect.C43_given_matrices",
    "Dissect.C43_intercept",
    "Dissect.C43_untrained"
   ],
   "note": ""
  },
  {
   "property": "C44",
   "status": "proved",
   "theorems": [
    "Dissect.C44_full_additive",
    "Dissect.C44_no_learner",
    "Dissect.C44_lstsq_optimal"
   ],
   "note": ""
  },
  {
   "property": "C45",
   "status": "proved",
   "theorems": [
    "Dissect.C45_compose",
    "Dissect.C45_untrained",
    "Dissect.C45_no_known_triple"
   ],
   "note": ""
  },
  {
   "property": "C46",
   "status": "proved",
   "theorems": [
    "Dissect.C46_train",
    "Dissect.C46_train_compose",
    "Dissect.C46_no_function",
    "Dissect.C46_tensor_arguments"
   ],
   "note": ""
  },
  {
   "property": "C47",
   "status": "proved",
   "theorems": [
    "Dissect.C47_maximal_runs"
   ],
   "note": ""
  },
  {
   "property": "C48",
   "status": "partial",
   "theorems": [
    "Dissect.C48_used_partial",
    "Dissect.C48_whole_chunks_partial",
    "Dissect.C48_refuted"
   ],
   "note": "false (C48_refuted: the trailing partial chunk of samples is dropped); proved: optimal over the samples in whole chunks, hence over all when the chunk size divides their number"
  },
  {
   "property": "C49",
   "status": "proved",
   "theorems": [
    "Dissect.C49_dilation"
   ],
   "note": ""
  },
  {
   "property": "C50",
   "status": "partial",
   "theorems": [
    "Dissect.C50_partial",
    "Dissect.C50_refuted"
   ],
   "note": "false (C50_refuted: column labels are cached by the first compose call); proved: everything but the column labels is history-independent"
  },
  {
   "property": "C51",
   "status": "proved",
   "theorems": [
    "Dissect.C51_ridge"
   ],
   "note": ""
  },
  {
   "property": "C52",
   "status": "proved",
   "theorems": [
    "Dissect.C52_dense",
    "Dissect.C52_sparse",
    "Dissect.C52_mismatch",
    "Dissect.C52_same_error"
   ],
   "note": ""
  },
  {
   "property": "C53",
   "status": "proved",
   "theorems": [
    "Dissect.C53_first_minimiser",
    "Dissect.C53_succeeds"
   ],
   "note": ""
  },
  {
   "property": "C54",
   "status": "proved",
   "theorems": [
    "Dissect.C54_unknown_keyword",
    "Dissect.C54_configuration"
   ],
   "note": ""
  },
  {
   "property": "C55",
   "status": "proved",
   "theorems": [
    "Dissect.C55_index_structs",
    "Dissect.C55_error"
   ],
   "note": ""
  },
  {
   "property": "C56",
   "status": "proved",
   "theorems": [
    "Dissect.C56_sum_of_counts",
    "Dissect.C56_bad_record"
   ],
   "note": ""
  },
  {
   "property": "C57",
   "status": "proved",
   "theorems": [
    "Dissect.C57_first_record",
    "Dissect.C57_errors"
   ],
   "note": ""
  },
  {
   "property": "C58",
   "status": "proved",
   "theorems": [
    "Dissect.C58_dm_roundtrip"
   ],
   "note": ""
  },
  {
   "property": "C59",
   "status": "partial",
   "theorems": [
    "Dissect.C59_sm_roundtrip_partial",
    "Dissect.C59_refuted"
   ],
   "note": "false as stated (C59_refuted: %f keeps six decimals only); proved: same labels, every value within 1e-6 and equal to float('%f' % x)"
  },
  {
   "property": "C60",
   "status": "proved",
   "theorems": [
    "Dissect.C60_one_line_per_entry"
   ],
   "note": ""
  },
  {
   "property": "C61",
   "status": "partial",
   "theorems": [
    "Dissect.C61_label_files_partial",
    "Dissect.C61_refuted"
   ],
   "note": "false (C61_refuted: without a format kwarg no matrix file is written); proved: the label files, and the matrix file when format='dm' is given"
  },
  {
   "property": "C62",
   "status": "partial",
   "theorems": [
    "Dissect.C62_save_partial",
    "Dissect.C62_directory",
    "Dissect.C62_create_directories",
    "Dissect.C62_export_partial",
    "Dissect.C62_refuted"
   ],
   "note": "false for a bare file name (C62_refuted: os.makedirs('') raises OSError); proved for every path with a directory part"
  },
  {
   "property": "C63",
   "status": "proved",
   "theorems": [
    "Dissect.C63_column_mismatch",
    "Dissect.C63_missing_arguments",
    "Dissect.C63_sm_needs_columns",
    "Dissect.C63_built_space"
   ],
   "note": ""
  },
  {
   "property": "C64",
   "status": "proved",
   "theorems": [
    "Dissect.C64_balanced_partition",
    "Dissect.C64_errors",
    "Dissect.C64_submatrices"
   ],
   "note": ""
  },
  {
   "property": "C65",
   "status": "partial",
   "theorems": [
    "Dissect.C65_too_few",
    "Dissect.C65_invalid_first",
    "Dissect.C65_value_partial",
    "Dissect.C65_no_ties_partial",
    "Dissect.C65_one_class",
    "Dissect.C65_range",
    "Dissect.C65_order_invariant",
    "Dissect.C65_monotone_invariant",
    "Dissect.C65_invalid_gold",
    "Dissect.C65_refuted"
   ],
   "note": "false on ties (C65_refuted: a tie counts one, not one half); proved: exact value, area under the curve without ties, range, order and monotone invariance, one-class data, invalid gold"
  },
  {
   "property": "C66",
   "status": "proved",
   "theorems": [
    "Dissect.C66_length_mismatch",
    "Dissect.C66_dispatch"
   ],
   "note": ""
  },
  {
   "property": "C67",
   "status": "proved",
   "theorems": [
    "Dissect.C67_every_combination",
    "Dissect.C67_any_options",
    "Dissect.C67_distinct_names",
    "Dissect.C67_other_files",
    "Dissect.C67_bad_input",
    "Dissect.C67_succeeds"
   ],
   "note": ""
  },
  {
   "property": "C68",
   "status": "partial",
   "theorems": [
    "Dissect.C68_values_partial",
    "Dissect.C68_missing_config",
    "Dissect.C68_refuted_crossvalidation",
    "Dissect.C68_refuted_log_default",
    "Dissect.C68_refuted_sim_measure",
    "Dissect.C68_refuted_lambda_range"
   ],
   "note": "false for four documented entries (C68_refuted_crossvalidation: the default of --crossvalidation is False, not the documented True; C68_refuted_sim_measure: compute_similarities reads the key sim_measures, not the documented sim_measure; C68_refuted_log_default: compute_similarities and evaluate_similarities have no default log file; C68_refuted_lambda_range: cross validation searches linspace(0,5,11), not the documented linspace(0,0.5,10)); proved for every other documented option of all seven scripts"
  },
  {
   "property": "C69",
   "status": "partial",
   "theorems": [
    "Dissect.C69_lambda_partial",
    "Dissect.C69_no_lambda_partial",
    "Dissect.C69_refuted"
   ],
   "note": "false with --lambda_range and no cross validation (C69_refuted: the comprehension variable overwrites lambda with a string); proved without --lambda_range"
  },
  {
   "property": "C70",
   "status": "partial",
   "theorems": [
    "Dissect.C70_refuted",
    "Dissect.C70_short_partial"
   ],
   "note": "false (C70_refuted: getopt declares sim_measures=, the handler tests --sim_measure, so the long option always exits 1); proved for the short option"
  },
  {
   "property": "C71",
   "status": "proved",
   "theorems": [
    "Dissect.C71_scores",
    "Dissect.C71_other_files",
    "Dissect.C71_unknown_measures",
    "Dissect.C71_succeeds",
    "Dissect.C71_batch",
    "Dissect.C71_total"
   ],
   "note": ""
  },
  {
   "property": "C72",
   "status": "partial",
   "theorems": [
    "Dissect.C72_matrix_elements_partial",
    "Dissect.C72_type_error_partial",
    "Dissect.C72_refuted"
   ],
   "note": "false (C72_refuted: TypeError from formatting the message instead of IllegalOperationError); proved: the call never succeeds, and raises exactly TypeError whenever the numerical reduction itself would have succeeded"
  },
  {
   "property": "C73",
   "status": "partial",
   "theorems": [
    "Dissect.C73_plain_partial",
    "Dissect.C73_refuted"
   ],
   "note": "false for negative positions (C73_refuted); proved for dictionaries with non-negative positions over any number of add_rows calls"
  },
  {
   "property": "C74",
   "status": "partial",
   "theorems": [
    "Dissect.C74_refuted",
    "Dissect.C74_unknown_option_refuted",
    "Dissect.C74_unhandled_partial"
   ],
   "note": "false (C74_refuted, C74_unknown_option_refuted: every getopt error prints the usage text and exits 0); proved: an option getopt accepts but main does not handle exits 1 and writes nothing"
  },
  {
   "property": "C75",
   "status": "proved",
   "theorems": [
    "Dissect.C75_tuples",
    "Dissect.C75_tuples_error",
    "Dissect.C75_all_words",
    "Dissect.C75_lines",
    "Dissect.C75_field"
   ],
   "note": ""
  },
  {
   "property": "C76",
   "status": "proved",
   "theorems": [
    "Dissect.C76_succeeds",
    "Dissect.C76_saves",
    "Dissect.C76_other_files",
    "Dissect.C76_unknown_model"
   ],
   "note": ""
  },
  {
   "property": "C77",
   "status": "partial",
   "theorems": [
    "Dissect.C77_with_regression_partial",
    "Dissect.C77_refuted"
   ],
   "note": "false without -r (C77_refuted: the default learner always has an intercept); proved when -r is given"
  },
  {
   "property": "C78",
   "status": "partial",
   "theorems": [
    "Dissect.C78_accepted_partial",
    "Dissect.C78_refuted"
   ],
   "note": "false (C78_refuted: the documented names are rejected); proved: exactly which names are accepted and which class each gives"
  },
  {
   "property": "C79",
   "status": "proved",
   "theorems": [
    "Dissect.C79_unknown_model",
    "Dissect.C79_saves",
    "Dissect.C79_other_files",
    "Dissect.C79_succeeds",
    "Dissect.C79_xor"
   ],
   "note": ""
  },
  {
   "property": "C80",
   "status": "proved",
   "theorems": [
    "Dissect.C80_chain"
   ],
   "note": ""
  },
  {
   "property": "C81",
   "status": "proved",
   "theorems": [
    "Dissect.C81_saves",
    "Dissect.C81_other_files",
    "Dissect.C81_succeeds",
    "Dissect.C81_bad_input",
    "Dissect.C81_batch",
    "Dissect.C81_batch_other_files",
    "Dissect.C81_batch_no_dir"
   ],
   "note": ""
  },
  {
   "property": "C82",
   "status": "proved",
   "theorems": [
    "Dissect.C82_neighbours",
    "Dissect.C82_other_files",
    "Dissect.C82_succeeds",
    "Dissect.C82_unknown_measure",
    "Dissect.C82_total"
   ],
   "note": ""
  },
  {
   "property": "C83",
   "status": "proved",
   "theorems": [
    "Dissect.C83_scores",
    "Dissect.C83_batch",
    "Dissect.C83_bad_columns"
   ],
   "note": ""
  },
  {
   "property": "C84",
   "status": "proved",
   "theorems": [
    "Dissect.C84_build_core_space",
    "Dissect.C84_build_peripheral_space",
    "Dissect.C84_compute_similarities",
    "Dissect.C84_compute_neighbours",
    "Dissect.C84_train_composition",
    "Dissect.C84_apply_composition",
    "Dissect.C84_evaluate_similarities",
    "Dissect.C84_missing_option",
    "Dissect.C84_missing_measure"
   ],
   "note": ""
  },
  {
   "property": "C85",
   "status": "partial",
   "theorems": [
    "Dissect.C85_refuted",
    "Dissect.C85_log_partial"
   ],
   "note": "false for a bare file name (C85_refuted: every script raises OSError before doing anything); proved for names with a directory part; the logged text is not modelled"
  },
  {
   "property": "C86",
   "status": "proved",
   "theorems": [
    "Dissect.C86_weighted_additive",
    "Dissect.C86_dilation",
    "Dissect.C86_full_additive",
    "Dissect.C86_nothing_to_export",
    "Dissect.C86_no_parameters",
    "Dissect.C86_untrained"
   ],
   "note": ""
  },
  {
   "property": "C87",
   "status": "partial",
   "theorems": [
    "Dissect.C87_help_partial",
    "Dissect.C87_help_alone",
    "Dissect.C87_refuted"
   ],
   "note": "false for the two scripts that open the configuration file before looking at the options (C87_refuted: -h nofile raises IOError); proved in all other situations"
  },
  {
   "property": "C88",
   "status": "partial",
   "theorems": [
    "Dissect.C88_missing_column_partial",
    "Dissect.C88_refuted"
   ],
   "note": "false for column 0 (C88_refuted: it denotes the last column); proved for column numbers from 1"
  },
  {
   "property": "C89",
   "status": "proved",
   "theorems": [
    "Dissect.C89_core_reproduced"
   ],
   "note": ""
  },
  {
   "property": "C90",
   "status": "proved",
   "theorems": [
    "Dissect.C90_build_core_space",
    "Dissect.C90_build_core_space_returns",
    "Dissect.C90_build_peripheral_space",
    "Dissect.C90_build_peripheral_space_batch",
    "Dissect.C90_compute_similarities",
    "Dissect.C90_compute_similarities_batch",
    "Dissect.C90_compute_neighbours",
    "Dissect.C90_train_composition",
    "Dissect.C90_apply_composition"
   ],
   "note": ""
  },
  {
   "property": "C91",
   "status": "partial",
   "theorems": [
    "Dissect.C91_refuted",
    "Dissect.C91_save_partial"
   ],
   "note": "false (C91_refuted: open(...,'w') truncates first, so during every successful save there is a moment at which the file is empty); proved: other files are never touched, the file has its old content or a prefix of the new one, and the new one at the end"
  },
  {
   "property": "C92",
   "status": "proved",
   "theorems": [
    "Dissect.C92_build_core_space",
    "Dissect.C92_build_peripheral_space",
    "Dissect.C92_build_peripheral_space_batch",
    "Dissect.C92_compute_similarities",
    "Dissect.C92_compute_similarities_batch",
    "Dissect.C92_compute_neighbours",
    "Dissect.C92_train_composition",
    "Dissect.C92_apply_composition",
    "Dissect.C92_main_core",
    "Dissect.C92_main_peripheral",
    "Dissect.C92_main_peripheral_batch",
    "Dissect.C92_main_similarities",
    "Dissect.C92_main_similarities_batch",
    "Dissect.C92_main_neighbours",
    "Dissect.C92_main_train",
    "Dissect.C92_main_apply"
   ],
   "note": ""
  },
  {
   "property": "C93",
   "status": "proved",
   "theorems": [
    "Dissect.C93_unchanged",
    "Dissect.C93_history",
    "Dissect.C93_constructor",
    "Dissect.C93_scaling",
    "Dissect.C93_project",
    "Dissect.C93_lexical",
    "Dissect.C93_lin"
   ],
   "note": ""
  },
  {
   "property": "C94",
   "status": "partial",
   "theorems": [
    "Dissect.C94_independent_partial",
    "Dissect.C94_convert",
    "Dissect.C94_refuted"
   ],
   "note": "false (C94_refuted: Normalization with total 0 returns its argument itself); proved for every other call that returns a matrix, and for conversions to the other class, over every history and every sequence of in-place calls"
  },
  {
   "property": "C95",
   "status": "partial",
   "theorems": [
    "Dissect.C95_receiver",
    "Dissect.C95_refuted",
    "Dissect.C95_others_partial"
   ],
   "note": "false (C95_refuted: DenseMatrix(x) keeps the array of x, and plog() writes into it); proved: the receiver always gets its documented value, and no other matrix changes in histories that give every array to a constructor at most once and never build a matrix from one of the same class"
  },
  {
   "property": "C96",
   "status": "proved",
   "theorems": [
    "Dissect.C96_nndsvd_dense_iff",
    "Dissect.C96_nndsvd_dense",
    "Dissect.C96_nndsvd_sparse",
    "Dissect.C96_random",
    "Dissect.C96_nmf_from_start"
   ],
   "note": ""
  },
  {
   "property": "C97",
   "status": "proved",
   "theorems": [
    "Dissect.C97_sm",
    "Dissect.C97_dm",
    "Dissect.C97_sm_succeeds"
   ],
   "note": ""
  },
  {
   "property": "C98",
   "status": "partial",
   "theorems": [
    "Dissect.C98_positional",
    "Dissect.C98_partial",
    "Dissect.C98_refuted"
   ],
   "note": "false (C98_refuted: the labels in the cols file are dropped, so a cols file in another order than the core's columns puts the counts under the wrong dimensions); proved: what it does by position, and the claim when the cols file lists the core's columns in order"
  },
  {
   "property": "C99",
   "status": "proved",
   "theorems": [
    "Dissect.C99_dense",
    "Dissect.C99_sparse"
   ],
   "note": ""
  },
  {
   "property": "C100",
   "status": "proved",
   "theorems": [
    "Dissect.C100_never_apart",
    "Dissect.C100_rank_preserved",
    "Dissect.C100_total"
   ],
   "note": ""
  },
  {
   "property": "C101",
   "status": "proved",
   "theorems": [
    "Dissect.C101_cosine_unchanged",
    "Dissect.C101_cosine_two_spaces",
    "Dissect.C101_neighbours_unchanged"
   ],
   "note": ""
  },
  {
   "property": "C102",
   "status": "proved",
   "theorems": [
    "Dissect.C102_epmi_ppmi",
    "Dissect.C102_plmi",
    "Dissect.C102_normalisations"
   ],
   "note": ""
  },
  {
   "property": "C103",
   "status": "proved",
   "theorems": [
    "Dissect.C103_row_order",
    "Dissect.C103_sequences"
   ],
   "note": ""
  },
  {
   "property": "C104",
   "status": "proved",
   "theorems": [
    "Dissect.C104_own_neighbour"
   ],
   "note": ""
  },
  {
   "property": "C105",
   "status": "proved",
   "theorems": [
    "Dissect.C105_dilation",
    "Dissect.C105_weighted",
    "Dissect.C105_full_additive",
    "Dissect.C105_lexical"
   ],
   "note": ""
  },
  {
   "property": "C106",
   "status": "proved",
   "theorems": [
    "Dissect.C106_similarity",
    "Dissect.C106_neighbours",
    "Dissect.C106_scaling",
    "Dissect.C106_sequences"
   ],
   "note": ""
  },
  {
   "property": "C107",
   "status": "proved",
   "theorems": [
    "Dissect.C107_nary_vstack",
    "Dissect.C107_nary_hstack",
    "Dissect.C107_empty",
    "Dissect.C107_rows"
   ],
   "note": ""
  },
  {
   "property": "C108",
   "status": "proved",
   "theorems": [
    "Dissect.C108_missing",
    "Dissect.C108_regular_file",
    "Dissect.C108_no_match"
   ],
   "note": ""
  },
  {
   "property": "C109",
   "status": "proved",
   "theorems": [
    "Dissect.C109_unknown_keyword",
    "Dissect.C109_criterion",
    "Dissect.C109_dimension",
    "Dissect.C109_setters"
   ],
   "note": ""
  },
  {
   "property": "C110",
   "status": "partial",
   "theorems": [
    "Dissect.C110_lexical_refuted",
    "Dissect.C110_full_additive_refuted",
    "Dissect.C110_lexical_partial",
    "Dissect.C110_lexical_refuses_partial",
    "Dissect.C110_full_additive_partial",
    "Dissect.C110_full_additive_accepts_partial",
    "Dissect.C110_lexical_learner_partial",
    "Dissect.C110_full_additive_refuses_partial"
   ],
   "note": "false (C110_lexical_refuted: LexicalFunction(learner=5) is accepted; C110_full_additive_refuted: FullAdditive(A=m) without B silently ignores A); proved: which arguments are stored and which are refused for each of the two classes"
  },
  {
   "property": "C111",
   "status": "partial",
   "theorems": [
    "Dissect.C111_refuted",
    "Dissect.C111_partial",
    "Dissect.C111_train_partial"
   ],
   "note": "false (C111_refuted: the class attributes are other values than the property documentation); proved: the defaults that the code has"
  },
  {
   "property": "C112",
   "status": "proved",
   "theorems": [
    "Dissect.C112_second_roundtrip"
   ],
   "note": ""
  },
  {
   "property": "C113",
   "status": "proved",
   "theorems": [
    "Dissect.C113_projected_never_apart",
    "Dissect.C113_total"
   ],
   "note": ""
  },
  {
   "property": "C114",
   "status": "partial",
   "theorems": [
    "Dissect.C114_dilation_partial",
    "Dissect.C114_weighted_partial",
    "Dissect.C114_full_additive_partial",
    "Dissect.C114_lexical_partial",
    "Dissect.C114_weighted_refuted"
   ],
   "note": "false for WeightedAdditive (C114_weighted_refuted: with a phrase space of 15 or more rows the trailing partial chunk is dropped, so the order decides which triples count); proved: Dilation and ridge learners always, WeightedAdditive when the chunk size divides the number of usable triples, least squares for sparse spaces always and for dense ones when numpy's lstsq returns the shortest solution as documented"
  },
  {
   "property": "C115",
   "status": "proved",
   "theorems": [
    "Dissect.C115_own_triple",
    "Dissect.C115_two_parts",
    "Dissect.C115_lexical"
   ],
   "note": ""
  },
  {
   "property": "C116",
   "status": "proved",
   "theorems": [
    "Dissect.C116_symmetric"
   ],
   "note": ""
  },
  {
   "property": "C117",
   "status": "proved",
   "theorems": [
    "Dissect.C117_stacked_sim",
    "Dissect.C117_same_part"
   ],
   "note": ""
  },
  {
   "property": "C118",
   "status": "proved",
   "theorems": [
    "Dissect.C118_chain"
   ],
   "note": ""
  },
  {
   "property": "C119",
   "status": "proved",
   "theorems": [
    "Dissect.C119_larger_parameter",
    "Dissect.C119_zero_is_lstsq",
    "Dissect.C119_between",
    "Dissect.C119_bounds"
   ],
   "note": ""
  },
  {
   "property": "C120",
   "status": "proved",
   "theorems": [
    "Dissect.C120_prefix"
   ],
   "note": ""
  },
  {
   "property": "C121",
   "status": "proved",
   "theorems": [
    "Dissect.C121_symmetric",
    "Dissect.C121_one_space"
   ],
   "note": ""
  },
  {
   "property": "C122",
   "status": "proved",
   "theorems": [
    "Dissect.C122_normalization_twice",
    "Dissect.C122_select_in_steps"
   ],
   "note": ""
  },
  {
   "property": "C123",
   "status": "proved",
   "theorems": [
    "Dissect.C123_additive_svd",
    "Dissect.C123_feature_selection"
   ],
   "note": ""
  },
  {
   "property": "C124",
   "status": "proved",
   "theorems": [
    "Dissect.C124_no_interference",
    "Dissect.C124_progress",
    "Dissect.C124_not_sooner",
    "Dissect.C124_untouched",
    "Dissect.C124_schedules_agree"
   ],
   "note": ""
  },
  {
   "property": "C125",
   "status": "proved",
   "theorems": [
    "Dissect.C125_scripts",
    "Dissect.C125_scripts_end",
    "Dissect.C125_scripts_untouched",
    "Dissect.C125_by_name",
    "Dissect.C125_different_scripts",
    "Dissect.C125_different_directories"
   ],
   "note": ""
  },
  {
   "property": "C126",
   "status": "partial",
   "theorems": [
    "Dissect.C126_save_partial",
    "Dissect.C126_refuted_new_directory",
    "Dissect.C126_refuted_scripts"
   ],
   "note": "false when the directory does not exist yet (C126_refuted_new_directory, C126_refuted_scripts: two processes both find it missing, one creates it, the other dies with OSError from os.makedirs); proved for any number of processes and every schedule when the directories exist"
  },
  {
   "property": "C127",
   "status": "partial",
   "theorems": [
    "Dissect.C127_disk_partial",
    "Dissect.C127_complete_partial",
    "Dissect.C127_load_partial",
    "Dissect.C127_refuted_half_written"
   ],
   "note": "false (C127_refuted_half_written: open(.., 'w') truncates, a reader in between loads an empty file); proved: in every schedule the reader gets the old content or an initial part of the new one, nothing else changes, and the content is the new one once the writer has ended"
  },
  {
   "property": "C128",
   "status": "proved",
   "theorems": [
    "Dissect.C128_load",
    "Dissect.C128_space",
    "Dissect.C128_model",
    "Dissect.C128_core",
    "Dissect.C128_periph",
    "Dissect.C128_sims",
    "Dissect.C128_neighbours",
    "Dissect.C128_train",
    "Dissect.C128_apply"
   ],
   "note": ""
  },
  {
   "property": "C129",
   "status": "proved",
   "theorems": [
    "Dissect.C129_row",
    "Dissect.C129_rows",
    "Dissect.C129_cols",
    "Dissect.C129_single",
    "Dissect.C129_rows_rows",
    "Dissect.C129_rows_cols"
   ],
   "note": ""
  },
  {
   "property": "C130",
   "status": "proved",
   "theorems": [
    "Dissect.C130_dm",
    "Dissect.C130_sm",
    "Dissect.C130_missing"
   ],
   "note": ""
  },
  {
   "property": "C131",
   "status": "proved",
   "theorems": [
    "Dissect.C131_learner",
    "Dissect.C131_weighted",
    "Dissect.C131_full_additive",
    "Dissect.C131_lexical_iff",
    "Dissect.C131_lexical_optimal"
   ],
   "note": ""
  },
  {
   "property": "C132",
   "status": "proved",
   "theorems": [
    "Dissect.C132_evaluate",
    "Dissect.C132_evaluate_cases",
    "Dissect.C132_similarities",
    "Dissect.C132_neighbours",
    "Dissect.C132_train_numbers",
    "Dissect.C132_apply_numbers",
    "Dissect.C132_whole_numbers",
    "Dissect.C132_count"
   ],
   "note": ""
  },
  {
   "property": "C133",
   "status": "proved",
   "theorems": [
    "Dissect.C133_train_succeeds",
    "Dissect.C133_train_refuses",
    "Dissect.C133_apply_succeeds",
    "Dissect.C133_train_then_apply",
    "Dissect.C133_main_train"
   ],
   "note": ""
  },
  {
   "property": "C134",
   "status": "proved",
   "theorems": [
    "Dissect.C134_svd_dense",
    "Dissect.C134_svd_sparse",
    "Dissect.C134_core_succeeds",
    "Dissect.C134_core_then_peripheral"
   ],
   "note": ""
  },
  {
   "property": "C135",
   "status": "partial",
   "theorems": [
    "Dissect.C135_train_partial",
    "Dissect.C135_full_additive_partial",
    "Dissect.C135_full_additive_any_partial",
    "Dissect.C135_compose_partial",
    "Dissect.C135_history_partial",
    "Dissect.C135_lexical_partial",
    "Dissect.C135_lexical_trained_partial",
    "Dissect.C135_lexical_refuted",
    "Dissect.C135_columns_refuted"
   ],
   "note": "false of LexicalFunction (C135_lexical_refuted: train assigns the intercept flag first, so a failing training of a model made from a function space without intercept disables it) and of compose (C135_columns_refuted: a failing compose stores its column labels); proved: every failing training of WeightedAdditive, Dilation and Multiplicative and, with a correct library, FullAdditive leaves the model unchanged, LexicalFunction changes the flag only, compose never changes parameters, and over any history the parameters are those of the successful trainings"
  },
  {
   "property": "C136",
   "status": "proved",
   "theorems": [
    "Dissect.C136_save",
    "Dissect.C136_scripts",
    "Dissect.C136_same_command"
   ],
   "note": ""
  },
  {
   "property": "C137",
   "status": "partial",
   "theorems": [
    "Dissect.C137_last_partial",
    "Dissect.C137_refuted_mixture",
    "Dissect.C137_refuted_hole"
   ],
   "note": "false of the code (C137_refuted_mixture, C137_refuted_hole: save truncates and then writes, without a lock or rename, so the file may hold a mixture of the contents, even with NUL characters); proved: a save that starts when the others are anywhere in their work and runs without interruption leaves exactly its content (C137_last_partial); same contents: C136"
  },
  {
   "property": "C138",
   "status": "partial",
   "theorems": [
    "Dissect.C138_dilation_partial",
    "Dissect.C138_weighted_partial",
    "Dissect.C138_full_additive_partial",
    "Dissect.C138_lexical_partial",
    "Dissect.C138_ridge_partial",
    "Dissect.C138_weighted_refuted",
    "Dissect.C138_lexical_refuted"
   ],
   "note": "false of the code: WeightedAdditive looks at whole chunks only, so one triple is ignored and two equal ones are not when the phrase space has 15 rows (C138_weighted_refuted), and LexicalFunction needs MIN_SAMPLES samples per word (C138_lexical_refuted); proved: Dilation always, WeightedAdditive when the chunk size divides the number of usable triples, FullAdditive and LexicalFunction with the least-squares learner (the latter when no further word reaches the threshold), and ridge regression with the parameter multiplied by k"
  },
  {
   "property": "C139",
   "status": "proved",
   "theorems": [
    "Dissect.C139_file",
    "Dissect.C139_final_newline",
    "Dissect.C139_ignored",
    "Dissect.C139_no_section",
    "Dissect.C139_junk_line",
    "Dissect.C139_indented_first",
    "Dissect.C139_only_error",
    "Dissect.C139_as_command_line",
    "Dissect.C139_scripts",
    "Dissect.C139_unparsable",
    "Dissect.C139_values"
   ],
   "note": ""
  },
  {
   "property": "C140",
   "status": "proved",
   "theorems": [
    "Dissect.C140_range",
    "Dissect.C140_symmetric",
    "Dissect.C140_order",
    "Dissect.C140_pearson_scale",
    "Dissect.C140_spearman_scale",
    "Dissect.C140_pearson_perfect",
    "Dissect.C140_spearman_perfect",
    "Dissect.C140_line_order"
   ],
   "note": ""
  },
  {
   "property": "C141",
   "status": "proved",
   "theorems": [
    "Dissect.C141_epmi",
    "Dissect.C141_epmi_average",
    "Dissect.C141_positive",
    "Dissect.C141_independent",
    "Dissect.C141_mutual_information"
   ],
   "note": ""
  },
  {
   "property": "C142",
   "status": "proved",
   "theorems": [
    "Dissect.C142_columns",
    "Dissect.C142_similarity"
   ],
   "note": ""
  },
  {
   "property": "C143",
   "status": "proved",
   "theorems": [
    "Dissect.C143_dot_is_cosine",
    "Dissect.C143_euclid_from_cosine",
    "Dissect.C143_neighbours"
   ],
   "note": ""
  },
  {
   "property": "C144",
   "status": "proved",
   "theorems": [
    "Dissect.C144_never_apart",
    "Dissect.C144_enough_features",
    "Dissect.C144_keeps_most"
   ],
   "note": ""
  },
  {
   "property": "C145",
   "status": "proved",
   "theorems": [
    "Dissect.C145_full_additive_of_scalars",
    "Dissect.C145_weights_one_zero",
    "Dissect.C145_dilation_geometry",
    "Dissect.C145_multiplicative_neutral",
    "Dissect.C145_lexical_scalar"
   ],
   "note": ""
  },
  {
   "property": "C146",
   "status": "proved",
   "theorems": [
    "Dissect.C146_normalised_words",
    "Dissect.C146_common_unit"
   ],
   "note": ""
  },
  {
   "property": "C147",
   "status": "proved",
   "theorems": [
    "Dissect.C147_ridge_zero",
    "Dissect.C147_dense_sparse",
    "Dissect.C147_full_additive",
    "Dissect.C147_lexical"
   ],
   "note": ""
  },
  {
   "property": "C148",
   "status": "proved",
   "theorems": [
    "Dissect.C148_same_scores"
   ],
   "note": ""
  },
  {
   "property": "C149",
   "status": "proved",
   "theorems": [
    "Dissect.C149_two_runs",
    "Dissect.C149_as_one_run"
   ],
   "note": ""
  },
  {
   "property": "C150",
   "status": "partial",
   "theorems": [
    "Dissect.C150_dm_partial",
    "Dissect.C150_sm_partial",
    "Dissect.C150_stale_labels_refuted"
   ],
   "note": "False of the code: a .cols file that an earlier run left next to the export of a space without column labels is neither removed nor overwritten, and the scripts read it as part of the space (C150_stale_labels_refuted). True part: without such a file the dense export is read back exactly (C150_dm_partial), the sparse one with the same labels and values up to 1e-6, since six decimals are written (C150_sm_partial); labels must contain no white space and the space must not be empty."
  },
  {
   "property": "C151",
   "status": "proved",
   "theorems": [
    "Dissect.C151_no_convergence",
    "Dissect.C151_other_exceptions",
    "Dissect.C151_learner",
    "Dissect.C151_least_squares",
    "Dissect.C151_not_a_minimiser"
   ],
   "note": ""
  },
  {
   "property": "C152",
   "status": "proved",
   "theorems": [
    "Dissect.C152_learner",
    "Dissect.C152_weighted",
    "Dissect.C152_full_additive",
    "Dissect.C152_lexical"
   ],
   "note": ""
  },
  {
   "property": "C153",
   "status": "proved",
   "theorems": [
    "Dissect.C153_similarity",
    "Dissect.C153_neighbours",
    "Dissect.C153_learner",
    "Dissect.C153_full_additive",
    "Dissect.C153_lexical",
    "Dissect.C153_weighted",
    "Dissect.C153_dilation",
    "Dissect.C153_compose"
   ],
   "note": ""
  },
  {
   "property": "C154",
   "status": "proved",
   "theorems": [
    "Dissect.C154_weighted",
    "Dissect.C154_full_additive"
   ],
   "note": ""
  },
  {
   "property": "C155",
   "status": "proved",
   "theorems": [
    "Dissect.C155_entries",
    "Dissect.C155_kept",
    "Dissect.C155_count",
    "Dissect.C155_word",
    "Dissect.C155_peripheral",
    "Dissect.C155_added"
   ],
   "note": ""
  },
  {
   "property": "C156",
   "status": "proved",
   "theorems": [
    "Dissect.C156_core",
    "Dissect.C156_peripheral",
    "Dissect.C156_proportional",
    "Dissect.C156_peripheral_proportional",
    "Dissect.C156_added",
    "Dissect.C156_added_again"
   ],
   "note": ""
  },
  {
   "property": "C157",
   "status": "proved",
   "theorems": [
    "Dissect.C157_peripheral",
    "Dissect.C157_core"
   ],
   "note": ""
  },
  {
   "property": "C158",
   "status": "proved",
   "theorems": [
    "Dissect.C158_triangle",
    "Dissect.C158_angles",
    "Dissect.C158_consistent"
   ],
   "note": ""
  },
  {
   "property": "C159",
   "status": "proved",
   "theorems": [
    "Dissect.C159_grouping",
    "Dissect.C159_order",
    "Dissect.C159_rowwise",
    "Dissect.C159_compose_iff",
    "Dissect.C159_compose"
   ],
   "note": ""
  },
  {
   "property": "C160",
   "status": "partial",
   "theorems": [
    "Dissect.C160_train_partial",
    "Dissect.C160_lexical_partial",
    "Dissect.C160_stacked_partial",
    "Dissect.C160_weighted_refuted"
   ],
   "note": "False of WeightedAdditive: C160_weighted_refuted gives two phrase spaces that look alike for every word of the training data (one has fifteen rows, the other two) and lead to different weights, because the chunk size is computed from the number of rows of the phrase space and the last incomplete chunk is dropped. Proved for every model with that one exception excluded (C160_train_partial: for WeightedAdditive the numbers of phrases must agree up to the multiple of 15), for LexicalFunction (C160_lexical_partial) and for stacked spaces (C160_stacked_partial)."
  },
  {
   "property": "C161",
   "status": "partial",
   "theorems": [
    "Dissect.C161_convert",
    "Dissect.C161_sim",
    "Dissect.C161_neighbours",
    "Dissect.C161_apply",
    "Dissect.C161_chain_partial",
    "Dissect.C161_compose_iff",
    "Dissect.C161_compose",
    "Dissect.C161_train_dilation",
    "Dissect.C161_train_weighted",
    "Dissect.C161_train_full",
    "Dissect.C161_train_lexical",
    "Dissect.C161_svd_refuted"
   ],
   "note": "False of the code for Svd: the dense code negates both factors unless more than half of ALL cells of u are positive, the sparse code unless more than half of the STORED cells are (C161_svd_refuted: diag(3, 2) gets vectors of opposite signs). True part, proved in full: conversions, similarities, neighbours, every chain of scalings and feature selections, composition, and training of dilation, weighted additive, full additive and lexical function models with every learner, in every mixture of classes."
  },
  {
   "property": "C162",
   "status": "partial",
   "theorems": [
    "Dissect.C162_reverse_partial",
    "Dissect.C162_classes_partial",
    "Dissect.C162_both",
    "Dissect.C162_no_ties_partial",
    "Dissect.C162_refuted",
    "Dissect.C162_perfect"
   ],
   "note": "False of the code when a positive and a negative item have the same score: such a pair counts 1 in both directions (C162_refuted: the area, the area of the reversed predictions and the area with exchanged classes are all 1). True part: the two areas always add up to 1 plus the fraction of tied pairs, so the claim holds exactly without ties; both changes together, and the characterisation of 1 and 0, hold in full."
  },
  {
   "property": "C163",
   "status": "partial",
   "theorems": [
    "Dissect.C163_new",
    "Dissect.C163_same_class_partial",
    "Dissect.C163_reduced_partial",
    "Dissect.C163_other_class_refuted"
   ],
   "note": "False of the code for add_rows: C163_other_class_refuted proves that without a dimensionality reduction rows of the other class always raise TypeError after the labels have been added. C163_new (construction) holds in full; C163_same_class_partial and C163_reduced_partial are the true parts for add_rows."
  },
  {
   "property": "C164",
   "status": "partial",
   "theorems": [
    "Dissect.C164_size_partial",
    "Dissect.C164_size_error_partial",
    "Dissect.C164_refuted"
   ],
   "note": "False of the code: C164_refuted proves that a run with any names outside the documented ones succeeds and stores the unchanged input under a name that carries them. True part: senseless sizes (C164_size_partial, C164_size_error_partial)."
  },
  {
   "property": "C165",
   "status": "partial",
   "theorems": [
    "Dissect.C165_core_partial",
    "Dissect.C165_two_inputs_partial",
    "Dissect.C165_refuted",
    "Dissect.C165_trained",
    "Dissect.C165_composed",
    "Dissect.C165_periph_partial",
    "Dissect.C165_sims_partial",
    "Dissect.C165_neighbours_partial",
    "Dissect.C165_kind_core",
    "Dissect.C165_kind_periph",
    "Dissect.C165_kind_train",
    "Dissect.C165_kind_apply",
    "Dissect.C165_kind_sims",
    "Dissect.C165_kind_neighbours"
   ],
   "note": "The statement for all names is false of the code (C165_refuted: `x` with weighting w and `x.w` without operations share a file name; the later run replaces the earlier result). Proved: each script writes only files of its own kind (C165_kind_*), training and composition for all names, and core spaces, peripheral spaces, similarities and neighbours for input names without dots (_partial)."
  },
  {
   "property": "C166",
   "status": "partial",
   "theorems": [
    "Dissect.C166_left_partial",
    "Dissect.C166_right_partial",
    "Dissect.C166_grouping",
    "Dissect.C166_grouping_weights",
    "Dissect.C166_refuted",
    "Dissect.C166_lexical"
   ],
   "note": "False of the code for FullAdditive(A, B) (C166_refuted: its composed spaces carry no column labels, so composing them with labelled words raises ValueError). Proved for every model that keeps the column labels (C166_left_partial, C166_right_partial), lexical functions (C166_lexical) and the grouping of three words (C166_grouping, C166_grouping_weights)."
  },
  {
   "property": "C167",
   "status": "partial",
   "theorems": [
    "Dissect.C167_columns",
    "Dissect.C167_builds",
    "Dissect.C167_never_apart",
    "Dissect.C167_enough_features_partial",
    "Dissect.C167_refuted"
   ],
   "note": "The last part is false of the code (C167_refuted: one feature of the core is in use, selecting one feature changes nothing there, but merges two peripheral words that differ in a feature unknown to the core). Proved in full: which features are kept (C167_columns), that the words can still be projected (C167_builds), Euclidean similarity (C167_never_apart). True part of the last claim: peripheral words that are zero wherever the core is (C167_enough_features_partial)."
  },
  {
   "property": "C168",
   "status": "proved",
   "theorems": [
    "Dissect.C168_own_counts",
    "Dissect.C168_similarities",
    "Dissect.C168_core_or_peripheral"
   ],
   "note": ""
  },
  {
   "property": "C169",
   "status": "proved",
   "theorems": [
    "Dissect.C169_same_vector",
    "Dissect.C169_finds_itself"
   ],
   "note": ""
  },
  {
   "property": "C170",
   "status": "proved",
   "theorems": [
    "Dissect.C170_weighting",
    "Dissect.C170_weightings",
    "Dissect.C170_similarities"
   ],
   "note": ""
  }
 ]
}