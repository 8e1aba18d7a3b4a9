{
 "claims": [
  {
   "property": "C01",
   "status": "proved",
   "theorems": [
    "Spp.Props.C01_zero_divisor_traps",
    "Spp.Props.C01_zero_divisor_release",
    "Spp.Props.C01_division_result",
    "Spp.Props.C01_min_over_minus_one",
    "Spp.Props.C01_checked_ub_iff"
   ],
   "note": "Division and remainder for every integer type and every operand pair; UB exactly at MIN/-1."
  },
  {
   "property": "C02",
   "status": "proved",
   "theorems": [
    "Spp.Props.C02_add",
    "Spp.Props.C02_sub",
    "Spp.Props.C02_mul",
    "Spp.Props.C02_neg",
    "Spp.Props.C02_ub_iff",
    "Spp.Props.C02_compound",
    "Spp.Props.C02_inc_dec",
    "Spp.Props.C02_cast"
   ],
   "note": "Exactness, wrap-around and the exact UB condition; compound assignment and increments agree."
  },
  {
   "property": "C03",
   "status": "proved",
   "theorems": [
    "Spp.Props.C03_negative_shift_traps",
    "Spp.Props.C03_shift",
    "Spp.Props.C03_shift_count_not_checked"
   ],
   "note": "Shift results and traps; the missing count check is proved as C03_shift_count_not_checked."
  },
  {
   "property": "C04",
   "status": "proved",
   "theorems": [
    "Spp.Props.C04_scalar_compound",
    "Spp.Props.C04_bounds",
    "Spp.Props.C04_arrays",
    "Spp.Props.C04_arrays2",
    "Spp.Props.C04_heap",
    "Spp.Props.C04_assignments",
    "Spp.Props.C04_expressions",
    "Spp.Props.C04_reductions",
    "Spp.Props.C04_searches",
    "Spp.Props.C04_pairs",
    "Spp.Props.C04_compensated",
    "Spp.Props.C04_polynomials",
    "Spp.Props.C04_error_free",
    "Spp.Props.C04_selections",
    "Spp.Props.C04_updates",
    "Spp.Props.C04_iterators",
    "Spp.Props.C04_dereference",
    "Spp.Props.C04_loops",
    "Spp.Props.C04_row_loops",
    "Spp.Props.C04_index_loops",
    "Spp.Props.C04_reading",
    "Spp.Props.C04_random",
    "Spp.Props.C04_random_fill",
    "Spp.Props.C04_check_overflows",
    "Spp.Props.C04_remove_overflows",
    "Spp.Props.C04_operators",
    "Spp.Props.C04_operator_texts",
    "Spp.Props.C04_fixed",
    "Spp.Props.C04_fixed2",
    "Spp.Props.C04_fixed_expressions",
    "Spp.Props.C04_attach",
    "Spp.Props.C04_matrix_products",
    "Spp.Props.C04_literals",
    "Spp.Props.C04_quad_and_files",
    "Spp.Props.C04_lists",
    "Spp.Props.C04_memory",
    "Spp.Props.C04_memory2",
    "Spp.Props.C04_programs",
    "Spp.Props.C04_handlers",
    "Spp.Props.C04_std_random",
    "Spp.Props.C04_std_random_fill",
    "Spp.Props.C04_random_expressions",
    "Spp.Props.C04_random_floats",
    "Spp.Props.C04_index_iterators",
    "Spp.Props.C04_reverse_iterators",
    "Spp.Props.C04_functors",
    "Spp.Props.C04_expression_programs",
    "Spp.Props.C04_conditions",
    "Spp.Props.C04_steered_programs",
    "Spp.Props.C04_mixed_programs",
    "Spp.Props.C04_algorithms",
    "Spp.Props.C04_comparisons",
    "Spp.Props.C04_sorting",
    "Spp.Props.C04_ranges",
    "Spp.Props.C04_random_all",
    "Spp.Props.C04_idioms",
    "Spp.Props.C04_examples",
    "Spp.Props.C04_unused_handlers",
    "Spp.Props.C04_unused_handlers2",
    "Spp.Props.C04_unused_handlers_expr",
    "Spp.Props.C04_access_transparent",
    "Spp.Props.C04_scalar_transparent",
    "Spp.Props.C04_math_transparent"
   ],
   "note": "whole programs with and without checks; programs that handle exceptions excluded (C04_handlers shows why) Checks3.lean adds whole programs (expressions, conditions, loops, arrays in memory), algorithms on iterators, sorting, ranges, several random fills, and the example programs; handlers are excluded because they observe failed checks (C04_handlers)."
  },
  {
   "property": "C05",
   "status": "proved",
   "theorems": [
    "Spp.Props.C05_pows_signed",
    "Spp.Props.C05_pows_unsigned",
    "Spp.Props.C05_pows_negative"
   ],
   "note": ""
  },
  {
   "property": "C06",
   "status": "proved",
   "theorems": [
    "Spp.Props.C06_factorial",
    "Spp.Props.C06_factorial_negative"
   ],
   "note": ""
  },
  {
   "property": "C07",
   "status": "proved",
   "theorems": [
    "Spp.Props.C07_binom",
    "Spp.Props.C07_binom_overflow",
    "Spp.Props.C07_binom_full_claim_false",
    "Spp.Props.C07_binom_rejects"
   ],
   "note": "Exact success condition; the unrestricted claim is refuted by C07_binom_full_claim_false."
  },
  {
   "property": "C08",
   "status": "proved",
   "theorems": [
    "Spp.Props.C08_abss",
    "Spp.Props.C08_signs",
    "Spp.Props.C08_min_max",
    "Spp.Props.C08_clamp",
    "Spp.Props.C08_clamp_rejects"
   ],
   "note": ""
  },
  {
   "property": "C09",
   "status": "proved",
   "theorems": [
    "Spp.Props.C09_in_cond_range",
    "Spp.Props.C09_ranges",
    "Spp.Props.C09_values",
    "Spp.Props.C09_in_interval"
   ],
   "note": ""
  },
  {
   "property": "C10",
   "status": "proved",
   "theorems": [
    "Spp.Props.C10_fast_pows",
    "Spp.Props.C10_min_exponent"
   ],
   "note": ""
  },
  {
   "property": "C11",
   "status": "proved",
   "theorems": [
    "Spp.Props.C11_two_sum"
   ],
   "note": "For every binary precision of at least two bits and every least exponent (gradual underflow, round to nearest with any rule for ties; overflow is not modelled): the two components add up exactly to x+y and the first is the rounded sum."
  },
  {
   "property": "C12",
   "status": "proved",
   "theorems": [
    "Spp.Props.C12_two_prod",
    "Spp.Props.C12_no_underflow"
   ],
   "note": "Same arithmetic: exact whenever the product is a multiple of the smallest positive number, exactly when that holds, and always when exponents of x and y are large enough."
  },
  {
   "property": "C13",
   "status": "proved",
   "theorems": [
    "Spp.Props.C13_second_order",
    "Spp.Props.C13_exact",
    "Spp.Props.C13_in_bounds",
    "Spp.Props.C13_negative"
   ],
   "note": "Rounding without a least exponent (no underflow), any precision of at least two bits, any rule for ties: the sum of both components differs from x^p by at most 2((1+u)^(2p)-1)^2 |x|^p. Every exponent that fits the index type; negative exponents trap or fail as the code does."
  },
  {
   "property": "C14",
   "status": "proved",
   "theorems": [
    "Spp.Props.C14_seqN_accepted",
    "Spp.Props.C14_seqN_in_range",
    "Spp.Props.C14_seqN_rejected",
    "Spp.Props.C14_seqN_outcome",
    "Spp.Props.C14_accepted_slices_in_range",
    "Spp.Props.C14_check_overflows",
    "Spp.Props.C14_index_vector",
    "Spp.Props.C14_implicit_vector_sequence"
   ],
   "note": "Acceptance iff every selected index is in range, for every accepted slice kind; C14_check_overflows records that the check itself can overflow for astronomically large strides."
  },
  {
   "property": "C15",
   "status": "proved",
   "theorems": [
    "Spp.Props.C15_seq_selects",
    "Spp.Props.C15_seq_rejected",
    "Spp.Props.C15_range_unique"
   ],
   "note": ""
  },
  {
   "property": "C16",
   "status": "proved",
   "theorems": [
    "Spp.Props.C16_all_even_odd_reverse",
    "Spp.Props.C16_skipN",
    "Spp.Props.C16_firstN_lastN",
    "Spp.Props.C16_rejected"
   ],
   "note": ""
  },
  {
   "property": "C17",
   "status": "proved",
   "theorems": [
    "Spp.Props.C17_complement",
    "Spp.Props.C17_rejected",
    "Spp.Props.C17_partition"
   ],
   "note": ""
  },
  {
   "property": "C18",
   "status": "proved",
   "theorems": [
    "Spp.Props.C18_last_remove",
    "Spp.Props.C18_last_arithmetic",
    "Spp.Props.C18_last_minus"
   ],
   "note": ""
  },
  {
   "property": "C19",
   "status": "proved",
   "theorems": [
    "Spp.Props.C19_requests",
    "Spp.Props.C19_nested_slices"
   ],
   "note": ""
  },
  {
   "property": "C20",
   "status": "proved",
   "theorems": [
    "Spp.Props.C20_fill",
    "Spp.Props.C20_list",
    "Spp.Props.C20_list_rejected",
    "Spp.Props.C20_list2",
    "Spp.Props.C20_list2_rejected",
    "Spp.Props.C20_assign",
    "Spp.Props.C20_assign_mismatch",
    "Spp.Props.C20_slice_of_array",
    "Spp.Props.C20_sizes_kept"
   ],
   "note": ""
  },
  {
   "property": "C21",
   "status": "proved",
   "theorems": [
    "Spp.Props.C21_subscript",
    "Spp.Props.C21_at",
    "Spp.Props.C21_at_unguarded",
    "Spp.Props.C21_subscript_write",
    "Spp.Props.C21_at_write",
    "Spp.Props.C21_un",
    "Spp.Props.C21_subscript2",
    "Spp.Props.C21_at2",
    "Spp.Props.C21_un2",
    "Spp.Props.C21_write2"
   ],
   "note": ""
  },
  {
   "property": "C22",
   "status": "proved",
   "theorems": [
    "Spp.Props.C22_ownership",
    "Spp.Props.C22_no_undefined_behaviour",
    "Spp.Props.C22_everything_released",
    "Spp.Props.C22_contents",
    "Spp.Props.C22_contents_modify",
    "Spp.Props.C22_failed_statement",
    "Spp.Props.C22_failures"
   ],
   "note": ""
  },
  {
   "property": "C23",
   "status": "proved",
   "theorems": [
    "Spp.Props.C23_valid_statement",
    "Spp.Props.C23_history",
    "Spp.Props.C23_history_valid"
   ],
   "note": ""
  },
  {
   "property": "C24",
   "status": "proved",
   "theorems": [
    "Spp.Props.C24_resize",
    "Spp.Props.C24_resize_rejected"
   ],
   "note": ""
  },
  {
   "property": "C25",
   "status": "proved",
   "theorems": [
    "Spp.Props.C25_remove",
    "Spp.Props.C25_remove_rejected",
    "Spp.Props.C25_remove_check_overflows",
    "Spp.Props.C25_remove_outcome",
    "Spp.Props.C25_remove_front_back",
    "Spp.Props.C25_remove_front_back_rejected",
    "Spp.Props.C25_remove_last",
    "Spp.Props.C25_remove_last_rejected"
   ],
   "note": "C25_remove_check_overflows records that the check pos+count-1 itself can overflow."
  },
  {
   "property": "C26",
   "status": "proved",
   "theorems": [
    "Spp.Props.C26_remove_indices",
    "Spp.Props.C26_remove_indices_rejected"
   ],
   "note": ""
  },
  {
   "property": "C27",
   "status": "proved",
   "theorems": [
    "Spp.Props.C27_insert_array",
    "Spp.Props.C27_insert",
    "Spp.Props.C27_insert_rejected",
    "Spp.Props.C27_insert_ends"
   ],
   "note": ""
  },
  {
   "property": "C28",
   "status": "proved",
   "theorems": [
    "Spp.Props.C28_insert_remove",
    "Spp.Props.C28_remove_insert"
   ],
   "note": ""
  },
  {
   "property": "C29",
   "status": "proved",
   "theorems": [
    "Spp.Props.C29_copy_assign",
    "Spp.Props.C29_copy_not_linked",
    "Spp.Props.C29_construct",
    "Spp.Props.C29_construct_size",
    "Spp.Props.C29_construct_size_rejected",
    "Spp.Props.C29_move_assign",
    "Spp.Props.C29_move_assign_rejected",
    "Spp.Props.C29_move_construct",
    "Spp.Props.C29_swap",
    "Spp.Props.C29_resize_and_assign",
    "Spp.Props.C29_resize_and_assign_move"
   ],
   "note": "Self move through resize_and_assign empties the array (C29_resize_and_assign_move)."
  },
  {
   "property": "C30",
   "status": "proved",
   "theorems": [
    "Spp.Props.C30_invalid_assignment",
    "Spp.Props.C30_element_traps",
    "Spp.Props.C30_assign_element_traps",
    "Spp.Props.C30_resize_and_assign_atomic",
    "Spp.Props.C30_insert_atomic",
    "Spp.Props.C30_invalid_statement"
   ],
   "note": ""
  },
  {
   "property": "C31",
   "status": "proved",
   "theorems": [
    "Spp.Props.C31_pointwise",
    "Spp.Props.C31_arrays_select_once",
    "Spp.Props.C31_same_as_temporary",
    "Spp.Props.C31_reverse_statement_smears",
    "Spp.Props.C31_same_position",
    "Spp.Props.C31_resize_and_assign_safe",
    "Spp.Props.C31_reverse_smears"
   ],
   "note": ""
  },
  {
   "property": "C32",
   "status": "proved",
   "theorems": [
    "Spp.Props.C32_flatten_unflatten",
    "Spp.Props.C32_unflatten_flatten"
   ],
   "note": ""
  },
  {
   "property": "C33",
   "status": "proved",
   "theorems": [
    "Spp.Props.C33_linear_is_two_index",
    "Spp.Props.C33_two_index_is_linear"
   ],
   "note": ""
  },
  {
   "property": "C34",
   "status": "proved",
   "theorems": [
    "Spp.Props.C34_construct_size",
    "Spp.Props.C34_construct_size_rejected",
    "Spp.Props.C34_construct_list",
    "Spp.Props.C34_construct_list_rejected",
    "Spp.Props.C34_assign_list",
    "Spp.Props.C34_assign_list_rejected",
    "Spp.Props.C34_valid_statement",
    "Spp.Props.C34_invalid_statement",
    "Spp.Props.C34_history",
    "Spp.Props.C34_shape",
    "Spp.Props.C34_history_valid",
    "Spp.Props.C34_self_move_breaks_shape",
    "Spp.Props.C34_empty_row_breaks_shape",
    "Spp.Props.C34_move_construct"
   ],
   "note": "Histories of all modelled member functions on any number of 2D arrays refine matrix programs and keep the shape invariant; the two exceptions named in the property are proved as C34_self_move_breaks_shape and C34_empty_row_breaks_shape."
  },
  {
   "property": "C35",
   "status": "proved",
   "theorems": [
    "Spp.Props.C35_resize_preserve",
    "Spp.Props.C35_resize_reset",
    "Spp.Props.C35_resize_reinterpret",
    "Spp.Props.C35_resize_rejected"
   ],
   "note": ""
  },
  {
   "property": "C36",
   "status": "proved",
   "theorems": [
    "Spp.Props.C36_remove_rows",
    "Spp.Props.C36_remove_cols",
    "Spp.Props.C36_remove_rejected",
    "Spp.Props.C36_remove_special",
    "Spp.Props.C36_remove_rows_indices",
    "Spp.Props.C36_remove_cols_indices",
    "Spp.Props.C36_remove_indices_rejected"
   ],
   "note": ""
  },
  {
   "property": "C37",
   "status": "proved",
   "theorems": [
    "Spp.Props.C37_last_ignored",
    "Spp.Props.C37_remove_last",
    "Spp.Props.C37_remove_last_empty"
   ],
   "note": "The argument is ignored for every k (C37_last_ignored is the concrete witness)."
  },
  {
   "property": "C38",
   "status": "proved",
   "theorems": [
    "Spp.Props.C38_resize_and_assign",
    "Spp.Props.C38_insert_rows",
    "Spp.Props.C38_insert_cols",
    "Spp.Props.C38_insert_into_empty",
    "Spp.Props.C38_insert_rejected",
    "Spp.Props.C38_insert_row",
    "Spp.Props.C38_insert_col",
    "Spp.Props.C38_insert_row_into_empty",
    "Spp.Props.C38_insert_row_rejected",
    "Spp.Props.C38_insert_ends"
   ],
   "note": ""
  },
  {
   "property": "C39",
   "status": "proved",
   "theorems": [
    "Spp.Props.C39_remove_inserted_rows",
    "Spp.Props.C39_remove_inserted_cols",
    "Spp.Props.C39_remove_inserted_row_col"
   ],
   "note": ""
  },
  {
   "property": "C40",
   "status": "proved",
   "theorems": [
    "Spp.Props.C40_row",
    "Spp.Props.C40_col",
    "Spp.Props.C40_diag",
    "Spp.Props.C40_block",
    "Spp.Props.C40_blockN",
    "Spp.Props.C40_line_rejected",
    "Spp.Props.C40_block_rejected",
    "Spp.Props.C40_blockN_rejected",
    "Spp.Props.C40_diag_min_overflows"
   ],
   "note": ""
  },
  {
   "property": "C41",
   "status": "proved",
   "theorems": [
    "Spp.Props.C41_view2D_size",
    "Spp.Props.C41_view2D_vector",
    "Spp.Props.C41_view2D_matrix",
    "Spp.Props.C41_view1D",
    "Spp.Props.C41_round_trip",
    "Spp.Props.C41_negative_dimensions"
   ],
   "note": ""
  },
  {
   "property": "C42",
   "status": "proved",
   "theorems": [
    "Spp.Props.C42_outcome",
    "Spp.Props.C42_slice2"
   ],
   "note": ""
  },
  {
   "property": "C43",
   "status": "proved",
   "theorems": [
    "Spp.Props.C43_accepted",
    "Spp.Props.C43_reads",
    "Spp.Props.C43_no_outside_access",
    "Spp.Props.C43_eval_1D",
    "Spp.Props.C43_eval_2D",
    "Spp.Props.C43_elementwise",
    "Spp.Props.C43_mismatch",
    "Spp.Props.C43_subscript"
   ],
   "note": ""
  },
  {
   "property": "C44",
   "status": "proved",
   "theorems": [
    "Spp.Props.C44_transpose",
    "Spp.Props.C44_involution",
    "Spp.Props.C44_eval"
   ],
   "note": ""
  },
  {
   "property": "C45",
   "status": "proved",
   "theorems": [
    "Spp.Props.C45_merge",
    "Spp.Props.C45_associative",
    "Spp.Props.C45_any_number",
    "Spp.Props.C45_scalars_after",
    "Spp.Props.C45_scalars_before",
    "Spp.Props.C45_side_by_side",
    "Spp.Props.C45_on_top",
    "Spp.Props.C45_mismatch",
    "Spp.Props.C45_thin_operand_reads_outside"
   ],
   "note": "C45_thin_operand_reads_outside records the operand for which merge_horizontal reads outside in every build."
  },
  {
   "property": "C46",
   "status": "proved",
   "theorems": [
    "Spp.Props.C46_exclude",
    "Spp.Props.C46_same_as_remove",
    "Spp.Props.C46_rejected",
    "Spp.Props.C46_exclude_last",
    "Spp.Props.C46_last_minus_k_false"
   ],
   "note": "C46_last_minus_k_false records that exclude(A, last - k) ignores k."
  },
  {
   "property": "C47",
   "status": "proved",
   "theorems": [
    "Spp.Props.C47_sequence",
    "Spp.Props.C47_irange",
    "Spp.Props.C47_linspace",
    "Spp.Props.C47_linspace_one",
    "Spp.Props.C47_unit",
    "Spp.Props.C47_identity",
    "Spp.Props.C47_const",
    "Spp.Props.C47_rejected"
   ],
   "note": "linspace in exact arithmetic; linspace(1, ..) divides by zero (C47_linspace_one)."
  },
  {
   "property": "C48",
   "status": "proved",
   "theorems": [
    "Spp.Props.C48_reduce",
    "Spp.Props.C48_broadcast",
    "Spp.Props.C48_tensor",
    "Spp.Props.C48_matvec",
    "Spp.Props.C48_inner_exact",
    "Spp.Props.C48_matvec_mismatch"
   ],
   "note": ""
  },
  {
   "property": "C49",
   "status": "proved",
   "theorems": [
    "Spp.Props.C49_construct",
    "Spp.Props.C49_stored",
    "Spp.Props.C49_immediate",
    "Spp.Props.C49_transpose_dangles",
    "Spp.Props.C49_matvec_dangles",
    "Spp.Props.C49_variable",
    "Spp.Props.C49_statement",
    "Spp.Props.C49_variable_dangles"
   ],
   "note": "Stored objects behave like the expression while its arrays live (all node kinds except matvec_prod and transpose of a non-array); the two exceptions are proved to dangle."
  },
  {
   "property": "C50",
   "status": "proved",
   "theorems": [
    "Spp.Props.C50_compound",
    "Spp.Props.C50_compound_scalar",
    "Spp.Props.C50_repeated",
    "Spp.Props.C50_mismatch"
   ],
   "note": ""
  },
  {
   "property": "C51",
   "status": "proved",
   "theorems": [
    "Spp.Props.C51_equal",
    "Spp.Props.C51_equal_exact",
    "Spp.Props.C51_not_equal",
    "Spp.Props.C51_equivalence"
   ],
   "note": "for arrays, slices and expressions of any shape; elems_of_expression links program text to objects"
  },
  {
   "property": "C52",
   "status": "proved",
   "theorems": [
    "Spp.Props.C52_left_to_right",
    "Spp.Props.C52_exact",
    "Spp.Props.C52_mean_empty",
    "Spp.Props.C52_no_wrong_result",
    "Spp.Props.C52_sum_signed",
    "Spp.Props.C52_sum_unsigned",
    "Spp.Props.C52_dot",
    "Spp.Props.C52_dot_exact",
    "Spp.Props.C52_dot_mismatch"
   ],
   "note": "exact arithmetic, left-to-right order for any arithmetic, and signed (exact or undefined) / unsigned (wraps) integers"
  },
  {
   "property": "C53",
   "status": "proved",
   "theorems": [
    "Spp.Props.C53_extrema",
    "Spp.Props.C53_index_1D",
    "Spp.Props.C53_index_2D",
    "Spp.Props.C53_always_an_element",
    "Spp.Props.C53_nan"
   ],
   "note": "for element types with a linear order; C53_nan shows the order dependence with NaN"
  },
  {
   "property": "C54",
   "status": "proved",
   "theorems": [
    "Spp.Props.C54_quantifiers",
    "Spp.Props.C54_short_circuit",
    "Spp.Props.C54_pairwise",
    "Spp.Props.C54_mismatch",
    "Spp.Props.C54_tests",
    "Spp.Props.C54_finite"
   ],
   "note": ""
  },
  {
   "property": "C55",
   "status": "proved",
   "theorems": [
    "Spp.Props.C55_polynomial",
    "Spp.Props.C55_no_wrong_result",
    "Spp.Props.C55_empty",
    "Spp.Props.C55_gpolynomial",
    "Spp.Props.C55_polynomial_powers",
    "Spp.Props.C55_rejected"
   ],
   "note": "gpolynomial and polynomial with powers assume that std::pow is exact for natural exponents"
  },
  {
   "property": "C56",
   "status": "proved",
   "theorems": [
    "Spp.Props.C56_norm_inf",
    "Spp.Props.C56_norm1",
    "Spp.Props.C56_norm2",
    "Spp.Props.C56_norm_lp",
    "Spp.Props.C56_exponent",
    "Spp.Props.C56_empty"
   ],
   "note": "norm2 and norm_lp relative to the given square root and power functions"
  },
  {
   "property": "C57",
   "status": "proved",
   "theorems": [
    "Spp.Props.C57_sort",
    "Spp.Props.C57_increasing"
   ],
   "note": "relative to the specification of std::sort (StdSort), which merge sort satisfies"
  },
  {
   "property": "C58",
   "status": "proved",
   "theorems": [
    "Spp.Props.C58_compensated",
    "Spp.Props.C58_exact",
    "Spp.Props.C58_empty_mean"
   ],
   "note": "Any binary precision of at least two bits, any least exponent, any rule for ties; overflow is not modelled."
  },
  {
   "property": "C59",
   "status": "proved",
   "theorems": [
    "Spp.Props.C59_bound",
    "Spp.Props.C59_gamma"
   ],
   "note": "Same arithmetic; the bound is u|sum| + (1+u)((1+u)^(n-1)-1)^2 sum|a_i|, also with the customary gamma."
  },
  {
   "property": "C60",
   "status": "proved",
   "theorems": [
    "Spp.Props.C60_blocks",
    "Spp.Props.C60_exact",
    "Spp.Props.C60_bound"
   ],
   "note": "Also the rounding error bound in the same arithmetic."
  },
  {
   "property": "C61",
   "status": "proved",
   "theorems": [
    "Spp.Props.C61_dot_compensated",
    "Spp.Props.C61_dot_bound",
    "Spp.Props.C61_exact",
    "Spp.Props.C61_edges",
    "Spp.Props.C61_semi_dot",
    "Spp.Props.C61_prod_bound",
    "Spp.Props.C61_dot_bound_unlimited"
   ],
   "note": "Gradual underflow: products must be multiples of the smallest positive number; without a least exponent no condition. stable_prod's bound is for arithmetic without a least exponent."
  },
  {
   "property": "C62",
   "status": "proved",
   "theorems": [
    "Spp.Props.C62_gpolynomial",
    "Spp.Props.C62_polynomial_powers",
    "Spp.Props.C62_polynomial",
    "Spp.Props.C62_too_many",
    "Spp.Props.C62_edges",
    "Spp.Props.C62_bound",
    "Spp.Props.C62_norms",
    "Spp.Props.C62_norm_lp",
    "Spp.Props.C62_norm_edges"
   ],
   "note": "For every coefficient vector up to 2^31 elements (stable_polynomial, whose powers are of type int: with more, C62_too_many shows that checked builds trap) or 2^62 (the others); also the rounding error bound, and the compensated norms."
  },
  {
   "property": "C63",
   "status": "proved",
   "theorems": [
    "Spp.Props.C63_loop",
    "Spp.Props.C63_visits",
    "Spp.Props.C63_assigns",
    "Spp.Props.C63_arithmetic",
    "Spp.Props.C63_laws",
    "Spp.Props.C63_access",
    "Spp.Props.C63_reverse",
    "Spp.Props.C63_rejected"
   ],
   "note": "Range-for over any array, slice or expression equals the index loop whatever the body does to the elements; the size must stay the same. Reverse iterators are std::reverse_iterator as the standard describes it."
  },
  {
   "property": "C64",
   "status": "proved",
   "theorems": [
    "Spp.Props.C64_loop",
    "Spp.Props.C64_pairs",
    "Spp.Props.C64_rejected",
    "Spp.Props.C64_degenerate",
    "Spp.Props.C64_ranges",
    "Spp.Props.C64_positions"
   ],
   "note": "Without debug checks an m by 0 range is undefined behaviour (C64_degenerate); checked builds reject it."
  },
  {
   "property": "C65",
   "status": "proved",
   "theorems": [
    "Spp.Props.C65_rows",
    "Spp.Props.C65_cols",
    "Spp.Props.C65_loop"
   ],
   "note": "Forward and reverse; rows concatenate to the row-major elements, columns to a permutation of them."
  },
  {
   "property": "C66",
   "status": "proved",
   "theorems": [
    "Spp.Props.C66_every_text",
    "Spp.Props.C66_outcome",
    "Spp.Props.C66_integers",
    "Spp.Props.C66_malformed",
    "Spp.Props.C66_out_of_range",
    "Spp.Props.C66_dropped",
    "Spp.Props.C66_dropped_sign",
    "Spp.Props.C66_scalar",
    "Spp.Props.C66_file"
   ],
   "note": "Over every text and every number scanner that consumes what it accepts; instances for integers with the C++ library's scanner, including the dropped trailing token. Device errors (badbit) and floating-point scanners are outside the model."
  },
  {
   "property": "C67",
   "status": "proved",
   "theorems": [
    "Spp.Props.C67_rows",
    "Spp.Props.C67_no_rows",
    "Spp.Props.C67_malformed_first",
    "Spp.Props.C67_bad_row",
    "Spp.Props.C67_long_row",
    "Spp.Props.C67_integers",
    "Spp.Props.C67_file"
   ],
   "note": "Over every text: good rows, no rows, malformed first row, short and malformed rows, over-long rows with the exact condition under which release builds write outside the buffer."
  },
  {
   "property": "C68",
   "status": "proved",
   "theorems": [
    "Spp.Props.C68_range",
    "Spp.Props.C68_draws",
    "Spp.Props.C68_sequence",
    "Spp.Props.C68_bits",
    "Spp.Props.C68_too_wide",
    "Spp.Props.C68_rejected",
    "Spp.Props.C68_array",
    "Spp.Props.C68_expression",
    "Spp.Props.C68_constant"
   ],
   "note": "Explicit model of the generator with unsigned wrap-around. Every value in range for scalars, any number of draws, arrays and expressions; exact values. The representability condition on the size of the range is shown to be needed (C68_too_wide)."
  },
  {
   "property": "C69",
   "status": "proved",
   "theorems": [
    "Spp.Props.C69_returns",
    "Spp.Props.C69_without_zero",
    "Spp.Props.C69_even_size",
    "Spp.Props.C69_default",
    "Spp.Props.C69_never",
    "Spp.Props.C69_five",
    "Spp.Props.C69_array_never",
    "Spp.Props.C69_only_zero"
   ],
   "note": "The expectation that it always returns is false of the code: C69_never, C69_five and C69_array_never prove non-termination (no result within any number of steps). What holds is proved: returned values, ranges without zero, even sizes, the default range for every seed."
  },
  {
   "property": "C70",
   "status": "proved",
   "theorems": [
    "Spp.Props.C70_abs",
    "Spp.Props.C70_rel",
    "Spp.Props.C70_laws",
    "Spp.Props.C70_zero",
    "Spp.Props.C70_arrays",
    "Spp.Props.C70_errors",
    "Spp.Props.C70_max_abs",
    "Spp.Props.C70_max_rel",
    "Spp.Props.C70_rejected",
    "Spp.Props.C70_rounded"
   ],
   "note": "Exact arithmetic over any ordered field; C70_rounded adds the effect of rounding on within_tol_abs. Overloads on braced lists convert and call these."
  },
  {
   "property": "C71",
   "status": "proved",
   "theorems": [
    "Spp.Props.C71_for_each",
    "Spp.Props.C71_for_each_in"
   ],
   "note": ""
  },
  {
   "property": "C72",
   "status": "proved",
   "theorems": [
    "Spp.Props.C72_blas_array"
   ],
   "note": ""
  },
  {
   "property": "C73",
   "status": "proved",
   "theorems": [
    "Spp.Props.C73_sum",
    "Spp.Props.C73_dot"
   ],
   "note": ""
  },
  {
   "property": "C74",
   "status": "proved",
   "theorems": [
    "Spp.Props.C74_range",
    "Spp.Props.C74_value",
    "Spp.Props.C74_rejected"
   ],
   "note": "For every round-to-nearest binary format with at least 24 bits, gradual underflow included, overflow of high - low excluded."
  },
  {
   "property": "C75",
   "status": "proved",
   "theorems": [
    "Spp.Props.C75_column",
    "Spp.Props.C75_row",
    "Spp.Props.C75_row_detailed",
    "Spp.Props.C75_column_detailed",
    "Spp.Props.C75_table",
    "Spp.Props.C75_table_detailed",
    "Spp.Props.C75_width",
    "Spp.Props.C75_aligned",
    "Spp.Props.C75_most_negative",
    "Spp.Props.C75_read_back",
    "Spp.Props.C75_read_back_table",
    "Spp.Props.C75_file",
    "Spp.Props.C75_file_round_trip",
    "Spp.Props.C75_scalar",
    "Spp.Props.C75_booleans",
    "Spp.Props.C75_booleans_read",
    "Spp.Props.C75_several",
    "Spp.Props.C75_indexes"
   ],
   "note": "count_digit goes through std::log10 and is a parameter: the texts of the detailed formats and the alignment of 2D fields assume it counts digits correctly, the round trips hold for any count. Random expression objects (printed from their bounds) and stream failures while writing are outside the model."
  },
  {
   "property": "C76",
   "status": "proved",
   "theorems": [
    "Spp.Props.C76_scientific",
    "Spp.Props.C76_fixed",
    "Spp.Props.C76_nearest_scientific",
    "Spp.Props.C76_nearest_fixed",
    "Spp.Props.C76_reads",
    "Spp.Props.C76_number",
    "Spp.Props.C76_read_back",
    "Spp.Props.C76_read_back_table",
    "Spp.Props.C76_read_back_fixed",
    "Spp.Props.C76_double",
    "Spp.Props.C76_float_lossy",
    "Spp.Props.C76_long_double_lossy",
    "Spp.Props.C76_quad_lossy",
    "Spp.Props.C76_enough_digits"
   ],
   "note": "The numbers are rationals (no infinities, NaN, negative zero or overflow on reading); the library's conversions are taken to be correctly rounded. C76_float_lossy, C76_long_double_lossy and C76_quad_lossy show that the default precision of the other types loses digits."
  },
  {
   "property": "C77",
   "status": "proved",
   "theorems": [
    "Spp.Props.C77_bitwise",
    "Spp.Props.C77_bits_determine",
    "Spp.Props.C77_complement",
    "Spp.Props.C77_compound"
   ],
   "note": ""
  },
  {
   "property": "C78",
   "status": "proved",
   "theorems": [
    "Spp.Props.C78_compare",
    "Spp.Props.C78_truth_tables",
    "Spp.Props.C78_no_short_circuit",
    "Spp.Props.C78_guard_fails"
   ],
   "note": ""
  },
  {
   "property": "C79",
   "status": "proved",
   "theorems": [
    "Spp.Props.C79_int_to_int",
    "Spp.Props.C79_bool",
    "Spp.Props.C79_float_to_int",
    "Spp.Props.C79_int_to_float",
    "Spp.Props.C79_float_to_float",
    "Spp.Props.C79_widen",
    "Spp.Props.C79_round_trip",
    "Spp.Props.C79_sizes"
   ],
   "note": "no NaN and infinities"
  },
  {
   "property": "C80",
   "status": "proved",
   "theorems": [
    "Spp.Props.C80_signed_literals",
    "Spp.Props.C80_unsigned_literals",
    "Spp.Props.C80_named"
   ],
   "note": "consteval failures (compilation errors) are modelled as traps"
  },
  {
   "property": "C81",
   "status": "proved",
   "theorems": [
    "Spp.Props.C81_construct",
    "Spp.Props.C81_construct_rejected",
    "Spp.Props.C81_release_mismatch",
    "Spp.Props.C81_valid_statement",
    "Spp.Props.C81_invalid_statement",
    "Spp.Props.C81_size_constant",
    "Spp.Props.C81_history",
    "Spp.Props.C81_construct2",
    "Spp.Props.C81_construct2_rejected",
    "Spp.Props.C81_valid_statement2",
    "Spp.Props.C81_invalid_statement2",
    "Spp.Props.C81_history2"
   ],
   "note": "constructors, assignments, moves and swap of fixed-size arrays, as histories"
  },
  {
   "property": "C82",
   "status": "proved",
   "theorems": [
    "Spp.Props.C82_attach1D",
    "Spp.Props.C82_attach2D",
    "Spp.Props.C82_write",
    "Spp.Props.C82_fill",
    "Spp.Props.C82_negative_rejected",
    "Spp.Props.C82_too_long",
    "Spp.Props.C82_release_negative"
   ],
   "note": "attached vectors and matrices; access beyond the memory is undefined, and a theorem says so"
  },
  {
   "property": "C83",
   "status": "proved",
   "theorems": [
    "Spp.Props.C83_arrays_not0",
    "Spp.Props.C83_generator",
    "Spp.Props.C83_bool",
    "Spp.Props.C83_quad",
    "Spp.Props.C83_quad_outside",
    "Spp.Props.C83_scalar",
    "Spp.Props.C83_array",
    "Spp.Props.C83_arrays",
    "Spp.Props.C83_expression",
    "Spp.Props.C83_rejected",
    "Spp.Props.C83_aliased_bounds",
    "Spp.Props.C83_not0",
    "Spp.Props.C83_only_zero",
    "Spp.Props.C83_array_not0",
    "Spp.Props.C83_array_not0_returns"
   ],
   "note": "for an arbitrary generator that keeps the contract of the standard distributions"
  },
  {
   "property": "C84",
   "status": "proved",
   "theorems": [
    "Spp.Props.C84_view",
    "Spp.Props.C84_expression",
    "Spp.Props.C84_element",
    "Spp.Props.C84_statement",
    "Spp.Props.C84_program",
    "Spp.Props.C84_valid_program"
   ],
   "note": "Sizes are bounded (Spec/Modest.lean) because index arithmetic itself is unchecked; element operations are assumed not to have undefined behaviour of their own (e.g. checked integer arithmetic, C01)."
  },
  {
   "property": "C85",
   "status": "proved",
   "theorems": [
    "Spp.Props.C85_operators",
    "Spp.Props.C85_outcome_unique",
    "Spp.Props.C85_compound_function",
    "Spp.Props.C85_unary_operators",
    "Spp.Props.C85_boolean_operators",
    "Spp.Props.C85_arrays",
    "Spp.Props.C85_array_and_number",
    "Spp.Props.C85_unary",
    "Spp.Props.C85_boolean",
    "Spp.Props.C85_compound",
    "Spp.Props.C85_compound_number"
   ],
   "note": ""
  },
  {
   "property": "C86",
   "status": "proved",
   "theorems": [
    "Spp.Props.C86_compiles",
    "Spp.Props.C86_rejects",
    "Spp.Props.C86_no_iterators",
    "Spp.Props.C86_accepts",
    "Spp.Props.C86_nested",
    "Spp.Props.C86_named",
    "Spp.Props.C86_stored",
    "Spp.Props.C86_gaps",
    "Spp.Props.C86_gap_unary",
    "Spp.Props.C86_gap_binary",
    "Spp.Props.C86_gap_second",
    "Spp.Props.C86_gap_tensor",
    "Spp.Props.C86_gap_slice"
   ],
   "note": "The four kinds of call that accept temporary arrays are part of the statement (finding 19)."
  },
  {
   "property": "C87",
   "status": "proved",
   "theorems": [
    "Spp.Props.C87_aligned",
    "Spp.Props.C87_alignment",
    "Spp.Props.C87_flag"
   ],
   "note": "The contract of operator new is a hypothesis (Spec.AllocatorContract)."
  },
  {
   "property": "C88",
   "status": "proved",
   "theorems": [
    "Spp.Props.C88_stable",
    "Spp.Props.C88_transfer",
    "Spp.Props.C88_resize_same",
    "Spp.Props.C88_distinct"
   ],
   "note": ""
  },
  {
   "property": "C89",
   "status": "proved",
   "theorems": [
    "Spp.Props.C89_alignment",
    "Spp.Props.C89_map",
    "Spp.Props.C89_temporaries",
    "Spp.Props.C89_product",
    "Spp.Props.C89_mismatch",
    "Spp.Props.C89_mismatch_unchecked",
    "Spp.Props.C89_new",
    "Spp.Props.C89_exact",
    "Spp.Props.C89_associative",
    "Spp.Props.C89_rounded"
   ],
   "note": "Eigen is represented by its documented behaviour; the accepted temporaries are part of the statement (finding 26)."
  },
  {
   "property": "C90",
   "status": "proved",
   "theorems": [
    "Spp.Props.C90_exact",
    "Spp.Props.C90_faithful",
    "Spp.Props.C90_nearly_nearest",
    "Spp.Props.C90_not_nearest",
    "Spp.Props.C90_long_double",
    "Spp.Props.C90_quad",
    "Spp.Props.C90_quad_octal",
    "Spp.Props.C90_quad_separator"
   ],
   "note": "The number written is a rational; overflow is excluded; long double is the x86 format. Hexadecimal _sq literals are not modelled. The statement includes the exceptions found (findings 27)."
  },
  {
   "property": "C91",
   "status": "proved",
   "theorems": [
    "Spp.Props.C91_compare",
    "Spp.Props.C91_compare_finite",
    "Spp.Props.C91_abs",
    "Spp.Props.C91_abs_zero",
    "Spp.Props.C91_sign",
    "Spp.Props.C91_min_max",
    "Spp.Props.C91_clamp",
    "Spp.Props.C91_interval",
    "Spp.Props.C91_inv",
    "Spp.Props.C91_within_abs",
    "Spp.Props.C91_within_rel",
    "Spp.Props.C91_errors",
    "Spp.Props.C91_add",
    "Spp.Props.C91_sub",
    "Spp.Props.C91_mul",
    "Spp.Props.C91_div",
    "Spp.Props.C91_fma",
    "Spp.Props.C91_sqrt",
    "Spp.Props.C91_neg",
    "Spp.Props.C91_closed",
    "Spp.Props.C91_difference",
    "Spp.Props.C91_neutral",
    "Spp.Props.C91_of_index"
   ],
   "note": ""
  },
  {
   "property": "C92",
   "status": "proved",
   "theorems": [
    "Spp.Props.C92_nan_blocks",
    "Spp.Props.C92_nan",
    "Spp.Props.C92_nan_dot",
    "Spp.Props.C92_extrema",
    "Spp.Props.C92_norm_inf",
    "Spp.Props.C92_max_abs_error",
    "Spp.Props.C92_infinite",
    "Spp.Props.C92_overflow",
    "Spp.Props.C92_sums_differ",
    "Spp.Props.C92_tests",
    "Spp.Props.C92_sort_order",
    "Spp.Props.C92_sort"
   ],
   "note": ""
  },
  {
   "property": "C93",
   "status": "proved",
   "theorems": [
    "Spp.Props.C93_if_finite",
    "Spp.Props.C93_if_finite_dot",
    "Spp.Props.C93_sum_bounds",
    "Spp.Props.C93_dot_bounds",
    "Spp.Props.C93_if_finite_more",
    "Spp.Props.C93_if_finite_polynomial",
    "Spp.Props.C93_if_finite_norm2",
    "Spp.Props.C93_norm1_bound"
   ],
   "note": ""
  },
  {
   "property": "C94",
   "status": "proved",
   "theorems": [
    "Spp.Props.C94_precision",
    "Spp.Props.C94_untouched",
    "Spp.Props.C94_notation",
    "Spp.Props.C94_negative",
    "Spp.Props.C94_wraps",
    "Spp.Props.C94_texts",
    "Spp.Props.C94_appends",
    "Spp.Props.C94_flags",
    "Spp.Props.C94_builtin_sign",
    "Spp.Props.C94_builtin_float_sign",
    "Spp.Props.C94_builtin_digits",
    "Spp.Props.C94_base",
    "Spp.Props.C94_print"
   ],
   "note": "Settings and streams, with the exceptions stated."
  },
  {
   "property": "C95",
   "status": "proved",
   "theorems": [
    "Spp.Props.C95_scientific",
    "Spp.Props.C95_fixed",
    "Spp.Props.C95_cut_fixed",
    "Spp.Props.C95_cut_scientific",
    "Spp.Props.C95_outcome",
    "Spp.Props.C95_stream",
    "Spp.Props.C95_read",
    "Spp.Props.C95_bad_word",
    "Spp.Props.C95_end",
    "Spp.Props.C95_failed",
    "Spp.Props.C95_read_back",
    "Spp.Props.C95_array",
    "Spp.Props.C95_array_bad"
   ],
   "note": "With the exceptions stated; texts of infinities, NaN and hexadecimal numbers are not modelled."
  },
  {
   "property": "C96",
   "status": "proved",
   "theorems": [
    "Spp.Props.C96_operators",
    "Spp.Props.C96_operator_unique",
    "Spp.Props.C96_compound_function",
    "Spp.Props.C96_unary_operators",
    "Spp.Props.C96_arrays",
    "Spp.Props.C96_array_and_number",
    "Spp.Props.C96_unary",
    "Spp.Props.C96_functions",
    "Spp.Props.C96_two_prod",
    "Spp.Props.C96_compound",
    "Spp.Props.C96_compound_number",
    "Spp.Props.C96_exp_int",
    "Spp.Props.C96_pow_int",
    "Spp.Props.C96_pow_int_rounded",
    "Spp.Props.C96_fast_pow_int",
    "Spp.Props.C96_pow_prod"
   ],
   "note": ""
  },
  {
   "property": "C97",
   "status": "proved",
   "theorems": [
    "Spp.Props.C97_error",
    "Spp.Props.C97_error_negative",
    "Spp.Props.C97_exact",
    "Spp.Props.C97_exact_integers",
    "Spp.Props.C97_squares_cubes",
    "Spp.Props.C97_integer_squares_cubes",
    "Spp.Props.C97_sign",
    "Spp.Props.C97_nan",
    "Spp.Props.C97_negative",
    "Spp.Props.C97_finite",
    "Spp.Props.C97_error_large",
    "Spp.Props.C97_no_overflow"
   ],
   "note": ""
  },
  {
   "property": "C98",
   "status": "proved",
   "theorems": [
    "Spp.Props.C98_finite",
    "Spp.Props.C98_special",
    "Spp.Props.C98_held",
    "Spp.Props.C98_laws"
   ],
   "note": ""
  },
  {
   "property": "C99",
   "status": "proved",
   "theorems": [
    "Spp.Props.C99_valid_statement",
    "Spp.Props.C99_invalid_statement",
    "Spp.Props.C99_history",
    "Spp.Props.C99_enough_memory",
    "Spp.Props.C99_no_request"
   ],
   "note": ""
  },
  {
   "property": "C100",
   "status": "proved",
   "theorems": [
    "Spp.Props.C100_valid_statement",
    "Spp.Props.C100_invalid_statement",
    "Spp.Props.C100_history",
    "Spp.Props.C100_enough_memory",
    "Spp.Props.C100_requests"
   ],
   "note": "valid and invalid statements, whole programs, and which statements ask for memory"
  },
  {
   "property": "C101",
   "status": "proved",
   "theorems": [
    "Spp.Props.C101_program",
    "Spp.Props.C101_defined",
    "Spp.Props.C101_start",
    "Spp.Props.C101_nothing_leaked",
    "Spp.Props.C101_frame",
    "Spp.Props.C101_strong_guarantee"
   ],
   "note": "The simulation covers every build; statements are required to have moderate sizes and, in builds without checks, valid arguments (Prog.Moderate)."
  },
  {
   "property": "C102",
   "status": "proved",
   "theorems": [
    "Spp.Props.C102_norm_lp",
    "Spp.Props.C102_norm_lp_scaled",
    "Spp.Props.C102_norm_lp_any",
    "Spp.Props.C102_norm_lp_zero",
    "Spp.Props.C102_stable_norm_lp",
    "Spp.Props.C102_norm_lp_cube",
    "Spp.Props.C102_prod",
    "Spp.Props.C102_mean",
    "Spp.Props.C102_norm1",
    "Spp.Props.C102_norm1_scaled",
    "Spp.Props.C102_norm2",
    "Spp.Props.C102_stable_norm2",
    "Spp.Props.C102_polynomial",
    "Spp.Props.C102_gpolynomial",
    "Spp.Props.C102_polynomial_powers",
    "Spp.Props.C102_norm2_scaled",
    "Spp.Props.C102_stable_norm2_scaled",
    "Spp.Props.C102_stable_mean",
    "Spp.Props.C102_stable_norm1",
    "Spp.Props.C102_stable_norm1_scaled"
   ],
   "note": "The square root is assumed accurate to one unit roundoff and the power function to k roundings; overflow and underflow are excluded (norm1: only overflow)."
  },
  {
   "property": "C103",
   "status": "proved",
   "theorems": [
    "Spp.Props.C103_construct",
    "Spp.Props.C103_construct_2D",
    "Spp.Props.C103_assign",
    "Spp.Props.C103_assign_2D",
    "Spp.Props.C103_element",
    "Spp.Props.C103_element_2D",
    "Spp.Props.C103_twice",
    "Spp.Props.C103_not0",
    "Spp.Props.C103_not0_2D",
    "Spp.Props.C103_not0_ends",
    "Spp.Props.C103_semi",
    "Spp.Props.C103_semi_2D",
    "Spp.Props.C103_semi_2D_differs",
    "Spp.Props.C103_semi_not0",
    "Spp.Props.C103_semi_not0_2D",
    "Spp.Props.C103_rejected",
    "Spp.Props.C103_std",
    "Spp.Props.C103_std_2D",
    "Spp.Props.C103_std_not0",
    "Spp.Props.C103_std_rejected"
   ],
   "note": "All four expressions in one and two dimensions; the draws of integer generators and of arbitrary standard generators."
  },
  {
   "property": "C104",
   "status": "proved",
   "theorems": [
    "Spp.Props.C104_bytes",
    "Spp.Props.C104_scaled",
    "Spp.Props.C104_exact",
    "Spp.Props.C104_error"
   ],
   "note": "No overflow or underflow can occur in the divisions: sizes lie between 0 and 2^63."
  },
  {
   "property": "C105",
   "status": "proved",
   "theorems": [
    "Spp.Props.C105_equal",
    "Spp.Props.C105_equal_exact",
    "Spp.Props.C105_equal_2D",
    "Spp.Props.C105_equal_exact_2D",
    "Spp.Props.C105_ragged"
   ],
   "note": "Any element type with its own !=."
  },
  {
   "property": "C106",
   "status": "proved",
   "theorems": [
    "Spp.Props.C106_outcome",
    "Spp.Props.C106_empty",
    "Spp.Props.C106_rejected",
    "Spp.Props.C106_raised",
    "Spp.Props.C106_exact",
    "Spp.Props.C106_converges",
    "Spp.Props.C106_returns",
    "Spp.Props.C106_accuracy",
    "Spp.Props.C106_dominant"
   ],
   "note": "every arithmetic with total operations, every build; dominance, convergence and accuracy in exact arithmetic"
  },
  {
   "property": "C107",
   "status": "proved",
   "theorems": [
    "Spp.Props.C107_outcome",
    "Spp.Props.C107_rejected",
    "Spp.Props.C107_exact",
    "Spp.Props.C107_converges",
    "Spp.Props.C107_rounding"
   ],
   "note": "every arithmetic with total operations; closed form, distance from the exponential function and rounding bounds"
  },
  {
   "property": "C108",
   "status": "proved",
   "theorems": [
    "Spp.Props.C108_sums",
    "Spp.Props.C108_quantifiers",
    "Spp.Props.C108_norms",
    "Spp.Props.C108_stable",
    "Spp.Props.C108_stable_lp",
    "Spp.Props.C108_pairs",
    "Spp.Props.C108_traversals",
    "Spp.Props.C108_positions",
    "Spp.Props.C108_view",
    "Spp.Props.C108_expressions"
   ],
   "note": "identical results for every reduction on objects with the same elements; compensated p-norms for fewer than 2^63-1 elements"
  },
  {
   "property": "C109",
   "status": "proved",
   "theorems": [
    "Spp.Props.C109_skip_skip",
    "Spp.Props.C109_even_even",
    "Spp.Props.C109_reverse_reverse",
    "Spp.Props.C109_first_first",
    "Spp.Props.C109_reverse_first",
    "Spp.Props.C109_odd",
    "Spp.Props.C109_seqN_seqN",
    "Spp.Props.C109_seq_seqN",
    "Spp.Props.C109_complement"
   ],
   "note": "all laws for all objects and builds"
  },
  {
   "property": "C110",
   "status": "proved",
   "theorems": [
    "Spp.Props.C110_remove_where",
    "Spp.Props.C110_remove_interval",
    "Spp.Props.C110_rotate",
    "Spp.Props.C110_rotate_rejected",
    "Spp.Props.C110_rotate_in_place_fills",
    "Spp.Props.C110_odd_from_even",
    "Spp.Props.C110_odd_from_even_rejected"
   ],
   "note": "includes the negative result for the rotation in place"
  },
  {
   "property": "C111",
   "status": "proved",
   "theorems": [
    "Spp.Props.C111_view_unary",
    "Spp.Props.C111_view_binary",
    "Spp.Props.C111_view_scalar",
    "Spp.Props.C111_transpose_elementwise",
    "Spp.Props.C111_merge_elementwise",
    "Spp.Props.C111_transpose_lines",
    "Spp.Props.C111_transpose_slices",
    "Spp.Props.C111_transpose_block",
    "Spp.Props.C111_transpose_merge",
    "Spp.Props.C111_transpose_reduce",
    "Spp.Props.C111_transpose_bcast",
    "Spp.Props.C111_rows_cols",
    "Spp.Props.C111_block_block",
    "Spp.Props.C111_block_lines",
    "Spp.Props.C111_merge_parts",
    "Spp.Props.C111_reverse_merge",
    "Spp.Props.C111_append_merge",
    "Spp.Props.C111_exclude_merge",
    "Spp.Props.C111_slice_reduce",
    "Spp.Props.C111_slice_matvec",
    "Spp.Props.C111_matvec_merge",
    "Spp.Props.C111_bcast_lines",
    "Spp.Props.C111_identity"
   ],
   "note": "Every law for all builds and all later contents of the arrays."
  },
  {
   "property": "C112",
   "status": "proved",
   "theorems": [
    "Spp.Props.C112_range",
    "Spp.Props.C112_loop",
    "Spp.Props.C112_rejected",
    "Spp.Props.C112_release_runs_on",
    "Spp.Props.C112_neighbours"
   ],
   "note": "complete for the six functions and every loop body"
  },
  {
   "property": "C113",
   "status": "proved",
   "theorems": [
    "Spp.Props.C113_draws",
    "Spp.Props.C113_repeats",
    "Spp.Props.C113_bits",
    "Spp.Props.C113_seeds",
    "Spp.Props.C113_array",
    "Spp.Props.C113_sizes",
    "Spp.Props.C113_arrays",
    "Spp.Props.C113_twins"
   ],
   "note": "complete"
  },
  {
   "property": "C114",
   "status": "proved",
   "theorems": [
    "Spp.Props.C114_exact",
    "Spp.Props.C114_signed",
    "Spp.Props.C114_modulo",
    "Spp.Props.C114_unsigned_reading",
    "Spp.Props.C114_sum_add",
    "Spp.Props.C114_sum_scalar",
    "Spp.Props.C114_sum_merge",
    "Spp.Props.C114_sum_merge2",
    "Spp.Props.C114_sum_reshaped",
    "Spp.Props.C114_sum_permuted",
    "Spp.Props.C114_sum_parts",
    "Spp.Props.C114_complementary",
    "Spp.Props.C114_sumFn",
    "Spp.Props.C114_sum_reduce",
    "Spp.Props.C114_dot_sum",
    "Spp.Props.C114_dot_comm",
    "Spp.Props.C114_dot_linear",
    "Spp.Props.C114_dot_unit",
    "Spp.Props.C114_matvec_linear",
    "Spp.Props.C114_adjoint",
    "Spp.Props.C114_matvec_identity",
    "Spp.Props.C114_sum_tensor",
    "Spp.Props.C114_sum_special",
    "Spp.Props.C114_prod",
    "Spp.Props.C114_prod_empty"
   ],
   "note": ""
  },
  {
   "property": "C115",
   "status": "proved",
   "theorems": [
    "Spp.Props.C115_returns",
    "Spp.Props.C115_definite",
    "Spp.Props.C115_scale",
    "Spp.Props.C115_triangle",
    "Spp.Props.C115_distance",
    "Spp.Props.C115_dot",
    "Spp.Props.C115_compare",
    "Spp.Props.C115_one_two",
    "Spp.Props.C115_monotone",
    "Spp.Props.C115_rearranged",
    "Spp.Props.C115_transposed",
    "Spp.Props.C115_permuted",
    "Spp.Props.C115_merge",
    "Spp.Props.C115_scaled"
   ],
   "note": "Exact real arithmetic; how far rounding can move the results is bounded in C62, C89 and C102."
  },
  {
   "property": "C116",
   "status": "proved",
   "theorems": [
    "Spp.Props.C116_wall_time",
    "Spp.Props.C116_history",
    "Spp.Props.C116_error",
    "Spp.Props.C116_sign",
    "Spp.Props.C116_monotone",
    "Spp.Props.C116_macro"
   ],
   "note": "The clock is an argument; what is measured is the difference of its readings."
  },
  {
   "property": "C117",
   "status": "proved",
   "theorems": [
    "Spp.Props.C117_next",
    "Spp.Props.C117_added",
    "Spp.Props.C117_relative"
   ],
   "note": "For the precision of the type, with any rounding to nearest."
  },
  {
   "property": "C118",
   "status": "proved",
   "theorems": [
    "Spp.Props.C118_in_order",
    "Spp.Props.C118_compound",
    "Spp.Props.C118_compound_scalar",
    "Spp.Props.C118_compound_rejected",
    "Spp.Props.C118_self",
    "Spp.Props.C118_overwritten",
    "Spp.Props.C118_swap",
    "Spp.Props.C118_permuted"
   ],
   "note": "For statements whose parts are accepted; rejected ones write nothing (C118_compound_rejected)."
  },
  {
   "property": "C119",
   "status": "proved",
   "theorems": [
    "Spp.Props.C119_sum_monotone",
    "Spp.Props.C119_sum_grows",
    "Spp.Props.C119_sum_covers",
    "Spp.Props.C119_mean_monotone",
    "Spp.Props.C119_mean_two",
    "Spp.Props.C119_mean_outside",
    "Spp.Props.C119_dot_monotone",
    "Spp.Props.C119_dot_self",
    "Spp.Props.C119_norm_inf",
    "Spp.Props.C119_norm1_monotone",
    "Spp.Props.C119_norm1_covers",
    "Spp.Props.C119_norm2_monotone",
    "Spp.Props.C119_sqrt_square",
    "Spp.Props.C119_norm2_one",
    "Spp.Props.C119_norm2_covers"
   ],
   "note": "Nearest rounding with gradual underflow for sums, means, inner products and norm1; without underflow for norm2, whose square root is assumed correctly rounded."
  },
  {
   "property": "C120",
   "status": "proved",
   "theorems": [
    "Spp.Props.C120_sum",
    "Spp.Props.C120_sum_any",
    "Spp.Props.C120_dot",
    "Spp.Props.C120_mean",
    "Spp.Props.C120_matvec_is_dot",
    "Spp.Props.C120_matvec"
   ],
   "note": "The sum also with gradual underflow."
  },
  {
   "property": "C121",
   "status": "proved",
   "theorems": [
    "Spp.Props.C121_isolated",
    "Spp.Props.C121_untouched",
    "Spp.Props.C121_same_end",
    "Spp.Props.C121_progress",
    "Spp.Props.C121_finite",
    "Spp.Props.C121_completes",
    "Spp.Props.C121_sequential",
    "Spp.Props.C121_arrays",
    "Spp.Props.C121_rows",
    "Spp.Props.C121_race"
   ],
   "note": "The C++ memory model is not modelled: the machine interleaves element assignments and lets the places of one value be read at different moments."
  },
  {
   "property": "C122",
   "status": "proved",
   "theorems": [
    "Spp.Props.C122_replace",
    "Spp.Props.C122_equivalence",
    "Spp.Props.C122_statement"
   ],
   "note": ""
  },
  {
   "property": "C123",
   "status": "proved",
   "theorems": [
    "Spp.Props.C123_binary",
    "Spp.Props.C123_no_mixing",
    "Spp.Props.C123_no_builtin",
    "Spp.Props.C123_unary",
    "Spp.Props.C123_make",
    "Spp.Props.C123_passing",
    "Spp.Props.C123_assignment",
    "Spp.Props.C123_typing",
    "Spp.Props.C123_conversions",
    "Spp.Props.C123_strict",
    "Spp.Props.C123_logic"
   ],
   "note": "The rules are in Spec/Convert.lean. Concept-constrained templates are modelled as candidates that exist or not; narrowing in braces is left out."
  },
  {
   "property": "C124",
   "status": "proved",
   "theorems": [
    "Spp.Props.C124_run",
    "Spp.Props.C124_legal",
    "Spp.Props.C124_read",
    "Spp.Props.C124_accumulate",
    "Spp.Props.C124_reverse",
    "Spp.Props.C124_sort",
    "Spp.Props.C124_shuffle",
    "Spp.Props.C124_uniform",
    "Spp.Props.C124_address"
   ],
   "note": "Algorithms as trees of iterator operations. The numbers drawn by shuffle are arbitrary; equal likelihood of the draws is not modelled."
  },
  {
   "property": "C125",
   "status": "proved",
   "theorems": [
    "Spp.Props.C125_width",
    "Spp.Props.C125_undefined",
    "Spp.Props.C125_fixed_text",
    "Spp.Props.C125_aligned",
    "Spp.Props.C125_sticks_out",
    "Spp.Props.C125_scientific_text",
    "Spp.Props.C125_log",
    "Spp.Props.C125_count",
    "Spp.Props.C125_table",
    "Spp.Props.C125_booleans"
   ],
   "note": "Finite numbers, and the undefined cases; log10 is a parameter with the stated hypotheses. Tables of float128 are left out (std::log10 has no overload for it)."
  },
  {
   "property": "C126",
   "status": "proved",
   "theorems": [
    "Spp.Props.C126_text",
    "Spp.Props.C126_text_2D",
    "Spp.Props.C126_outcome",
    "Spp.Props.C126_outcome_2D",
    "Spp.Props.C126_width",
    "Spp.Props.C126_aligned",
    "Spp.Props.C126_float_width",
    "Spp.Props.C126_float_aligned",
    "Spp.Props.C126_semi",
    "Spp.Props.C126_twice"
   ],
   "note": "text, outcome, field widths and alignment of printed random expressions"
  },
  {
   "property": "C127",
   "status": "proved",
   "theorems": [
    "Spp.Props.C127_range",
    "Spp.Props.C127_reverse",
    "Spp.Props.C127_outcome",
    "Spp.Props.C127_outcome_reverse",
    "Spp.Props.C127_other_object",
    "Spp.Props.C127_fixed",
    "Spp.Props.C127_fixed_rejected",
    "Spp.Props.C127_fixed_release",
    "Spp.Props.C127_backwards_release",
    "Spp.Props.C127_whole"
   ],
   "note": "All outcomes for both kinds of iterators, dynamic and fixed arrays."
  },
  {
   "property": "C128",
   "status": "proved",
   "theorems": [
    "Spp.Props.C128_program",
    "Spp.Props.C128_defined",
    "Spp.Props.C128_start",
    "Spp.Props.C128_nothing_leaked",
    "Spp.Props.C128_frame",
    "Spp.Props.C128_strong_guarantee"
   ],
   "note": "one memory for arrays of both kinds; self move-assignment of a two-dimensional array excluded (C34)"
  },
  {
   "property": "C129",
   "status": "proved",
   "theorems": [
    "Spp.Props.C129_same_sizes",
    "Spp.Props.C129_unrelated",
    "Spp.Props.C129_view",
    "Spp.Props.C129_read",
    "Spp.Props.C129_fresh",
    "Spp.Props.C129_subscript",
    "Spp.Props.C129_shrunk",
    "Spp.Props.C129_row",
    "Spp.Props.C129_block",
    "Spp.Props.C129_fill",
    "Spp.Props.C129_binary",
    "Spp.Props.C129_sum_shrunk",
    "Spp.Props.C129_scalar"
   ],
   "note": "C129_view, C129_read: what a kept view refers to, for every nesting of views and every later state. C129_same_sizes: all expressions while the sizes stay. C129_subscript, C129_shrunk, C129_sum_shrunk: stale elements are not detected. C129_row, C129_block: numbers or positions. C129_fill: assignment of a value. C129_binary, C129_scalar: sizes of kept expressions."
  },
  {
   "property": "C130",
   "status": "proved",
   "theorems": [
    "Spp.Props.C130_program",
    "Spp.Props.C130_valid_program",
    "Spp.Props.C130_no_ub",
    "Spp.Props.C130_frame",
    "Spp.Props.C130_shape",
    "Spp.Props.C130_own_first_row"
   ],
   "note": "Statements within the limits of Spec.EStmt.Fits: sizes below 2^61, numbers up to 2^31, operations on elements without undefined behaviour, arrays not moved to themselves or to another size, elements of operands of insertions computable."
  },
  {
   "property": "C131",
   "status": "proved",
   "theorems": [
    "Spp.Props.C131_canonical",
    "Spp.Props.C131_in_order",
    "Spp.Props.C131_after",
    "Spp.Props.C131_opposite",
    "Spp.Props.C131_rank"
   ],
   "note": "Every initial order, implementation of std::sort, sequence of random numbers and build; elements of a linear order (floats without nan: C92)."
  },
  {
   "property": "C132",
   "status": "proved",
   "theorems": [
    "Spp.Props.C132_tolerance",
    "Spp.Props.C132_tolerance_not",
    "Spp.Props.C132_tolerance_float",
    "Spp.Props.C132_program",
    "Spp.Props.C132_valid_program",
    "Spp.Props.C132_one_outcome",
    "Spp.Props.C132_no_ub",
    "Spp.Props.C132_frame",
    "Spp.Props.C132_shape",
    "Spp.Props.C132_while",
    "Spp.Props.C132_terminates",
    "Spp.Props.C132_forever"
   ],
   "note": "Programs with numbers, conditions and while loops; sizes and positions not astronomically large."
  },
  {
   "property": "C133",
   "status": "proved",
   "theorems": [
    "Spp.Props.C133_builds",
    "Spp.Props.C133_condition",
    "Spp.Props.C133_outcome",
    "Spp.Props.C133_division",
    "Spp.Props.C133_shift",
    "Spp.Props.C133_element",
    "Spp.Props.C133_element2",
    "Spp.Props.C133_files",
    "Spp.Props.C133_tells",
    "Spp.Props.C133_config"
   ],
   "note": "all reasons named by the macros; the other checks have no words of their own"
  },
  {
   "property": "C134",
   "status": "proved",
   "theorems": [
    "Spp.Props.C134_remove",
    "Spp.Props.C134_remove_ends",
    "Spp.Props.C134_remove_last",
    "Spp.Props.C134_remove_indexes",
    "Spp.Props.C134_insert",
    "Spp.Props.C134_insert_ends",
    "Spp.Props.C134_insert_value",
    "Spp.Props.C134_remove_rows_indexes",
    "Spp.Props.C134_remove_rows",
    "Spp.Props.C134_remove_rows_ends",
    "Spp.Props.C134_remove_cols_ends",
    "Spp.Props.C134_insert_rows",
    "Spp.Props.C134_insert_cols",
    "Spp.Props.C134_insert_row",
    "Spp.Props.C134_insert_col",
    "Spp.Props.C134_nothing_differs"
   ],
   "note": "The relations sampled by tests/array1D.cpp and tests/array2D.cpp for all arrays, positions and operands, including invalid ones."
  },
  {
   "property": "C135",
   "status": "proved",
   "theorems": [
    "Spp.Props.C135_abs_symmetric",
    "Spp.Props.C135_rel_symmetric",
    "Spp.Props.C135_reflexive",
    "Spp.Props.C135_monotone",
    "Spp.Props.C135_abs_exact",
    "Spp.Props.C135_rel_error",
    "Spp.Props.C135_max_abs",
    "Spp.Props.C135_same_abs",
    "Spp.Props.C135_max_rel",
    "Spp.Props.C135_rel_arrays",
    "Spp.Props.C135_rel_converse_fails",
    "Spp.Props.C135_infinite_tolerance",
    "Spp.Props.C135_nan_differs"
   ],
   "note": "IEEE numbers; where the functions differ is proved too"
  },
  {
   "property": "C136",
   "status": "proved",
   "theorems": [
    "Spp.Props.C136_abs",
    "Spp.Props.C136_rel",
    "Spp.Props.C136_abs_arrays",
    "Spp.Props.C136_rel_arrays"
   ],
   "note": "IEEE numbers with overflow and gradual underflow; the sharp bounds 99 and 102"
  },
  {
   "property": "C137",
   "status": "proved",
   "theorems": [
    "Spp.Props.C137_polynomial",
    "Spp.Props.C137_dot",
    "Spp.Props.C137_mean",
    "Spp.Props.C137_stable_dot",
    "Spp.Props.C137_ieee",
    "Spp.Props.C137_lost"
   ],
   "note": "Bounds for every format with a least exponent, transferred to IEEE values; a case in which the additional terms are needed."
  },
  {
   "property": "C138",
   "status": "proved",
   "theorems": [
    "Spp.Props.C138_report",
    "Spp.Props.C138_throws",
    "Spp.Props.C138_max",
    "Spp.Props.C138_stable_polynomial",
    "Spp.Props.C138_iteration",
    "Spp.Props.C138_exact",
    "Spp.Props.C138_nan"
   ],
   "note": "All draws, precisions and tie rules; overflow and underflow are excluded in the accuracy part."
  },
  {
   "property": "C139",
   "status": "proved",
   "theorems": [
    "Spp.Props.C139_elements",
    "Spp.Props.C139_relative",
    "Spp.Props.C139_exact",
    "Spp.Props.C139_eval"
   ],
   "note": "No overflow or underflow; division by numbers only; reductions other than the product of a matrix and a vector are the subject of other properties."
  },
  {
   "property": "C140",
   "status": "proved",
   "theorems": [
    "Spp.Props.C140_errors",
    "Spp.Props.C140_no_overflow",
    "Spp.Props.C140_eval"
   ],
   "note": "C140_errors for all contents, C140_no_overflow for finite results, C140_eval for the evaluated array; the same expressions as C139, in every binary format with gradual underflow, overflow, infinities and NaN"
  },
  {
   "property": "C141",
   "status": "proved",
   "theorems": [
    "Spp.Props.C141_errors",
    "Spp.Props.C141_no_overflow",
    "Spp.Props.C141_visible",
    "Spp.Props.C141_dot",
    "Spp.Props.C141_polynomial",
    "Spp.Props.C141_norm2",
    "Spp.Props.C141_root"
   ],
   "note": "Expressions over the operations of C140. Contraction is a relation between formulas and computed numbers; which products are fused is arbitrary."
  }
 ]
}