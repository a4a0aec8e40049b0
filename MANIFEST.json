{"claims": [
  {"property": "C01", "status": "proved", "theorems": ["C01_oneChar_accepts", "C01_oneChar_rejects", "C01_oneChar_total"], "note": ""},
  {"property": "C02", "status": "proved", "theorems": ["C02_suffix_and_position", "C02_no_move_iff_nothing_consumed", "C02_pos_bounded"], "note": ""},
  {"property": "C03", "status": "proved", "theorems": ["C03_error_inside", "C03_error_between"], "note": ""},
  {"property": "C04", "status": "proved", "theorems": ["C04_line_of_text", "C04_line", "C04_error_line"], "note": ""},
  {"property": "C05", "status": "partial", "theorems": ["C05_column_refuted", "C05_column_exact", "C05_column_partial", "C05_column_of_parser_partial"], "note": "False as stated: after CR LF the column is one too large (refuted with a witness). The exact column is proved for every text, and the claim itself for texts without CR LF."},
  {"property": "C06", "status": "proved", "theorems": ["C06_less_strict_total", "C06_comparisons_consistent", "C06_less_lexicographic", "C06_move_forward", "C06_order_follows_text"], "note": ""},
  {"property": "C07", "status": "proved", "theorems": ["C07_depth_independent", "C07_outcome_unique", "C07_run_is_limit"], "note": ""},
  {"property": "C08", "status": "proved", "theorems": ["C08_position_independent", "C08_accepts", "C08_rejects", "C08_compiles", "C08_needs_hypothesis"], "note": ""},
  {"property": "C09", "status": "proved", "theorems": ["C09_same_but_message", "C09_same_language", "C09_same_error_position", "C09_cpp11_cpp14", "C09_messages_differ", "C09_beyond_limits"], "note": ""},
  {"property": "C10", "status": "proved", "theorems": ["C10_fold1_consumes", "C10_nested_repetition_finishes", "C10_well_formed_finishes", "C10_rules_finish", "C10_checkable", "C10_folding_empty_diverges", "C10_repeating_empty_diverges", "C10_left_recursion_diverges"], "note": ""},
  {"property": "C11", "status": "proved", "theorems": ["C11_foldl", "C11_foldl_diverges", "C11_foldl_reject_incomplete", "C11_foldr_start_with_parser", "C11_foldr", "C11_foldl_start_with_parser", "C11_repeated"], "note": ""},
  {"property": "C12", "status": "proved", "theorems": ["C12_foldl_accepts", "C12_foldl_never_rejects", "C12_foldl_function"], "note": ""},
  {"property": "C13", "status": "proved", "theorems": ["C13_foldl1", "C13_foldl1_accepts", "C13_foldr1", "C13_reject_incomplete1"], "note": ""},
  {"property": "C14", "status": "proved", "theorems": ["C14_repeated", "C14_repeated1", "C14_repeated_rejects", "C14_repeated_one_of"], "note": ""},
  {"property": "C15", "status": "proved", "theorems": ["C15_foldr_accepts", "C15_foldr_never_rejects", "C15_foldr_function", "C15_same_extent"], "note": ""},
  {"property": "C16", "status": "proved", "theorems": ["C16_foldl_reject_incomplete_accepts", "C16_foldl_reject_incomplete_rejects", "C16_foldr_reject_incomplete_accepts", "C16_foldr_reject_incomplete_rejects", "C16_repeated_reject_incomplete", "C16_repeated_reject_incomplete1"], "note": ""},
  {"property": "C17", "status": "proved", "theorems": ["C17_foldl_equivalence", "C17_foldr_equivalence", "C17_operation_errors_matter"], "note": ""},
  {"property": "C18", "status": "proved", "theorems": ["C18_foldl_start_with_parser", "C18_foldl_start_with_parser_rejects", "C18_foldr_start_with_parser", "C18_foldr_start_with_parser_rejects", "C18_greedy", "C18_foldl_reject_incomplete_start_with_parser", "C18_foldl_reject_incomplete_start_with_parser_rejects"], "note": ""},
  {"property": "C19", "status": "proved", "theorems": ["C19_oneOf_accepts"], "note": ""},
  {"property": "C20", "status": "proved", "theorems": ["C20_oneOf_rejects_iff", "C20_oneOf_furthest", "C20_oneOf_message_at_start", "C20_oneOf_message_at_start_98", "C20_oneOf_message_differs"], "note": "Also shows which message is reported when no alternative moved: it differs between C++98 and C++11."},
  {"property": "C21", "status": "proved", "theorems": ["C21_oneOf_evaluates_all"], "note": ""},
  {"property": "C22", "status": "proved", "theorems": ["C22_sequence_accepts", "C22_sequence_rejects", "C22_sequence_fails", "C22_sequence_limit98"], "note": ""},
  {"property": "C23", "status": "proved", "theorems": ["C23_nth_of_accepts", "C23_nth_of_otherwise", "C23_nthOf_accepts", "C23_nthOf_rejects", "C23_nthOf_fails", "C23_firstOf_accepts", "C23_firstOf_rejects", "C23_lastOf_accepts", "C23_lastOf_rejects"], "note": ""},
  {"property": "C24", "status": "proved", "theorems": ["C24_nth_of_out_of_range", "C24_index_out_of_range"], "note": ""},
  {"property": "C25", "status": "proved", "theorems": ["C25_middleOf_accepts", "C25_middleOf_rejects"], "note": ""},
  {"property": "C26", "status": "proved", "theorems": ["C26_iterate_class", "C26_iterate_class_negative", "C26_iterate_accepts", "C26_iterate_rejects", "C26_iterate_negative"], "note": "A negative count never accepts."},
  {"property": "C27", "status": "proved", "theorems": ["C27_keyword_accepts", "C27_keyword_rejects", "C27_keyword_total"], "note": ""},
  {"property": "C28", "status": "proved", "theorems": ["C28_lit", "C28_range", "C28_digit", "C28_letter", "C28_space", "C28_one_char_except", "C28_alphanum", "C28_one_of_c", "C28_exactly", "C28_one_char_except_class", "C28_in_range"], "note": ""},
  {"property": "C29", "status": "proved", "theorems": ["C29_token_accepts", "C29_token_rejects", "C29_token_idempotent", "C29_token_documentation_refuted"], "note": ""},
  {"property": "C30", "status": "proved", "theorems": ["C30_int_accepts", "C30_int_overflow", "C30_int_rejects"], "note": ""},
  {"property": "C31", "status": "proved", "theorems": ["C31_int_roundtrip"], "note": ""},
  {"property": "C32", "status": "proved", "theorems": ["C32_digit_to_int", "C32_int_to_digit"], "note": ""},
  {"property": "C33", "status": "proved", "theorems": ["C33_entireInput_accepts", "C33_entireInput_rejects"], "note": ""},
  {"property": "C34", "status": "proved", "theorems": ["C34_buildParser_accepts", "C34_buildParser_rejects", "C34_buildParser_fails_iff", "C34_reported_line_column"], "note": ""},
  {"property": "C35", "status": "proved", "theorems": ["C35_return_accepts", "C35_return_total", "C35_fail_rejects", "C35_fail_total", "C35_lookAhead_accepts", "C35_lookAhead_rejects", "C35_except_accepts", "C35_except_rejects", "C35_if_accepts", "C35_if_never_rejects", "C35_optional_accepts", "C35_optional_never_rejects", "C35_empty_accepts", "C35_empty_rejects", "C35_failures_pass"], "note": ""},
  {"property": "C36", "status": "proved", "theorems": ["C36_unless_error", "C36_transform_accepts", "C36_transform_rejects", "C36_transform_illFormed", "C36_always_accepts", "C36_always_rejects", "C36_transform_id", "C36_transform_comp", "C36_always_is_transform"], "note": ""},
  {"property": "C37", "status": "proved", "theorems": ["C37_changeErrorMessage_accepts", "C37_changeErrorMessage_rejects", "C37_transformErrorMessage_accepts", "C37_transformErrorMessage_rejects", "C37_transformError_of_accepts", "C37_transformError_of_rejects"], "note": ""},
  {"property": "C38", "status": "proved", "theorems": ["C38_acceptWhen_accepts", "C38_acceptWhen_rejects"], "note": ""},
  {"property": "C39", "status": "proved", "theorems": ["C39_offset_zero", "C39_failAtFirstCharExpected_accepts", "C39_failAtFirstCharExpected_rejects"], "note": ""},
  {"property": "C40", "status": "proved", "theorems": ["C40_list_laws", "C40_concat", "C40_no_meaning", "C40_c_str", "C40_input", "C40_parses_as_text"], "note": ""},
  {"property": "C41", "status": "proved", "theorems": ["C41_list_laws", "C41_input", "C41_full_string_fails", "C41_full_string_does_not_parse", "C41_push_front_full_drops", "C41_padding_is_lost", "C41_no_meaning"], "note": "Full strings (length equal to the limit) do not have a size; each boundary case is proved as a theorem."},
  {"property": "C42", "status": "proved", "theorems": ["C42_macro_of_limits", "C42_string_literal", "C42_larger_limit", "C42_injective"], "note": ""},
  {"property": "C43", "status": "proved", "theorems": ["C43_limits", "C43_shipped", "C43_covered", "C43_requested_limit", "C43_not_covered", "C43_step_one", "C43_smaller_limits"], "note": "False when the step divides the requested maximum minus one (refuted with a witness); the exact set of covered limits is proved."},
  {"property": "C44", "status": "proved", "theorems": ["C44_advance_distance", "C44_distance_fails", "C44_steps", "C44_equal", "C44_deref", "C44_iterate"], "note": ""},
  {"property": "C45", "status": "proved", "theorems": ["C45_representation", "C45_accepts", "C45_rejects"], "note": ""},
  {"property": "C46", "status": "proved", "theorems": ["C46_rule_language", "C46_parseRule", "C46_not_a_rule", "C46_unambiguous", "C46_standard_independent", "C46_name"], "note": ""},
  {"property": "C47", "status": "proved", "theorems": ["C47_round_trip", "C47_every_rule_can_be_written", "C47_fewest_brackets", "C47_writable_iff"], "note": ""},
  {"property": "C48", "status": "proved", "theorems": ["C48_built_parser", "C48_grammar"], "note": ""},
  {"property": "C49", "status": "proved", "theorems": ["C49_last_definition", "C49_compiles", "C49_order_irrelevant"], "note": ""},
  {"property": "C50", "status": "proved", "theorems": ["C50_buildable", "C50_recursive_never_compiles"], "note": ""},
  {"property": "C51", "status": "proved", "theorems": ["C51_rule_parser_finishes", "C51_error_inside"], "note": ""},
  {"property": "C52", "status": "proved", "theorems": ["C52_calculator", "C52_unambiguous", "C52_finishes", "C52_compile_error", "C52_written"], "note": ""},
  {"property": "C53", "status": "proved", "theorems": ["C53_sequenceApply_accepts", "C53_sequenceApply_rejects"], "note": ""},
  {"property": "C54", "status": "proved", "theorems": ["C54_failure", "C54_success", "C54_reports_iff", "C54_build_parser", "C54_message_texts", "C54_unambiguous", "C54_success_unambiguous"], "note": ""},
  {"property": "C55", "status": "proved", "theorems": ["C55_modular", "C55_closed"], "note": ""},
  {"property": "C56", "status": "proved", "theorems": ["C56_keyword", "C56_optional", "C56_always", "C56_foldl1", "C56_foldr1", "C56_repeated1", "C56_foldl_reject_incomplete1", "C56_foldr_reject_incomplete1", "C56_repeated_reject_incomplete", "C56_repeated_reject_incomplete1", "C56_foldl_reject_incomplete_start_with_parser", "C56_nth_of_c", "C56_iterate_c", "C56_entire_input", "C56_last_of", "C56_if", "C56_empty", "C56_lit", "C56_digit", "C56_alphanum", "C56_one_of_c", "C56_if_documentation_refuted", "C56_last_of_documentation_refuted", "C56_middle_of_documentation_refuted", "C56_int_documentation_refuted", "C56_repeated_documentation_refuted", "C56_lit_documentation_refuted", "C56_digit_documentation_refuted", "C56_one_of_c_documentation_refuted", "C56_alphanum_documentation_refuted", "C56_accept_when_documentation_refuted", "C56_sequence_apply_documentation_refuted"], "note": ""},
  {"property": "C57", "status": "proved", "theorems": ["C57_compositional", "C57_congruence", "C57_replace_everywhere", "C57_replacement_sound", "C57_unrestricted_refuted"], "note": ""},
  {"property": "C58", "status": "proved", "theorems": ["C58_look_ahead_idempotent", "C58_optional_absorbs", "C58_always_absorbs", "C58_change_error_message_absorbs", "C58_transform_fusion", "C58_accept_when_fusion", "C58_last_of_flatten", "C58_sequence_append", "C58_keyword_append", "C58_one_of_flatten", "C58_one_of_return", "C58_one_of_superfluous", "C58_left_factoring", "C58_middle_of", "C58_left_factoring_on_text", "C58_token_idempotent", "C58_token_transform", "C58_entire_input_absorbs", "C58_one_of_flatten_cpp98_refuted", "C58_left_factoring_message_refuted", "C58_one_of_single_refuted"], "note": ""},
  {"property": "C59", "status": "proved", "theorems": ["C59_order_irrelevant", "C59_swap", "C59_direction_matters"], "note": ""},
  {"property": "C60", "status": "proved", "theorems": ["C60_calculator", "C60_calculator_with_parens", "C60_finishes", "C60_parens_finishes", "C60_compile_error", "C60_brackets_extend", "C60_unary_operators_extend"], "note": ""},
  {"property": "C61", "status": "proved", "theorems": ["C61_meta_lambda_compiles", "C61_meta_lambda_applies", "C61_native_compiles", "C61_native_int", "C61_native_other_types", "C61_native_literal_division"], "note": ""},
  {"property": "C62", "status": "proved", "theorems": ["C62_regexp", "C62_matches", "C62_comment", "C62_finishes"], "note": ""},
  {"property": "C63", "status": "proved", "theorems": ["C63_binary", "C63_binary_comment", "C63_minimal_rational", "C63_rational", "C63_rational_extends", "C63_rational_run", "C63_space_after_slash", "C63_finish"], "note": ""},
  {"property": "C64", "status": "proved", "theorems": ["C64_parser", "C64_mixed", "C64_constexpr", "C64_constexpr_ignores", "C64_constexpr_checks_less"], "note": ""},
  {"property": "C65", "status": "proved", "theorems": ["C65_grammar_calculator_only_formulas", "C65_grammar_calculator", "C65_grammar_calculator_correct", "C65_grammar_calculator_incomplete"], "note": ""},
  {"property": "C66", "status": "proved", "theorems": ["C66_meta_metaparse_compiles", "C66_meta_metaparse_int", "C66_meta_metaparse_other_types", "C66_same_as_handwritten"], "note": ""},
  {"property": "C67", "status": "proved", "theorems": ["C67_numbers", "C67_two_numbers", "C67_list", "C67_number_and_sum", "C67_sum", "C67_ignores_operators", "C67_plus_minus", "C67_no_precedence", "C67_finishes", "C67_compile_error"], "note": ""},
  {"property": "C68", "status": "proved", "theorems": ["C68_unambiguous", "C68_precedence", "C68_division", "C68_unary_minus", "C68_right_sound", "C68_right", "C68_finishes", "C68_compile_error", "C68_incomplete_product"], "note": ""},
  {"property": "C69", "status": "proved", "theorems": ["C69_one_pair", "C69_one_pair_value", "C69_two_pairs", "C69_brackets", "C69_no_expression", "C69_two_ways", "C69_same_error", "C69_complete", "C69_value", "C69_sound", "C69_finishes", "C69_compile_error", "C69_missing_expression", "C69_nested", "C69_unfinished_overflow", "C69_incomplete", "C69_error_differs"], "note": ""},
  {"property": "C70", "status": "proved", "theorems": ["C70_accepts", "C70_error", "C70_one_message", "C70_outcome", "C70_not_closed", "C70_incomplete_product", "C70_not_twenty", "C70_rest_ignored", "C70_overflow_first"], "note": ""},
  {"property": "C71", "status": "proved", "theorems": ["C71_result", "C71_fault", "C71_build_parser", "C71_tutorial", "C71_calculators", "C71_each_happens", "C71_untyped"], "note": ""},
  {"property": "C72", "status": "proved", "theorems": ["C72_sound", "C72_complete", "C72_trees", "C72_unambiguous", "C72_standards", "C72_finishes", "C72_compile_error", "C72_not_equal", "C72_if_glued", "C72_if_name", "C72_if_overflow"], "note": ""},
  {"property": "C73", "status": "proved", "theorems": ["C73_compiles", "C73_error", "C73_texts", "C73_report", "C73_program"], "note": ""},
  {"property": "C74", "status": "proved", "theorems": ["C74_unique", "C74_sound", "C74_correct", "C74_builds", "C74_complete", "C74_exact", "C74_parameter", "C74_number", "C74_no_parameters"], "note": ""},
  {"property": "C75", "status": "proved", "theorems": ["C75_fib", "C75_fact", "C75_times4", "C75_times11", "C75_handcrafted"], "note": ""},
  {"property": "C76", "status": "proved", "theorems": ["C76_accepts", "C76_rejects", "C76_compiles", "C76_sound", "C76_unambiguous", "C76_well_formed", "C76_not_well_formed", "C76_abc"], "note": ""},
  {"property": "C77", "status": "proved", "theorems": ["C77_left_recursion", "C77_propagates"], "note": ""},
  {"property": "C78", "status": "proved", "theorems": ["C78_linear", "C78_repetition", "C78_right_fold", "C78_no_limit"], "note": ""},
  {"property": "C79", "status": "proved", "theorems": ["C79_enough", "C79_quadratic", "C79_linear", "C79_sharing"], "note": ""},
  {"property": "C80", "status": "proved", "theorems": ["C80_headers", "C80_runs", "C80_same_number_loses"], "note": ""},
  {"property": "C81", "status": "proved", "theorems": ["C81_pages", "C81_no_other_pages"], "note": ""},
  {"property": "C82", "status": "proved", "theorems": ["C82_keeps", "C82_second_run", "C82_fresh", "C82_not_idempotent"], "note": ""},
  {"property": "C83", "status": "proved", "theorems": ["C83_notes", "C83_included", "C83_two_digits"], "note": ""},
  {"property": "C84", "status": "proved", "theorems": ["C84_snippets", "C84_links", "C84_examples", "C84_words_merge", "C84_commands_merge", "C84_last_session", "C84_exception"], "note": ""},
  {"property": "C85", "status": "proved", "theorems": ["C85_unseen", "C85_accepts", "C85_rejects", "C85_diverges", "C85_longer", "C85_entire_input", "C85_keyword", "C85_repeated_space"], "note": ""},
  {"property": "C86", "status": "proved", "theorems": ["C86_compiles", "C86_accepts_some", "C86_accepts", "C86_position", "C86_message", "C86_first_characters", "C86_order_matters", "C86_message_order_matters"], "note": ""},
  {"property": "C87", "status": "proved", "theorems": ["C87_sequence", "C87_nth_of", "C87_middle_of", "C87_one_of", "C87_foldl", "C87_foldr", "C87_repeated", "C87_repeated1", "C87_token", "C87_transform", "C87_entire_input", "C87_character", "C87_int", "C87_keyword", "C87_unambiguous", "C87_round_trip"], "note": ""},
  {"property": "C88", "status": "proved", "theorems": ["C88_manual", "C88_same", "C88_unambiguous", "C88_literals", "C88_random", "C88_random_manual", "C88_hexadecimal", "C88_apostrophe", "C88_trigraphs", "C88_no_trigraphs"], "note": ""},
  {"property": "C89", "status": "proved", "theorems": ["C89_frequency", "C89_in_range", "C89_out_of_range", "C89_never"], "note": ""},
  {"property": "C90", "status": "proved", "theorems": ["C90_names", "C90_sources", "C90_descriptions"], "note": ""},
  {"property": "C91", "status": "proved", "theorems": ["C91_printed", "C91_whole_seconds", "C91_lost_second", "C91_at_most_a_second", "C91_not_carried"], "note": ""},
  {"property": "C92", "status": "proved", "theorems": ["C92_after_repetition", "C92_repeated_then_one_more", "C92_one_of_commits", "C92_optional_commits", "C92_common_beginning", "C92_common_beginning_rejects", "C92_common_end", "C92_common_end_less", "C92_furthest_lost"], "note": ""},
  {"property": "C93", "status": "proved", "theorems": ["C93_apply", "C93_faithful", "C93_build_parser", "C93_parsing_failed", "C93_int"], "note": ""},
  {"property": "C94", "status": "proved", "theorems": ["C94_apply", "C94_build_parser", "C94_rules", "C94_not_a_rule"], "note": ""},
  {"property": "C95", "status": "proved", "theorems": ["C95_apply", "C95_build_parser", "C95_parsing_failed", "C95_int", "C95_text", "C95_faithful", "C95_same_as_11"], "note": ""},
  {"property": "C96", "status": "proved", "theorems": ["C96_push_back", "C96_push_front", "C96_pop_back", "C96_pop_front", "C96_clear", "C96_size", "C96_elements", "C96_ends", "C96_iterators", "C96_equal_to", "C96_equal_to_other", "C96_pushed", "C96_popped", "C96_asked", "C96_equal", "C96_full"], "note": ""},
  {"property": "C97", "status": "proved", "theorems": ["C97_predicates", "C97_digit_to_int", "C97_int_to_digit", "C97_int_to_digit_others", "C97_inverse", "C97_in_range", "C97_in_range_steps", "C97_in_range_c"], "note": ""},
  {"property": "C98", "status": "proved", "theorems": ["C98_checkout", "C98_update", "C98_reproducible", "C98_file_kept", "C98_exception", "C98_lost", "C98_directory", "C98_file_lost"], "note": ""},
  {"property": "C99", "status": "proved", "theorems": ["C99_unique", "C99_string", "C99_too_long", "C99_limit_too_large", "C99_header", "C99_sun_short", "C99_sun_long", "C99_limits", "C99_generated", "C99_shipped", "C99_agrees"], "note": ""},
  {"property": "C100", "status": "proved", "theorems": ["C100_accepted", "C100_offered", "C100_whole", "C100_whole_not_all", "C100_defined", "C100_order", "C100_standard", "C100_variants", "C100_macros", "C100_clean", "C100_literals"], "note": ""},
  {"property": "C101", "status": "proved", "theorems": ["C101_unambiguous", "C101_one", "C101_ambiguous"], "note": ""},
  {"property": "C102", "status": "proved", "theorems": ["C102_without", "C102_with", "C102_sometimes", "C102_named_slt", "C102_named_bmp", "C102_no_files"], "note": ""},
  {"property": "C103", "status": "proved", "theorems": ["C103_side_by_side", "C103_size", "C103_below", "C103_joined"], "note": ""},
  {"property": "C104", "status": "proved", "theorems": ["C104_counts", "C104_once", "C104_order", "C104_drawn", "C104_total"], "note": ""},
  {"property": "C105", "status": "proved", "theorems": ["C105_range", "C105_no_step", "C105_no_range", "C105_property", "C105_no_property", "C105_modes", "C105_some_mode", "C105_templates", "C105_distinct", "C105_diagrams"], "note": ""},
  {"property": "C106", "status": "proved", "theorems": ["C106_silent", "C106_noisy", "C106_failed", "C106_mean", "C106_between", "C106_no_value", "C106_exception", "C106_negative", "C106_object", "C106_progress"], "note": ""},
  {"property": "C107", "status": "proved", "theorems": ["C107_grows", "C107_below", "C107_above"], "note": ""},
  {"property": "C108", "status": "proved", "theorems": ["C108_version", "C108_unknown", "C108_filename", "C108_no_special", "C108_pages", "C108_same_name"], "note": ""},
  {"property": "C109", "status": "proved", "theorems": ["C109_apply", "C109_accepts", "C109_rejects", "C109_limit"], "note": ""},
  {"property": "C110", "status": "proved", "theorems": ["C110_untouched", "C110_runs", "C110_headers", "C110_definitions", "C110_pages", "C110_old_pages", "C110_text", "C110_copies", "C110_again", "C110_exception", "C110_directory"], "note": ""}
]}
