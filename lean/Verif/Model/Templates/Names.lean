/-!
# Names

The names that occur in the translated headers: of class templates (with the namespace before them, `v1` left out), of their
parameters and of their members.
-/

namespace Metaparse.Tmpl

/-- All names of the translated headers
(for example `accept_when.hpp:22-53`: `accept_when`, `P`, `Pred`, `Msg`, `unchecked`, `apply`, `S`, `Pos`, `type`). -/
inductive Id where
  | A | Accum | Action | Actions | Args | As | B | BackwardOp | Bs | C | Ch | Chr | Col | Cs | D | Def
  | Default | ErrorMsg | F | FP | FState | FinalResult | ForwardOp | From | G | I | Ignore | Item | K | Kw | L
  | Line | ListToAppend | LowerBound | M | Msg | N | Name | NewResultValue | NextDigit | NextPos | NextResult
  | NotErrorCase | Op | P | P1 | P2 | P3 | Parser | Parsers | ParsingResult | PartialResult | Pos | Pred
  | PrevChar | Ps | R | R1 | R2 | Rem | Remaining | Res | Result | ResultType | Rules | S | Seq | Start | State
  | StateP | Stub | T | T0 | T1 | Tag | To | Ts | U | UpperBound | V | Value | accept | accept_state
  | accept_tag | accept_when | actions | always | always_c | apply | apply_err | apply_impl | apply_unchecked
  | apply_unchecked1 | boost_is_same | build_parser | category | change_error_message | change_result | col
  | do_append | empty | end_of_folding | entire_input | error_digit_expected | error_end_of_input_expected
  | error_expected_to_fail | error_index_out_of_range | error_letter_expected | error_literal_expected
  | error_none_of_the_expected_cases_found | error_unexpected_character | error_unexpected_end_of_input
  | error_unpaired | error_whitespace_expected | except | exp | fail | fail_at_first_char_expected | fail_tag
  | first | first_of | foldl | foldl1 | foldl_reject_incomplete | foldl_reject_incomplete1
  | foldl_reject_incomplete_start_with_parser | foldl_start_with_parser | foldr | foldr1
  | foldr_reject_incomplete | foldr_reject_incomplete1 | foldr_start_with_parser | get_col | get_col_impl
  | get_line | get_line_impl | get_message | get_message_impl | get_position | get_position_impl
  | get_prev_char | get_prev_char_impl | get_remaining | get_remaining_impl | get_result | get_result_impl
  | grammar | grammar_util_add_import | grammar_util_add_rule | grammar_util_build_char
  | grammar_util_build_name | grammar_util_build_native_parser | grammar_util_build_parsed_parser
  | grammar_util_build_repeated | grammar_util_build_selection | grammar_util_build_sequence
  | grammar_util_expression | grammar_util_get_parser | grammar_util_grammar_builder | grammar_util_no_action
  | grammar_util_rebuild | grammar_util_repeated_apply_impl | if_ | impl | impl_advance_c | impl_any_of_c
  | impl_apply_parser | impl_at_c | impl_back_inserter | impl_concat | impl_distance | impl_empty_string
  | impl_eval_later_result | impl_front_inserter | impl_is_char_c | impl_is_none_c | impl_is_none_c_impl
  | impl_is_none_n | impl_iterate_impl | impl_iterate_impl_unchecked | impl_later_result | impl_next_digit
  | impl_nth_of_c | impl_nth_of_c_impl | impl_nth_of_c_n | impl_nth_of_c_skip_remaining
  | impl_one_char_except_not_used | impl_one_of | impl_one_of_fwd_op | impl_or_c | impl_pop_back
  | impl_pop_front | impl_push_back_c | impl_push_front_c | impl_push_front_result
  | impl_sequence_apply_transform_n | impl_sequence_impl | impl_sequence_n | impl_size | impl_skip_seq
  | impl_string_iterator | impl_string_iterator_tag | impl_update_c | impl_void_ | import_ | is_error | iterate
  | iterate_c | keyword | last_of | line | lit | lit_c | look_ahead | message | middle_of | mpl_advance
  | mpl_advance_impl | mpl_at | mpl_at_c | mpl_at_impl | mpl_back | mpl_back_impl | mpl_begin | mpl_begin_impl
  | mpl_bool_ | mpl_c_str | mpl_char_ | mpl_clear | mpl_clear_impl | mpl_deref | mpl_distance
  | mpl_distance_impl | mpl_empty | mpl_empty_impl | mpl_end | mpl_end_impl | mpl_equal_to | mpl_equal_to_impl
  | mpl_eval_if | mpl_fold | mpl_front | mpl_front_impl | mpl_greater_equal_impl | mpl_greater_impl
  | mpl_has_key | mpl_if_ | mpl_if_c | mpl_insert | mpl_int_ | mpl_integral_c_tag | mpl_lambda | mpl_less
  | mpl_less_equal | mpl_less_equal_impl | mpl_less_impl | mpl_map | mpl_map_at | mpl_map_has_key
  | mpl_map_insert | mpl_map_tag | mpl_na | mpl_next | mpl_not_equal_to_impl | mpl_pair | mpl_pop_back
  | mpl_pop_back_impl | mpl_pop_front | mpl_pop_front_impl | mpl_prior | mpl_push_back | mpl_push_back_impl
  | mpl_push_front | mpl_push_front_impl | mpl_random_access_iterator_tag | mpl_sequence_tag | mpl_size
  | mpl_size_impl | mpl_tag | mpl_vector | mpl_vector_at | mpl_vector_back | mpl_vector_fold | mpl_vector_front
  | mpl_vector_pop_front | mpl_vector_push_back | mpl_vector_push_front | mpl_vector_tag | mpl_void_ | name
  | next_char | next_char_impl | next_char_parser | next_iteration | next_line | next_line_impl | next_pos
  | no_error | nonempty | nth_of | nth_of_c | one_char | one_char_except | one_char_except_c | one_of
  | one_of_c | optional | p | parsed_remaining | parsing_failed | prev_char | range | range_c | reject
  | rejection | remaining | repeated | repeated1 | repeated_one_of | repeated_one_of1
  | repeated_reject_incomplete | repeated_reject_incomplete1 | rest_parser | result | return_ | rule | rules
  | second | sequence | sequence_apply_n | source_position | source_position_tag | std_conditional | string
  | string_tag | swap | t_char | t_int | t_void | tag | the_parser | token | transform | transform_error
  | transform_error_message | type | unchecked | unless_error | user_bad | user_delayed | user_flip
  | user_long_string | user_message | user_rule_of_grammar | user_value | util_digit_to_int
  | util_digit_to_int_c | util_in_range | util_in_range_c | util_int_to_digit | util_int_to_digit_c
  | util_is_digit | util_is_lcase_letter | util_is_letter | util_is_ucase_letter | util_is_whitespace
  | util_is_whitespace_c | value | x0 | x1 | x__________________PARSING_FAILED__________________x
  deriving DecidableEq

end Metaparse.Tmpl
