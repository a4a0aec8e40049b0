import Verif.Model.Templates.Prelude
import Verif.Model.Templates.Support
import Verif.Model.Templates.Parsers
import Verif.Model.Templates.Grammar
import Verif.Model.Templates.Headers98
/-!
# The class templates by name
-/

namespace Metaparse.Tmpl

/-- The definitions of a class template, the more specialised ones first; a template that is only declared has none.
(for example `cpp11/impl/is_none_c_impl.hpp:19-29`; the lines of every template are at its translation.) -/
def library [L : Lang] : Id → List Spec
  | .mpl_na => Hdr.mpl_na
  | .mpl_integral_c_tag => Hdr.mpl_integral_c_tag
  | .mpl_random_access_iterator_tag => Hdr.mpl_random_access_iterator_tag
  | .mpl_int_ => Hdr.mpl_int_
  | .mpl_char_ => Hdr.mpl_char_
  | .mpl_bool_ => Hdr.mpl_bool_
  | .mpl_if_c => Hdr.mpl_if_c
  | .mpl_if_ => Hdr.mpl_if_
  | .mpl_eval_if => Hdr.mpl_eval_if
  | .mpl_tag => Hdr.mpl_tag
  | .mpl_sequence_tag => Hdr.mpl_sequence_tag
  | .mpl_begin => Hdr.mpl_begin
  | .mpl_end => Hdr.mpl_end
  | .mpl_front_impl => Hdr.mpl_front_impl
  | .mpl_front => Hdr.mpl_front
  | .mpl_empty_impl => Hdr.mpl_empty_impl
  | .mpl_empty => Hdr.mpl_empty
  | .mpl_clear => Hdr.mpl_clear
  | .mpl_pop_front => Hdr.mpl_pop_front
  | .mpl_pop_back => Hdr.mpl_pop_back
  | .mpl_push_back => Hdr.mpl_push_back
  | .mpl_push_front => Hdr.mpl_push_front
  | .mpl_equal_to => Hdr.mpl_equal_to
  | .mpl_less => Hdr.mpl_less
  | .mpl_less_equal_impl => Hdr.mpl_less_equal_impl
  | .mpl_less_equal => Hdr.mpl_less_equal
  | .mpl_advance => Hdr.mpl_advance
  | .mpl_distance => Hdr.mpl_distance
  | .mpl_size_impl => Hdr.mpl_size_impl
  | .mpl_size => Hdr.mpl_size
  | .mpl_back_impl => Hdr.mpl_back_impl
  | .mpl_back => Hdr.mpl_back
  | .mpl_at_impl => Hdr.mpl_at_impl
  | .mpl_at => Hdr.mpl_at
  | .mpl_at_c => Hdr.mpl_at_c
  | .mpl_vector_tag => Hdr.mpl_vector_tag
  | .mpl_vector => Hdr.mpl_vector
  | .mpl_vector_push_back => Hdr.mpl_vector_push_back
  | .mpl_vector_push_front => Hdr.mpl_vector_push_front
  | .mpl_push_back_impl => Hdr.mpl_push_back_impl
  | .mpl_push_front_impl => Hdr.mpl_push_front_impl
  | .mpl_vector_front => Hdr.mpl_vector_front
  | .mpl_vector_back => Hdr.mpl_vector_back
  | .mpl_vector_pop_front => Hdr.mpl_vector_pop_front
  | .mpl_pop_front_impl => Hdr.mpl_pop_front_impl
  | .mpl_vector_fold => Hdr.mpl_vector_fold
  | .mpl_fold => Hdr.mpl_fold
  | .mpl_pair => Hdr.mpl_pair
  | .mpl_map_tag => Hdr.mpl_map_tag
  | .mpl_map => Hdr.mpl_map
  | .mpl_map_insert => Hdr.mpl_map_insert
  | .mpl_insert => Hdr.mpl_insert
  | .mpl_void_ => Hdr.mpl_void_
  | .mpl_map_at => Hdr.mpl_map_at
  | .mpl_vector_at => Hdr.mpl_vector_at
  | .mpl_map_has_key => Hdr.mpl_map_has_key
  | .mpl_has_key => Hdr.mpl_has_key
  | .mpl_lambda => Hdr.mpl_lambda
  | .boost_is_same => Hdr.boost_is_same
  | .std_conditional => Hdr.std_conditional
  | .user_value => Hdr.user_value
  | .user_flip => Hdr.user_flip
  | .user_delayed => Hdr.user_delayed
  | .user_rule_of_grammar => Hdr.user_rule_of_grammar
  | .user_long_string => Hdr.user_long_string
  | .user_message => Hdr.user_message
  | .accept_tag => Hdr.accept_tag
  | .get_position_impl => Hdr.get_position_impl
  | .get_remaining_impl => Hdr.get_remaining_impl
  | .get_result_impl => Hdr.get_result_impl
  | .fail_tag => Hdr.fail_tag
  | .get_message_impl => Hdr.get_message_impl
  | .accept => Hdr.accept
  | .reject => Hdr.reject
  | .get_result => Hdr.get_result
  | .get_remaining => Hdr.get_remaining
  | .get_position => Hdr.get_position
  | .get_message => Hdr.get_message
  | .get_line_impl => Hdr.get_line_impl
  | .get_line => Hdr.get_line
  | .get_col_impl => Hdr.get_col_impl
  | .get_col => Hdr.get_col
  | .get_prev_char_impl => Hdr.get_prev_char_impl
  | .get_prev_char => Hdr.get_prev_char
  | .is_error => Hdr.is_error
  | .unless_error => Hdr.unless_error
  | .source_position_tag => Hdr.source_position_tag
  | .next_char_impl => Hdr.next_char_impl
  | .next_line_impl => Hdr.next_line_impl
  | .source_position => Hdr.source_position
  | .mpl_equal_to_impl => Hdr.mpl_equal_to_impl
  | .mpl_not_equal_to_impl => Hdr.mpl_not_equal_to_impl
  | .mpl_less_impl => Hdr.mpl_less_impl
  | .mpl_greater_impl => Hdr.mpl_greater_impl
  | .mpl_greater_equal_impl => Hdr.mpl_greater_equal_impl
  | .next_char => Hdr.next_char
  | .next_line => Hdr.next_line
  | .string_tag => Hdr.string_tag
  | .impl_string_iterator_tag => Hdr.impl_string_iterator_tag
  | .impl_string_iterator => Hdr.impl_string_iterator
  | .impl_advance_c => Hdr.impl_advance_c
  | .impl_distance => Hdr.impl_distance
  | .mpl_advance_impl => Hdr.mpl_advance_impl
  | .mpl_distance_impl => Hdr.mpl_distance_impl
  | .mpl_next => Hdr.mpl_next
  | .mpl_prior => Hdr.mpl_prior
  | .mpl_deref => Hdr.mpl_deref
  | .string => L.headers.pick Hdr.string Hdr98.string
  | .mpl_pop_back_impl => Hdr.mpl_pop_back_impl
  | .mpl_clear_impl => Hdr.mpl_clear_impl
  | .mpl_begin_impl => Hdr.mpl_begin_impl
  | .mpl_end_impl => Hdr.mpl_end_impl
  | .mpl_c_str => L.headers.pick Hdr.mpl_c_str (fun _ => [])
  | .impl_at_c => L.headers.pick Hdr.impl_at_c Hdr98.impl_at_c
  | .impl_size => L.headers.pick Hdr.impl_size Hdr98.impl_size
  | .impl_pop_front => L.headers.pick Hdr.impl_pop_front Hdr98.impl_pop_front
  | .impl_push_front_c => L.headers.pick Hdr.impl_push_front_c Hdr98.impl_push_front_c
  | .impl_push_back_c => L.headers.pick Hdr.impl_push_back_c Hdr98.impl_push_back_c
  | .impl_concat => L.headers.pick Hdr.impl_concat (fun _ => [])
  | .impl_pop_back => L.headers.pick Hdr.impl_pop_back Hdr98.impl_pop_back
  | .impl_empty_string => Hdr.impl_empty_string
  | .error_digit_expected => Hdr.error_digit_expected
  | .error_end_of_input_expected => Hdr.error_end_of_input_expected
  | .error_expected_to_fail => Hdr.error_expected_to_fail
  | .error_index_out_of_range => Hdr.error_index_out_of_range
  | .error_letter_expected => Hdr.error_letter_expected
  | .error_literal_expected => Hdr.error_literal_expected
  | .error_none_of_the_expected_cases_found => Hdr.error_none_of_the_expected_cases_found
  | .error_unexpected_character => Hdr.error_unexpected_character
  | .error_unexpected_end_of_input => Hdr.error_unexpected_end_of_input
  | .error_unpaired => Hdr.error_unpaired
  | .error_whitespace_expected => Hdr.error_whitespace_expected
  | .impl_void_ => Hdr.impl_void_
  | .impl_is_char_c => Hdr.impl_is_char_c
  | .impl_next_digit => Hdr.impl_next_digit
  | .impl_back_inserter => Hdr.impl_back_inserter
  | .impl_front_inserter => Hdr.impl_front_inserter
  | .impl_or_c => L.headers.pick Hdr.impl_or_c (fun _ => [])
  | .impl_any_of_c => L.headers.pick Hdr.impl_any_of_c (fun _ => [])
  | .impl_is_none_c_impl => L.headers.pick Hdr.impl_is_none_c_impl (fun _ => [])
  | .impl_is_none_c => L.headers.pick Hdr.impl_is_none_c (fun _ => [])
  | .impl_push_front_result => L.headers.pick Hdr.impl_push_front_result (fun _ => [])
  | .impl_eval_later_result => L.headers.pick Hdr.impl_eval_later_result (fun _ => [])
  | .util_in_range_c => Hdr.util_in_range_c
  | .util_is_digit => Hdr.util_is_digit
  | .util_is_lcase_letter => Hdr.util_is_lcase_letter
  | .util_is_ucase_letter => Hdr.util_is_ucase_letter
  | .util_is_letter => Hdr.util_is_letter
  | .util_is_whitespace_c => Hdr.util_is_whitespace_c
  | .util_is_whitespace => Hdr.util_is_whitespace
  | .util_digit_to_int_c => Hdr.util_digit_to_int_c
  | .util_digit_to_int => Hdr.util_digit_to_int
  | .util_in_range => Hdr.util_in_range
  | .util_int_to_digit_c => Hdr.util_int_to_digit_c
  | .util_int_to_digit => Hdr.util_int_to_digit
  | .one_char => Hdr.one_char
  | .empty => Hdr.empty
  | .fail => Hdr.fail
  | .return_ => Hdr.return_
  | .accept_when => Hdr.accept_when
  | .change_error_message => Hdr.change_error_message
  | .transform_error_message => Hdr.transform_error_message
  | .transform_error => Hdr.transform_error
  | .transform => Hdr.transform
  | .always => Hdr.always
  | .look_ahead => Hdr.look_ahead
  | .except => Hdr.except
  | .optional => Hdr.optional
  | .if_ => Hdr.if_
  | .fail_at_first_char_expected => Hdr.fail_at_first_char_expected
  | .foldl => Hdr.foldl
  | .foldl_reject_incomplete => Hdr.foldl_reject_incomplete
  | .foldl_start_with_parser => Hdr.foldl_start_with_parser
  | .foldl_reject_incomplete_start_with_parser => Hdr.foldl_reject_incomplete_start_with_parser
  | .foldr_start_with_parser => Hdr.foldr_start_with_parser
  | .sequence => L.headers.pick Hdr.sequence Hdr98.sequence
  | .one_of => L.headers.pick Hdr.one_of Hdr98.one_of
  | .impl_nth_of_c_skip_remaining => L.headers.pick Hdr.impl_nth_of_c_skip_remaining (fun _ => [])
  | .impl_nth_of_c => L.headers.pick Hdr.impl_nth_of_c (fun _ => [])
  | .nth_of_c => L.headers.pick Hdr.nth_of_c Hdr98.nth_of_c
  | .nth_of => L.headers.pick Hdr.nth_of Hdr98.nth_of
  | .first_of => L.headers.pick Hdr.first_of Hdr98.first_of
  | .last_of => L.headers.pick Hdr.last_of Hdr98.last_of
  | .middle_of => Hdr.middle_of
  | .impl_iterate_impl_unchecked => Hdr.impl_iterate_impl_unchecked
  | .impl_iterate_impl => Hdr.impl_iterate_impl
  | .iterate_c => Hdr.iterate_c
  | .iterate => Hdr.iterate
  | .lit_c => Hdr.lit_c
  | .lit => Hdr.lit
  | .keyword => Hdr.keyword
  | .one_of_c => L.headers.pick Hdr.one_of_c Hdr98.one_of_c
  | .one_char_except_c => L.headers.pick Hdr.one_char_except_c Hdr98.one_char_except_c
  | .one_char_except => L.headers.pick Hdr.one_char_except Hdr98.one_char_except
  | .range_c => Hdr.range_c
  | .range => Hdr.range
  | .foldl1 => Hdr.foldl1
  | .foldr => Hdr.foldr
  | .foldr1 => Hdr.foldr1
  | .foldl_reject_incomplete1 => Hdr.foldl_reject_incomplete1
  | .foldr_reject_incomplete => Hdr.foldr_reject_incomplete
  | .foldr_reject_incomplete1 => Hdr.foldr_reject_incomplete1
  | .repeated => Hdr.repeated
  | .repeated1 => Hdr.repeated1
  | .repeated_reject_incomplete => Hdr.repeated_reject_incomplete
  | .repeated_reject_incomplete1 => Hdr.repeated_reject_incomplete1
  | .token => Hdr.token
  | .entire_input => Hdr.entire_input
  | .always_c => Hdr.always_c
  | .swap => Hdr.swap
  | .impl_sequence_apply_transform_n => L.headers.pick Hdr.impl_sequence_apply_transform_n Hdr98.impl_sequence_apply_transform_n
  | .sequence_apply_n => L.headers.pick Hdr.sequence_apply_n Hdr98.sequence_apply_n
  | .x__________________PARSING_FAILED__________________x => Hdr.x__________________PARSING_FAILED__________________x
  | .parsing_failed => Hdr.parsing_failed
  | .build_parser => Hdr.build_parser
  | .grammar_util_repeated_apply_impl => Hdr.grammar_util_repeated_apply_impl
  | .grammar_util_build_repeated => Hdr.grammar_util_build_repeated
  | .grammar_util_build_sequence => Hdr.grammar_util_build_sequence
  | .grammar_util_build_selection => Hdr.grammar_util_build_selection
  | .grammar_util_get_parser => Hdr.grammar_util_get_parser
  | .grammar_util_build_name => Hdr.grammar_util_build_name
  | .grammar_util_build_char => Hdr.grammar_util_build_char
  | .grammar_util_expression => Hdr.grammar_util_expression
  | .grammar_util_build_native_parser => Hdr.grammar_util_build_native_parser
  | .grammar_util_build_parsed_parser => Hdr.grammar_util_build_parsed_parser
  | .grammar_util_rebuild => Hdr.grammar_util_rebuild
  | .grammar_util_add_rule => Hdr.grammar_util_add_rule
  | .grammar_util_add_import => Hdr.grammar_util_add_import
  | .grammar_util_grammar_builder => Hdr.grammar_util_grammar_builder
  | .grammar => Hdr.grammar
  | .impl_update_c => L.headers.pick [] Hdr98.impl_update_c
  | .impl_apply_parser => L.headers.pick [] Hdr98.impl_apply_parser
  | .impl_is_none_n => L.headers.pick [] Hdr98.impl_is_none_n
  | .impl_later_result => L.headers.pick [] Hdr98.impl_later_result
  | .impl_skip_seq => L.headers.pick [] Hdr98.impl_skip_seq
  | .impl_nth_of_c_impl => L.headers.pick [] Hdr98.impl_nth_of_c_impl
  | .impl_nth_of_c_n => L.headers.pick [] Hdr98.impl_nth_of_c_n
  | .impl_one_char_except_not_used => L.headers.pick [] Hdr98.impl_one_char_except_not_used
  | .impl_one_of_fwd_op => L.headers.pick [] Hdr98.impl_one_of_fwd_op
  | .impl_one_of => L.headers.pick [] Hdr98.impl_one_of
  | .impl_sequence_impl => L.headers.pick [] Hdr98.impl_sequence_impl
  | .impl_sequence_n => L.headers.pick [] Hdr98.impl_sequence_n
  | .repeated_one_of => L.headers.pick [] Hdr98.repeated_one_of
  | .repeated_one_of1 => L.headers.pick [] Hdr98.repeated_one_of1
  | _ => []

/-- How many parameters a class template of C++98 has, and what they are by default, for those with a number of parameters
that have defaults (for example `cpp98/first_of.hpp:17`). -/
def defaults (l : Limits) : Id → Option (Nat × V)
  /- `cpp98/first_of.hpp:17` -/
  | .first_of => some (l.sequence, .cls .root .mpl_na [])
  /- `cpp98/impl/is_none.hpp:27` -/
  | .impl_is_none_n => some (2, .cls .root .t_int [])
  /- `cpp98/last_of.hpp:26` -/
  | .last_of => some (l.sequence, .cls .root .mpl_na [])
  /- `cpp98/nth_of.hpp:21` -/
  | .nth_of => some (l.sequence + 1, .cls .root .mpl_na [])
  /- `cpp98/nth_of_c.hpp:27` -/
  | .nth_of_c => some (l.sequence + 1, .cls .root .mpl_na [])
  /- `cpp98/one_char_except.hpp:31` -/
  | .one_char_except => some (l.oneCharExcept, .cls .root .impl_one_char_except_not_used [])
  /- `cpp98/one_char_except_c.hpp:34` -/
  | .one_char_except_c => some (l.oneCharExcept, .num 1024)
  /- `cpp98/one_of.hpp:23` -/
  | .one_of => some (l.oneOf, .cls .root .mpl_na [])
  /- `cpp98/one_of_c.hpp:35` -/
  | .one_of_c => some (l.oneOf, .num 9223372036854775807)
  /- `cpp98/repeated_one_of.hpp:24` -/
  | .repeated_one_of => some (l.oneOf, .cls .root .mpl_na [])
  /- `cpp98/repeated_one_of1.hpp:24` -/
  | .repeated_one_of1 => some (l.oneOf, .cls .root .mpl_na [])
  /- `cpp98/sequence.hpp:26` -/
  | .sequence => some (l.sequence, .cls .root .mpl_na [])
  /- `cpp98/fwd/string.hpp:20` -/
  | .string => some (l.string, .num (-1))
  | _ => none

end Metaparse.Tmpl
