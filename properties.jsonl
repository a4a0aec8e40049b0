{"id": "C01", "title": "one_char consumes exactly the first character", "statement": "Applying one_char to a non-empty input accepts with the first character as result, the input without its first character as remaining input, and the position moved over that one character; applying it to the empty input rejects with unexpected_end_of_input at the given position. It never does anything else.", "quantifier": "all inputs, all starting source positions", "why_tests_cant": "The tests use a handful of literal strings; the claim is over every string and every (line, column, previous character).", "anchors": ["include/boost/metaparse/v1/one_char.hpp: one_char, next_pos", "include/boost/metaparse/v1/start.hpp: start"]}
{"id": "C02", "title": "The remaining input is always a suffix and the position always matches what was consumed", "statement": "Whenever any parser assembled from the library's combinators accepts, the remaining input is a suffix of the input and the returned source position is exactly the starting position moved, character by character, over the consumed prefix. No combinator can lose, duplicate or invent characters or let the position drift from the text.", "quantifier": "every parser expression built from the combinators (including user-recursive ones), every input, every starting position", "why_tests_cant": "It quantifies over all combinator trees and inputs; a test only checks a specific tree on a specific input, and almost no test checks the position.", "anchors": ["include/boost/metaparse/v1/accept.hpp: accept", "include/boost/metaparse/v1/get_remaining.hpp", "include/boost/metaparse/v1/get_position.hpp", "include/boost/metaparse/v1/one_char.hpp: one_char"]}
{"id": "C03", "title": "A reported error lies inside the text that was parsed", "statement": "Whenever any parser assembled from the library's combinators rejects, the error position is the starting position moved over some prefix of the input: it is never before the start and never beyond the end of the input.", "quantifier": "every parser expression, every input, every starting position", "why_tests_cant": "Error positions are produced by many interacting combinators; tests check a few of them for one position each.", "anchors": ["include/boost/metaparse/v1/reject.hpp: reject", "include/boost/metaparse/v1/get_position.hpp", "include/boost/metaparse/v1/cpp11/impl/eval_later_result.hpp", "include/boost/metaparse/v1/change_error_message.hpp"]}
{"id": "C04", "title": "Line numbers count line terminators of all three conventions", "statement": "Parsing from the initial position, the line of the position reached after consuming a text is 1 plus the number of line terminators in it, where LF, CR and CR LF each count as one terminator, for arbitrary mixtures of them.", "quantifier": "all consumed texts, for any parser that consumed them", "why_tests_cant": "one_char_test checks six literal strings; mixtures such as CR CR LF LF are unbounded.", "anchors": ["include/boost/metaparse/v1/one_char.hpp: next_pos", "include/boost/metaparse/v1/source_position_tag.hpp: next_line_impl, next_char_impl", "include/boost/metaparse/v1/start.hpp: start"]}
{"id": "C05", "title": "Column numbers restart at every line", "statement": "Parsing from the initial position, the column is 1 plus the number of characters consumed since the last line terminator. (The code violates this after CR LF, where the column is one too large; the exact value the code computes is proved, and the violation is proved by a witness.)", "quantifier": "all consumed texts", "why_tests_cant": "No test looks at the column after a line break; the claim is over every text.", "anchors": ["include/boost/metaparse/v1/one_char.hpp: next_pos", "include/boost/metaparse/v1/source_position_tag.hpp: next_line_impl"]}
{"id": "C06", "title": "Source positions are totally ordered and the order follows the text", "statement": "The comparison operations of source positions are mutually consistent and form a strict total order, and moving a position over at least one character always gives a strictly greater position. Hence comparing two error positions in the same text is the same as comparing how far into the text they are.", "quantifier": "all triples of positions; all texts and all pairs of prefixes", "why_tests_cant": "Total order laws quantify over all triples; monotonicity is over all texts.", "anchors": ["include/boost/metaparse/v1/source_position_tag.hpp", "include/boost/metaparse/v1/source_position.hpp: less_impl, equal_to_impl, greater_impl, not_equal_to_impl, greater_equal_impl, less_equal_impl"]}
{"id": "C07", "title": "The outcome does not depend on the instantiation depth", "statement": "If parsing finishes within some template instantiation depth, it finishes with the identical outcome at every larger depth; in particular the outcome of a parser on an input is unique.", "quantifier": "every parser expression, input, position and pair of depths", "why_tests_cant": "It relates all pairs of depth limits; a test runs at one limit.", "anchors": ["include/boost/metaparse/v1/is_error.hpp", "include/boost/metaparse/v1/foldl.hpp", "include/boost/metaparse/v1/foldr_start_with_parser.hpp"]}
{"id": "C08", "title": "Parsing does not depend on where in a file the text starts", "statement": "Running the same parser on the same text from two different source positions accepts in both cases with the same result and the same remaining input, or rejects in both cases at the same distance from the start, or fails to compile in both cases. Only the reported positions and messages that quote positions may differ.", "quantifier": "every parser expression (whose user functions do not inspect positions), every input, every two starting positions", "why_tests_cant": "Tests start at the initial position practically always; the claim relates all pairs of starting positions.", "anchors": ["include/boost/metaparse/v1/fail_at_first_char_expected.hpp", "include/boost/metaparse/v1/cpp11/impl/eval_later_result.hpp", "include/boost/metaparse/v1/foldl_reject_incomplete.hpp", "include/boost/metaparse/v1/middle_of.hpp"]}
{"id": "C09", "title": "C++98, C++11 and C++14 builds accept the same language", "statement": "For a parser within the size limits of the C++98 implementation, the C++98, C++11 and C++14 implementations agree: they accept the same inputs with the same result, remaining input and position, and reject at the same error position. (Error messages can differ; the difference for one_of and one_of_c is proved by witnesses.)", "quantifier": "every parser expression within the limits, every input, every position", "why_tests_cant": "A test run compiles with one standard; equality between implementations over all inputs cannot be tested.", "anchors": ["include/boost/metaparse/v1/cpp98/one_of.hpp", "include/boost/metaparse/v1/cpp11/one_of.hpp", "include/boost/metaparse/v1/cpp98/sequence.hpp", "include/boost/metaparse/v1/cpp11/sequence.hpp", "include/boost/metaparse/v1/cpp98/nth_of_c.hpp", "include/boost/metaparse/v1/cpp11/nth_of_c.hpp", "include/boost/metaparse/v1/cpp14/one_of_c.hpp"]}
{"id": "C10", "title": "Well-formed grammars always finish", "statement": "If no repeated parser can accept without consuming and no recursive parser can reach itself without consuming, then parsing terminates on every input (accepting, rejecting, or reporting an error of a user metafunction), from every position.", "quantifier": "every well-formed system of (mutually recursive) parsers, every input, every position", "why_tests_cant": "Termination on all inputs is not testable.", "anchors": ["include/boost/metaparse/v1/foldl.hpp", "include/boost/metaparse/v1/foldr_start_with_parser.hpp", "include/boost/metaparse/v1/foldl_reject_incomplete.hpp", "include/boost/metaparse/v1/keyword.hpp", "include/boost/metaparse/v1/impl/iterate_impl.hpp"]}
{"id": "C11", "title": "Repeating a parser that consumes nothing never finishes", "statement": "If a parser accepts some point of the input without consuming anything, then repeating it from that point (with foldl, foldr, their reject_incomplete and start_with_parser variants, repeated or repeated1) never produces a result: the instantiation recurses for ever.", "quantifier": "every such parser, input and position; every depth limit", "why_tests_cant": "Non-termination at every depth limit is not testable.", "anchors": ["include/boost/metaparse/v1/foldl.hpp: foldl", "include/boost/metaparse/v1/foldr_start_with_parser.hpp", "include/boost/metaparse/v1/foldl_reject_incomplete.hpp", "include/boost/metaparse/v1/repeated.hpp"]}
{"id": "C12", "title": "foldl is the left fold over the maximal run", "statement": "foldl<P, State, Op> applies P as long as it accepts, each time to what the previous application left, and accepts with the left fold of Op over the results in order, starting from State, leaving the input and position where P first rejected. It never rejects.", "quantifier": "all parsers P, states, operations, inputs and positions", "why_tests_cant": "The run length is unbounded and P, Op are arbitrary.", "anchors": ["include/boost/metaparse/v1/foldl.hpp: foldl"]}
{"id": "C13", "title": "foldl1 needs at least one element", "statement": "If the first application of P rejects, foldl1, repeated1, foldr1 and the reject_incomplete1 variants reject with exactly that error; if it accepts, they behave as the variant without 1. Hence foldl1, repeated1 and foldr1 reject only when the first application of P does.", "quantifier": "all parsers, states, operations, inputs, positions", "why_tests_cant": "Ranges over all parsers and inputs.", "anchors": ["include/boost/metaparse/v1/foldl1.hpp", "include/boost/metaparse/v1/foldr1.hpp", "include/boost/metaparse/v1/repeated1.hpp", "include/boost/metaparse/v1/foldl_reject_incomplete1.hpp", "include/boost/metaparse/v1/foldr_reject_incomplete1.hpp"]}
{"id": "C14", "title": "repeated collects every result in order", "statement": "repeated<P> accepts with the sequence of the results of the maximal run of P, in order of occurrence; repeated1<P> does the same but needs a non-empty run; repeated_one_of(1) does so for alternatives.", "quantifier": "all parsers, inputs, positions", "why_tests_cant": "The run length is unbounded.", "anchors": ["include/boost/metaparse/v1/repeated.hpp", "include/boost/metaparse/v1/repeated1.hpp", "include/boost/metaparse/v1/cpp11/repeated_one_of.hpp", "include/boost/metaparse/v1/cpp11/repeated_one_of1.hpp", "include/boost/metaparse/v1/impl/back_inserter.hpp"]}
{"id": "C15", "title": "foldr is the right fold over the maximal run", "statement": "foldr<P, State, Op> accepts with Op(... Op(Op(State, last), ...), first): the results are combined from the last to the first; it consumes the same input as foldl and never rejects.", "quantifier": "all parsers P, states, operations, inputs and positions", "why_tests_cant": "The run length is unbounded.", "anchors": ["include/boost/metaparse/v1/foldr.hpp", "include/boost/metaparse/v1/foldr_start_with_parser.hpp"]}
{"id": "C16", "title": "The reject_incomplete folds accept exactly when the last element did not fail half way", "statement": "foldl_reject_incomplete and foldr_reject_incomplete accept iff the application of P that ended the run failed without moving its error position forward, with the same result as foldl / foldr; otherwise they reject with exactly the error of that last application. repeated_reject_incomplete(1) inherits this.", "quantifier": "all parsers, states, operations, inputs, positions", "why_tests_cant": "Requires comparing with the last failing application for runs of arbitrary length.", "anchors": ["include/boost/metaparse/v1/foldl_reject_incomplete.hpp", "include/boost/metaparse/v1/foldr_reject_incomplete.hpp", "include/boost/metaparse/v1/repeated_reject_incomplete.hpp", "include/boost/metaparse/v1/repeated_reject_incomplete1.hpp"]}
{"id": "C17", "title": "The documented equivalences of the reject_incomplete folds hold", "statement": "foldl_reject_incomplete<p, t, f> is equivalent to first_of<foldl<p, t, f>, fail_at_first_char_expected<p>> and foldr_reject_incomplete<p, t, f> to first_of<foldr<p, t, f>, fail_at_first_char_expected<p>>, as the reference states, for error-free t and f.", "quantifier": "all parsers, states, operations, inputs, positions", "why_tests_cant": "Equivalence of two parsers on all inputs.", "anchors": ["include/boost/metaparse/v1/foldl_reject_incomplete.hpp", "include/boost/metaparse/v1/foldr_reject_incomplete.hpp", "include/boost/metaparse/v1/fail_at_first_char_expected.hpp", "doc/foldl_reject_incomplete.qbk", "doc/foldr_reject_incomplete.qbk"]}
{"id": "C18", "title": "The start_with_parser folds take their state from the text", "statement": "foldl_start_with_parser first applies the state parser and then folds from its result over the maximal run of P; foldr_start_with_parser first takes the maximal run of P and then applies the state parser to what is left, folding from its result; in both an error of the state parser is the error of the whole. The run is greedy: it is never shortened to let the state parser succeed.", "quantifier": "all parsers, operations, inputs, positions", "why_tests_cant": "The run length is unbounded; greediness is a negative statement over all inputs.", "anchors": ["include/boost/metaparse/v1/foldl_start_with_parser.hpp", "include/boost/metaparse/v1/foldr_start_with_parser.hpp", "include/boost/metaparse/v1/foldl_reject_incomplete_start_with_parser.hpp"]}
{"id": "C19", "title": "one_of is ordered choice", "statement": "one_of accepts iff one of the alternatives accepts and all of them have an outcome (all are evaluated, C21), and then its result, remaining input and position are those of the first alternative that accepts.", "quantifier": "all lists of parsers, inputs, positions, in every supported C++ standard", "why_tests_cant": "Ranges over all lists of alternatives and inputs.", "anchors": ["include/boost/metaparse/v1/cpp11/one_of.hpp", "include/boost/metaparse/v1/cpp98/one_of.hpp", "include/boost/metaparse/v1/cpp98/impl/one_of.hpp", "include/boost/metaparse/v1/cpp98/impl/one_of_fwd_op.hpp"]}
{"id": "C20", "title": "one_of reports the error that got furthest", "statement": "When every alternative of one_of rejects, the reported position is the furthest among the alternatives' error positions and the starting position. If some alternative failed beyond the starting position, the reported error is that of the last alternative failing at the furthest position.", "quantifier": "all lists of parsers, inputs, positions, in every supported C++ standard", "why_tests_cant": "Ranges over all lists of alternatives; the maximum over arbitrarily many error positions.", "anchors": ["include/boost/metaparse/v1/cpp11/impl/eval_later_result.hpp", "include/boost/metaparse/v1/cpp98/impl/later_result.hpp", "include/boost/metaparse/v1/cpp11/one_of.hpp"]}
{"id": "C21", "title": "one_of evaluates every alternative", "statement": "one_of does not stop at the first accepting alternative: if any alternative fails to compile or does not terminate on an input, one_of does not produce a result on that input either, even when an earlier alternative accepts.", "quantifier": "all lists of parsers, inputs, positions", "why_tests_cant": "A statement about non-termination and ill-formedness of arbitrary alternatives; a test of it would not compile.", "anchors": ["include/boost/metaparse/v1/cpp11/one_of.hpp", "include/boost/metaparse/v1/cpp98/impl/one_of_fwd_op.hpp"]}
{"id": "C22", "title": "sequence collects one result per parser", "statement": "sequence<P1,...,Pn> accepts iff P1,...,Pn accept one after the other, each on what the previous left; the result is the sequence of their results in order, and the input and position are those left by Pn. Otherwise the error is that of the first Pi that rejects, and the parsers after it are not evaluated.", "quantifier": "all lists of parsers (in C++98 of at most the limit of sequence), inputs, positions, both implementations", "why_tests_cant": "Ranges over all lists of parsers.", "anchors": ["include/boost/metaparse/v1/cpp11/sequence.hpp", "include/boost/metaparse/v1/cpp98/sequence.hpp", "include/boost/metaparse/v1/cpp98/impl/sequence_impl.hpp", "include/boost/metaparse/v1/impl/apply_parser.hpp", "include/boost/metaparse/v1/cpp11/impl/push_front_result.hpp"]}
{"id": "C23", "title": "nth_of, first_of and last_of select one result of the whole sequence", "statement": "nth_of_c<k, P1..Pn> and nth_of<int_<k>, P1..Pn> with 0 <= k < n accepts iff the whole sequence does and then returns the result of the k-th parser (counted from 0) but the remaining input and position of the whole sequence; errors are those of the sequence. first_of and last_of are the cases 0 and n-1.", "quantifier": "all indices, lists of parsers (in C++98 of at most the limit of sequence), inputs, positions, both implementations", "why_tests_cant": "Ranges over all indices and lists.", "anchors": ["include/boost/metaparse/v1/cpp11/nth_of_c.hpp", "include/boost/metaparse/v1/cpp11/impl/nth_of_c.hpp", "include/boost/metaparse/v1/cpp11/impl/nth_of_c_skip_remaining.hpp", "include/boost/metaparse/v1/cpp98/impl/nth_of_c_impl.hpp", "include/boost/metaparse/v1/cpp11/first_of.hpp", "include/boost/metaparse/v1/cpp11/last_of.hpp", "include/boost/metaparse/v1/cpp98/impl/skip_seq.hpp"]}
{"id": "C24", "title": "An index outside the parser list is rejected, not misparsed", "statement": "nth_of_c<k, P1..Pn> and nth_of<int_<k>, P1..Pn> with k < 0 or k >= n rejects every input at the starting position with index_out_of_range<0, n-1, k> without evaluating any parser.", "quantifier": "all indices outside the range, all lists, inputs and positions", "why_tests_cant": "Ranges over all integers outside the range.", "anchors": ["include/boost/metaparse/v1/cpp11/nth_of_c.hpp", "include/boost/metaparse/v1/cpp98/impl/nth_of_c.hpp", "include/boost/metaparse/v1/error/index_out_of_range.hpp"]}
{"id": "C25", "title": "middle_of returns the middle and names the opening bracket", "statement": "middle_of<P1,P2,P3> accepts iff the three accept in sequence, with the result of P2 and the input left by P3. If P3 is the first to reject, the error position is P3's and the message is P3's message extended with the line and column where middle_of started; errors of P1 and P2 pass unchanged.", "quantifier": "all parsers, inputs, positions", "why_tests_cant": "Ranges over all parsers and inputs.", "anchors": ["include/boost/metaparse/v1/middle_of.hpp", "include/boost/metaparse/v1/error/unpaired.hpp"]}
{"id": "C26", "title": "iterate applies a parser an exact number of times", "statement": "iterate_c<P, n> and iterate<P, int_<n>> with n >= 0 accepts iff P accepts n times in a row, returning the n results in order; otherwise it rejects with the error of the first rejecting application. iterate_c<P, 0> accepts everything without consuming. With negative n it never accepts.", "quantifier": "all counts, parsers, inputs, positions", "why_tests_cant": "Ranges over all counts.", "anchors": ["include/boost/metaparse/v1/iterate_c.hpp", "include/boost/metaparse/v1/impl/iterate_impl.hpp", "include/boost/metaparse/v1/impl/iterate_impl_unchecked.hpp"]}
{"id": "C27", "title": "keyword accepts exactly its text", "statement": "keyword<Kw, R> accepts iff the input begins with Kw, with result R and exactly Kw consumed. Otherwise it rejects with literal_expected<c> at the position of the first difference, where c is the character of Kw expected there.", "quantifier": "all keywords, results, inputs, positions", "why_tests_cant": "Ranges over all keyword/input pairs.", "anchors": ["include/boost/metaparse/v1/keyword.hpp", "include/boost/metaparse/v1/lit_c.hpp"]}
{"id": "C28", "title": "Character parsers accept exactly their class", "statement": "lit_c, lit, range_c, range, one_of_c, one_char_except_c, one_char_except, accept_when<one_char, in_range<l, u>, e>, digit, letter, space, alphanum accept iff the input is non-empty and its first character is in their class (equal; between the bounds; one of; none of; 0-9; a-z or A-Z; space, CR, LF or TAB; letter or digit), return that character and consume exactly it; otherwise they reject at the starting position with their documented error.", "quantifier": "all characters, parameters, inputs, positions", "why_tests_cant": "Ranges over all inputs and all parameters (bounds, character lists).", "anchors": ["include/boost/metaparse/v1/lit_c.hpp", "include/boost/metaparse/v1/range_c.hpp", "include/boost/metaparse/v1/cpp11/one_of_c.hpp", "include/boost/metaparse/v1/cpp11/one_char_except_c.hpp", "include/boost/metaparse/v1/digit.hpp", "include/boost/metaparse/v1/letter.hpp", "include/boost/metaparse/v1/space.hpp", "include/boost/metaparse/v1/alphanum.hpp", "include/boost/metaparse/v1/util/is_whitespace_c.hpp", "include/boost/metaparse/v1/util/in_range_c.hpp"]}
{"id": "C29", "title": "token strips all and only trailing whitespace", "statement": "token<P> accepts iff P accepts, with P's result, and the remaining input is what P left without its longest whitespace prefix. token<token<P>> is equivalent to token<P>. (The reference's description as first_of<p, spaces> is refuted: that rejects when no whitespace follows.)", "quantifier": "all parsers, inputs, positions", "why_tests_cant": "Amount of whitespace is unbounded, P arbitrary.", "anchors": ["include/boost/metaparse/v1/token.hpp", "include/boost/metaparse/v1/space.hpp", "include/boost/metaparse/v1/spaces.hpp", "doc/token.qbk"]}
{"id": "C30", "title": "int_ computes the decimal value", "statement": "int_ accepts iff the input starts with a digit; it consumes the longest prefix of digits and returns its decimal value, leading zeros allowed. If some prefix of the digits exceeds INT_MAX the program does not compile: no wrong number is ever returned. On other inputs it rejects with digit_expected at the start.", "quantifier": "all inputs, all positions", "why_tests_cant": "Numbers of any length; overflow cannot be tested by a program that must compile.", "anchors": ["include/boost/metaparse/v1/int_.hpp", "include/boost/metaparse/v1/digit_val.hpp", "include/boost/metaparse/v1/impl/next_digit.hpp", "include/boost/metaparse/v1/util/digit_to_int_c.hpp"]}
{"id": "C31", "title": "Printing then parsing an int returns it", "statement": "For every n from 0 to INT_MAX, parsing the decimal representation of n, followed by anything that does not start with a digit, with int_ gives n and leaves exactly what followed.", "quantifier": "all n in range, all continuations, all positions", "why_tests_cant": "2^31 values times arbitrary continuations.", "anchors": ["include/boost/metaparse/v1/int_.hpp", "include/boost/metaparse/v1/util/int_to_digit_c.hpp", "include/boost/metaparse/v1/util/digit_to_int_c.hpp"]}
{"id": "C32", "title": "digit_to_int and int_to_digit are inverse on digits and undefined elsewhere", "statement": "digit_to_int_c and int_to_digit_c are inverse bijections between '0'..'9' and 0..9; outside these ranges they do not produce a value.", "quantifier": "all characters and all integers", "why_tests_cant": "The failing half cannot be tested by a program that compiles, and ranges over all integers.", "anchors": ["include/boost/metaparse/v1/util/digit_to_int_c.hpp", "include/boost/metaparse/v1/util/int_to_digit_c.hpp", "include/boost/metaparse/v1/util/digit_to_int.hpp", "include/boost/metaparse/v1/util/int_to_digit.hpp"]}
{"id": "C33", "title": "entire_input accepts only when everything was consumed", "statement": "entire_input<P, Msg> accepts iff P accepts leaving nothing; its result is P's. If P rejects, P's error is reported; if P leaves something, it rejects with Msg at the position where P stopped.", "quantifier": "all parsers, messages, inputs, positions", "why_tests_cant": "Ranges over all parsers and inputs.", "anchors": ["include/boost/metaparse/v1/entire_input.hpp", "include/boost/metaparse/v1/empty.hpp"]}
{"id": "C34", "title": "build_parser delivers the result or a compile error naming line, column and message", "statement": "build_parser<P>::apply<S> is P's result on S from the initial position iff P accepts; if P rejects, compilation fails with the error's line, column and message; there is no third outcome for a terminating P whose metafunctions are well-formed. The line reported is the line of the error in the text, and the column its column (one too large after CR LF, C05).", "quantifier": "all parsers and inputs", "why_tests_cant": "A failing build cannot be a unit test, and it ranges over all parsers and inputs.", "anchors": ["include/boost/metaparse/v1/build_parser.hpp", "include/boost/metaparse/v1/start.hpp"]}
{"id": "C35", "title": "Looking never consumes", "statement": "look_ahead<P>, if_<P,T,F>, except<P,R,Msg>, empty<R>, return_<C>, fail<Msg> and optional<P,D> in its default case never consume: whenever they accept, remaining input and position are the ones given. They accept resp. reject exactly as documented (look_ahead iff P; except iff not P; if_ always, choosing by P; optional always).", "quantifier": "all parsers, values, inputs, positions", "why_tests_cant": "Ranges over all parsers and inputs.", "anchors": ["include/boost/metaparse/v1/look_ahead.hpp", "include/boost/metaparse/v1/if_.hpp", "include/boost/metaparse/v1/except.hpp", "include/boost/metaparse/v1/empty.hpp", "include/boost/metaparse/v1/return_.hpp", "include/boost/metaparse/v1/fail.hpp", "include/boost/metaparse/v1/optional.hpp"]}
{"id": "C36", "title": "transform and always change only the result", "statement": "transform<P,T> and always<P,R> accept exactly when P does (and T(r) has a ::type), with the same remaining input and position, and result T(r) resp. R; a rejection of P passes unchanged. transform obeys the functor laws (identity and composition) and is unless_error of the outcome of P, which keeps an error whatever its other argument is.", "quantifier": "all parsers, functions, inputs, positions", "why_tests_cant": "Ranges over all parsers and functions.", "anchors": ["include/boost/metaparse/v1/transform.hpp", "include/boost/metaparse/v1/always.hpp", "include/boost/metaparse/v1/always_c.hpp"]}
{"id": "C37", "title": "Error transformers change only errors", "statement": "change_error_message, transform_error_message and transform_error never affect an accepted parse. On a rejection change_error_message gives the new message at the position where the parser started, transform_error_message gives the transformed message at the original error position, and transform_error gives what its function returns.", "quantifier": "all parsers, messages, functions, inputs, positions", "why_tests_cant": "Ranges over all parsers and inputs.", "anchors": ["include/boost/metaparse/v1/change_error_message.hpp", "include/boost/metaparse/v1/transform_error_message.hpp", "include/boost/metaparse/v1/transform_error.hpp"]}
{"id": "C38", "title": "accept_when filters results", "statement": "accept_when<P,Pred,Msg> accepts iff P accepts with a result satisfying Pred, with P's outcome; if P rejects the error is P's; if the predicate is false it rejects with Msg at the position where P started, not where it ended.", "quantifier": "all parsers, predicates, messages, inputs, positions", "why_tests_cant": "Ranges over all parsers, predicates and inputs.", "anchors": ["include/boost/metaparse/v1/accept_when.hpp"]}
{"id": "C39", "title": "fail_at_first_char_expected distinguishes failing at once from failing half way", "statement": "fail_at_first_char_expected<P> accepts (consuming nothing) iff P rejects with its error at the starting position; if P accepts it rejects with expected_to_fail; if P rejects later it passes P's error. For well-behaved parsers the positions are equal iff the error is at offset zero.", "quantifier": "all parsers, inputs, positions", "why_tests_cant": "Ranges over all parsers and inputs.", "anchors": ["include/boost/metaparse/v1/fail_at_first_char_expected.hpp"]}
{"id": "C40", "title": "Compile-time strings obey the list laws (C++11)", "statement": "The operations on metaparse::string (push_back, push_front, pop_back, pop_front, front, back, at, size, empty, clear, begin/end, insertion, concatenation, c_str) agree with the corresponding operations on the list of characters; operations without a meaning (pop or front of the empty string, at outside the range) do not compile.", "quantifier": "all strings, characters and indices", "why_tests_cant": "Ranges over all strings and indices.", "anchors": ["include/boost/metaparse/v1/cpp11/string.hpp", "include/boost/metaparse/v1/cpp11/impl/at_c.hpp", "include/boost/metaparse/v1/cpp11/impl/pop_back.hpp", "include/boost/metaparse/v1/cpp11/impl/pop_front.hpp", "include/boost/metaparse/v1/cpp11/impl/push_back_c.hpp", "include/boost/metaparse/v1/cpp11/impl/push_front_c.hpp", "include/boost/metaparse/v1/cpp11/impl/concat.hpp", "include/boost/metaparse/v1/cpp11/impl/size.hpp"]}
{"id": "C41", "title": "C++98 strings implement the same strings below the size limit", "statement": "For strings shorter than BOOST_METAPARSE_LIMIT_STRING_SIZE whose characters all differ from the padding value, the C++98 fixed-width string implements the list operations exactly. At the limit it does not: size (hence end and empty) of a full string does not compile, push_front on a full string silently drops the last character, and a trailing character equal to the padding value is lost; each is proved by witness.", "quantifier": "all limits, strings and characters", "why_tests_cant": "Ranges over all limits and strings; the failing cases do not compile.", "anchors": ["include/boost/metaparse/v1/cpp98/string.hpp", "include/boost/metaparse/v1/cpp98/impl/size.hpp", "include/boost/metaparse/v1/cpp98/impl/update_c.hpp", "include/boost/metaparse/v1/cpp98/impl/push_front_c.hpp", "include/boost/metaparse/v1/cpp98/impl/push_back_c.hpp", "include/boost/metaparse/v1/cpp98/impl/pop_back.hpp", "include/boost/metaparse/v1/cpp98/impl/pop_front.hpp", "include/boost/metaparse/v1/cpp98/impl/at_c.hpp"]}
{"id": "C42", "title": "BOOST_METAPARSE_STRING yields exactly the literal", "statement": "For every string literal of length at most BOOST_METAPARSE_LIMIT_STRING_SIZE (at most 2048), including ones with embedded NUL characters, BOOST_METAPARSE_STRING gives the metaparse string with exactly the characters of the literal; a longer literal does not compile.", "quantifier": "all literals, all limits up to 2048", "why_tests_cant": "2048 lengths times all contents; tests use a few literals.", "anchors": ["include/boost/metaparse/v1/cpp11/string.hpp: BOOST_METAPARSE_STRING", "include/boost/metaparse/v1/cpp11/impl/string.hpp: take, make_string", "include/boost/metaparse/v1/cpp11/impl/string_at.hpp: string_at", "include/boost/metaparse/v1/impl/assert_string_length.hpp"]}
{"id": "C43", "title": "The string header generator covers the requested limit", "statement": "tools/string_headers.py generates, for the requested maximum length limit and step, index macros that cover every limit up to the requested one. (False when the requested maximum is one more than a multiple of the step, or the step is 1: proved by witness; the exact set of covered limits is proved.)", "quantifier": "all maximum lengths and steps", "why_tests_cant": "The generator is not tested at all; ranges over all parameters.", "anchors": ["tools/string_headers.py: Namespace, length_limits, main"]}
{"id": "C44", "title": "String iterators are random access iterators over the string", "statement": "Iterators of metaparse::string satisfy: advance by distance reaches the target, next and prior are inverse, dereferencing begin advanced by i is at(i), and iterating from begin to end visits the characters in order.", "quantifier": "all strings, all indices", "why_tests_cant": "Ranges over all strings and indices.", "anchors": ["include/boost/metaparse/v1/impl/string_iterator.hpp", "include/boost/metaparse/v1/impl/string_iterator_tag.hpp", "include/boost/metaparse/v1/cpp11/string.hpp"]}
{"id": "C45", "title": "Parsing depends only on the characters of the input, not on its representation", "statement": "Running a parser on any input sequence type whose empty/front/pop_front behave like those of a list of characters gives the same outcome as on the list. In particular C++11 strings and C++98 strings (below the limit) parse identically.", "quantifier": "every parser expression, every input sequence representation, every input and position", "why_tests_cant": "Relates all representations on all inputs and all parsers.", "anchors": ["include/boost/metaparse/v1/one_char.hpp", "include/boost/metaparse/v1/empty.hpp", "include/boost/metaparse/v1/cpp98/string.hpp", "include/boost/metaparse/v1/cpp11/string.hpp"]}
{"id": "C46", "title": "The rule language of grammar is the documented one", "statement": "The parser that grammar uses for rule texts accepts a text iff it is derivable in the documented BNF of rules (names, quoted characters with escapes, brackets, * and +, sequence, selection, optional whitespace after every token), and the structure it returns is the one that derivation denotes, with *,+ binding tightest, then sequence, then |, both left associative.", "quantifier": "all texts", "why_tests_cant": "The language is infinite; tests have about a dozen rules.", "anchors": ["include/boost/metaparse/v1/grammar.hpp: rule_definition, expression, seq_expression, repeated_expression, name_expression, char_token, name_token"]}
{"id": "C47", "title": "Printing then parsing a rule expression returns it", "statement": "For every rule expression, writing it with the minimal brackets and arbitrary whitespace after tokens and parsing it with the rule parser of grammar gives back exactly that expression.", "quantifier": "all expressions, all whitespace choices, all names and characters including the escaped ones", "why_tests_cant": "Unbounded expressions.", "anchors": ["include/boost/metaparse/v1/grammar.hpp: expression, char_token, name_token"]}
{"id": "C48", "title": "A grammar behaves as the combinators its rules denote", "statement": "The parser built by grammar<start> with non-recursive rules behaves as the combinator expression its rules denote: a quoted character as lit, a name as the parser of that rule transformed by its semantic action, juxtaposition as a two-element sequence, | as ordered choice, * and + as repeated and repeated1.", "quantifier": "all sets of non-recursive rules, all inputs", "why_tests_cant": "Unbounded rule sets and inputs.", "anchors": ["include/boost/metaparse/v1/grammar.hpp: get_parser, build_repeated, build_sequence, build_selection, build_name, build_char"]}
{"id": "C49", "title": "Later rules replace earlier ones, but actions persist", "statement": "Adding a rule or importing a parser under an existing name replaces the earlier definition for every use, including uses in rules added before. A semantic action stays in force when the rule is redefined without an action.", "quantifier": "all grammars and rule sequences", "why_tests_cant": "Ranges over all sequences of rule additions.", "anchors": ["include/boost/metaparse/v1/grammar.hpp: grammar_builder, add_rule, add_import, get_parser"]}
{"id": "C50", "title": "Recursive rules in grammar never compile", "statement": "A grammar can be used exactly if everything its start symbol reaches, through the names its rules mention, is defined and does not reach itself. Otherwise applying the grammar never compiles, whatever the input, even for inputs that would not need the recursive or undefined rule.", "quantifier": "all rule sets, all inputs", "why_tests_cant": "Ranges over all rule sets; that something fails to compile for every input cannot be tested.", "anchors": ["include/boost/metaparse/v1/grammar.hpp: get_parser, name_parser"]}
{"id": "C51", "title": "Parsing a rule text always finishes", "statement": "For every text whatsoever, the rule parser of grammar terminates, with a parsed rule or an error inside the text.", "quantifier": "all texts", "why_tests_cant": "All texts.", "anchors": ["include/boost/metaparse/v1/grammar.hpp: parser_parser, rule_definition"]}
{"id": "C52", "title": "The calculator example computes the value of the expression", "statement": "For every arithmetic expression over +, -, *, /, unary minus and brackets whose intermediate values fit in int and with no division by zero, the calculator with brackets and unary operators of the examples evaluates its text, with arbitrary whitespace between tokens, to its value with the usual precedence and left associativity.", "quantifier": "all expressions", "why_tests_cant": "Unbounded expressions.", "anchors": ["example/calculator_with_parens_and_unary_ops/main.cpp", "example/calculator/main.cpp"]}
{"id": "C53", "title": "sequence_apply passes the results in order", "statement": "sequence_applyN<T, P1..PN> accepts iff sequence<P1..PN> does and gives T instantiated with exactly the N results in order, for each supported N.", "quantifier": "all parsers, templates, inputs, positions, N", "why_tests_cant": "Ranges over all parsers and inputs.", "anchors": ["include/boost/metaparse/v1/sequence_apply.hpp"]}
{"id": "C54", "title": "debug_parsing_error prints the outcome of the parse", "statement": "debug_parsing_error<P, S> writes a report exactly when the parser comes to an outcome on S from the initial position: the line, column and message text of the rejection (those build_parser<P> shows in its compile error), or that it accepted and the remaining text. The report is unambiguous: for a given text it determines whether the parser accepted, the line and column, which message of the library it was, and (for texts without NUL characters) the remaining text and position.", "quantifier": "all parsers and inputs", "why_tests_cant": "Ranges over all parsers and inputs.", "anchors": ["include/boost/metaparse/v1/debug_parsing_error.hpp"]}
{"id": "C55", "title": "Parsers do not interfere with each other", "statement": "What a parser gives depends only on the definitions of the parser classes, parsers of the user and error handlers it uses, directly or through other parsers. Whatever else a program defines or redefines does not change it.", "quantifier": "all parsers, programs, inputs, positions", "why_tests_cant": "Ranges over all programs that contain the parser.", "anchors": ["include/boost/metaparse/v1/sequence.hpp", "include/boost/metaparse/v1/cpp11/one_of.hpp", "include/boost/metaparse/v1/foldl.hpp"]}
{"id": "C56", "title": "The equivalences of the reference", "statement": "A parser built by keyword, optional, always, empty, foldl1, foldr1, repeated1, the reject_incomplete variants (of folds whose operation always has a ::type), nth_of_c, iterate_c, entire_input, last_of, if_, lit, digit, alphanum or one_of_c behaves on every input as the expression of other combinators its reference page gives: same result, remaining input and position, same error. Where the page is wrong this is shown by a witness: if_ (needs look_ahead) and last_of (index n - 1), for which the corrected expression is proved equivalent, and middle_of, int_, repeated (arguments swapped), sequence_apply, accept_when; lit, digit, one_of_c and alphanum agree up to the message at the end of the input or in C++98.", "quantifier": "all parsers, values, operations, inputs, positions, language standards", "why_tests_cant": "An equivalence of parsers ranges over all inputs; tests compare few.", "anchors": ["doc/keyword.qbk", "doc/if_.qbk", "doc/last_of.qbk", "doc/nth_of_c.qbk", "include/boost/metaparse/v1/keyword.hpp", "include/boost/metaparse/v1/if_.hpp", "include/boost/metaparse/v1/optional.hpp", "include/boost/metaparse/v1/always.hpp"]}
{"id": "C57", "title": "Equivalent parsers can replace each other everywhere", "statement": "If two parsers have the same outcome on every input and position, then using one in place of the other inside any parser expression gives an equivalent parser. Replacing it in the definitions of recursive parser classes as well gives the same outcomes, provided the new parser does not use the classes whose definitions change; without that proviso the outcome is the same or there is none (endless instantiation, which does happen). A parser expression can also be replaced by a hand-written parser class that behaves the same.", "quantifier": "all parser expressions, programs, inputs, positions", "why_tests_cant": "Ranges over all contexts a parser can be used in.", "anchors": ["include/boost/metaparse/v1/sequence.hpp", "include/boost/metaparse/v1/cpp11/one_of.hpp", "include/boost/metaparse/v1/foldl.hpp", "include/boost/metaparse/v1/transform.hpp"]}
{"id": "C58", "title": "Algebraic laws of the combinators", "statement": "Rewritings users rely on are valid: transform, accept_when, always, optional, look_ahead, change_error_message, token and entire_input applied twice merge; last_of and (C++11) one_of flatten; a keyword can be split; sequence of a concatenation concatenates the results; alternatives after one that accepts are superfluous if they have an outcome; token commutes with transform; a common prefix of two alternatives can be factored out with the same results and error positions. Where only the message changes (factoring, middle_of, one_of of one parser, C++98 flattening) a witness shows it.", "quantifier": "all parsers, values, functions, inputs, positions", "why_tests_cant": "Each law ranges over all parsers and inputs.", "anchors": ["include/boost/metaparse/v1/transform.hpp", "include/boost/metaparse/v1/accept_when.hpp", "include/boost/metaparse/v1/last_of.hpp", "include/boost/metaparse/v1/cpp11/one_of.hpp", "include/boost/metaparse/v1/keyword.hpp", "include/boost/metaparse/v1/token.hpp", "include/boost/metaparse/v1/entire_input.hpp", "include/boost/metaparse/v1/middle_of.hpp"]}
{"id": "C59", "title": "The direction of a fold only matters when the operation makes it matter", "statement": "If the order of two results never matters for the operation, foldl and foldr with the same operation and state have the same outcome on every input: result, remaining input, position, compile error, endless instantiation. If the operation is associative and the initial state is its unit, foldl with the operation and foldr with swap of the operation have the same outcome. Without such laws they differ (witness).", "quantifier": "all parsers, operations with these laws on the values that occur, inputs, positions", "why_tests_cant": "Ranges over all operations and all lengths of input.", "anchors": ["include/boost/metaparse/v1/foldl.hpp", "include/boost/metaparse/v1/foldr.hpp", "include/boost/metaparse/v1/swap.hpp"]}
{"id": "C60", "title": "The calculators evaluate arithmetic formulae", "statement": "The calculators of the examples without and with brackets compile exactly for the texts of formulae (integers, + - * /, blanks after tokens and in front, brackets in the second one) whose value exists in int arithmetic with the usual precedence and left associativity, at every step; the result is that value. For every other text there is a compile error: the parsers always finish. Every formula of the first calculator has the same value in the second, and every formula of the second in the calculator with unary operators.", "quantifier": "all texts, all formulae of any size", "why_tests_cant": "Ranges over all expressions, of any length and nesting.", "anchors": ["example/calculator/main.cpp", "example/calculator_with_parens/main.cpp", "example/calculator_with_parens_and_unary_ops/main.cpp"]}
{"id": "C61", "title": "Functions parsed from text compute what the text says", "statement": "The example meta_lambda compiles exactly the formulae in integers and _, and applying the result to an integer gives the value of the formula for that argument whenever it exists in int arithmetic. The example compile_to_native_code compiles exactly the formulae in integers and _, and calling the result for int gives the value of the formula. For other types T this is so only if no operator has literals on both sides: that operator is computed in int (1/2 is 0 also for double).", "quantifier": "all texts, formulae, arguments; all types with arithmetic operations", "why_tests_cant": "Ranges over all expressions and all arguments.", "anchors": ["example/meta_lambda/main.cpp", "example/compile_to_native_code/main.cpp"]}
{"id": "C62", "title": "The regular expressions of the example", "statement": "The parser of the example regexp compiles exactly for texts whose brackets are in pairs, with something between them and not nested; the regular expression it builds matches a text exactly if, the brackets left out, both have the same length and agree at each place where the expression has no dot (despite the swapped arguments of r_append). Everything accepted follows the grammar in the comment, but empty and nested brackets, which the comment allows, are compile errors. The parser always finishes.", "quantifier": "all texts, all subjects of the match", "why_tests_cant": "Ranges over all regular expressions.", "anchors": ["example/regexp/main.cpp"]}
{"id": "C63", "title": "The examples that parse numbers compute what the text denotes", "statement": "The binary_number example accepts exactly the non-empty texts of the digits 0 and 1 whose value fits into an int and yields that value (so the rule in its comment, which allows the empty text, is wider than the code). minimal_rational and rational accept exactly `int / int` with spaces allowed after each number and nowhere else, and yield the two numbers; rational also accepts a number alone as the denominator 1. No space may follow the slash. Running the rational with denominator zero throws.", "quantifier": "All texts.", "why_tests_cant": "The examples print a few literals; the sets of accepted texts are infinite.", "anchors": ["example/binary_number/main.cpp", "example/rational/main.cpp", "example/minimal_rational/main.cpp"]}
{"id": "C64", "title": "Template and constexpr parsing of a* b* a* agree", "statement": "The parser of the constexpr_parser example made of templates compiles exactly for texts a^i b^j a^k and gives the three counts. The parser using the constexpr function for the middle part has the same outcome on every text, errors and their positions included. The pure constexpr function gives the same counts whenever the others compile, but it never fails: it counts the longest prefix of the form a* b* a* and ignores the rest of the text.", "quantifier": "All texts of at most INT_MAX characters.", "why_tests_cant": "The example prints a handful of texts; agreement of three implementations is about all texts.", "anchors": ["example/constexpr_parser/main.cpp"]}
{"id": "C65", "title": "The calculator written as a grammar", "statement": "If the calculator of the example grammar_calculator compiles for a text, then the text is a formula of integers and + - * / with blanks only after tokens, and the result is the value of the formula in int arithmetic with the usual precedence and left associativity. It compiles exactly if at every operator both operators of that precedence can be computed (sum and difference, or product and quotient), because the actions compute both; so 2*0 does not compile although its value is 0.", "quantifier": "all texts, all formulae of any size", "why_tests_cant": "Ranges over all formulae; the example prints two.", "anchors": ["example/grammar_calculator/main.cpp", "include/boost/metaparse/v1/grammar.hpp"]}
{"id": "C66", "title": "The functions parsed by a grammar", "statement": "The example meta_metaparse compiles exactly for the formulae of integers that fit in int and the variable _, with blanks only after tokens. Calling the result with an int gives the value of the formula at that argument (undefined behaviour exactly if it has none), and with another type the value computed in that type if no operator between two literals makes a difference. The parser made by grammar gives the same classes as the hand-written one of compile_to_native_code for all texts, except that only the latter accepts blanks at the beginning.", "quantifier": "all texts, formulae, arguments; all types with arithmetic operations", "why_tests_cant": "Ranges over all formulae and arguments, and compares two parsers on all texts.", "anchors": ["example/meta_metaparse/main.cpp", "example/compile_to_native_code/main.cpp", "include/boost/metaparse/v1/grammar.hpp"]}
{"id": "C67", "title": "The sums of the tutorial", "statement": "exp_parser1 to 3 of the tutorial read numbers (the first ignores what follows, the others insist on the end of the input). exp_parser7 to 14 read the longest chain of numbers and operators that the text begins with and ignore the rest. exp_parser9, 10 and 11 give the same result for every text: the sum, which compiles exactly if the sum fits in int. exp_parser12 adds the numbers after a minus sign too. exp_parser13 computes sums and differences from left to right. exp_parser14 computes sums, differences and products from left to right without precedence. They recurse without end for no text.", "quantifier": "all texts, chains of any length", "why_tests_cant": "Ranges over all texts and compares several parsers; the tutorial tries a handful.", "anchors": ["example/getting_started/3_1.hpp", "example/getting_started/4_2.hpp", "example/getting_started/5_2_3.hpp", "example/getting_started/5_2_4.hpp", "example/getting_started/6.hpp", "example/getting_started/7.hpp", "example/getting_started/7_2.hpp", "doc/getting_started.qbk"]}
{"id": "C68", "title": "Precedence, associativity and unary minus of the tutorial", "statement": "No text is two different expressions of the tutorial. exp_parser15, 16 and 18 read the longest prefix that is an expression (with +, - and *; also /; also unary minus), in which * and / have precedence over + and - and operators associate to the left, and give its value in int arithmetic; they compile exactly if that prefix exists and has a value. What exp_parser17 reads is an expression in which * and / associate to the right, and it gives the value of every such expression that is not followed by something that could continue it. A text where a product is incomplete is read differently by exp_parser16 and 17. None of them recurses without end.", "quantifier": "all texts, expressions of any length", "why_tests_cant": "Ranges over all texts; the tutorial tries a handful.", "anchors": ["example/getting_started/8.hpp", "example/getting_started/8_1.hpp", "example/getting_started/9.hpp", "example/getting_started/10.hpp", "doc/getting_started.qbk"]}
{"id": "C69", "title": "Brackets in the expressions of the tutorial", "statement": "If exp_parser19 compiles, the result is the value of the longest prefix that is an expression without brackets in brackets; it compiles for no text that begins with two opening brackets. If exp_parser20 compiles, the result is the value of the longest prefix that is an expression with brackets nested to any depth; if it reports an error in the text, no prefix is an expression. exp_parser20 to 23 compile for every expression with a value that is not followed by a character that could continue it, and give its value. exp_parser21 and 22 compile for the same texts with the same result, which is the result of exp_parser20, and only if no + or - follows the expression read. On texts that cannot begin an expression exp_parser20 to 23 report an error at the first character, with the message missing_primary_expression in C++98 and none_of_the_expected_cases_found otherwise. They recurse without end for no text.", "quantifier": "all texts, expressions of any length and depth", "why_tests_cant": "Ranges over all texts and all depths of nesting; the tutorial tries a handful.", "anchors": ["example/getting_started/11.hpp", "example/getting_started/11_3.hpp", "example/getting_started/11_3_1.hpp", "example/getting_started/11_3_2.hpp", "example/getting_started/12.hpp", "doc/getting_started.qbk"]}
{"id": "C70", "title": "The errors of the last parser of the tutorial", "statement": "For every text let u be the longest prefix that begins some expression (with brackets nested to any depth). exp_parser23 compiles exactly if u is an expression and has a value in int arithmetic, and gives that value. A parsing error is reported exactly at the end of u, u is then not an expression, and the message is determined by u: an operand is missing if u is empty or ends with an operator or an opening bracket; otherwise a bracket is not closed, and the message has the line and column of the last opening bracket that is open. The only other outcomes are an overflow and a division by zero.", "quantifier": "all texts, expressions of any length and depth", "why_tests_cant": "Ranges over all texts and over all continuations of their prefixes.", "anchors": ["example/getting_started/12.hpp", "example/getting_started/11_3.hpp", "doc/getting_started.qbk"]}
{"id": "C71", "title": "Types of results and of compile errors", "statement": "If every function given to the parsers maps results of the expected type to results of the expected type, then every accepted result of the parser built from them has the type that the combinators give it, and the compilation fails only with errors of these functions or because the text is rejected (never because of a missing ::type, ::value or specialisation), also with recursive parser classes. For the parsers of the tutorial and the calculators: the outcome is a number that int can hold, an overflow, a division by zero, or a parsing error at a position where the parser rejects.", "quantifier": "all parsers with a derivation in the typing rules, all texts and positions", "why_tests_cant": "Ranges over all compositions of combinators and all user functions.", "anchors": ["include/boost/metaparse/v1/build_parser.hpp", "include/boost/metaparse/v1/transform.hpp", "include/boost/metaparse/v1/foldl.hpp", "include/boost/metaparse/v1/cpp11/sequence.hpp", "example/getting_started/12.hpp", "example/calculator/main.cpp"]}
{"id": "C72", "title": "The parser of meta_hs", "statement": "What def_parser accepts is a definition in the grammar of meta_hs (names that are not keywords; application binds tightest, then * and /, then + and -, then comparisons; all associate to the left; else takes everything that follows), and the result is its syntax tree. Every definition in which if stands apart and no name begins with if is accepted, with its syntax tree, in every standard. Different definitions have different trees, and no text is two definitions. Parsing finishes for every text. The operator /= cannot be used: a text that contains it anywhere does not compile. A name that begins with if is taken apart when then and else follow.", "quantifier": "all texts, definitions of any size", "why_tests_cant": "Ranges over all texts; the example has nine definitions.", "anchors": ["example/meta_hs/grammar.hpp", "example/meta_hs/token.hpp", "example/meta_hs/semantic.hpp", "example/meta_hs/ast.hpp"]}
{"id": "C73", "title": "The example parsing_error", "statement": "test_parser compiles exactly for the texts that begin with any number of a and a b. For every other text the error is reported in line 1, in the column after the leading a characters, and says that b is expected; debug_parsing_error prints that line, column and message after the text, and for the accepted texts what follows the b. For the input of the example the report is given character by character.", "quantifier": "all texts", "why_tests_cant": "Ranges over all texts; the example has one, and its compile error is commented out.", "anchors": ["example/parsing_error/main.cpp", "include/boost/metaparse/v1/debug_parsing_error.hpp", "include/boost/metaparse/v1/repeated.hpp", "include/boost/metaparse/v1/lit_c.hpp"]}
{"id": "C74", "title": "Programs of meta_hs compute what they say", "statement": "If functions are imported and defined with the builder of meta_hs and one of them is called with integral constants, and the result has a number as ::value, then this number is the result of the program under call by name evaluation (with int arithmetic, currying, recursion in any order, shadowed and redefined names), and a program has at most one result. Conversely, if the program has a result, it comes out, provided that every definition has a parameter and that arguments of definitions are neither numbers nor parameters. Without this the claim fails: passing a number or a parameter to a definition that computes with it does not compile, and a definition without parameters that mentions itself recurses without end.", "quantifier": "all sequences of imports and definitions, all calls", "why_tests_cant": "Ranges over all programs of a language with recursion; the example has four functions.", "anchors": ["example/meta_hs/bind.hpp", "example/meta_hs/lazy.hpp", "example/meta_hs/curry.hpp", "example/meta_hs/builder.hpp", "example/meta_hs/meta_hs.hpp", "example/meta_hs/semantic.hpp"]}
{"id": "C75", "title": "The functions of meta_hs and those made by hand", "statement": "For every int k: fib compiles exactly if the k-th Fibonacci number fits in int and gives it, fact gives the factorial exactly if it fits (negative k as 0), times4 and times11 give 4k and 11k exactly if they fit. The version of the example that is written in Haskell syntax and the version made by hand compile for the same arguments, with the same values.", "quantifier": "all int arguments", "why_tests_cant": "Ranges over all arguments of recursive functions; the examples print one each.", "anchors": ["example/meta_hs/example_in_haskell.hpp", "example/meta_hs/example_handcrafted.hpp", "example/meta_hs/main_in_haskell.cpp", "example/meta_hs/double_number.hpp"]}
{"id": "C76", "title": "The library recognises parsing expression grammars", "statement": "Take a parsing expression grammar in the sense of Ford, and write it with the parsers of the library (lit_c, empty, sequence or nth_of or last_of, one_of, repeated, foldl, optional, except for !e, look_ahead for &e, a parser class for each rule), with any results and actions. What the parser accepts is exactly what the grammar parses: for a well-formed grammar (no rule can come to itself without consuming, nothing that may be empty is repeated) the parser accepts a text exactly if the grammar succeeds on it, with the same remaining text, and rejects it exactly if the grammar fails, for every text. For other grammars what is accepted or rejected is still right, but a grammar that stops at the first matching alternative may be written as a parser that never finishes. a^n b^n c^n, which no context free grammar describes, is recognised for every n.", "quantifier": "all parsing expression grammars with any number of rules, all ways to write them, all texts", "why_tests_cant": "Ranges over all grammars and all texts.", "anchors": ["include/boost/metaparse/v1/one_of.hpp", "include/boost/metaparse/v1/sequence.hpp", "include/boost/metaparse/v1/nth_of.hpp", "include/boost/metaparse/v1/last_of.hpp", "include/boost/metaparse/v1/foldl.hpp", "include/boost/metaparse/v1/repeated.hpp", "include/boost/metaparse/v1/except.hpp", "include/boost/metaparse/v1/look_ahead.hpp", "include/boost/metaparse/v1/optional.hpp", "include/boost/metaparse/v1/lit_c.hpp", "include/boost/metaparse/v1/empty.hpp"]}
{"id": "C77", "title": "Left recursion never compiles", "statement": "A parser class that has to apply itself to the text it is given neither accepts nor rejects any text: the compilation fails or the instantiations never end. This includes a parser that comes to itself through other parser classes, and one that comes to itself only in a later alternative of one_of, even if an earlier alternative matches. The same holds for every parser that has to apply such a parser.", "quantifier": "all parsers and all texts, any number of parser classes on the way", "why_tests_cant": "A test can not observe that instantiation never ends, and the claim ranges over all cycles.", "anchors": ["include/boost/metaparse/v1/one_of.hpp", "include/boost/metaparse/v1/sequence.hpp", "include/boost/metaparse/v1/nth_of.hpp", "include/boost/metaparse/v1/foldl.hpp", "doc/getting_started.qbk"]}
{"id": "C78", "title": "The depth of instantiation is linear in the length of the text", "statement": "For a well-formed system of finitely many parser classes and every parser made of them there is a number c such that for every text of n characters a limit of c * (n + 1) nested applications of parsers suffices: with it the outcome is the same as without a limit. Less than linear is not possible: a repetition (foldl, foldl_reject_incomplete, foldr and what is made of them) does not get a result within a limit that is not greater than the number of its elements, so for every limit there is a text of as many digits that repeated<digit> accepts in principle but not within the limit.", "quantifier": "all well-formed systems of parsers, all texts, all limits", "why_tests_cant": "Ranges over all texts and limits; a test sees one limit of one compiler.", "anchors": ["include/boost/metaparse/v1/foldl.hpp", "include/boost/metaparse/v1/foldl_reject_incomplete.hpp", "include/boost/metaparse/v1/foldr.hpp", "include/boost/metaparse/v1/repeated.hpp", "include/boost/metaparse/v1/sequence.hpp", "doc/getting_started.qbk"]}
{"id": "C79", "title": "The number of instantiations is polynomial in the length of the text", "statement": "In a well-formed system of finitely many parser classes, applying a parser to a text of n characters needs at most c * (n + 1)^2 different instantiations p::apply<S, Pos>, for some number c, although one_of tries all alternatives and results are used again and again; without folds from the left (whose state is part of the type) it is c * (n + 1), even if the system is not well-formed. That an instantiation is shared is what makes it so: for e = '(' e ')' | '(' e ']' | 'x' and n opening brackets there are 2^n different sequences of calls.", "quantifier": "all well-formed systems of parsers, all texts", "why_tests_cant": "Ranges over all grammars and all texts; a test sees the time of one compilation.", "anchors": ["include/boost/metaparse/v1/one_of.hpp", "include/boost/metaparse/v1/sequence.hpp", "include/boost/metaparse/v1/foldl.hpp", "include/boost/metaparse/v1/foldr.hpp", "include/boost/metaparse/v1/iterate.hpp", "include/boost/metaparse/v1/keyword.hpp"]}
{"id": "C80", "title": "A header of the tutorial has what was defined before its section", "statement": "tools/generate_all.py writes a header for every numbered section of the tutorial. For a well-written tutorial whose section numbers increase it does not fail, and a source that includes the header of a section, with any headers of sections before it, in any order and any number of times, has after preprocessing exactly what the reader has defined in Metashell before that section: each definition once, in the order of the tutorial, commands in several lines put together, queries left out, headers of Metashell only where __METASHELL is defined. If a number is used twice this fails: the header includes itself, earlier definitions are lost and its own come twice.", "quantifier": "all well-written tutorials with increasing section numbers, all sections, all sequences of includes", "why_tests_cant": "Ranges over all tutorials and all sequences of includes; there is no test of the generator.", "anchors": ["tools/generate_all.py", "example/getting_started/5_2_1.hpp", "doc/getting_started.qbk"]}
{"id": "C81", "title": "The pages of definitions have what was defined before their section", "statement": "tools/generate_all.py writes a page before_N.qbk for a section N if and only if something was defined in the numbered sections before it, and its code is exactly these definitions, each once, in the order of the tutorial, also those for Metashell; its first line is the target the notes in the tutorial link to. There are no other pages.", "quantifier": "all well-written tutorials with increasing section numbers, all sections", "why_tests_cant": "Ranges over all tutorials; there is no test of the generator.", "anchors": ["tools/generate_all.py", "doc/before_5_2_1.qbk", "doc/getting_started.qbk"]}
{"id": "C82", "title": "The generator of the tutorial can be run again on its own output", "statement": "tools/generate_all.py overwrites the tutorial with a text that has the notes, links and includes it generates. For texts whose lines do not confuse it (no line of code or numbered heading has one of its marks, blank lines of code come after other lines of code): everything the author wrote is kept, in order, up to blank lines; a second run never fails and writes the same snippets; and after it nothing changes any more, a third run writes exactly the same files and text. If the first text had nothing generated in it, the second run also writes the same headers and pages, and the same text up to blank lines. One run is not always enough: a second blank line after a snippet disappears only in the second run.", "quantifier": "all texts that end with a new line, with lines that do not confuse the generator; all names of the tutorial without [, new line and endsect", "why_tests_cant": "Ranges over all texts, with and without generated parts; there is no test of the generator.", "anchors": ["tools/generate_all.py", "doc/getting_started.qbk"]}
{"id": "C83", "title": "The notes of the tutorial link to the page of their section", "statement": "tools/generate_all.py writes after the heading of every section with a page before_N.qbk a note that links to it, and no other notes: without blank lines and the other generated parts, the text it writes is that of the author with exactly these notes, whatever notes were there before; and if the text has a section for the definitions, every page is included there. The components of the section number must have one digit: section 10 has a page but no note, and section 2.10 gets the note of section 2.", "quantifier": "all texts that end with a new line, with lines that do not confuse the generator", "why_tests_cant": "Ranges over all texts, with and without generated parts; there is no test of the generator.", "anchors": ["tools/generate_all.py", "doc/getting_started.qbk"]}
{"id": "C84", "title": "The copy-paste friendly versions of the tutorial have the commands of the snippets", "statement": "tools/generate_all.py writes one file NAME_k.qbk for every session of the tutorial in which more than one line is entered (and that something follows), numbered in order, and no other such file; its lines of code are the commands of the session, each in one line, word by word, without prompts and output. The text it writes has a link to the file after the line that follows the session and no other links, and the section of code examples includes exactly the files of the sessions before it. There must be a blank before a backslash that continues a command, and something in the last line of a command: otherwise words or commands are put together, though the headers keep them apart.", "quantifier": "all texts that end with a new line, with lines that do not confuse the generator, with or without parts of earlier runs", "why_tests_cant": "Ranges over all texts, with and without generated parts; there is no test of the generator.", "anchors": ["tools/generate_all.py", "doc/getting_started.qbk"]}
{"id": "C85", "title": "Only what a parser looks at matters", "statement": "If a parser finishes with the beginning of a text without looking beyond it, then for every text with that beginning it has the same outcome: the same result and position with all the unseen text remaining, the same error at the same position, the same compile error, or the same endless recursion. A longer beginning gives the same. entire_input accepts nothing without looking at what follows; keyword looks no further than the first wrong character or the end of the keyword; repeated<space> looks up to the first character that is no space.", "quantifier": "all parsers, grammars, beginnings and continuations; the user's own parsers must be like this too", "why_tests_cant": "Ranges over all continuations of a text: tests parse texts that end somewhere.", "anchors": ["include/boost/metaparse/v1/one_char.hpp", "include/boost/metaparse/v1/empty.hpp", "include/boost/metaparse/v1/keyword.hpp", "include/boost/metaparse/v1/entire_input.hpp", "include/boost/metaparse/v1/repeated.hpp"]}
{"id": "C86", "title": "The order of the alternatives of one_of matters only where they overlap", "statement": "For two lists with the same alternatives, in any order and number: one_of compiles for both or for neither, accepts for both or for neither, and when it rejects the position of the error is the same. If at most one alternative accepts, for instance because they begin with different characters, the result and what remains are the same too; if the alternatives that fail furthest have the same message, so is the message (C++11, C++14). Without this both do depend on the order.", "quantifier": "all lists of alternatives, texts and positions", "why_tests_cant": "Ranges over all orders of all lists of parsers, and over all texts.", "anchors": ["include/boost/metaparse/v1/cpp11/one_of.hpp", "include/boost/metaparse/v1/cpp98/impl/one_of.hpp", "include/boost/metaparse/v1/cpp11/impl/eval_later_result.hpp"]}
{"id": "C87", "title": "Parsers are put together as texts are", "statement": "If it is known for the parts which texts they read as which values and which texts they reject, then the same is known for sequence, nth_of, first_of, last_of, middle_of, one_of, foldl, foldr, repeated, repeated1, token, transform and entire_input of them: the texts of the whole are the texts of the parts put together. What a parser reads is unambiguous: of one text it reads only one beginning, as one value. So a printer that writes values in the form of a parser built like this is inverted by entire_input of the parser, and writes different values differently.", "quantifier": "all parsers whose outcome does not depend on the position, all texts, values and printers", "why_tests_cant": "Ranges over all parsers built from described parts, all printers and all values.", "anchors": ["include/boost/metaparse/v1/cpp11/sequence.hpp", "include/boost/metaparse/v1/cpp11/one_of.hpp", "include/boost/metaparse/v1/foldl.hpp", "include/boost/metaparse/v1/token.hpp", "include/boost/metaparse/v1/middle_of.hpp", "include/boost/metaparse/v1/entire_input.hpp", "include/boost/metaparse/v1/transform.hpp", "include/boost/metaparse/v1/repeated.hpp"]}
{"id": "C88", "title": "The two kinds of benchmark files have the same strings", "statement": "tools/benchmark/generate.py writes a benchmark with the strings as BOOST_METAPARSE_STRING and as instances of the string template. Both have the same text with the same strings of the same characters at the same places. random_string never fails and is the string of the characters that were drawn. (Not so for hexadecimal escape sequences and apostrophes that are not escaped, which random_string never writes, and for trigraphs, which it may write.)", "quantifier": "all documents, all strings, all statistics and all numbers drawn", "why_tests_cant": "Ranges over all documents and all strings; a wrong conversion compiles and measures something else.", "anchors": ["tools/benchmark/generate.py"]}
{"id": "C89", "title": "Benchmark strings have the characters of the statistics", "statement": "Of the numbers random_chars draws from, exactly as many give a character as the statistics count it; characters that would need a hexadecimal escape sequence are never drawn, and every number in range gives a character.", "quantifier": "all statistics and all numbers", "why_tests_cant": "Ranges over all statistics; the strings are random, so a wrong distribution is seen by no test.", "anchors": ["tools/benchmark/generate.py", "tools/benchmark/char_stat.py"]}
{"id": "C90", "title": "Benchmark files do not replace each other", "statement": "The names of generated files differ when the template, the value of n or the mode does, and differ from the names of the descriptions. So in the end every file has what was written for its template, value and mode, and the files a description names are those.", "quantifier": "all lists of templates with different names, all values and modes", "why_tests_cant": "Ranges over all names of templates, also ones with digits and underscores.", "anchors": ["tools/benchmark/generate.py"]}
{"id": "C91", "title": "Printed durations are at most a second too short", "statement": "format_time prints different units, longest first, with the right plurals, and what it prints is never longer than the duration and shorter by at most one second. Whole seconds are printed exactly, except when one second of a minute is left, which is not printed.", "quantifier": "all durations that are rational numbers of seconds", "why_tests_cant": "Ranges over all durations; the lost second is only seen at the boundaries.", "anchors": ["tools/benchmark/benchmark.py"]}
{"id": "C92", "title": "What was accepted is not given back", "statement": "How much a parser accepts does not depend on what comes after it: after a fold or repetition the repeated parser rejects, so repeated<p> followed by p never accepts; one_of and optional commit to what they accepted, and an error after it is the error of the whole. A common beginning of all alternatives of one_of can be put before it without changing what is accepted, rejected or returned; putting a common end after it accepts nothing new, but may accept less, and the reported error need not be the furthest one.", "quantifier": "all parsers, inputs and environments", "why_tests_cant": "Ranges over all parsers and inputs; whether a grammar rewriting is safe can not be settled by samples.", "anchors": ["include/boost/metaparse/v1/foldl.hpp", "include/boost/metaparse/v1/optional.hpp", "include/boost/metaparse/v1/cpp11/one_of.hpp", "include/boost/metaparse/v1/cpp11/last_of.hpp"]}
{"id": "C93", "title": "The class templates of the headers implement the parsers", "statement": "For every class written with the parsers of the C++11 headers (also recursively, and with metafunction classes of the user), instantiating the class templates of the headers by the rules of the language gives v::apply<S, Pos>::type exactly as the semantics of the parsers says: the same accept or reject with the same value, rest, message and position, ill-formed exactly when it is said to be, and endless instantiation exactly when it is said to be (the typedef int_: when the number does not overflow). build_parser gives the value, and on a rejection the class that shows line, column and message.", "quantifier": "all classes written with the parsers of the headers, all strings and positions, all metafunction classes of the user", "why_tests_cant": "The tests instantiate some expressions; that the chain of helper templates, specialisations and inheritance of every header gives the documented result for all arguments ranges over infinitely many expressions.", "anchors": ["include/boost/metaparse/v1/foldl.hpp", "include/boost/metaparse/v1/foldr_start_with_parser.hpp", "include/boost/metaparse/v1/cpp11/impl/nth_of_c.hpp", "include/boost/metaparse/v1/cpp11/sequence.hpp", "include/boost/metaparse/v1/impl/iterate_impl.hpp", "include/boost/metaparse/v1/build_parser.hpp", "include/boost/metaparse/v1/entire_input.hpp", "include/boost/metaparse/v1/keyword.hpp"]}
{"id": "C94", "title": "The class templates of grammar implement grammars", "statement": "For every chain grammar<Start>::rule<\u2026>::import<\u2026>\u2026, with any texts, actions and imported parsers, instantiating the class templates of grammar.hpp (the parser of the rule texts, the metafunction classes it applies, the maps of rules and actions, get_parser) gives ::apply<S, Pos>::type exactly as the semantics of grammars says: the parser of the start symbol by the last rule of every name, with its action; ill-formed for a text that is no rule and for a name without a rule; endless for a name that is defined by itself. build_parser of the chain gives the value.", "quantifier": "all chains of rules, actions and imports, all strings and positions", "why_tests_cant": "The tests have a few grammars; that the templates read every rule text as the grammar of rules says and put the parsers together accordingly ranges over all texts and all chains.", "anchors": ["include/boost/metaparse/v1/grammar.hpp", "include/boost/metaparse/v1/build_parser.hpp"]}
{"id": "C95", "title": "The class templates of the C++98 headers implement the parsers", "statement": "With the headers of C++98 (the variants in cpp98/, made by repetition of the preprocessor up to the limits BOOST_METAPARSE_LIMIT_STRING_SIZE, _SEQUENCE_SIZE, _ONE_OF_SIZE, _ONE_CHAR_EXCEPT_SIZE), for every value of the limits: a class written with the parser templates, with no more arguments than the limits allow, has ::apply<S, Pos>::type exactly as the semantics says (accepted with the value, the rest and the position; rejected with the message and the position; ill-formed; endless), for every string S shorter than the limit that does not end with BOOST_NO_CHAR, and for every other input that behaves as a sequence of characters. (The typedef int_: when the number does not overflow.) build_parser gives the value or asks for PARSING_FAILED with line, column and message. A parser within the limits, written with the headers of C++98 and with those of C++11, has the same outcome with both, except for the messages of rejections.", "quantifier": "all values of the four limits, all parser classes within them, all such inputs and positions", "why_tests_cant": "The tests run with one value of the limits and a few parsers; that the repetitions cover every number of arguments at every limit, and that strings padded with BOOST_NO_CHAR are read as the characters they stand for, ranges over all limits and all strings.", "anchors": ["include/boost/metaparse/v1/cpp98/sequence.hpp", "include/boost/metaparse/v1/cpp98/impl/sequence_impl.hpp", "include/boost/metaparse/v1/cpp98/impl/one_of.hpp", "include/boost/metaparse/v1/cpp98/impl/nth_of_c_impl.hpp", "include/boost/metaparse/v1/cpp98/string.hpp", "include/boost/metaparse/v1/cpp98/impl/size.hpp", "include/boost/metaparse/v1/cpp98/one_char_except_c.hpp"]}
{"id": "C96", "title": "The class templates of strings implement the sequence operations of MPL", "statement": "With the headers of C++11 and, for every value of BOOST_METAPARSE_LIMIT_STRING_SIZE above one, with those of C++98: for every class string<...> the classes mpl::push_back, push_front, pop_back, pop_front, clear, size, empty, front, back, at, begin, end and equal_to of it, and mpl::next, prior, advance, distance, deref and equal_to of its iterators, have the ::type that the operations of the models of C40, C41 and C44 give, or are ill-formed where those are. So for the class of a text: pushing c to the end gives the class of the text with c at its end, popping removes it, size, empty, front, back and at give what the text has, two strings are equal exactly if their texts are, and a string never equals a class with another tag. In C++98 this is for texts shorter than the limit without BOOST_NO_CHAR; the class of a text as long as the limit has no size, end, empty, back, push_back or pop_back.", "quantifier": "all limits, all character sequences, all positions and all classes with a value", "why_tests_cant": "The tests use a handful of literals and one limit; the C++98 specialisations are generated for every length up to the limit and one of them that is wrong shows only for strings of that length.", "anchors": ["include/boost/metaparse/v1/cpp11/string.hpp", "include/boost/metaparse/v1/cpp98/string.hpp", "include/boost/metaparse/v1/impl/string_iterator.hpp", "include/boost/metaparse/v1/cpp98/impl/update_c.hpp", "include/boost/metaparse/v1/cpp98/impl/size.hpp", "include/boost/metaparse/v1/cpp98/impl/pop_back.hpp", "include/boost/metaparse/v1/cpp98/impl/push_back_c.hpp", "include/boost/metaparse/v1/cpp11/impl/pop_back.hpp", "include/boost/metaparse/v1/cpp11/impl/at_c.hpp"]}
{"id": "C97", "title": "The class templates of util compute what they are named after, for every class with a value", "statement": "With the headers of C++98 and C++11, for every class v whose ::type has a ::value c (whether v is a character or a metafunction that has not been evaluated): util::is_digit, is_lcase_letter, is_ucase_letter, is_letter and is_whitespace of v have the ::type bool_<true> or bool_<false> that the value c deserves; digit_to_int<v> is int_<c - '0'> for a digit and the class error::digit_expected otherwise; int_to_digit<v> is char_<'0' + n> for 0..9 and ill-formed otherwise; digit_to_int<int_to_digit<v>> is the number; in_range<l, u, x> compares integral constants on both sides, inclusively. Each of them is also a metafunction class: is_digit<>::apply<v> and so on have the same ::type, and in_range may be given none, one or two of its arguments before apply is given the rest.", "quantifier": "all classes with a value, all values", "why_tests_cant": "The tests use a few characters, and the error of digit_to_int and the partial applications of in_range are checked on single values.", "anchors": ["include/boost/metaparse/v1/util/is_digit.hpp", "include/boost/metaparse/v1/util/is_letter.hpp", "include/boost/metaparse/v1/util/is_lcase_letter.hpp", "include/boost/metaparse/v1/util/is_ucase_letter.hpp", "include/boost/metaparse/v1/util/is_whitespace.hpp", "include/boost/metaparse/v1/util/digit_to_int.hpp", "include/boost/metaparse/v1/util/int_to_digit.hpp", "include/boost/metaparse/v1/util/int_to_digit_c.hpp", "include/boost/metaparse/v1/util/in_range.hpp", "include/boost/metaparse/v1/util/in_range_c.hpp"]}
{"id": "C98", "title": "The build environment that is checked out is the one that was recorded", "statement": "tools/build_environment.py, with any git that does what git checkout, fetch and show-ref do and for every file of dependencies with relative names: after --action checkout without an exception every repository that the file names (the empty name is Boost itself) is at the commit the file names; the file is unchanged; clone, submodule init, submodule update and one checkout for each entry were run, and nothing else. After --action update without an exception the file names the same repositories with the commits their remote repositories have for the reference, so that a later checkout with this file, with another git and in another directory, gives these commits. Whatever git does, a run other than update leaves the file as it was. (That a run with an exception leaves the file as it was is false of update: the file is emptied before the commits are asked for, so a failing git fetch loses it and every further run fails; proved by witness, and the exact outcomes are proved.)", "quantifier": "all files, all sets of repositories, every order of the dictionary, all behaviours of git", "why_tests_cant": "The script has no tests; what it does depends on git, the network and the order of a dictionary, and the loss of the file needs a command that fails in the middle.", "anchors": ["tools/build_environment.py: load_json, ChildProcess, head_of_master, build_environment", "tools/deps.json"]}
{"id": "C99", "title": "The header that tools/string_headers.py writes is a program in which BOOST_METAPARSE_STRING gives the characters of the literal", "statement": "Take the text that generate_string writes for any increasing, positive length limits (those of every command line are; with a maximum of 2048 and a step of 128 the text is cpp11/impl/string.hpp of the repository), run the preprocessor over it with BOOST_METAPARSE_LIMIT_STRING_SIZE defined as some limit, read the declarations that are left, expand BOOST_METAPARSE_STRING applied to a literal and evaluate the outcome: if the limit is at most one of the length limits, a literal of at most so many characters gives string<...> of exactly its characters, in order, with the null characters inside it and at its end, and a longer literal does not compile; if the limit is larger than all length limits the preprocessor stops with an error. The outcome is the one of the model of the macro used for C42 and C43. On Sun's compiler, for which the header leaves specialisations out, the same holds for literals of less than 128 characters; longer ones never compile, whatever the limit.", "quantifier": "all lists of increasing positive length limits, all limits, all literals", "why_tests_cant": "The tests include the one header that is in the repository, with one limit, and a few literals; the script itself has no tests. A wrong index or a missing specialisation shows up only for literals of particular lengths with particular limits.", "anchors": ["tools/string_headers.py: Namespace, IncludeGuard, macro_name, define_macro, unique_names, generate_take, generate_make_string, generate_string", "cpp11/impl/string.hpp", "cpp11/impl/string_at.hpp", "cpp11/impl/concat.hpp", "string.hpp"]}
{"id": "C100", "title": "The headers can be included in any order and are complete", "statement": "Take any list of headers of the library that are for the user (all but those below cpp98, cpp11, cpp14 and impl), in any order and with repetitions, any compiler and Boost.Config, and any values the user has set for BOOST_METAPARSE_STD and the limits (the one for strings at most 2048). Including the headers does not stop with an error: no macro is defined while it is there already, no macro is expanded without being defined, no #error is reached. Every name of the library is declared before it is mentioned and nothing is defined twice. A template that a header mentions is also defined when any header defines it (but for build_parser in debug_parsing_error.hpp and source_position in source_position_tag.hpp). Each header declares the name it is called after or defines the macro it is there for; boost/metaparse.hpp does so for all of them but v1/swap.hpp and string_value.hpp. The order and the repetitions change neither the names nor the macros that are there at the end. BOOST_METAPARSE_STD is what the user has set or what the compiler has, the macros of the user are not changed, and the text for one standard is not read for another. What the replacement of a macro needs is there (two exceptions are named), and the macros that a header undefines are gone.", "quantifier": "all lists of headers for the user, all compilers and configurations, all settings of the user", "why_tests_cant": "Each test file includes a few headers in one order with one configuration; the tests cannot try all orders, all subsets and all compilers. A missing include shows up only when no other header happened to bring the name in.", "anchors": ["include/boost/metaparse.hpp", "include/boost/metaparse/*.hpp", "include/boost/metaparse/v1/*.hpp", "include/boost/metaparse/v1/fwd/*.hpp", "include/boost/metaparse/v1/error/*.hpp", "include/boost/metaparse/v1/util/*.hpp", "include/boost/metaparse/v1/impl/*.hpp", "include/boost/metaparse/v1/cpp98/**", "include/boost/metaparse/v1/cpp11/**", "include/boost/metaparse/v1/cpp14/**", "include/boost/metaparse/config.hpp"]}
{"id": "C101", "title": "No use of a class template is ambiguous", "statement": "Take any class template of the library (with the headers of C++11, and with those of C++98 for every value of the limits) or any member template of one, and any arguments. When definitions of it, the primary one or partial specialisations, fit the arguments, then exactly one of those that fit is more specialised than all the others: the compiler takes it, and the use of the template is not ambiguous. It is the definition that comes first in the order of the model, so the instantiation of C93 to C97 takes the definition that C++ takes. The only exception is mpl::equal_to of a string and an iterator of a string, which is ambiguous.", "quantifier": "all class templates of the library, all arguments, all limits", "why_tests_cant": "A test instantiates a template with a few arguments. Whether two partial specialisations overlap without one being more specialised shows only with arguments that fit both; with repetitions of the preprocessor the number of specialisations depends on the limits.", "anchors": ["include/boost/metaparse/v1/**/*.hpp", "include/boost/metaparse/v1/cpp98/impl/size.hpp", "include/boost/metaparse/v1/cpp98/sequence.hpp", "include/boost/metaparse/v1/cpp98/one_char_except_c.hpp", "include/boost/metaparse/v1/impl/string_iterator.hpp", "include/boost/metaparse/v1/cpp11/string.hpp"]}
{"id": "C102", "title": "The diagrams of the benchmarks show the measurements of the generated files", "statement": "tools/benchmark/benchmark.py measures the files that generate.py writes, in a random order, and plots a diagram for every template. Whatever the order is: where the compiler has no string literal templates, the diagram of a template has one curve for each of its modes, with the name of the mode, and the point of a curve at n is the measurement of the file that was generated for n in this mode, for every n in ascending order. Where it has them, a template with the mode BOOST_METAPARSE_STRING has one more curve, the measurements of the same files with string literal templates. Needed: no mode twice, and neither bmp nor slt in the name of a template; there are templates with such names for which there is no diagram or a wrong value is shown. Where string literal templates work for some files only, or a template has no values of n, there is no diagram but an exception.", "quantifier": "all templates, all orders of the files, all measurements", "why_tests_cant": "The scripts have no tests; whether files of different templates and modes are mixed up depends on their names and on the order of the measurements, which is random.", "anchors": ["tools/benchmark/benchmark.py: benchmark, files_in_dir, plot_temp_diagrams, plot", "tools/benchmark/generate.py: main, out_filename"]}
{"id": "C103", "title": "The diagrams are joined side by side", "statement": "join_images of tools/benchmark/benchmark.py puts any list of pictures side by side: every picture is shown completely, unchanged, at the top and to the right of all pictures before it; the whole is as wide as the pictures together and as high as the highest of them, and black below the others. Only for no pictures at all is there none.", "quantifier": "all lists of pictures of all sizes", "why_tests_cant": "There are no tests; every run has two pictures of one size.", "anchors": ["tools/benchmark/benchmark.py: join_images"]}
{"id": "C104", "title": "The statistics of characters count every character of every file", "statement": "generate_statistics of tools/benchmark/char_stat.py, applied to a directory tree of any depth, has each character that is in the files exactly once, with the number of its occurrences in all of them, and no other character; the order in which the directories are read does not matter. With these statistics generate.py draws every character that it can write as often as it is in the sources: of as many equally likely numbers as there are such characters in the sources, as many give the character as it has occurrences.", "quantifier": "all directory trees, all contents, all characters", "why_tests_cant": "There are no tests; the claim is about all trees and a distribution.", "anchors": ["tools/benchmark/char_stat.py: count_characters, generate_statistics", "tools/benchmark/generate.py: random_chars, nth_char"]}
{"id": "C105", "title": "The comments of a benchmark template say what is generated", "statement": "For a template of tools/benchmark with lines of Unix or Windows: the values of n are a, a + s, a + 2s, ... below b for the first comment // n in [a..b), step s; a step of 0 and a template without such a comment are errors. A property is what is after the colon of the first comment // name: value, without the blanks before it (those at the end stay); a property without a comment is an error. The modes are the names after // modes:, with commas between them and white space ignored; anything else there is an error. The templates are the files of the directory with the extension cpp. So the templates have different names and no value of n twice, which is what the names of the files (C90) and the diagrams (C102) need.", "quantifier": "all texts of templates, all directories", "why_tests_cant": "There are no tests; the regular expressions are tried on the three templates of the repository only.", "anchors": ["tools/benchmark/generate.py: in_comment, Template, Mode, templates_in, main"]}
{"id": "C106", "title": "A measurement is the mean of the runs, and a compiler that complains is not measured", "statement": "benchmark_file of tools/benchmark/benchmark.py: when the compiler writes nothing (or only blanks), the two numbers of /usr/bin/time are taken; when it writes anything else, in lines of its own, and when it fails, there is an exception and no number. For any positive repeat count the result is the mean of the times and of the memory (in megabytes), which is between the smallest and the largest of the measured values; a run that cannot be measured or leaves no object file is an exception. The object file that is removed after every run is the one of the source. A repeat count of 0 is an exception; a negative one measures nothing and gives 0 for everything. The progress of the runs grows within the range of the file.", "quantifier": "all outputs of the compiler, all repeat counts, all measurements", "why_tests_cant": "There are no tests; the claim is about everything a compiler can write and about any number of runs.", "anchors": ["tools/benchmark/benchmark.py: benchmark_command, benchmark_file"]}
{"id": "C107", "title": "The progress of the benchmarks never falls and stays below 100 %", "statement": "While tools/benchmark/benchmark.py measures the files that generate.py writes, in any order, the progress at the beginning of a measurement is never smaller than at the beginnings before, also when string literal templates turn out not to work and the number of files is reduced. It stays below 100 % where string literal templates work for all files with BOOST_METAPARSE_STRING and where they work for none; where they work for some only, it may be above 100 %.", "quantifier": "all templates, all orders of the files, all outcomes of the measurements", "why_tests_cant": "There are no tests; the order of the files is random and what fails depends on the compiler.", "anchors": ["tools/benchmark/benchmark.py: benchmark"]}
{"id": "C108", "title": "Every benchmark gets its page and its picture, named after the compiler", "statement": "plot_diagrams of tools/benchmark/benchmark.py writes, for configurations with different names that are not empty and no absolute paths, a page and a picture for each of them, none of which overwrites another: the page has the description, the compiler, the memory in gigabytes (rounded up) and a link to the picture of the same configuration, the picture has its two diagrams. The temporary pictures are removed, every other file stays as it was. The compiler is named after the first version of gcc or clang in what it writes, with all parts of the version number, or otherwise after the command; in the names of files every character of a blank, tilde, parenthesis, slash and backslash is an underscore and all others stay. Different compilers may have the same files.", "quantifier": "all lists of configurations, all outputs of the compiler, all directories", "why_tests_cant": "There are no tests; files that overwrite each other show only with certain names, and the regular expression is tried on the compilers of the author only.", "anchors": ["tools/benchmark/benchmark.py: compiler_info, string_char, make_filename, plot_diagram, plot_diagrams"]}
{"id": "C109", "title": "The text of sequence_apply hands over the results in order", "statement": "The class templates sequence_apply1, sequence_apply2, ... of sequence_apply.hpp, as the preprocessor writes them, in C++11 and C++98: sequence_applyN<T, P1, ..., PN>::apply<S, Pos>::type accepts with T<V1, ..., VN> of the results V1, ..., VN of the parsers and the rest of the last one when they accept one after the other, and rejects with the message and the position of the first parser that rejects. Where one of the parsers is ill-formed or needs endless instantiations, so does it. There is no sequence_apply0 and none for the limit of sequences and above.", "quantifier": "all parsers that can be written, all inputs, all numbers of parsers, all limits in C++98", "why_tests_cant": "Tests use fixed numbers of parsers and fixed inputs; the templates are written by the preprocessor for numbers up to the limit.", "anchors": ["include/boost/metaparse/v1/sequence_apply.hpp", "include/boost/metaparse/v1/transform.hpp", "include/boost/metaparse/v1/cpp11/sequence.hpp", "include/boost/metaparse/v1/cpp98/sequence.hpp"]}
{"id": "C110", "title": "A run of the generator of the tutorial changes only what it generates", "statement": "main of tools/generate_all.py, for any text of the tutorial and wherever the run stops: only headers in the directory of the headers, before_N.qbk with a number N, copies NAME_k.qbk and the tutorial itself can be other files than before. It succeeds for every well-written tutorial if no directory has the name of a generated file. Then there is exactly one header for every numbered section and no other header, whatever was there before; the headers have the definitions before their section, the pages and copies that are due are there, and the text has everything the author wrote. A second run succeeds as well and a third changes no file. Pages and copies that are no longer generated are not deleted. If the generator raises an exception for the text, all headers are gone and everything else is as before; with a directory named like a header it never writes anything.", "quantifier": "all contents of the disk, all tutorials, all orders of directory listings and dictionaries", "why_tests_cant": "There is no test of the generator; the claim is about every file and every text.", "anchors": ["tools/generate_all.py: main, delete_old_headers, write_file, write_files", "doc/getting_started.qbk", "example/getting_started"]}
