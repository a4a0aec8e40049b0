# Formal model of boost::metaparse: design

## What is modelled

Metaparse is a library of *compile-time* parsers: a parser is a template
metafunction class, `P::apply<S, Pos>` is a class whose `::type` is either
`accept<Result, Remaining, Pos>` or `reject<Message, Pos>`.  "Running" a parser is
instantiating templates, so besides accepting and rejecting there are two more
observable outcomes: the program is ill-formed (missing specialisation, missing
`::type`, signed overflow in a constant expression, failed static assertion), and
the instantiation recurses without end (the compiler stops at its depth limit).

The model is an interpreter for parser expressions:

* `Out α` – `ok a`, `ill fault` (program ill-formed), `deep` (depth limit hit).
* `Val` – the C++ classes parsers compute with.  `Val.force` is `T::type`; a class
  without a `::type` (such as `void`) and a nullary metafunction that is ill-formed
  when evaluated are values too, because the library passes classes around
  unevaluated and evaluates them at specific points.
* `Pos`, `Msg`, `Res` – source positions, error messages, `accept`/`reject`.
* `Input I` – what the library uses of an input sequence (`mpl::empty`,
  `mpl::front`, `mpl::pop_front`), for an arbitrary representation `I`.
* `P` – syntax of parser expressions, one constructor per primitive combinator;
  the derived parsers (`digit`, `int_`, `token`, `repeated`, ...) are definitions
  over `P` exactly as in the headers.  `P.ref i` is a forward-declared user class
  (this is how recursive parsers are written), `P.native i` is an arbitrary
  user-written parser, user metafunctions are arbitrary Lean functions.
* `step` – one layer of template instantiation, a match over `P` transcribing each
  header.  `eval n` iterates it `n` times (n is the template depth); `run` is the
  limit over all depths, with `deep` meaning that no depth suffices.

The implementation standard (C++98 or C++11/14 headers) and the configuration limits
are parameters of the environment `Env`.

The specifications speak about a parser only through `Accepts`, `Rejects`,
`IllFormed` and `Diverges` of the whole parser (`Spec/Outcome.lean`), never through
`step` or the definitions of the model.

## Trusted base

* Lean's kernel, and the axioms `propext`, `Classical.choice`, `Quot.sound` (see the
  list at the end; no axioms of our own, no `sorry`, no `native_decide`/`bv_decide`,
  no Mathlib).
* That the Lean definitions in `Verif/Model` transcribe the cited C++ lines and the
  C++ template rules: which template arguments force an instantiation, which partial
  specialisation is selected.  As evidence, `Verif/Tests` transcribes the unit tests in
  `/repo/test` that can be stated in the model (folds, parsers, strings, grammar, util),
  as `example`s checked by evaluation.  They are tests, not proofs, and no theorem
  depends on them.  They found one error in an earlier version of the model:
  `sequence<>` without parsers does compile in C++98.
* Boost.MPL is not in the repository; it is assumed to behave as documented:
  `if_`, `eval_if`, `vector`/`deque` with `push_back`/`push_front`, `fold`, `map`
  with `insert` (a later insertion of a key shadows an earlier one), `at`,
  `has_key`, arithmetic on `int_` (overflow in a constant expression is ill-formed).
* The transcription is not trusted but proved, for the C++11 headers (C93) and for the C++98 headers with every value
  of the limits (C95): the text of the headers
  is translated by a program, `/verif/translate` (`translate.py` writes `Names`, `Prelude`,
  `Support`, `Parsers`, `Grammar`, `Headers98` and `Library.lean` in `Verif/Model/Templates`, with the C++ text of every
  template as its comment), and the translated templates are proved to give what `step` says.
  Trusted there: the translator (including default arguments, which it fills in; that the order of
  specialisations in which it writes them does not matter is C101), the semantics of class templates in
  `Semantics.lean` (deriving from a class has its members, a class is instantiated when a member is
  needed, access control is ignored), the few templates of MPL and of the user in
  `translate/mpl.hpp` and `translate/user.hpp`, which are written from the documentation of MPL
  (`eval_if` and others as derivation, `mpl::tag<T>` as `T::tag`), and numbers without bounds in constant expressions
  (so `int_` is compared with a fold without bounds, and `C93_int` says that it is the same
  where there is no overflow).  For `grammar` (C94), `mpl::map` is the list of its pairs, the one inserted last first, and `mpl::lambda` of a
  metafunction class is the class; an action that is a placeholder expression is not covered.
  For C++98 (C95) the repetitions of the preprocessor are translated as lists over the value of the limit,
  `mpl::vector` is assumed to have no limit of its own that is smaller, `mpl::na` at the end of its arguments is no element,
  and a string longer than the limit cannot be written.
  The kind of ill-formedness is not compared.  Not translated:
  `debug_parsing_error`, `define_error`, `string` (the macro),
  `string_value` and `cpp14`.
* Formatting of `int` and C strings by `std::ostream` (C54), matching by
  boost::xpressive (C62), calling through function objects at run time (C61, C63).

## Modelled and not modelled

Modelled (every definition in `Verif/Model` cites file and lines; paths are relative to
`/repo/include/boost/metaparse/v1` unless they start with `/repo`):

* all headers of `include/boost/metaparse/v1` and its directories `cpp11`, `cpp14`,
  `cpp98`, `impl`, `error`, `util`, except those listed below;
* `tools/string_headers.py` (`length_limits` and the use of it in `main`; the text that is written, C99);
* `tools/generate_all.py` (all functions but the command line; an exception is `none` or ends the run, white space
  is that of Python 2);
* `tools/benchmark/generate.py` (all functions but `regex_to_error_msg`, which makes the text of an exception, and the command line; what Cheetah makes of
  a template is given),
  `char_stat.py` (but the text it writes) and `benchmark.py` (all functions; what the compiler
  and `time` write is given, of a drawing only the curves are modelled);
* the examples calculator, calculator_with_parens, calculator_with_parens_and_unary_ops,
  meta_lambda, compile_to_native_code, regexp, binary_number, rational, minimal_rational,
  constexpr_parser, grammar_calculator, meta_metaparse, getting_started, parsing_error and meta_hs;
* the equivalences stated in the reference pages `doc/*.qbk`.

Not modelled:

* `include/boost/metaparse/*.hpp` and `fwd/*`, except for C100: they only bring the names of `v1` into
  `boost::metaparse` or declare them.  The number in `version.hpp`.  The iteration of
  `BOOST_PP`: its expansion is what is modelled, with the limits as parameters.
* Placeholder expressions of MPL in place of a metafunction class.  (The forms of `util/*.hpp` for `mpl::na` are
  modelled, C97.)
* `impl/has_type.hpp`, `impl/returns.hpp`, `impl/assert_string_length.hpp`: no header
  uses them.  `string_value.hpp`: an object of the string class, without state.
  Work-arounds for MSVC and SunPro.
* Compiler limits other than the recursion depth.
* `main` of `tools/build_environment.py`; of `tools/benchmark/benchmark.py` running the compiler, drawing, the
  command line and what is printed (other than the progress and `format_time`).

Simplifications:

* Line and column are unbounded integers although the code uses `int`.  `C02_pos_bounded`
  bounds them by the start plus the number of consumed characters, so no overflow is
  possible on inputs shorter than INT_MAX.
* Characters are modelled by their integer value; conversions to `char` are the identity.
* `sequence_applyN` is modelled for every N in C53, the headers define it for
  `1 ≤ N < LIMIT_SEQUENCE_SIZE` (C109).
* The instantiation depth is counted in layers of `step`, not in the units of a
  compiler; only "some depth suffices" and "no depth suffices" are used.

## Layout

* `Verif/Model/*.lean` – the model.
* `Verif/Spec/*.lean` – small independent specifications (what a line terminator is,
  decimal value, "successive application", printers, ...).
* `Verif/Lemmas/*.lean` – helper lemmas.
* `Verif/Props/*.lean` – the property theorems, each with a concrete instance.
* `translate/` – the translator of the headers for C93 to C97, C101 and C109 (`python3 translate.py DIR` writes the seven
  files again, `bodies.py` the lemmas that give the bodies of the templates).
* `Verif/Tests/*.lean` – the repository's unit tests, run on the model.
* `seeded/LOG.jsonl` – the wrong programs tried: the model edited like a realistic bug, and
  the theorems that no longer hold.

A property that the code violates is refuted by a theorem with a witness, and what does
hold is proved under a name with the suffix `_partial` or as the exact behaviour.

## Per property

Files are under `lean/Verif`; "by" says what the proof rests on. The statement itself is in
`properties.jsonl`, the exact theorem names are those in `MANIFEST.json`.

### C01 one_char consumes exactly the first character — proved

*Modelled as:* `P.oneChar` on an arbitrary input (`Input I`): position moved by `next_pos`, `next_char`, `next_line` as in the headers.
*By:* unfolding `run` at the primitive; the specification gives the three cases of the next character.
*Theorems:* `C01_oneChar_accepts`, `C01_oneChar_rejects`, `C01_oneChar_total`

### C02 The remaining input is always a suffix and the position always matches what was consumed — proved

*Modelled as:* every parser expression `P`, with user-written parsers and error handlers arbitrary but honest (they return a suffix of their input and the position moved over what they consumed).
*By:* induction on the depth, one case per combinator (`Lemmas/Honest`, `Lemmas/Invariant`).
*Theorems:* `C02_suffix_and_position`, `C02_no_move_iff_nothing_consumed`, `C02_pos_bounded`

### C03 A reported error lies inside the text that was parsed — proved

*Modelled as:* as C02, for rejections: the error position is the start moved over some prefix of the text.
*By:* the same induction.
*Theorems:* `C03_error_inside`, `C03_error_between`

### C04 Line numbers count line terminators of all three conventions — proved

*Modelled as:* specification counts line terminators (LF, CR, CR LF) by pattern matching on the text; positions as computed by the code.
*By:* induction on the text, lifted to all parsers by C02.
*Theorems:* `C04_line_of_text`, `C04_line`, `C04_error_line`

### C05 Column numbers restart at every line — partial

*Modelled as:* as C04 for the column. False after CR LF (`C05_column_refuted`): the LF moves the column of the new line. The exact column is proved for all texts, and the claim for texts without CR LF (suffix `_partial`). What is missing cannot be proved: the code does not have the property.
*By:* induction on the text.
*Theorems:* `C05_column_refuted`, `C05_column_exact`, `C05_column_partial`, `C05_column_of_parser_partial`

### C06 Source positions are totally ordered and the order follows the text — proved

*Modelled as:* `less`, `equal_to` and the others on positions, as in the code; order on (line, column).
*By:* arithmetic; monotonicity by induction on the consumed text.
*Theorems:* `C06_less_strict_total`, `C06_comparisons_consistent`, `C06_less_lexicographic`, `C06_move_forward`, `C06_order_follows_text`

### C07 The outcome does not depend on the instantiation depth — proved

*Modelled as:* `eval n`: instantiation cut off at depth `n`. `run` is the limit over all depths.
*By:* monotonicity of `step` in the flat order of outcomes.
*Theorems:* `C07_depth_independent`, `C07_outcome_unique`, `C07_run_is_limit`

### C08 Parsing does not depend on where in a file the text starts — proved

*Modelled as:* two runs of one parser from different positions.
*By:* relational induction on the depth (`Lemmas/Sim`).
*Theorems:* `C08_position_independent`, `C08_accepts`, `C08_rejects`, `C08_compiles`, `C08_needs_hypothesis`

### C09 C++98, C++11 and C++14 builds accept the same language — proved

*Modelled as:* one parser under the C++98 and the C++11/14 headers; messages are erased on both sides because they do differ (shown by witnesses).
*By:* relational induction on the depth.
*Theorems:* `C09_same_but_message`, `C09_same_language`, `C09_same_error_position`, `C09_cpp11_cpp14`, `C09_messages_differ`, `C09_beyond_limits`

### C10 Well-formed grammars always finish — proved

*Modelled as:* `WellFormed`: no repetition over a parser that can accept without consuming, no left recursion (a rank on the classes); also a computable check.
*By:* well-founded induction on (remaining length, rank, structure).
*Theorems:* `C10_fold1_consumes`, `C10_nested_repetition_finishes`, `C10_well_formed_finishes`, `C10_rules_finish`, `C10_checkable`, `C10_folding_empty_diverges`, `C10_repeating_empty_diverges`, `C10_left_recursion_diverges`

### C11 Repeating a parser that consumes nothing never finishes — proved

*Modelled as:* a fold over a parser that accepts without consuming from some point on.
*By:* induction on the depth: no depth suffices.
*Theorems:* `C11_foldl`, `C11_foldl_diverges`, `C11_foldl_reject_incomplete`, `C11_foldr_start_with_parser`, `C11_foldr`, `C11_foldl_start_with_parser`, `C11_repeated`

### C12 foldl is the left fold over the maximal run — proved

*Modelled as:* `MaximalRun`: the parser accepts again and again with results `vs` and then rejects; `leftFold`.
*By:* induction on the run and on the depth, both directions.
*Theorems:* `C12_foldl_accepts`, `C12_foldl_never_rejects`, `C12_foldl_function`

### C13 foldl1 needs at least one element — proved

*Modelled as:* as C12, the non-empty variants, which are macros over the others as in the headers.
*By:* C12 and `ifAccepts`.
*Theorems:* `C13_foldl1`, `C13_foldl1_accepts`, `C13_foldr1`, `C13_reject_incomplete1`

### C14 repeated collects every result in order — proved

*Modelled as:* `repeated*` as folds with `push_back`.
*By:* C12, C16.
*Theorems:* `C14_repeated`, `C14_repeated1`, `C14_repeated_rejects`, `C14_repeated_one_of`

### C15 foldr is the right fold over the maximal run — proved

*Modelled as:* as C12 with `rightFold`, including which states are evaluated.
*By:* induction on the run.
*Theorems:* `C15_foldr_accepts`, `C15_foldr_never_rejects`, `C15_foldr_function`, `C15_same_extent`

### C16 The reject_incomplete folds accept exactly when the last element did not fail half way — proved

*Modelled as:* the variants that fail when the repeated parser fails in the middle, C++11 and C++98 forms.
*By:* induction on the run.
*Theorems:* `C16_foldl_reject_incomplete_accepts`, `C16_foldl_reject_incomplete_rejects`, `C16_foldr_reject_incomplete_accepts`, `C16_foldr_reject_incomplete_rejects`, `C16_repeated_reject_incomplete`, `C16_repeated_reject_incomplete1`

### C17 The documented equivalences of the reject_incomplete folds hold — proved

*Modelled as:* the documented equivalences between folds, with the operation allowed to be ill-formed.
*By:* induction on the run; counterexample when the operation itself errors.
*Theorems:* `C17_foldl_equivalence`, `C17_foldr_equivalence`, `C17_operation_errors_matter`

### C18 The start_with_parser folds take their state from the text — proved

*Modelled as:* `foldl_start_with_parser`, `foldr_start_with_parser`.
*By:* unfolding and C12/C15.
*Theorems:* `C18_foldl_start_with_parser`, `C18_foldl_start_with_parser_rejects`, `C18_foldr_start_with_parser`, `C18_foldr_start_with_parser_rejects`, `C18_greedy`, `C18_foldl_reject_incomplete_start_with_parser`, `C18_foldl_reject_incomplete_start_with_parser_rejects`

### C19 one_of is ordered choice — proved

*Modelled as:* `one_of` for both standards (variadic recursion and numbered templates).
*By:* induction on the list of alternatives.
*Theorems:* `C19_oneOf_accepts`

### C20 one_of reports the error that got furthest — proved

*Modelled as:* which error `one_of` reports: the furthest, with the tie rule of each standard.
*By:* induction on the list.
*Theorems:* `C20_oneOf_rejects_iff`, `C20_oneOf_furthest`, `C20_oneOf_message_at_start`, `C20_oneOf_message_at_start_98`, `C20_oneOf_message_differs`

### C21 one_of evaluates every alternative — proved

*Modelled as:* instantiation of all alternatives.
*By:* induction on the list.
*Theorems:* `C21_oneOf_evaluates_all`

### C22 sequence collects one result per parser — proved

*Modelled as:* `InSequence`: parsers accept one after the other; limits of C++98 as `SupportsSequence`.
*By:* induction on the list.
*Theorems:* `C22_sequence_accepts`, `C22_sequence_rejects`, `C22_sequence_fails`, `C22_sequence_limit98`

### C23 nth_of, first_of and last_of select one result of the whole sequence — proved

*Modelled as:* `nth_of`, `first_of`, `last_of`.
*By:* induction on the list, C22. `Props/ClassArguments` has the same for `nth_of`.
*Theorems:* `C23_nth_of_accepts`, `C23_nth_of_otherwise`, `C23_nthOf_accepts`, `C23_nthOf_rejects`, `C23_nthOf_fails`, `C23_firstOf_accepts`, `C23_firstOf_rejects`, `C23_lastOf_accepts`, `C23_lastOf_rejects`

### C24 An index outside the parser list is rejected, not misparsed — proved

*Modelled as:* `nth_of<N, ...>` and `nth_of_c` for every integer index, both standards.
*By:* case analysis on the index against the number of parsers.
*Theorems:* `C24_nth_of_out_of_range`, `C24_index_out_of_range`

### C25 middle_of returns the middle and names the opening bracket — proved

*Modelled as:* `middle_of` and its error message.
*By:* case analysis on the three parsers. `Props/ClassArguments` has the same for `nth_of`.
*Theorems:* `C25_middleOf_accepts`, `C25_middleOf_rejects`

### C26 iterate applies a parser an exact number of times — proved

*Modelled as:* `iterate`/`iterate_c` with an integer count, negative ones included.
*By:* induction on the count. `Props/ClassArguments` has the same for `iterate`.
*Theorems:* `C26_iterate_class`, `C26_iterate_class_negative`, `C26_iterate_accepts`, `C26_iterate_rejects`, `C26_iterate_negative`

### C27 keyword accepts exactly its text — proved

*Modelled as:* `keyword` over a text, with the parser that must follow.
*By:* induction on the keyword.
*Theorems:* `C27_keyword_accepts`, `C27_keyword_rejects`, `C27_keyword_total`

### C28 Character parsers accept exactly their class — proved

*Modelled as:* each character parser as a condition on the next character, with its error message.
*By:* unfolding; for `one_of_c`, `alphanum` via C19/C20. `Props/ClassArguments` has `one_char_except` and `util::in_range`.
*Theorems:* `C28_lit`, `C28_range`, `C28_digit`, `C28_letter`, `C28_space`, `C28_one_char_except`, `C28_alphanum`, `C28_one_of_c`, `C28_exactly`, `C28_one_char_except_class`, `C28_in_range`

### C29 token strips all and only trailing whitespace — proved

*Modelled as:* `token`, `space`, `spaces`: longest prefix of white space by `dropWhile`.
*By:* C12 and C28.
*Theorems:* `C29_token_accepts`, `C29_token_rejects`, `C29_token_idempotent`, `C29_token_documentation_refuted`

### C30 int_ computes the decimal value — proved

*Modelled as:* `int_`: decimal value of the longest run of digits; overflow of `int` makes the program ill-formed.
*By:* induction on the digits.
*Theorems:* `C30_int_accepts`, `C30_int_overflow`, `C30_int_rejects`

### C31 Printing then parsing an int returns it — proved

*Modelled as:* an independent decimal printer; `int_` on the printed number followed by arbitrary text.
*By:* C30 and induction on the number.
*Theorems:* `C31_int_roundtrip`

### C32 digit_to_int and int_to_digit are inverse on digits and undefined elsewhere — proved

*Modelled as:* `digit_to_int`, `int_to_digit`, `digit_val` and the predicates of `util`, on all characters and integers.
*By:* case analysis.
*Theorems:* `C32_digit_to_int`, `C32_int_to_digit`

### C33 entire_input accepts only when everything was consumed — proved

*Modelled as:* `entire_input` with the default or a given message.
*By:* unfolding, C23 and C35.
*Theorems:* `C33_entireInput_accepts`, `C33_entireInput_rejects`

### C34 build_parser delivers the result or a compile error naming line, column and message — proved

*Modelled as:* `build_parser`: result, or the error class that appears in the compiler message.
*By:* unfolding.
*Theorems:* `C34_buildParser_accepts`, `C34_buildParser_rejects`, `C34_buildParser_fails_iff`, `C34_reported_line_column`

### C35 Looking never consumes — proved

*Modelled as:* `look_ahead`, `empty`, `except`, `if_`, `return_`, `fail`, `start`: the remaining input is the input.
*By:* unfolding of each.
*Theorems:* `C35_return_accepts`, `C35_return_total`, `C35_fail_rejects`, `C35_fail_total`, `C35_lookAhead_accepts`, `C35_lookAhead_rejects`, `C35_except_accepts`, `C35_except_rejects`, `C35_if_accepts`, `C35_if_never_rejects`, `C35_optional_accepts`, `C35_optional_never_rejects`, `C35_empty_accepts`, `C35_empty_rejects`, `C35_failures_pass`

### C36 transform and always change only the result — proved

*Modelled as:* `transform`, `always`, `always_c`, the metafunction arbitrary.
*By:* unfolding.
*Theorems:* `C36_unless_error`, `C36_transform_accepts`, `C36_transform_rejects`, `C36_transform_illFormed`, `C36_always_accepts`, `C36_always_rejects`, `C36_transform_id`, `C36_transform_comp`, `C36_always_is_transform`

### C37 Error transformers change only errors — proved

*Modelled as:* `change_error_message`, `transform_error`, `transform_error_message`, the handlers arbitrary.
*By:* unfolding.
*Theorems:* `C37_changeErrorMessage_accepts`, `C37_changeErrorMessage_rejects`, `C37_transformErrorMessage_accepts`, `C37_transformErrorMessage_rejects`, `C37_transformError_of_accepts`, `C37_transformError_of_rejects`

### C38 accept_when filters results — proved

*Modelled as:* `accept_when`, the predicate arbitrary.
*By:* unfolding.
*Theorems:* `C38_acceptWhen_accepts`, `C38_acceptWhen_rejects`

### C39 fail_at_first_char_expected distinguishes failing at once from failing half way — proved

*Modelled as:* `fail_at_first_char_expected` and its use in the `reject_incomplete` folds.
*By:* unfolding, C16.
*Theorems:* `C39_offset_zero`, `C39_failAtFirstCharExpected_accepts`, `C39_failAtFirstCharExpected_rejects`

### C40 Compile-time strings obey the list laws (C++11) — proved

*Modelled as:* the variadic string as a list of characters; every MPL operation of the headers.
*By:* induction on the list. `Props/ClassArguments` has `unless_error`.
*Theorems:* `C40_list_laws`, `C40_concat`, `C40_no_meaning`, `C40_c_str`, `C40_input`, `C40_parses_as_text`

### C41 C++98 strings implement the same strings below the size limit — proved

*Modelled as:* the C++98 string as an array of `LIMIT_STRING_SIZE` characters with padding; every numbered specialisation as a function of the limit.
*By:* refinement of C40 below the limit; each boundary case as a theorem of its own.
*Theorems:* `C41_list_laws`, `C41_input`, `C41_full_string_fails`, `C41_full_string_does_not_parse`, `C41_push_front_full_drops`, `C41_padding_is_lost`, `C41_no_meaning`

### C42 BOOST_METAPARSE_STRING yields exactly the literal — proved

*Modelled as:* `BOOST_METAPARSE_STRING`: `take`, `string_at`, concatenation, for all limits.
*By:* strong induction on the length.
*Theorems:* `C42_macro_of_limits`, `C42_string_literal`, `C42_larger_limit`, `C42_injective`

### C43 The string header generator covers the requested limit — proved

*Modelled as:* `length_limits` of `tools/string_headers.py` with Python's `range`.
*By:* arithmetic; refutation by a witness and the exact set.
*Theorems:* `C43_limits`, `C43_shipped`, `C43_covered`, `C43_requested_limit`, `C43_not_covered`, `C43_step_one`, `C43_smaller_limits`

### C44 String iterators are random access iterators over the string — proved

*Modelled as:* string iterators as (string, index).
*By:* arithmetic.
*Theorems:* `C44_advance_distance`, `C44_distance_fails`, `C44_steps`, `C44_equal`, `C44_deref`, `C44_iterate`

### C45 Parsing depends only on the characters of the input, not on its representation — proved

*Modelled as:* `Represents`: an input type simulates a list of characters.
*By:* relational induction on the depth; instances for both string types.
*Theorems:* `C45_representation`, `C45_accepts`, `C45_rejects`

### C46 The rule language of grammar is the documented one — proved

*Modelled as:* the rule parser of `grammar` as a `P` expression; an independent inductive grammar of rule texts with white space.
*By:* soundness and completeness by induction on derivations and on the length.
*Theorems:* `C46_rule_language`, `C46_parseRule`, `C46_not_a_rule`, `C46_unambiguous`, `C46_standard_independent`, `C46_name`

### C47 Printing then parsing a rule expression returns it — proved

*Modelled as:* a printer with minimal brackets and arbitrary blanks.
*By:* induction on expressions, C46.
*Theorems:* `C47_round_trip`, `C47_every_rule_can_be_written`, `C47_fewest_brackets`, `C47_writable_iff`

### C48 A grammar behaves as the combinators its rules denote — proved

*Modelled as:* `grammar` as association maps compiled to `P`; independent denotation of expressions as combinators.
*By:* induction on expressions and on the reachability depth.
*Theorems:* `C48_built_parser`, `C48_grammar`

### C49 Later rules replace earlier ones, but actions persist — proved

*Modelled as:* `rule`, `import`, semantic actions as map updates.
*By:* C48 and lookup lemmas.
*Theorems:* `C49_last_definition`, `C49_compiles`, `C49_order_irrelevant`

### C50 Recursive rules in grammar never compile — proved

*Modelled as:* compilation of a grammar, ill-formed or endless when recursion or an undefined name is reached.
*By:* induction on the reachability relation.
*Theorems:* `C50_buildable`, `C50_recursive_never_compiles`

### C51 Parsing a rule text always finishes — proved

*Modelled as:* instance of C10 for the rule parser.
*By:* the computable check of C10, C03.
*Theorems:* `C51_rule_parser_finishes`, `C51_error_inside`

### C52 The calculator example computes the value of the expression — proved

*Modelled as:* the calculator with brackets and unary minus, transcribed as recursive classes; an independent type of formulae with printer and evaluation in `int`.
*By:* induction on formulae; converse by inversion of each level.
*Theorems:* `C52_calculator`, `C52_unambiguous`, `C52_finishes`, `C52_compile_error`, `C52_written`

### C53 sequence_apply passes the results in order — proved

*Modelled as:* `sequence_apply1..N`.
*By:* C22.
*Theorems:* `C53_sequenceApply_accepts`, `C53_sequenceApply_rejects`

### C54 debug_parsing_error prints the outcome of the parse — proved

*Modelled as:* `debug_parsing_error` as the bytes it prints; an independent reader of the report.
*By:* unfolding; injectivity of the report.
*Theorems:* `C54_failure`, `C54_success`, `C54_reports_iff`, `C54_build_parser`, `C54_message_texts`, `C54_unambiguous`, `C54_success_unambiguous`

### C55 Parsers do not interfere with each other — proved

*Modelled as:* two environments that agree on the classes, parsers and handlers a parser uses (`P.Uses`).
*By:* relational induction on the depth.
*Theorems:* `C55_modular`, `C55_closed`

### C56 The equivalences of the reference — proved

*Modelled as:* the definitions in the reference pages of doc/, transcribed next to the code; those that are wrong are refuted.
*By:* the theorems of the combinators on both sides.
*Theorems:* `C56_keyword`, `C56_optional`, `C56_always`, `C56_foldl1`, `C56_foldr1`, `C56_repeated1`, `C56_foldl_reject_incomplete1`, `C56_foldr_reject_incomplete1`, `C56_repeated_reject_incomplete`, `C56_repeated_reject_incomplete1`, `C56_foldl_reject_incomplete_start_with_parser`, `C56_nth_of_c`, `C56_iterate_c`, `C56_entire_input`, `C56_last_of`, `C56_if`, `C56_empty`, `C56_lit`, `C56_digit`, `C56_alphanum`, `C56_one_of_c`, `C56_if_documentation_refuted`, `C56_last_of_documentation_refuted`, `C56_middle_of_documentation_refuted`, `C56_int_documentation_refuted`, `C56_repeated_documentation_refuted`, `C56_lit_documentation_refuted`, `C56_digit_documentation_refuted`, `C56_one_of_c_documentation_refuted`, `C56_alphanum_documentation_refuted`, `C56_accept_when_documentation_refuted`, `C56_sequence_apply_documentation_refuted`

### C57 Equivalent parsers can replace each other everywhere — proved

*Modelled as:* `Equivalent` parsers in any context, and in the bodies of recursive classes.
*By:* congruence of each combinator; approximation by depth for the classes.
*Theorems:* `C57_compositional`, `C57_congruence`, `C57_replace_everywhere`, `C57_replacement_sound`, `C57_unrestricted_refuted`

### C58 Algebraic laws of the combinators — proved

*Modelled as:* laws between combinators; the false ones are refuted by witnesses.
*By:* the theorems of the combinators on both sides.
*Theorems:* `C58_look_ahead_idempotent`, `C58_optional_absorbs`, `C58_always_absorbs`, `C58_change_error_message_absorbs`, `C58_transform_fusion`, `C58_accept_when_fusion`, `C58_last_of_flatten`, `C58_sequence_append`, `C58_keyword_append`, `C58_one_of_flatten`, `C58_one_of_return`, `C58_one_of_superfluous`, `C58_left_factoring`, `C58_middle_of`, `C58_left_factoring_on_text`, `C58_token_idempotent`, `C58_token_transform`, `C58_entire_input_absorbs`, `C58_one_of_flatten_cpp98_refuted`, `C58_left_factoring_message_refuted`, `C58_one_of_single_refuted`

### C59 The direction of a fold only matters when the operation makes it matter — proved

*Modelled as:* `foldl` and `foldr` with commuting or associative operations.
*By:* induction on the run.
*Theorems:* `C59_order_irrelevant`, `C59_swap`, `C59_direction_matters`

### C60 The calculators evaluate arithmetic formulae — proved

*Modelled as:* the calculators without and with brackets; formulae by levels (`Lemmas/Levels`, `Lemmas/Formula`).
*By:* induction on formulae and inversion.
*Theorems:* `C60_calculator`, `C60_calculator_with_parens`, `C60_finishes`, `C60_parens_finishes`, `C60_compile_error`, `C60_brackets_extend`, `C60_unary_operators_extend`

### C61 Functions parsed from text compute what the text says — proved

*Modelled as:* meta_lambda and compile_to_native_code; C++ integer arithmetic for `int`, an arbitrary carrier for the other types.
*By:* the formula language of C60 with another algebra.
*Theorems:* `C61_meta_lambda_compiles`, `C61_meta_lambda_applies`, `C61_native_compiles`, `C61_native_int`, `C61_native_other_types`, `C61_native_literal_division`

### C62 The regular expressions of the example — proved

*Modelled as:* the regexp example: the parser, and the run time matching of the expression it builds (boost::xpressive is assumed to match the empty expression, a character, a dot and concatenation as documented).
*By:* induction on the text in both directions.
*Theorems:* `C62_regexp`, `C62_matches`, `C62_comment`, `C62_finishes`

### C63 The examples that parse numbers compute what the text denotes — proved

*Modelled as:* binary_number, minimal_rational, rational; the run time class of the latter.
*By:* C12, C30, `Lemmas/Levels`.
*Theorems:* `C63_binary`, `C63_binary_comment`, `C63_minimal_rational`, `C63_rational`, `C63_rational_extends`, `C63_rational_run`, `C63_space_after_slash`, `C63_finish`

### C64 Template and constexpr parsing of a* b* a* agree — proved

*Modelled as:* the three implementations of the constexpr_parser example, the terminating NUL of the literal included.
*By:* C12, C22, C26; induction on the text for the `constexpr` function.
*Theorems:* `C64_parser`, `C64_mixed`, `C64_constexpr`, `C64_constexpr_ignores`, `C64_constexpr_checks_less`

### C65 The calculator written as a grammar — proved

*Modelled as:* the actions (MPL placeholder expressions evaluated inside out), the chain of rule texts, the grammar used as a parser.
*By:* the rule texts are run through the rule parser (C46), the parser built is named (C48), then the language of two levels of operators; formulas are unambiguous, shown with a third parser.
*Theorems:* `C65_grammar_calculator_only_formulas`, `C65_grammar_calculator`, `C65_grammar_calculator_correct`, `C65_grammar_calculator_incomplete`

### C66 The functions parsed by a grammar — proved

*Modelled as:* the same for the grammar of meta_metaparse with its imported parser; the classes and their call operators are those of C61.
*By:* as C65; C61 for the calls.
*Theorems:* `C66_meta_metaparse_compiles`, `C66_meta_metaparse_int`, `C66_meta_metaparse_other_types`, `C66_same_as_handwritten`

### C67 The sums of the tutorial — proved

*Modelled as:* exp_parser1 to exp_parser14 with their lambda expressions and metafunctions.
*By:* the items taken are the longest prefix (`Lemmas/Chains`); the folds are then sums or left to right evaluation; finishing by the check of C10.
*Theorems:* `C67_numbers`, `C67_two_numbers`, `C67_list`, `C67_number_and_sum`, `C67_sum`, `C67_ignores_operators`, `C67_plus_minus`, `C67_no_precedence`, `C67_finishes`, `C67_compile_error`

### C68 Precedence, associativity and unary minus of the tutorial — proved

*Modelled as:* exp_parser15 to exp_parser18; an inductive grammar of expressions by level, dialect and depth of brackets (`TutorialText`).
*By:* what a parser reads is an expression (`OnlyReads`), it stops at no shorter one (`AtLeast`), and on the longest it has the value (`Exact`), level by level; unambiguity from the texts alone. exp_parser17: the runs of foldr, in both directions.
*Theorems:* `C68_unambiguous`, `C68_precedence`, `C68_division`, `C68_unary_minus`, `C68_right_sound`, `C68_right`, `C68_finishes`, `C68_compile_error`, `C68_incomplete_product`

### C69 Brackets in the expressions of the tutorial — proved

*Modelled as:* exp_parser19 to exp_parser23, the recursive classes included.
*By:* the levels of C68 for one depth of brackets; induction on the length of the text (what is read is an expression) and on the depth (expressions are read); error positions from C02/C03; finishing by the check of C10.
*Theorems:* `C69_one_pair`, `C69_one_pair_value`, `C69_two_pairs`, `C69_brackets`, `C69_no_expression`, `C69_two_ways`, `C69_same_error`, `C69_complete`, `C69_value`, `C69_sound`, `C69_finishes`, `C69_compile_error`, `C69_missing_expression`, `C69_nested`, `C69_unfinished_overflow`, `C69_incomplete`, `C69_error_differs`

### C70 The errors of the last parser of the tutorial — proved

*Modelled as:* exp_parser23; the set of prefixes of expressions is defined from the grammar of C68 and C69 alone.
*By:* what the parser does depends on the text read and one more character (`Lemmas/Lookahead`); the text before an error can be continued to an expression (`Lemmas/Viable`); an expression that nothing can continue is read to its end (`Lemmas/ReadsTo`); counting brackets makes the message unique (`Lemmas/Balance`).
*Theorems:* `C70_accepts`, `C70_error`, `C70_one_message`, `C70_outcome`, `C70_not_closed`, `C70_incomplete_product`, `C70_not_twenty`, `C70_rest_ignored`, `C70_overflow_first`

### C71 Types of results and of compile errors — proved

*Modelled as:* types are predicates on results; inductive typing rules, one per parser, with conditions on the functions of the user (`Spec/Typing`).
*By:* induction on the depth of instantiation, inside it on the derivation.
*Theorems:* `C71_result`, `C71_fault`, `C71_build_parser`, `C71_tutorial`, `C71_calculators`, `C71_each_happens`, `C71_untyped`

### C72 The parser of meta_hs — proved

*Modelled as:* the tokens, levels and actions of meta_hs; an inductive grammar of texts with white space and what follows (`Spec/MetaHs`). That a name in C++98 can only have as many characters as `BOOST_METAPARSE_LIMIT_STRING_SIZE` is not modelled.
*By:* soundness by induction on the depth of instantiation, completeness by induction on derivations; trees are injective; finishing by the theorem behind the check of C10.
*Theorems:* `C72_sound`, `C72_complete`, `C72_trees`, `C72_unambiguous`, `C72_standards`, `C72_finishes`, `C72_compile_error`, `C72_not_equal`, `C72_if_glued`, `C72_if_name`, `C72_if_overflow`

### C73 The example parsing_error — proved

*Modelled as:* the parser of the example and the report of C54.
*By:* C14, C22, C28, C54.
*Theorems:* `C73_compiles`, `C73_error`, `C73_texts`, `C73_report`, `C73_program`

### C74 Programs of meta_hs compute what they say — proved

*Modelled as:* bind, lazy::value, lazy::application, curry, the builder and the templates of meta_hs as questions about classes (members, ::type, ::apply), answered to any depth; `Spec/MetaHsEval` has the call by name semantics. Arithmetic on two truth values (of type bool in C++) is treated as an error on both sides, imported templates compute int from ints, limits on the depth are not modelled.
*By:* `answer` is a fixed point (limits of chains). Soundness by induction on the depth, with a relation between classes and sets of results; completeness by induction on the evaluation. `C74_parameter`, `C74_number`, `C74_no_parameters` show what fails outside.
*Theorems:* `C74_unique`, `C74_sound`, `C74_correct`, `C74_builds`, `C74_complete`, `C74_exact`, `C74_parameter`, `C74_number`, `C74_no_parameters`

### C75 The functions of meta_hs and those made by hand — proved

*Modelled as:* the texts of the example and the functions made by hand.
*By:* C74 for the program of the example, then induction on the argument.
*Theorems:* `C75_fib`, `C75_fact`, `C75_times4`, `C75_times11`, `C75_handcrafted`

### C76 The library recognises parsing expression grammars — proved

*Modelled as:* Ford's definition of parsing expressions and what a parser that writes an expression is (`Spec/Peg`). The number of elements of sequence, nth_of and one_of has to be supported.
*By:* soundness by induction on the depth of instantiation, completeness by induction on the derivation with all alternatives finishing; on well-formed grammars every expression parses or fails, by induction on the length of the text and the order of the rules. `C76_not_well_formed` is the grammar for which it fails.
*Theorems:* `C76_accepts`, `C76_rejects`, `C76_compiles`, `C76_sound`, `C76_unambiguous`, `C76_well_formed`, `C76_not_well_formed`, `C76_abc`

### C77 Left recursion never compiles — proved

*Modelled as:* what has to be applied to the same text, as an inductive relation (`Spec/LeftRecursion`).
*By:* a result at some depth gives a result of the parser itself at a smaller one; infinite descent.
*Theorems:* `C77_left_recursion`, `C77_propagates`

### C78 The depth of instantiation is linear in the length of the text — proved

*Modelled as:* the depth of `eval` (nested `::apply` of parsers; helper templates inside one parser are not counted).
*By:* as for C10, with a bound: the nesting inside the parsers plus what may be called before consuming, once for each character; the constant of the rules by induction on the order of C10. Lower bound by induction on the elements.
*Theorems:* `C78_linear`, `C78_repetition`, `C78_right_fold`, `C78_no_limit`

### C79 The number of instantiations is polynomial in the length of the text — proved

*Modelled as:* which applications of parsers an application needs, one case per parser (`Spec/Instantiations`); `C79_enough` ties it to the model. That a compiler instantiates a template once for the same arguments is part of C++, helper templates are not counted.
*By:* finitely many parsers can be read off from the grammar, the rest are the states of folds, at most one for each character from each starting point; a list closed under calls.
*Theorems:* `C79_enough`, `C79_quadratic`, `C79_linear`, `C79_sharing`

### C80 A header of the tutorial has what was defined before its section — proved

*Modelled as:* `tools/generate_all.py` function by function (`Model/GenerateAll`); on doc/getting_started.qbk the model writes byte for byte the committed text, 38 headers, 32 pages and 41 snippets. Specification: tutorials as pieces, a preprocessor with include guards, words (`Spec/GenerateAll`).
*By:* the loop of `parse_md` on printed tutorials gives the tagged commands; stable sorting of increasing numbers is the identity; the include chain by induction on the sections, with the set of defined guards as invariant.
*Theorems:* `C80_headers`, `C80_runs`, `C80_same_number_loses`

### C81 The pages of definitions have what was defined before their section — proved

*Modelled as:* as for C80.
*By:* `so_far` as a function of the sections before; the words of its code lines.
*Theorems:* `C81_pages`, `C81_no_other_pages`

### C82 The generator of the tutorial can be run again on its own output — proved

*Modelled as:* the same model; the specification says which lines are generated (`Spec/GenerateAgain`), independently of the generator. The lines of doc/getting_started.qbk satisfy the hypotheses (checked with a script).
*By:* a simulation line by line: a run on a line and the second run on what was written for it, with a third run on the original line that skips blank lines after links; `parse_md` finds the same in both; what is kept by an induction over the lines with the flags of both loops.
*Theorems:* `C82_keeps`, `C82_second_run`, `C82_fresh`, `C82_not_idempotent`

### C83 The notes of the tutorial link to the page of their section — proved

*Modelled as:* the same model, with the specification of the notes in `Spec/GenerateNotes`.
*By:* the classification of lines and of what is written for them from C82; pages and sections with definitions are the same by induction over the sections; the two regular expressions for numbers.
*Theorems:* `C83_notes`, `C83_included`, `C83_two_digits`

### C84 The copy-paste friendly versions of the tutorial have the commands of the snippets — proved

*Modelled as:* the same model, with the specification of copies, links and includes in `Spec/GenerateSnippets`, which uses none of its functions. The lines of doc/getting_started.qbk satisfy the hypotheses (checked with a script).
*By:* the loop of the generator is put in relation to the same loop over the lines of the author alone (`run_snippets`), whose snippets are then computed by induction over the pieces of the tutorial (`plain_doc`); witnesses for what happens without the hypotheses.
*Theorems:* `C84_snippets`, `C84_links`, `C84_examples`, `C84_words_merge`, `C84_commands_merge`, `C84_last_session`, `C84_exception`

### C85 Only what a parser looks at matters — proved

*Modelled as:* all parsers, over an input that is the beginning of a text: `is_empty`, `front` and `pop_front` of the empty list are a compile error of their own (`Spec/Unseen`), so that looking beyond the beginning is an outcome. The result of C++ templates that look at the end in a different way (e.g. overloads on the string type) is not modelled.
*By:* every layer of instantiation keeps the relation "looks beyond, or continues to" between the two inputs (`Lemmas/Unseen.step_ext`), by induction on the depth also for endless recursion; what looks beyond is computed by induction on the keyword and the text.
*Theorems:* `C85_unseen`, `C85_accepts`, `C85_rejects`, `C85_diverges`, `C85_longer`, `C85_entire_input`, `C85_keyword`, `C85_repeated_space`

### C86 The order of the alternatives of one_of matters only where they overlap — proved

*Modelled as:* one_of of all implementations, over any input.
*By:* from the characterisation of accepting (C19) and of the furthest error (C20) and the total order of positions (C06): these speak of the alternatives as a set, except for ties; witnesses for the ties.
*Theorems:* `C86_compiles`, `C86_accepts_some`, `C86_accepts`, `C86_position`, `C86_message`, `C86_first_characters`, `C86_order_matters`, `C86_message_order_matters`

### C87 Parsers are put together as texts are — proved

*Modelled as:* all implementations of these parsers; descriptions are in `Spec/Forms` and speak of texts and values only. The other folds and the user's own parsers have no theorem here.
*By:* one theorem per parser: the runs of the parts (`InSequence`, `Steps`, `FirstRejection`) are turned into texts put together, by induction on the list of parts or on the run; with these and C12-C36 the descriptions follow. Case: lists of numbers of any length.
*Theorems:* `C87_sequence`, `C87_nth_of`, `C87_middle_of`, `C87_one_of`, `C87_foldl`, `C87_foldr`, `C87_repeated`, `C87_repeated1`, `C87_token`, `C87_transform`, `C87_entire_input`, `C87_character`, `C87_int`, `C87_keyword`, `C87_unambiguous`, `C87_round_trip`

### C88 The two kinds of benchmark files have the same strings — proved

*Modelled as:* `Mode.convert_from`, `random_string`, `random_chars`, `format_character` of tools/benchmark/generate.py; the drawn numbers are given. The templates (Cheetah) are not modelled: any document will do. The specification has the literals of C++ without octal and hexadecimal escape sequences.
*By:* the first place of the macro is found because its first letter occurs in it only once; the loop over a literal by induction on its characters; the documents by induction. Literals and documents are shown to be unambiguous. Witnesses for what goes wrong.
*Theorems:* `C88_manual`, `C88_same`, `C88_unambiguous`, `C88_literals`, `C88_random`, `C88_random_manual`, `C88_hexadecimal`, `C88_apostrophe`, `C88_trigraphs`, `C88_no_trigraphs`

### C89 Benchmark strings have the characters of the statistics — proved

*Modelled as:* `nth_char` and `random_chars`; dictionaries as lists in any order.
*By:* `nth_char` is the element of the text with every character repeated as the statistics say; then counting by induction. That the drawn characters are the ones that can be written: a check of the 128 ASCII characters, and all others are formatted hexadecimal.
*Theorems:* `C89_frequency`, `C89_in_range`, `C89_out_of_range`, `C89_never`

### C90 Benchmark files do not replace each other — proved

*Modelled as:* `out_filename` and the loops of `main`; a file system is the list of what is written.
*By:* the name is split from the end: the mode has three letters, the number has no underscore.
*Theorems:* `C90_names`, `C90_sources`, `C90_descriptions`

### C91 Printed durations are at most a second too short — proved

*Modelled as:* `format_time` of tools/benchmark/benchmark.py; floating point numbers are rational ones (ticks of any length).
*By:* what is left is followed modulo a minute through the loop; the printed values and what is left add up by division with remainder.
*Theorems:* `C91_printed`, `C91_whole_seconds`, `C91_lost_second`, `C91_at_most_a_second`, `C91_not_carried`

### C92 What was accepted is not given back — proved

*Modelled as:* the parser model of C01-C79.
*By:* from the characterisations of the folds (C12-C18) and of one_of (C19, C20), which say with what the repetition ends and which alternative is taken; witnesses for what is lost.
*Theorems:* `C92_after_repetition`, `C92_repeated_then_one_more`, `C92_one_of_commits`, `C92_optional_commits`, `C92_common_beginning`, `C92_common_beginning_rejects`, `C92_common_end`, `C92_common_end_less`, `C92_furthest_lost`

### C93 The class templates of the headers implement the parsers — proved

*Modelled as:* the text of the C++11 headers, translated by `/verif/translate/translate.py` to data (`Verif/Model/Templates`, every template with its text in the comment), and a small semantics of class templates (`Semantics.lean`): choice of the specialisation by matching, members, bases, instantiation on use.
*By:* per header, what the templates need is computed symbolically; the instantiation up to depth n is related to `step` in both directions (what the templates give is given by the model, what the model gives at depth n is given by the templates at some depth), so that also endless instantiation agrees.
*Theorems:* `C93_apply`, `C93_faithful`, `C93_build_parser`, `C93_parsing_failed`, `C93_int`

### C94 The class templates of grammar implement grammars — proved

*Modelled as:* the text of `grammar.hpp`, translated like the headers of C93 (`Verif/Model/Templates/Grammar.lean`); chains of links are `Spec/TemplatesGrammar`. The values the rule parser builds are classes with an `apply`; `encUser` gives them the first numbers of the values of users.
*By:* the rule parser with the metafunction classes of the header and the one of the model run in step (a relation of values kept by every combinator), C93 gives the classes of the former; maps by induction on their pairs; `get_parser` by induction on the nested instantiations, in both directions, so that endless instantiation agrees; chains by induction.
*Theorems:* `C94_apply`, `C94_build_parser`, `C94_rules`, `C94_not_a_rule`

### C95 The class templates of the C++98 headers implement the parsers — proved

*Modelled as:* the text of the headers with those of `cpp98/` in place of those of `cpp11/`, translated like the headers of C93 (`Verif/Model/Templates/Headers98.lean`): a repetition of the preprocessor is a list of specialisations over the values of a limit, the limits are parameters; the arguments that are left out are filled with `mpl::na` or the other default. `Lang` chooses the headers, `Inputs` what is the input.
*By:* the proof of C93 is for both kinds of headers and every lawful input; what differs (lists of arguments, strings, `mpl::vector`s built from the back, `sequence_impl`, `one_of_fwd_op` folded from the left, `nth_of_c_impl`) by induction on the list or the limit in `Lists98`, `Functions98`, `Strings`, `Repeated`; that the strings shorter than the limit are such an input from `size`, `pop_front` and `at_c`. `C95_same_as_11` joins this with C93 and C09.
*Theorems:* `C95_apply`, `C95_build_parser`, `C95_parsing_failed`, `C95_int`, `C95_text`, `C95_faithful`, `C95_same_as_11`

### C96 The class templates of strings implement the sequence operations of MPL — proved

*Modelled as:* the translated text of `string.hpp`, `string_iterator.hpp` and what they include (as for C93 and C95), with the generic implementations of `mpl::size`, `empty`, `front`, `back`, `at`, `advance` and `distance` in `translate/mpl.hpp`. `std::is_same` is taken for `boost::is_same` (its `::type` has the same `value`). `c_str` is not translated, its model is that of C40 and C41.
*By:* every operation is unfolded to the specialisation that is chosen: by position for `at_c`, `update_c` and `size` of C++98, by induction for the packs of C++11 (`StringOps`, `StringMpl`); then the laws of C40 and C41.
*Theorems:* `C96_push_back`, `C96_push_front`, `C96_pop_back`, `C96_pop_front`, `C96_clear`, `C96_size`, `C96_elements`, `C96_ends`, `C96_iterators`, `C96_equal_to`, `C96_equal_to_other`, `C96_pushed`, `C96_popped`, `C96_asked`, `C96_equal`, `C96_full`

### C97 The class templates of util compute what they are named after, for every class with a value — proved

*Modelled as:* the translated text of `util/*.hpp` (as for C93); `mpl::less_equal` for integral constants is in `translate/mpl.hpp`.
*By:* the specialisations and defaults that are chosen are unfolded for an arbitrary class with a value (`UtilMeta`). The headers are the same for both languages, so the theorems are generic over the language.
*Theorems:* `C97_predicates`, `C97_digit_to_int`, `C97_int_to_digit`, `C97_int_to_digit_others`, `C97_inverse`, `C97_in_range`, `C97_in_range_steps`, `C97_in_range_c`

### C98 The build environment that is checked out is the one that was recorded — proved

*Modelled as:* all of `tools/build_environment.py` but `main` and what is printed (`Model/BuildEnvironment`): git is any function from commands to outputs or failures, the file is its text, `json` reads and writes objects of strings (escapes included). What is expected of git is `Works` in `Spec/BuildEnvironment`. Characters above 65535 are left out.
*By:* the script is run in a monad of state and exceptions; induction on the entries of the file, and a proof that reading gives back what was written.
*Theorems:* `C98_checkout`, `C98_update`, `C98_reproducible`, `C98_file_kept`, `C98_exception`, `C98_lost`, `C98_directory`, `C98_file_lost`

### C99 The header that tools/string_headers.py writes is a program in which BOOST_METAPARSE_STRING gives the characters of the literal — proved

*Modelled as:* the text of `generate_string` of `tools/string_headers.py` (`Model/StringHeaders`; it was compared with `cpp11/impl/string.hpp`: the same bytes), the part of the preprocessor (`Model/Preprocessor`) and of C++ (`Model/HeaderCpp`) that it is written in. `string`, `concat` and `string_at` are built in, as are the macros of the headers that are included and `BOOST_PP_CAT`; constants have no bounds; a limit is a decimal number without leading zeros.
*By:* the text is taken apart line by line for all length limits; the tokens of the program are parsed once; induction on the index macros for the expansion and on the rest of the literal for `make_string`.
*Theorems:* `C99_unique`, `C99_string`, `C99_too_long`, `C99_limit_too_large`, `C99_header`, `C99_sun_short`, `C99_sun_long`, `C99_limits`, `C99_generated`, `C99_shipped`, `C99_agrees`

### C100 The headers can be included in any order and are complete — proved

*Modelled as:* all 317 headers below `include/` as programs of the preprocessor: `#include`, conditions, `#define`, `#undef`, `#error`, and between them text, of which the names of the library that it declares, defines and mentions and the macros that it expands are kept (`Model/Inclusion`; `Model/InclusionData` is written by `translate/headers.py`, which is trusted: it decides what is a declaration, a definition or a mention of which name). The headers of Boost and of the standard library are not read; each of them may or may not bring in Boost.Config, the same for all inclusions of it. The text of a piece counts as one definition; numbered families of macros and templates (`x1`, `x2`, ...) are one name `x#`. A name that is mentioned is declared before, and defined somewhere in what has been included; that it is complete at the place where it has to be is not claimed. Templates for string literals are a feature of the compiler.
*By:* abstract interpretation, proved sound once for all programs: for each combination of standard and compiler (a mode) a certificate says which header defines what and what every header needs and leaves behind; a checker goes through the lines of each header once, and the kernel runs it for all modes. Sound for every state that fits, by induction on the depth of inclusion and on the lines; the properties are read off for all lists by induction.
*Theorems:* `C100_accepted`, `C100_offered`, `C100_whole`, `C100_whole_not_all`, `C100_defined`, `C100_order`, `C100_standard`, `C100_variants`, `C100_macros`, `C100_clean`, `C100_literals`

### C101 No use of a class template is ambiguous — proved

*Modelled as:* the specialisations of all translated class templates, as for C93 and C95, with the matching of arguments of `Model/Templates/Semantics`. "More specialised" is: everything that fits the one fits the other, and not the other way round; for these patterns that is what the partial ordering of C++ by deduction comes to. Templates that are not translated (see C93 to C97) are not covered, nor are the templates of Boost.MPL other than in the form of `translate/mpl.hpp`.
*By:* a check of two patterns, proved sound by induction on the patterns: nothing fits both, or the first is covered by the second; the kernel runs it for all pairs of definitions of all templates. The specialisations that are made by repetition (`size`, `sequence`, `nth_of_c`, `one_of_c`, `one_char_except`, ...) for all limits by hand: definition `n` fits the lists that are the default from place `n` on. Members by induction on the enclosing classes.
*Theorems:* `C101_unambiguous`, `C101_one`, `C101_ambiguous`

### C102 The diagrams of the benchmarks show the measurements of the generated files — proved

*Modelled as:* `files_in_dir`, the loop of `benchmark`, `plot_temp_diagrams` and what `plot` gets (`Model/BenchmarkRun`), with the files and configurations of `generate.py` as for C90. What measuring a file gives is a function of the file and of whether string literal templates are used; an exception is `none`. Drawing, the progress, the page and the command line are left out. A dictionary is a list in the order of its items; a new key is put at its end.
*By:* induction on the files: a result is changed only by its own file, as the names with `slt` are those of no other file (names taken apart at their underscores); the curves are read off for all values of n.
*Theorems:* `C102_without`, `C102_with`, `C102_sometimes`, `C102_named_slt`, `C102_named_bmp`, `C102_no_files`

### C103 The diagrams are joined side by side — proved

*Modelled as:* `join_images` (`Model/BenchmarkRun`); a picture is its size and a function from places to colours.
*By:* induction on the pictures that are pasted.
*Theorems:* `C103_side_by_side`, `C103_size`, `C103_below`, `C103_joined`

### C104 The statistics of characters count every character of every file — proved

*Modelled as:* all of `char_stat.py` but the command line and the text of `chars.py` (`Model/BenchmarkTemplate`). A path is a file, a directory or something else.
*By:* induction on the tree and on the contents; put together with C89.
*Theorems:* `C104_counts`, `C104_once`, `C104_order`, `C104_drawn`, `C104_total`

### C105 The comments of a benchmark template say what is generated — proved

*Modelled as:* `in_comment`, the regular expressions with greedy repetitions and backtracking, `splitlines`, `Template.range`, `property`, `modes` and `templates_in` (`Model/BenchmarkTemplate`). What Cheetah makes of a template is given. The error messages (`regex_to_error_msg`) are left out.
*By:* the matcher is proved sound for what the parts of a regular expression stand for; a well-written line is matched by the first attempt of every repetition; induction on the lines and on the list of modes.
*Theorems:* `C105_range`, `C105_no_step`, `C105_no_range`, `C105_property`, `C105_no_property`, `C105_modes`, `C105_some_mode`, `C105_templates`, `C105_distinct`, `C105_diagrams`

### C106 A measurement is the mean of the runs, and a compiler that complains is not measured — proved

*Modelled as:* `benchmark_command`, `benchmark_file` and what they get from the operating system: the text on the standard error and the files (`Model/BenchmarkMeasure`). `float` is any function that reads decimal numbers and refuses a line end inside; numbers are rational ones. That GNU time writes a line of its own when the command fails is part of the hypothesis of `C106_failed`.
*By:* the number of parts of `split` is counted; induction on the runs for the sums and their bounds; witnesses in the examples.
*Theorems:* `C106_silent`, `C106_noisy`, `C106_failed`, `C106_mean`, `C106_between`, `C106_no_value`, `C106_exception`, `C106_negative`, `C106_object`, `C106_progress`

### C107 The progress of the benchmarks never falls and stays below 100 % — proved

*Modelled as:* the loop of `benchmark` once more, with the ranges of the progress (`Model/BenchmarkMeasure`).
*By:* induction on the files, with the number of results and of files as invariant; a witness above 100 %.
*Theorems:* `C107_grows`, `C107_below`, `C107_above`

### C108 Every benchmark gets its page and its picture, named after the compiler — proved

*Modelled as:* `compiler_info`, `make_filename`, `plot_diagram` and `plot_diagrams` (`Model/BenchmarkMeasure`); a disk is a function from paths to contents, a picture is what it shows. Paths are compared as texts.
*By:* the matcher is shown to find the longest version at the first place (induction on the line); induction on the configurations, with the paths told apart by their ends and names.
*Theorems:* `C108_version`, `C108_unknown`, `C108_filename`, `C108_no_special`, `C108_pages`, `C108_same_name`

### C109 The text of sequence_apply hands over the results in order — proved

*Modelled as:* `sequence_apply.hpp`, translated as for C93 and C95. A class template `T` of the user is a number (5 or more, the smaller ones are values of the examples), `T<args>` is `user::value<T, args>`. For C++11 the limit is 5, the value that it has unless the user defines it; for C++98 it is any.
*By:* `sequence` and `transform` are those of C93 and C95; the elements are taken out of the vector by induction on it; the results are known to be as many as the parsers by C22.
*Theorems:* `C109_apply`, `C109_accepts`, `C109_rejects`, `C109_limit`

### C110 A run of the generator of the tutorial changes only what it generates — proved

*Modelled as:* `delete_old_headers`, `write_file`, `write_files` and `main` (`Model/GenerateMain`) on a disk that is a function from paths to files and directories; an exception ends the run and leaves what was done. The order of `os.listdir` and of dictionaries is any. Paths are a directory and a name; removing and writing fail only for directories.
*By:* the names of the generated files are told apart by their ends and beginnings, with induction on sections and lines; a run that succeeds is a composition of layers of files, which is idempotent; C80, C81, C82 and C84 give the contents.
*Theorems:* `C110_untouched`, `C110_runs`, `C110_headers`, `C110_definitions`, `C110_pages`, `C110_old_pages`, `C110_text`, `C110_copies`, `C110_again`, `C110_exception`, `C110_directory`

## Findings: disagreements between code, comments and documentation

Positions and messages

1. After CR LF the column is 2, not 1 (`one_char.hpp:31-44`): the LF after a CR moves the
   column (C05).
2. When all alternatives fail at the starting position, `one_of` reports
   `none_of_the_expected_cases_found` in C++11 and the message of the last alternative in
   C++98 (C09, C20); so do `alphanum` and `one_of_c`.
   In C++11 `one_of<p>` loses the message of `p`.  A nested `one_of<>` changes the message in C++98.
3. `last_of<>` reports an index range with −1 in C++98 and 0 in C++11 (C24).
4. `one_of` is not lazy: later alternatives are instantiated although an earlier one
   accepts, so an ill-formed later alternative breaks the program (C21).

Limits and strings

5. In C++98 `sequence`, `nth_of`, `first_of`, `last_of` and `sequence_applyN` support one
   parser less than `BOOST_METAPARSE_LIMIT_SEQUENCE_SIZE`; with the limit 1 there is no
   sequence at all (C22, C23).
6. The C++98 string (C41): a string that fills the limit has no size, end, emptiness or
   last element and cannot be parsed; `push_front` on it drops the last character; a
   trailing `'\xff'` (−1) is taken for padding; `front` and `at` in the padding compile;
   `pop_front` of the empty string compiles; the header is not valid for the limit 1.
7. `tools/string_headers.py` covers less than the requested maximum when the step
   divides the maximum minus one (C43).

Folds

8. `foldr` returns its initial state unevaluated while `foldl` evaluates it (C12, C15).
9. The documented equivalences of the `reject_incomplete` folds fail when the operation
   itself gives an error (C17).
10. `iterate` with a negative count never accepts (C26).

Grammar

11. The documented BNF of rules leaves out `|`; the names of the start symbol and of imports are
    the leading name of the given text, what follows is ignored (`rebuild` has no `entire_input`); no white space is allowed before a rule; an unescaped backslash
    is never accepted between quotes; names may start with digits (C46).
12. Recursive rules are not supported: they never compile (C50).
13. A semantic action of a name also applies to a parser imported under the name, and
    persists when the rule is redefined (C49).

Reference pages (C56)

14. Wrong or imprecise: if_ (says it consumes), last_of (index n), int_ and repeated (`_1` and
    `_2` swapped), sequence_apply (return_ at the start, indices), accept_when (p's own
    error), digit, lit, one_of_c (message on empty input), alphanum (order of the
    alternatives), foldl (base case), one_of (suggests lazy evaluation), token (documented
    with `spaces`, which needs at least one space), middle_of (message).
15. A class cannot be replaced by its own definition inside that definition (C57); left
    factoring changes the message (C58).

Printing

16. `debug_parsing_error` cuts the text at a NUL; on success it prints only the remaining
    text and not the result (C54).

Examples

17. The comments in calculator_with_parens (line 68) and calculator_with_parens_and_unary_ops
    (line 74) say prod_exp starts with int_token; the code uses simple_exp.
18. compile_to_native_code: an operator between two literals is computed in `int` even when
    the function is called with `double` (C61).
19. regexp: the grammar in the comment allows nested and empty brackets, the code does not;
    `r_append`'s `::type` swaps its arguments, without effect (C62).
20. binary_number: the comment allows the empty text, the code does not (C63).
21. rational: no space may follow the slash; denominator 0 compiles and throws when run (C63).
22. constexpr_parser: the `constexpr` parser does not look at the rest of the text (C64).
23. grammar_calculator: the file tests `BOOST_METAPARSE_STD` before including a header that
    defines it, so every compiler gets the `main` that asks for another compiler; C65 is
    about the code that was meant to be compiled.
24. grammar_calculator: `lazy_eval_if` is not lazy. Its arguments are placeholder
    expressions, which `mpl::lambda` evaluates first, so both branches are computed: "2*0"
    (divides by zero), "100000/100000" (the product overflows) and "2147483647-1" (the sum
    overflows) do not compile (C65). That `mpl::bind` evaluates nested binds first is taken
    from the MPL documentation.
25. grammar_calculator defines plus_token twice; the second definition has no action, the
    first one's stays in force (C49), so the calculator works (C65).
26. grammar_calculator and meta_metaparse do not accept blanks at the beginning, unlike the
    hand-written parsers (C65, C66).
27. getting_started: `5_2.hpp:10` includes `boost/metaparse/any.hpp`, which does not exist
    (also `doc/getting_started.qbk:560`); no Jamfile builds these headers. C67 and the
    properties after it are about the definitions.
28. getting_started: exp_parser12 adds the numbers after a minus sign, exp_parser14 has no
    precedence (C67). The tutorial says so itself.
29. getting_started: exp_parser17 does not take a summand that is an incomplete product: for
    "1 + 8 /" it gives 1, exp_parser16 gives 9 (C68). The tutorial only warns of this kind of
    behaviour later, in the section on errors.
30. getting_started: `primary_exp2` (`11.hpp:33`) uses `paren_exp2` instead of the recursive
    `paren_exp3`, so exp_parser19 does not read brackets in brackets (C69); the tutorial has
    the same definition (`doc/getting_started.qbk:1709`).
31. getting_started: `fail<missing_primary_expression>` as the last alternative of `one_of`
    has an effect in C++98 only: in C++11 and C++14 `one_of` replaces the message of
    alternatives that fail at their first character. The tutorial shows the message
    `missing_primary_expression` (C69).
32. getting_started: exp_parser22 rejects an incomplete sum but ignores an incomplete product:
    "1+2*" gives 3. exp_parser23 rejects both (C70).
33. getting_started: an overflow in a text with a parsing error is reported instead of the
    parsing error if it is in brackets, and not otherwise (C70).
34. meta_hs: the operator `/=` cannot be parsed, `/` is always taken as a division first (C72).
35. meta_hs: `keyword` does not look at the character after the keyword, so
    `ifx then 1 else 2` is read as `if x then 1 else 2`, `if ifx then 1 else 2` is rejected,
    and a variable `if5000000000` overflows (C72). For `then` and `else` it does not matter,
    because the expression before them takes any longer name.
36. meta_hs: a number or a parameter can not be the argument of a definition that computes with
    it (`h n = inc 5`, `g n = inc n`): `ast::value` is bound to `lazy::value` once more at every use,
    and `::type` takes off only one of them (C74). Expressions like `inc (n + 0)` work.
37. meta_hs: a definition without parameters that mentions itself, also indirectly, recurses
    without end when it is bound, even in a branch that is not taken (C74).
38. meta_hs: `example_in_haskell.hpp:11` tests `BOOST_METAPARSE_STD` having included only
    `boost/config.hpp`, so with `main_in_haskell.cpp` it is undefined and the version made by hand
    is compiled. Both versions agree (C75).
39. `one_of` instantiates every alternative, also after one that accepts. The grammar
    `S <- 'a' / S` parses "a", the parser never finishes (C76), and so for every left recursion in a
    later alternative (C77).
40. generate_all.py: `is_section` (line 145) knows only components with one digit, so sections 10,
    11, 11.1, ..., 12 of the tutorial have no note, although before_10.qbk and the others are generated
    (true of the committed doc/getting_started.qbk). A section 2.10 would get the note of section 2 (C83).
41. generate_all.py: a section number that is used twice makes its header include itself; the
    definitions before it are lost and its own come twice (C80).
42. generate_all.py: definitions of the last section are in no header. Definitions before the first
    section are in the headers but on no page. `[section 1..2` is a ValueError, a snippet that begins with
    `...> ` an IndexError, and a line of code with `endsect` or `copy-paste friendly version` in it is
    dropped from snippets.
43. generate_all.py is not idempotent on a new text: blank lines after the first one after a snippet are
    kept by the first run and removed by the second (C82). From the second run on nothing changes.
44. generate_all.py: `make_copy_paste_friendly` joins the lines of a continued command without a blank, so
    `> struct\` and `...> x;` become `structx;` in the copy-paste friendly version, though the headers keep
    the lines apart (C84_words_merge). All commands of doc/getting_started.qbk have a blank before the backslash.
45. generate_all.py: after a continued command with a blank last line the next command is put into the
    same line of the copy (C84_commands_merge). A session at the end of the text has no copy
    (C84_last_session), and a line of output that begins with `> ` counts as entered.
46. generate_all.py: `main` deletes the old headers (line 276) before it parses the text, so when the
    text raises an exception (C84_exception) the headers are gone (C110_exception). Pages and copies of sections that no longer
    exist are not deleted (C110_old_pages).
47. tools/benchmark/generate.py: strings with `??` and one of `=/'()!<>-` are trigraphs for `-std=c++11`, which
    benchmark.py uses: the string of the macro is shorter than the one made by hand (C88_trigraphs). `\x41` and
    apostrophes that are not escaped are converted wrongly (C88_hexadecimal, C88_apostrophe), but not written
    by random_string; max_length.cpp has hexadecimal escape sequences and is not converted. The comma is left
    out of the list of characters (line 209-212), so no string has one though it is frequent (C89_never).
    number.cpp says it has strings of length 64, and has 32.
48. tools/benchmark/benchmark.py: `format_time` compares with `>` (line 123), so 60 seconds are `60 seconds`, an hour
    `60 minutes`, 61 seconds `1 minute`, and one second the empty text (C91_not_carried).
49. The comparison with the translated headers (C93) found one difference to an earlier version of the model:
    `one_of_c<>` without characters does not look at the character (`cpp11/impl/any_of_c.hpp`), so a class without a
    `value` is no error there.
50. `mpl::equal_to` of a string and an iterator of a string is ambiguous: `equal_to_impl<string_tag, string_iterator_tag>`
    matches both `equal_to_impl<string_tag, T>` (string.hpp) and `equal_to_impl<T, string_iterator_tag>`
    (string_iterator.hpp), and none is more special. C101_ambiguous; C96_equal_to_other leaves it out.
51. `tools/build_environment.py --action update` opens its file for writing, which empties it, before it runs `git fetch` and
    `git show-ref` for the entries (lines 65-68). If one of these fails the file is lost (C98_file_lost), and every
    further run fails when it reads it (C98_lost).
52. On Sun's compiler `BOOST_METAPARSE_STRING` accepts no literal of 128 characters or more, also when
    `BOOST_METAPARSE_LIMIT_STRING_SIZE` is larger: `take` still gives 128, 256 and 512, but `cpp11/impl/string.hpp:35-39`
    leaves the specialisations of `make_string` for them out instead of going on with 64 (C99_sun_long).
53. On a compiler with templates for string literals, `boost/metaparse/v1/string.hpp` included alone defines
    `BOOST_METAPARSE_V1_STRING` with a replacement that names `boost::metaparse::string`
    (`v1/cpp11/string.hpp:210-212`), which only `boost/metaparse/string.hpp`
    declares (C100_literals).
54. `boost/metaparse.hpp` does not include `boost/metaparse/string_value.hpp` (C100_whole_not_all) nor
    `boost/metaparse/v1/swap.hpp`; it has no guard of its own, which does no harm. `v1/cpp11/impl/string.hpp`
    cannot be included alone: it needs `BOOST_METAPARSE_LIMIT_STRING_SIZE` from its includer.
    `v1/sequence_apply.hpp` includes `transform.hpp` only by way of others.
55. `boost/metaparse/v1/source_position_tag.hpp` included alone has `next_char` and `next_line` that derive from
    `source_position`, which it only declares; they cannot be instantiated until `source_position.hpp` has been
    included. `debug_parsing_error.hpp` has a specialisation for `build_parser`, which it only declares; no harm is
    done there, as the user has to include `build_parser.hpp` to have one (C100_defined).
56. tools/benchmark/benchmark.py recognises the files by substrings (`'bmp' in filename`, line 152, `'slt' in result`, line
    239, and `replace('bmp', 'slt')`): a template whose name contains `slt` or `bmp` has no diagram or spoils the diagram of
    another one (C102_named_slt, C102_named_bmp). None of the three templates has such a name.
57. If string literal templates work for the first files and then fail for one (`benchmark.py:163-164`), the diagrams end with a
    `KeyError` after all the measurements have been made (C102_sometimes). A template with an empty range ends them with an `IndexError`
    (`files.values()[0]`, line 239; C102_no_files).
58. generate.py reads `x_axis_label` and `desc` only after the sources of the template have been written (lines 291-292), so that a missing
    comment leaves sources without a description. Blanks at the end of a property are kept: the `.*` of line 157 takes
    them before the `[ \t]*` of `in_comment` can (C105_property).
59. benchmark.py with a negative `--repeat_count` measures nothing and draws zeros (C106_negative); with 0 it ends with a
    `ZeroDivisionError` (C106_exception). Where string literal templates stop working after some files, the progress may
    go above 100 % (C107_above), as `file_count` is reduced by all files with the macro (line 165).

## Axioms of the property theorems

From `#print axioms`. All theorems listed in `MANIFEST.json` depend on `propext`, `Classical.choice` and `Quot.sound` and nothing else, except:

* `C07_depth_independent`: only [propext, Quot.sound]
* `C07_outcome_unique`: only [propext, Quot.sound]
* `C32_digit_to_int`: only [propext, Quot.sound]
* `C40_list_laws`: only [propext, Quot.sound]
* `C40_concat`: only [propext]
* `C40_c_str`: only [propext, Quot.sound]
* `C40_input`: only [propext, Quot.sound]
* `C41_push_front_full_drops`: only [propext, Quot.sound]
* `C42_larger_limit`: only [propext, Quot.sound]
* `C43_limits`: only [propext, Quot.sound]
* `C43_shipped`: does not depend on any axioms
* `C44_advance_distance`: only [propext, Quot.sound]
* `C44_distance_fails`: only [propext, Quot.sound]
* `C47_every_rule_can_be_written`: only [propext, Quot.sound]
* `C47_fewest_brackets`: only [propext, Quot.sound]
* `C70_one_message`: only [propext, Quot.sound]
* `C73_texts`: only [propext, Quot.sound]
* `C76_unambiguous`: does not depend on any axioms
* `C88_literals`: only [propext]
* `C88_no_trigraphs`: only [propext]
* `C89_out_of_range`: only [propext, Quot.sound]
* `C93_faithful`: only [propext]
* `C95_faithful`: only [propext, Quot.sound]
* `C98_directory`: only [propext]
* `C100_literals`: only [propext, Quot.sound]
* `C101_one`: only [propext, Quot.sound]
* `C101_ambiguous`: only [propext, Quot.sound]
* `C103_side_by_side`: only [propext, Quot.sound]
* `C103_size`: only [propext, Quot.sound]
* `C103_below`: only [propext, Quot.sound]
* `C103_joined`: only [propext]
* `C108_filename`: only [propext, Quot.sound]
* `C108_no_special`: only [propext, Quot.sound]
