import Verif.Tests.Harness
/-! # The tests of single parsers (see `Verif.Tests.Harness`); paths are relative to `/repo/test` -/

namespace Metaparse.Tests

open P (litC)

/-! ## Single characters and simple parsers -/

-- accept_when.cpp:37-67
example : isError (.acceptWhen .oneChar isDigit testFailure) "hello" = true := by decide +kernel
example : result (.acceptWhen .oneChar isDigit testFailure) "1983" (c '1') = true := by decide +kernel
example : isError (.acceptWhen .oneChar isDigit testFailure) "" = true := by decide +kernel
-- alphanum.cpp:34-48
example : result P.alphanum "hello" (c 'h') = true := by decide +kernel
example : result P.digit "1983" (c '1') = true := by decide +kernel
example : isError P.digit "..," = true := by decide +kernel
example : isError P.digit "" = true := by decide +kernel
-- always.cpp:30-41
example : result (.always P.digit (.int 13)) "1" (.int 13) = true := by decide +kernel
example : isError (.always P.digit (.int 13)) "a" = true := by decide +kernel
-- always_c.cpp:28-39
example : result (P.alwaysC (ch '1') (.int 13)) "1" (.int 13) = true := by decide +kernel
example : isError (P.alwaysC (ch '1') (.int 13)) "a" = true := by decide +kernel
-- digit.cpp:39-53
example : isError P.digit "hello" = true := by decide +kernel
example : message P.digit "" .digitExpected = true := by decide +kernel
-- digit_val.cpp:29-38
example : isError P.digitVal "hello" = true := by decide +kernel
example : result P.digitVal "1983" (.int 1) = true := by decide +kernel
example : isError P.digitVal "" = true := by decide +kernel
-- empty.cpp:29-37
example : result (.empty (.int 13)) "" (.int 13) = true := by decide +kernel
example : isError (.empty (.int 13)) "a" = true := by decide +kernel
-- entire_input.cpp:37-55
example : result (P.entireInput .oneChar) "h" (c 'h') = true := by decide +kernel
example : isError (P.entireInput .oneChar) "hello" = true := by decide +kernel
example : message (P.entireInput .oneChar testFailure) "hello" testFailure = true := by decide +kernel
-- except.cpp:33-52
example : isError (.except .oneChar (.int 13) testFailure) "hello" = true := by decide +kernel
example : result (.except (.fail testFailure) (.int 13) testFailure) "hello" (.int 13) = true := by decide +kernel
-- fail.cpp:25-28, fail_tag.cpp:32-39
example : isError (.fail testFailure) "hello" = true := by decide +kernel
example : message (.fail testFailure) "hello" testFailure = true := by decide +kernel
example : position (.fail testFailure) "hello" (·.equalTo start) = true := by decide +kernel
-- fail_at_first_char_expected.cpp:23-40
example : notError (.failAtFirstCharExpected (.keyword (t "hello") .void_)) "ab" = true := by decide +kernel
example : isError (.failAtFirstCharExpected (.keyword (t "hello") .void_)) "hello" = true := by decide +kernel
example : isError (.failAtFirstCharExpected (.keyword (t "hello") .void_)) "h" = true := by decide +kernel
-- if_.cpp:29-43
example : result (.if_ P.digit (.int 11) (.int 13)) "1" (.int 11) = true := by decide +kernel
example : result (.if_ P.digit (.int 11) (.int 13)) "a" (.int 13) = true := by decide +kernel
-- int_.cpp:29-51
example : isError P.int_ "hello" = true := by decide +kernel
example : result P.int_ "0" (.int 0) = true := by decide +kernel
example : result P.int_ "1" (.int 1) = true := by decide +kernel
example : result P.int_ "1983" (.int 1983) = true := by decide +kernel
example : isError P.int_ "" = true := by decide +kernel
-- iterate_c.cpp:35-70, iterate.cpp:35-70
example : isError (P.iterateC .oneChar 13) "" = true := by decide +kernel
example : result (P.iterateC .oneChar 0) "hello" (cs "") = true := by decide +kernel
example : result (P.iterateC .oneChar 1) "hello" (cs "h") = true := by decide +kernel
example : result (P.iterateC .oneChar 2) "hello" (cs "he") = true := by decide +kernel
example : result (P.iterateC .oneChar 3) "hello" (cs "hel") = true := by decide +kernel
-- keyword.cpp:48-89
example : result (.keyword (t "hello") (c 'l')) "hello" (c 'l') = true := by decide +kernel
example : result (.keyword (t "") (c 'l')) "hello" (c 'l') = true := by decide +kernel
example : isError (.keyword (t "hello") .void_) "" = true := by decide +kernel
example : remaining (.keyword (t "hello") .void_) "hello" "" = true := by decide +kernel
example : remaining (.keyword (t "hello") .void_) "hello world" " world" = true := by decide +kernel
example : isError (.keyword (t "hello") .void_) "hellx" = true := by decide +kernel
example : isError (.keyword (t "hello") .void_) "hxllo" = true := by decide +kernel
-- letter.cpp:29-38
example : result P.letter "hello" (c 'h') = true := by decide +kernel
example : isError P.letter "1983" = true := by decide +kernel
example : isError P.letter "" = true := by decide +kernel
-- lit.cpp:40-71, lit_c.cpp:40-71
example : result (lit 'h') "hello" (c 'h') = true := by decide +kernel
example : isError (lit 'h') "bello" = true := by decide +kernel
example : isError (lit 'h') "" = true := by decide +kernel
example : message (lit 'h') "" (.literalExpected (ch 'h')) = true := by decide +kernel
example : resultAfter (lit 'h') (lit 'e') "hello" (c 'e') = true := by decide +kernel
-- look_ahead.cpp:38-57
example : result (.lookAhead P.digitVal) "1983" (.int 1) = true := by decide +kernel
example : isError (.lookAhead (.fail testFailure)) "1983" = true := by decide +kernel
example : remaining (.lookAhead P.digitVal) "1983" "1983" = true := by decide +kernel
-- one_char_test.hpp:49-99, included by one_char.cpp for `one_char`
example : result .oneChar "hello" (c 'h') = true := by decide +kernel
example : resultAfter .oneChar .oneChar "hello" (c 'e') = true := by decide +kernel
example : isError .oneChar "" = true := by decide +kernel
example : position (P.iterateC .oneChar 2) "a\nb" (·.line == 2) = true := by decide +kernel
example : position (P.iterateC .oneChar 3) "a\r\nb" (·.line == 2) = true := by decide +kernel
example : position (P.iterateC .oneChar 2) "a\rb" (·.line == 2) = true := by decide +kernel
-- one_char_except.cpp:12-15
example : result (.oneCharExcept [ch '0', ch '1']) "hello" (c 'h') && isError (.oneCharExcept [ch '0', ch '1']) "" &&
    isError (.oneCharExcept [ch '0', ch '1']) "0" = true := by decide +kernel
-- iterate.cpp:35-70
example : isError (P.iterateN .oneChar 13) "" && result (P.iterateN .oneChar 0) "hello" (.seq []) &&
    result (P.iterateN .oneChar 3) "hello" (.seq [c 'h', c 'e', c 'l']) = true := by decide +kernel
-- one_char_test.hpp:49-99 and one_char_except_test.hpp:25-29, included by one_char_except_c.cpp
example : result (.oneCharExceptC [ch '0', ch '1']) "hello" (c 'h') = true := by decide +kernel
example : resultAfter (.oneCharExceptC [ch '0', ch '1']) (.oneCharExceptC [ch '0', ch '1']) "hello" (c 'e') = true := by decide +kernel
example : isError (.oneCharExceptC [ch '0', ch '1']) "" = true := by decide +kernel
example : position (P.iterateC (.oneCharExceptC [ch '0', ch '1']) 2) "a\nb" (·.line == 2) = true := by decide +kernel
example : position (P.iterateC (.oneCharExceptC [ch '0', ch '1']) 3) "a\r\nb" (·.line == 2) = true := by decide +kernel
example : position (P.iterateC (.oneCharExceptC [ch '0', ch '1']) 2) "a\rb" (·.line == 2) = true := by decide +kernel
example : isError (.oneCharExceptC [ch '0', ch '1']) "0" = true := by decide +kernel
example : isError (.oneCharExceptC [ch '0', ch '1']) "1" = true := by decide +kernel
-- optional.cpp:32-53; the default of the second argument is `void` (`optional.hpp:20`)
example : result (.optional (litC (ch 'x')) plainType) "x" (c 'x') = true := by decide +kernel
example : result (.optional (litC (ch 'x')) plainType) "y" plainType = true := by decide +kernel
-- range.cpp:31-45, range_c.cpp:31-45
example : isError (P.range (ch '0') (ch '9')) "hello" = true := by decide +kernel
example : result (P.range (ch '0') (ch '9')) "1983" (c '1') = true := by decide +kernel
example : isError (P.range (ch '0') (ch '9')) "" = true := by decide +kernel
example : isError (P.rangeC (ch '0') (ch '9')) "hello" = true := by decide +kernel
example : result (P.rangeC (ch '0') (ch '9')) "1983" (c '1') = true := by decide +kernel
example : isError (P.rangeC (ch '0') (ch '9')) "" = true := by decide +kernel
-- return_.cpp:40-48
example : result (.ret (c 'x')) "hello" (c 'x') = true := by decide +kernel
example : result (.ret (c 'x')) "" (c 'x') = true := by decide +kernel
example : remaining (.ret (c 'x')) "hello" "hello" = true := by decide +kernel
-- space.cpp:40-76
example : isError P.space "hello" = true := by decide +kernel
example : result P.space " ello" (c ' ') = true := by decide +kernel
example : result P.space "\tello" (c '\t') = true := by decide +kernel
example : result P.space "\nello" (c '\n') = true := by decide +kernel
example : result P.space "\rello" (c '\r') = true := by decide +kernel
example : isError P.space "" = true := by decide +kernel
-- spaces.cpp:43-67
example : isError P.spaces "hello" = true := by decide +kernel
example : notError P.spaces " ello" = true := by decide +kernel
example : remaining P.spaces " ello" "ello" = true := by decide +kernel
example : notError P.spaces " \t\n\rello" = true := by decide +kernel
example : remaining P.spaces " \t\n\rello" "ello" = true := by decide +kernel
-- token.cpp:31-71
example : result (P.token (.keyword (t "hello") (.int 13))) "hello" (.int 13) = true := by decide +kernel
example : result (P.token (.keyword (t "hello") (.int 13))) "hello \t" (.int 13) = true := by decide +kernel
example : remaining (P.token (.keyword (t "hello") (.int 13))) "hello \t" "" = true := by decide +kernel
example : isError (P.token (.keyword (t "hello") (.int 13))) "" = true := by decide +kernel

/-- `boost::mpl::front` of transform.cpp:33-39 -/
def getFront : Val → Val
  | .seq (v :: _) => v
  | _ => .bad .noSpecialisation

-- transform.cpp:52-76
example : result (.transform (lit 'h') fun _ => c 'x') "hello" (c 'x') = true := by decide +kernel
example : isError (.transform (lit 'x') fun _ => c 'x') "hello" = true := by decide +kernel
example : isError (.transform (lit 'h') fun _ => c 'x') "" = true := by decide +kernel
example : result (.transform (P.repeated .oneChar) getFront) "hello" (c 'h') = true := by decide +kernel
-- transform_error.cpp:29-63: error function number 0 replaces the message, keeping the position
example : (match eval { testEnv .cpp11 with onError := fun _ _ pos => .ok (.rej (.user 2) pos) } 60
      (.transformError (litC (ch 'H')) 0) (t "Hello") start,
      eval (testEnv .cpp11) 60 (litC (ch 'H')) (t "Hello") start with
    | .ok (.acc v s pos), .ok (.acc v' s' pos') => Val.beq v v' && decide (s = s') && decide (pos = pos')
    | _, _ => false) = true := by decide +kernel
example : (match eval { testEnv .cpp11 with onError := fun _ _ pos => .ok (.rej (.user 2) pos) } 60
      (.transformError (litC (ch 'x')) 0) (t "Hello") start with
    | .ok (.rej m pos) => decide (m = .user 2) && decide (pos = start)
    | _ => false) = true := by decide +kernel
-- transform_error_message.cpp:32-66: `unpaired<…>` stands for the test's `new_message`
example : result (.transformErrorMessage (litC (ch 'H')) fun m => .ok (.unpaired 0 0 m)) "Hello" (c 'H') = true := by decide +kernel
example : message (.transformErrorMessage (litC (ch 'x')) fun m => .ok (.unpaired 0 0 m)) "Hello"
    (.unpaired 0 0 (.literalExpected (ch 'x'))) = true := by decide +kernel
example : position (.transformErrorMessage (litC (ch 'x')) fun m => .ok (.unpaired 0 0 m)) "Hello"
    (· == start) = true := by decide +kernel

/-! ## Sequences -/

-- first_of.cpp:29-66
example : result (P.firstOf [lit 'h']) "hello" (c 'h') = true := by decide +kernel
example : result (P.firstOf [lit 'h', lit 'e']) "hello" (c 'h') = true := by decide +kernel
example : isError (P.firstOf [lit 'x', lit 'e']) "hello" = true := by decide +kernel
example : isError (P.firstOf [lit 'h', lit 'x']) "hello" = true := by decide +kernel
example : isError (P.firstOf [lit 'h', lit 'e']) "" = true := by decide +kernel
example : result (P.firstOf [lit 'h', lit 'e', lit 'l']) "hello" (c 'h') = true := by decide +kernel
-- last_of.cpp:29-68
example : result (.lastOf [lit 'h']) "hello" (c 'h') = true := by decide +kernel
example : result (.lastOf [lit 'h', lit 'e']) "hello" (c 'e') = true := by decide +kernel
example : isError (.lastOf [lit 'x', lit 'e']) "hello" = true := by decide +kernel
example : isError (.lastOf [lit 'h', lit 'x']) "hello" = true := by decide +kernel
example : isError (.lastOf [lit 'h', lit 'e']) "" = true := by decide +kernel
example : result (.lastOf [lit 'h', lit 'e', lit 'l']) "hello" (c 'l') = true := by decide +kernel
-- middle_of.cpp:40-78
example : result (.middleOf (lit 'h') (lit 'e') (lit 'l')) "hello" (c 'e') = true := by decide +kernel
example : isError (.middleOf (lit 'x') (lit 'e') (lit 'l')) "hello" = true := by decide +kernel
example : isError (.middleOf (lit 'h') (lit 'x') (lit 'l')) "hello" = true := by decide +kernel
example : isError (.middleOf (lit 'h') (lit 'e') (lit 'x')) "hello" = true := by decide +kernel
example : message (.middleOf (lit 'h') (lit 'e') (lit 'x')) "hello"
    (.unpaired 1 1 (.literalExpected (ch 'x'))) = true := by decide +kernel
example : isError (.middleOf (lit 'h') (lit 'e') (lit 'l')) "" = true := by decide +kernel
-- nth_of.cpp:34-95
example : result (.nthOfC 0 [lit 'h']) "hello" (c 'h') = true := by decide +kernel
example : result (.nthOfC 0 [lit 'h', lit 'e']) "hello" (c 'h') = true := by decide +kernel
example : result (P.nthOf 1 [lit 'h', lit 'e']) "hello" (c 'e') = true := by decide +kernel
example : isError (.nthOfC 1 [lit 'x', lit 'e']) "hello" = true := by decide +kernel
example : isError (.nthOfC 0 []) "hello" = true := by decide +kernel
example : isError (.nthOfC (-1) [lit 'h', lit 'e']) "hello" = true := by decide +kernel
example : isError (.nthOfC 2 [lit 'h', lit 'e']) "hello" = true := by decide +kernel
example : isError (.nthOfC 1 [lit 'x', lit 'e', lit 'l']) "hello" = true := by decide +kernel
example : isError (.nthOfC 1 [lit 'h', lit 'x', lit 'l']) "hello" = true := by decide +kernel
example : isError (.nthOfC 1 [lit 'h', lit 'e', lit 'x']) "hello" = true := by decide +kernel
-- sequence.cpp:45-113
example : result (.sequence []) "hello" (.seq []) = true := by decide +kernel
example : result (.sequence [lit 'h']) "hello" (cs "h") = true := by decide +kernel
example : isError (.sequence [lit 'e']) "hello" = true := by decide +kernel
example : result (.sequence [lit 'h', lit 'e']) "hello" (cs "he") = true := by decide +kernel
example : isError (.sequence [lit 'x', lit 'e']) "hello" = true := by decide +kernel
example : isError (.sequence [lit 'h', lit 'x']) "hello" = true := by decide +kernel
example : isError (.sequence [lit 'h', lit 'e']) "" = true := by decide +kernel
example : result (.sequence [lit 'h', lit 'e', lit 'l']) "hello" (cs "hel") = true := by decide +kernel
example : result (.sequence [.always .oneChar plainType, .always .oneChar plainType]) "ca"
    (.seq [plainType, plainType]) = true := by decide +kernel
-- sequence_apply.cpp:95-160: `templateN` and `template_cN` are the class template number 1
example : result (P.sequenceApply (.user 1) [lit 'h']) "hello" (.delayed (.user 1 [c 'h'])) = false := by decide +kernel
example : result (P.sequenceApply (.user 1) [lit 'h']) "hello" (.user 1 [c 'h']) = true := by decide +kernel
example : isError (P.sequenceApply (.user 1) [lit 'e']) "hello" = true := by decide +kernel
example : result (P.sequenceApply (.user 1) [lit 'h', lit 'e']) "hello" (.user 1 [c 'h', c 'e']) = true := by decide +kernel
example : isError (P.sequenceApply (.user 1) [lit 'x', lit 'e']) "hello" = true := by decide +kernel
example : isError (P.sequenceApply (.user 1) [lit 'h', lit 'x']) "hello" = true := by decide +kernel
example : isError (P.sequenceApply (.user 1) [lit 'h', lit 'e']) "" = true := by decide +kernel
example : result (P.sequenceApply (.user 1) [lit 'h', lit 'e', lit 'l']) "hello"
    (.user 1 [c 'h', c 'e', c 'l']) = true := by decide +kernel
-- the result is `has_no_type<int>`, a class without `type`, not evaluated
example : result (P.sequenceApply (fun _ => plainType) [.always .oneChar plainType]) "ca" plainType = true := by decide +kernel

/-! ## Choice -/

/-- `test_fail_later` of one_of.cpp:40 -/
def testFailLater : P := .sequence [.oneChar, .fail testFailure]

-- one_of.cpp:42-155
example : result (.oneOf [.oneChar]) "hello" (c 'h') = true := by decide +kernel
example : isError (.oneOf [.fail testFailure]) "hello" = true := by decide +kernel
example : result (.oneOf [.oneChar, .oneChar]) "hello" (c 'h') = true := by decide +kernel
example : result (.oneOf [.oneChar, .fail testFailure]) "hello" (c 'h') = true := by decide +kernel
example : result (.oneOf [.fail testFailure, .oneChar]) "hello" (c 'h') = true := by decide +kernel
example : isError (.oneOf [.fail testFailure, .fail testFailure]) "hello" = true := by decide +kernel
example : isError (.oneOf []) "hello" = true := by decide +kernel
example : position (.oneOf [.fail testFailure, testFailLater]) "hello"
    (·.equalTo (start.nextChar (ch 'h'))) = true := by decide +kernel
-- one_of_c.cpp:29-72
example : isError (.oneOfC []) "hello" = true := by decide +kernel
example : result (.oneOfC [ch 'h']) "hello" (c 'h') = true := by decide +kernel
example : isError (.oneOfC [ch 'x']) "hello" = true := by decide +kernel
example : result (.oneOfC [ch 'h', ch 'x']) "hello" (c 'h') = true := by decide +kernel
example : result (.oneOfC [ch 'x', ch 'h']) "hello" (c 'h') = true := by decide +kernel
example : isError (.oneOfC [ch 'x', ch 'y']) "hello" = true := by decide +kernel
-- repeated_one_of.cpp:40-104
example : result (P.repeatedOneOf []) "hello" (.seq []) = true := by decide +kernel
example : result (P.repeatedOneOf [.oneChar]) "hello" (cs "hello") = true := by decide +kernel
example : result (P.repeatedOneOf [.fail testFailure]) "hello" (.seq []) = true := by decide +kernel
example : result (P.repeatedOneOf [.oneChar, .fail testFailure]) "hello" (cs "hello") = true := by decide +kernel
example : result (P.repeatedOneOf [.fail testFailure, .oneChar]) "hello" (cs "hello") = true := by decide +kernel
example : result (P.repeatedOneOf [.keyword (t "h") (c 'h'), .keyword (t "e") (c 'e'), .keyword (t "l") (c 'l')])
    "hello" (cs "hell") = true := by decide +kernel
-- repeated_one_of1.cpp:42-98
example : isError (P.repeatedOneOf1 []) "hello" = true := by decide +kernel
example : result (P.repeatedOneOf1 [.oneChar]) "hello" (cs "hello") = true := by decide +kernel
example : isError (P.repeatedOneOf1 [.fail testFailure]) "hello" = true := by decide +kernel
example : result (P.repeatedOneOf1 [.oneChar, .fail testFailure]) "hello" (cs "hello") = true := by decide +kernel
example : result (P.repeatedOneOf1 [.fail testFailure, .oneChar]) "hello" (cs "hello") = true := by decide +kernel
example : result (P.repeatedOneOf1 [.keyword (t "h") (c 'h'), .keyword (t "e") (c 'e'), .keyword (t "l") (c 'l')])
    "hello" (cs "hell") = true := by decide +kernel

end Metaparse.Tests
