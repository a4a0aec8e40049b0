import Verif.Tests.Harness
/-! # The tests of the folding parsers (see `Verif.Tests.Harness`); paths are relative to `/repo/test` -/

namespace Metaparse.Tests

open P (litC)

/-- `always_int` -/
def alwaysInt : P := .always .oneChar plainType

/-- repeated_test.hpp:26-115 for a parser template `repeated` -/
def repeatedTest (repeated : P → P) : Bool :=
  result (repeated .letter) "" (.seq []) &&
  result (repeated .letter) "0ello" (.seq []) &&
  result (repeated .letter) "h0llo" (cs "h") &&
  result (repeated .letter) "he0lo" (cs "he") &&
  result (repeated .letter) "hel0o" (cs "hel") &&
  result (repeated .letter) "hell0" (cs "hell") &&
  result (repeated .letter) "hello" (cs "hello") &&
  result (repeated alwaysInt) "ca" (.seq [plainType, plainType])

-- repeated.cpp:10-12
example : repeatedTest P.repeated = true := by decide +kernel
-- foldl.cpp:16-24
example : repeatedTest (fun p => .foldl p (.seq []) backInserter) = true := by decide +kernel
-- foldr.cpp:16-24
example : repeatedTest (fun p => .foldr p (.seq []) frontInserter) = true := by decide +kernel
-- foldl_start_with_parser.cpp:77-87
example : repeatedTest (fun p => .foldlStartWithParser p (.ret (.seq [])) backInserter) = true := by
  decide +kernel

/-- repeated1_test.hpp:26-97 for a parser template `repeated1` -/
def repeated1Test (repeated1 : P → P) : Bool :=
  isError (repeated1 .letter) "" &&
  isError (repeated1 .letter) "0ello" &&
  result (repeated1 .letter) "h0llo" (cs "h") &&
  result (repeated1 .letter) "he0lo" (cs "he") &&
  result (repeated1 .letter) "hel0o" (cs "hel") &&
  result (repeated1 .letter) "hell0" (cs "hell") &&
  result (repeated1 .letter) "hello" (cs "hello") &&
  result (repeated1 alwaysInt) "ca" (.seq [plainType, plainType])

-- repeated1.cpp:10-12
example : repeated1Test P.repeated1 = true := by decide +kernel
-- foldl1.cpp:16-24
example : repeated1Test (fun p => .foldl1 p (.seq []) backInserter) = true := by decide +kernel
-- foldr1.cpp:16-24
example : repeated1Test (fun p => .foldr1 p (.seq []) frontInserter) = true := by decide +kernel

/-- repeated_reject_incomplete_test.hpp:44 -/
def letterPair : P := .sequence [.letter, .letter]

/-- repeated_reject_incomplete_test.hpp:27-175 for a parser template `rep` -/
def repeatedRejectIncompleteTest (rep : P → P) : Bool :=
  result (rep letterPair) "" (.seq []) &&
  notError (rep letterPair) "0ello" &&
  isError (rep letterPair) "h0llo" &&
  result (rep letterPair) "he0lo" (.seq [cs "he"]) &&
  result (rep letterPair) "hell0" (.seq [cs "he", cs "ll"]) &&
  result (rep letterPair) "hellow0" (.seq [cs "he", cs "ll", cs "ow"]) &&
  result (rep letterPair) "hellowor0" (.seq [cs "he", cs "ll", cs "ow", cs "or"]) &&
  result (rep letterPair) "helloworld0" (.seq [cs "he", cs "ll", cs "ow", cs "or", cs "ld"]) &&
  result (rep alwaysInt) "ca" (.seq [plainType, plainType])

-- repeated_reject_incomplete.cpp:10-12
example : repeatedRejectIncompleteTest P.repeatedRejectIncomplete = true := by decide +kernel
-- foldl_reject_incomplete.cpp:16-26
example : repeatedRejectIncompleteTest (fun p => .foldlRejectIncomplete p (.seq []) backInserter) = true := by
  decide +kernel
-- foldr_reject_incomplete.cpp:16-26
example : repeatedRejectIncompleteTest (fun p => .foldrRejectIncomplete p (.seq []) frontInserter) = true := by
  decide +kernel
-- foldl_reject_incomplete_start_with_parser.cpp:81-96
example : repeatedRejectIncompleteTest
    (fun p => .foldlRejectIncompleteStartWithParser p (.ret (.seq [])) backInserter) = true := by
  decide +kernel

/-- repeated_reject_incomplete1_test.hpp:27-172 for a parser template `rep` -/
def repeatedRejectIncomplete1Test (rep : P → P) : Bool :=
  isError (rep letterPair) "" &&
  isError (rep letterPair) "0ello" &&
  result (rep letterPair) "he0lo" (.seq [cs "he"]) &&
  isError (rep letterPair) "hel0o" &&
  result (rep letterPair) "hell0" (.seq [cs "he", cs "ll"]) &&
  result (rep letterPair) "hellow0" (.seq [cs "he", cs "ll", cs "ow"]) &&
  result (rep letterPair) "hellowor0" (.seq [cs "he", cs "ll", cs "ow", cs "or"]) &&
  result (rep letterPair) "helloworld0" (.seq [cs "he", cs "ll", cs "ow", cs "or", cs "ld"]) &&
  result (rep alwaysInt) "ca" (.seq [plainType, plainType])

-- repeated_reject_incomplete1.cpp:10-12
example : repeatedRejectIncomplete1Test P.repeatedRejectIncomplete1 = true := by decide +kernel
-- foldl_reject_incomplete1.cpp:16-26
example : repeatedRejectIncomplete1Test (fun p => .foldlRejectIncomplete1 p (.seq []) backInserter) = true := by
  decide +kernel
-- foldr_reject_incomplete1.cpp:16-26
example : repeatedRejectIncomplete1Test (fun p => .foldrRejectIncomplete1 p (.seq []) frontInserter) = true := by
  decide +kernel

/-- `keep_state` of foldl_start_with_parser.cpp:24-30: `struct apply : S {}` -/
def keepState (st _x : Val) : Val := st

-- foldl_start_with_parser.cpp:45-66
example : (
    let p := P.foldlStartWithParser (litC (ch 'a')) (litC (ch 'b')) keepState
    result p "b" (c 'b') && result p "ba" (c 'b') && result p "baaaa" (c 'b') &&
      isError p "c" && isError p "ca") = true := by decide +kernel
-- foldl_reject_incomplete_start_with_parser.cpp:47-70
example : (
    let p := P.foldlRejectIncompleteStartWithParser (.sequence [litC (ch 'a'), litC (ch 'a')])
      (litC (ch 'b')) keepState
    result p "b" (c 'b') && isError p "ba" && result p "baaaa" (c 'b') &&
      isError p "c" && isError p "ca") = true := by decide +kernel
-- foldr_start_with_parser.cpp:44-65
example : (
    let p := P.foldrStartWithParser (litC (ch 'a')) (litC (ch 'b')) keepState
    result p "b" (c 'b') && result p "ab" (c 'b') && result p "aaaab" (c 'b') &&
      isError p "c" && isError p "ac") = true := by decide +kernel

end Metaparse.Tests
