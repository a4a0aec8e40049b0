import Verif.Model.Derived
import Verif.Model.Str
/-!
# debug_parsing_error and the texts of error messages

What `debug_parsing_error` writes to the standard output, and `get_value` of the error messages.
-/

namespace Metaparse

/-- A string literal of the code (`debug_parsing_error.hpp:38-40`, `58-61` and `78`). -/
def lits (s : String) : List Chr := s.toList.map ch

/-- `std::ostream << int`, in the default format (not part of the library) (`debug_parsing_error.hpp:59-60`). -/
def showInt (n : Int) : List Chr :=
  if n < 0 then ch '-' :: (Nat.toDigits 10 n.natAbs).map ch else (Nat.toDigits 10 n.natAbs).map ch

/-- `std::ostream << const char*`: the characters before the first NUL (not part of the library).
Running off the end of the array is undefined behaviour (`debug_parsing_error.hpp:41` and `79`). -/
def showCStr : List Chr → Out (List Chr)
  | [] => .ill .noValue
  | c :: a => if c = 0 then .ok [] else (showCStr a).bind fun t => .ok (c :: t)

/-- `get_value` of the error messages: `error/digit_expected.hpp:19`,
`error/end_of_input_expected.hpp:19-22`, `error/expected_to_fail.hpp:19-22`,
`error/index_out_of_range.hpp:24-31`, `error/letter_expected.hpp:19`,
`error/literal_expected.hpp:23-26`, `error/none_of_the_expected_cases_found.hpp:19-22`,
`error/unexpected_character.hpp:19-22`, `error/unexpected_end_of_input.hpp:19-22`,
`error/unpaired.hpp:27-32`, `error/whitespace_expected.hpp:19-22`.  `user` gives the texts of the
errors defined with `BOOST_METAPARSE_DEFINE_ERROR` (`define_error.hpp:16-24`). -/
def Msg.text (user : Nat → List Chr) : Msg → List Chr
  | .digitExpected => lits "Digit expected"
  | .endOfInputExpected => lits "End of input expected"
  | .expectedToFail => lits "Parser expected to fail"
  | .indexOutOfRange from_ to_ n =>
      lits "index (" ++ showInt n ++ lits ") out of range [" ++ showInt from_ ++ lits "-" ++
        showInt to_ ++ lits "]"
  | .letterExpected => lits "Letter expected"
  | .literalExpected c => lits "Expected: " ++ [c]
  | .noneOfTheExpectedCasesFound => lits "None of the expected cases found"
  | .unexpectedCharacter => lits "Unexpected character"
  | .unexpectedEndOfInput => lits "Unexpected end of input"
  | .unpaired line col m => m.text user ++ lits " (see " ++ showInt line ++ lits ":" ++ showInt col ++
      lits ")"
  | .whitespaceExpected => lits "Whitespace expected"
  | .user n => user n

/-- `display_error::run` and `display_no_error::run` (`debug_parsing_error.hpp:50-81`), selected by
`display` (`debug_parsing_error.hpp:83-90`). -/
def displayResult {S : Type} (A : StrImpl S) (user : Nat → List Chr) : Res S → Out (List Chr)
  | .rej m pos => .ok (lits "Parsing failed:\nline " ++ showInt pos.line ++ lits ", col " ++
      showInt pos.col ++ lits ": " ++ m.text user ++ lits "\n")
  | .acc _ rest _ => (showCStr (A.cStr rest)).bind fun t =>
      .ok (lits "Parsing was successful. Remaining string is:\n" ++ t ++ lits "\n")

/-- `debug_parsing_error<P, S>::debug_parsing_error()` (`debug_parsing_error.hpp:30-49`): what is
written to the standard output before `std::exit(0)`.  `A` is the implementation of the strings. -/
noncomputable def debugParsingError {S : Type} (A : StrImpl S) (user : Nat → List Chr) (E : Env S)
    (p : P) (s : S) : Out (List Chr) :=
  (run E p s start).bind fun r => (showCStr (A.cStr s)).bind fun t => (displayResult A user r).bind
    fun d => .ok (lits "Compile-time parsing results\n----------------------------\nInput text:\n" ++
      t ++ lits "\n\n" ++ d)

/-- `debug_parsing_error<build_parser<P>, S>` (`debug_parsing_error.hpp:93-98`) inherits from
`debug_parsing_error<P, S>`. -/
noncomputable def debugParsingErrorBuild {S : Type} (A : StrImpl S) (user : Nat → List Chr) (E : Env S)
    (p : P) (s : S) : Out (List Chr) := debugParsingError A user E p s

end Metaparse
