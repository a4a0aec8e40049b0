import Verif.Model.Debug
/-!
# The example `parsing_error`
-/

namespace Metaparse

namespace ParsingError

/-- `s` (`/repo/example/parsing_error/main.cpp:30`) -/
def s : P := .sequence [.repeated (.litC (ch 'a')), .litC (ch 'b')]

/-- `test_parser` (`/repo/example/parsing_error/main.cpp:32`) -/
noncomputable def testParser {I : Type} (E : Env I) (t : I) : Out Val := buildParser E s t

/-- `invalid_input` (`/repo/example/parsing_error/main.cpp:34-42`) -/
def invalidInput : List Chr := txt "aaac"

/-- What `debug_parsing_error<test_parser, invalid_input>` prints
(`/repo/example/parsing_error/main.cpp:44`), for any text. -/
noncomputable def debug {S : Type} (A : StrImpl S) (user : Nat → List Chr) (E : Env S) (t : S) : Out (List Chr) :=
  debugParsingErrorBuild A user E s t

end ParsingError

end Metaparse
