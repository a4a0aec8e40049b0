import Verif.Model.Debug
import Verif.Spec.Chars
import Verif.Spec.Outcome
import Verif.Spec.Str
/-!
# Reports of debug_parsing_error
-/

namespace Metaparse

/-- A number in decimal notation. -/
def signedDecimal (n : Int) : List Chr :=
  if n < 0 then ch '-' :: decimalText n.natAbs else decimalText n.natAbs

/-- The part of a text before its first NUL character: what printing it as a C string shows. -/
def upToNul (s : List Chr) : List Chr := s.takeWhile (· ≠ 0)

/-- The beginning of every report. -/
def reportHeader (s : List Chr) : List Chr :=
  txt "Compile-time parsing results\n----------------------------\nInput text:\n" ++ upToNul s ++
    txt "\n\n"

/-- The report of a rejection at a line and column, with the text of its message. -/
def failureReport (s : List Chr) (line col : Int) (message : List Chr) : List Chr :=
  reportHeader s ++ (txt "Parsing failed:\nline " ++ signedDecimal line ++ txt ", col " ++
    signedDecimal col ++ txt ": " ++ message ++ txt "\n")

/-- The report of an acceptance, with the remaining text. -/
def successReport (s rest : List Chr) : List Chr :=
  reportHeader s ++ (txt "Parsing was successful. Remaining string is:\n" ++ upToNul rest ++ txt "\n")

/-- The message and what it is about come from the library (not from `BOOST_METAPARSE_DEFINE_ERROR` of
the user). -/
def Msg.FromLibrary : Msg → Prop
  | .user _ => False
  | .unpaired _ _ m => m.FromLibrary
  | _ => True

end Metaparse
