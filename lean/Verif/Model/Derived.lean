import Verif.Model.Parser
/-!
# Parsers and metafunctions defined in terms of the primitive combinators

Each definition is the one of the cited header.  Paths in comments are relative to
`/repo/include/boost/metaparse/v1/`.
-/

namespace Metaparse

/-- A nullary metafunction from what evaluating it does (for example `impl/next_digit.hpp:22-28`). -/
def Val.ofOut : Out Val → Val
  | .ok v => v
  | .ill f => .bad f
  | .deep => .bad .noValue

/-- Range of `int` (assumed 32 bit, two's complement), the type of the parameters at `impl/next_digit.hpp:25`. -/
def intMin : Int := -2147483648
/-- Range of `int` (assumed 32 bit, two's complement), the type of the parameters at `impl/next_digit.hpp:25`. -/
def intMax : Int := 2147483647

/-- `mpl::int_<n>` where `n` is a constant expression of type `int`: overflow is ill-formed (`impl/next_digit.hpp:19-29`). -/
def intC (n : Int) : Out Int := if intMin ≤ n ∧ n ≤ intMax then .ok n else .ill .overflow

/-! ## Predicates and conversions of `util/` -/

/-- `util/in_range_c.hpp:19-31` -/
def inRangeC (lo hi : Int) (v : Val) : Out Bool :=
  v.value.bind fun x => .ok (decide (lo ≤ x) && decide (x ≤ hi))

/-- `util/in_range.hpp:29-34` with `mpl::less_equal` on integral constants -/
def inRange (lo hi v : Val) : Out Bool :=
  lo.value.bind fun l => v.value.bind fun x => hi.value.bind fun h =>
    .ok (decide (l ≤ x) && decide (x ≤ h))

/-- `util/is_digit.hpp:21-22` -/
def isDigit : Val → Out Bool := inRangeC (ch '0') (ch '9')

/-- `util/is_lcase_letter.hpp:21-22` -/
def isLcaseLetter : Val → Out Bool := inRangeC (ch 'a') (ch 'z')

/-- `util/is_ucase_letter.hpp:21-22` -/
def isUcaseLetter : Val → Out Bool := inRangeC (ch 'A') (ch 'Z')

/-- `util/is_letter.hpp:23-28` (both operands of `||` are evaluated as templates) -/
def isLetter (v : Val) : Out Bool :=
  (isLcaseLetter v).bind fun a => (isUcaseLetter v).bind fun b => .ok (a || b)

/-- `util/is_whitespace_c.hpp:19-25` -/
def isWhitespaceC (c : Chr) : Bool :=
  if c = ch ' ' then true
  else if c = ch '\r' then true
  else if c = ch '\n' then true
  else if c = ch '\t' then true
  else false

/-- `util/is_whitespace.hpp:21-22` -/
def isWhitespace (v : Val) : Out Bool := v.value.bind fun c => .ok (isWhitespaceC c)

/-- `util/digit_to_int_c.hpp:21-33` -/
def digitToIntC (c : Chr) : Val :=
  if c = ch '0' then .int 0
  else if c = ch '1' then .int 1
  else if c = ch '2' then .int 2
  else if c = ch '3' then .int 3
  else if c = ch '4' then .int 4
  else if c = ch '5' then .int 5
  else if c = ch '6' then .int 6
  else if c = ch '7' then .int 7
  else if c = ch '8' then .int 8
  else if c = ch '9' then .int 9
  else .msg .digitExpected

/-- `util/digit_to_int.hpp:21-22` -/
def digitToInt (v : Val) : Val := Val.ofOut (v.value.bind fun c => .ok (digitToIntC c))

/-- `util/int_to_digit_c.hpp:19-31`: the primary template is not defined. -/
def intToDigitC (n : Int) : Val :=
  if n = 0 then .chr (ch '0')
  else if n = 1 then .chr (ch '1')
  else if n = 2 then .chr (ch '2')
  else if n = 3 then .chr (ch '3')
  else if n = 4 then .chr (ch '4')
  else if n = 5 then .chr (ch '5')
  else if n = 6 then .chr (ch '6')
  else if n = 7 then .chr (ch '7')
  else if n = 8 then .chr (ch '8')
  else if n = 9 then .chr (ch '9')
  else .bad .noSpecialisation

/-- `util/int_to_digit.hpp:21-22` -/
def intToDigit (v : Val) : Val := Val.ofOut (v.value.bind fun n => .ok (intToDigitC n))

/-- `impl/next_digit.hpp:19-29`; the product and the sum are computed in `int`. -/
def nextDigit (partialResult next : Val) : Val :=
  Val.ofOut <| partialResult.value.bind fun x => next.value.bind fun d =>
    (intC (x * 10)).bind fun y => (intC (y + d)).bind fun z => .ok (.int z)

/-- `impl/back_inserter.hpp:19-25` -/
def backInserter (l x : Val) : Val := Comb.pushBack l x

/-- `impl/front_inserter.hpp:19-25` -/
def frontInserter (l x : Val) : Val := Comb.pushFront l x

/-- `swap.hpp:15-22` -/
def swapOp (op : Val → Val → Val) : Val → Val → Val := fun a b => op b a

/-- `unless_error.hpp:20-23` with `is_error.hpp:24-33`: the error itself, or the other argument
evaluated. -/
def unlessError {I : Type} (r : Res I) (notErrorCase : Out (Res I)) : Out (Res I) :=
  match r with
  | .rej m pos => .ok (.rej m pos)
  | .acc _ _ _ => notErrorCase

namespace P

/-! ## Folds -/

/-- `foldl1.hpp:19-32` -/
def foldl1 (p : P) (st : Val) (op : Val → Val → Val) : P := .ifAccepts p (.foldl p st op)

/-- `foldl_reject_incomplete1.hpp:19-32` -/
def foldlRejectIncomplete1 (p : P) (st : Val) (op : Val → Val → Val) : P :=
  .ifAccepts p (.foldlRejectIncomplete p st op)

/-- `foldr.hpp:18-19` -/
def foldr (p : P) (st : Val) (op : Val → Val → Val) : P := .foldrStartWithParser p (.ret st) op

/-- `foldr1.hpp:19-32` -/
def foldr1 (p : P) (st : Val) (op : Val → Val → Val) : P := .ifAccepts p (foldr p st op)

/-- `cpp11/nth_of.hpp:17-18`, `cpp98/nth_of.hpp`; ill-formed indices are not modelled -/
def nthOf (k : Int) (ps : List P) : P := .nthOfC k ps

/-- `cpp98/first_of.hpp:17-29`; `cpp11/first_of.hpp:20-30` inlines the same case of `nth_of_c`. -/
def firstOf (ps : List P) : P := .nthOfC 0 ps

/-- `foldr_reject_incomplete.hpp:20-27` -/
def foldrRejectIncomplete (p : P) (st : Val) (op : Val → Val → Val) : P :=
  .foldrStartWithParser p (firstOf [.ret st, .failAtFirstCharExpected p]) op

/-- `foldr_reject_incomplete1.hpp:19-32` -/
def foldrRejectIncomplete1 (p : P) (st : Val) (op : Val → Val → Val) : P :=
  .ifAccepts p (foldrRejectIncomplete p st op)

/-- `repeated.hpp:20-21` -/
def repeated (p : P) : P := .foldl p (.seq []) backInserter

/-- `repeated1.hpp:20-23` -/
def repeated1 (p : P) : P := foldl1 p (.seq []) backInserter

/-- `repeated_reject_incomplete.hpp:20-23` -/
def repeatedRejectIncomplete (p : P) : P := .foldlRejectIncomplete p (.seq []) backInserter

/-- `repeated_reject_incomplete1.hpp:20-23` -/
def repeatedRejectIncomplete1 (p : P) : P := foldlRejectIncomplete1 p (.seq []) backInserter

/-- `cpp11/repeated_one_of.hpp:18-19`, `cpp98/repeated_one_of.hpp` -/
def repeatedOneOf (ps : List P) : P := repeated (.oneOf ps)

/-- `cpp11/repeated_one_of1.hpp:18-19`, `cpp98/repeated_one_of1.hpp` -/
def repeatedOneOf1 (ps : List P) : P := repeated1 (.oneOf ps)

/-- `iterate_c.hpp:19-20` -/
def iterateC (p : P) (n : Int) : P := .iterate n p []

/-- `iterate.hpp:17-18`; a number class without a value is not modelled -/
def iterateN (p : P) (n : Int) : P := iterateC p n

/-! ## Characters -/

/-- `cpp11/one_char_except.hpp:20-27`, `cpp98/one_char_except.hpp:31-82`: the characters are classes
here (`cpp98/impl/one_char_except_not_used.hpp:16` stands for a missing one).  Simplification: all of
them have a value, so that the parser differs from `one_char_except_c` only in the spelling. -/
def oneCharExcept (cs : List Chr) : P := .oneCharExceptC cs

/-- `lit.hpp:17-18` -/
def lit (c : Chr) : P := litC c

/-- `range_c.hpp:20-27` -/
def rangeC (lo hi : Chr) : P := .acceptWhen .oneChar (inRangeC lo hi) .unexpectedCharacter

/-- `range.hpp:20-27` -/
def range (lo hi : Chr) : P := .acceptWhen .oneChar (inRangeC lo hi) .unexpectedCharacter

/-- `digit.hpp:22-28` -/
def digit : P :=
  .acceptWhen (.changeErrorMessage .oneChar .digitExpected) isDigit .digitExpected

/-- `letter.hpp:21-23` -/
def letter : P := .acceptWhen .oneChar isLetter .letterExpected

/-- `space.hpp:21-23` -/
def space : P := .acceptWhen .oneChar isWhitespace .whitespaceExpected

/-- `spaces.hpp:18` -/
def spaces : P := repeated1 space

/-- `alphanum.hpp:19` -/
def alphanum : P := .oneOf [letter, digit]

/-- `digit_val.hpp:20` -/
def digitVal : P := .transform digit digitToInt

/-- `int_.hpp:19` -/
def int_ : P := foldl1 digitVal (.int 0) nextDigit

/-- `always_c.hpp:18-19` -/
def alwaysC (c : Chr) (v : Val) : P := .always (litC c) v

/-! ## Others -/

/-- `token.hpp:21-22` -/
def token (p : P) : P := firstOf [p, repeated space]

/-- `entire_input.hpp:19-27`: the primary template and the specialisation for the default message -/
def entireInput (p : P) (m : Msg := .endOfInputExpected) : P :=
  if m = .endOfInputExpected then firstOf [p, .empty .cvoid]
  else firstOf [p, .changeErrorMessage (.empty .cvoid) m]

/-- `sequence_apply.hpp:31-32` for all of `0 … n-1`: `at_c<V, i>` beyond the end is ill-formed. -/
def atAll : Nat → List Val → Out (List Val)
  | 0, _ => .ok []
  | _ + 1, [] => .ill .noSpecialisation
  | n + 1, x :: l => (atAll n l).bind fun r => .ok (x :: r)

/-- `sequence_apply.hpp:40-51` (`sequence_apply_transform<n>`) -/
def sequenceApplyTransform (n : Nat) (t : List Val → Val) : Val → Val
  | .seq l => Val.ofOut ((atAll n l).bind fun args => .ok (.delayed (t args)))
  | _ => .bad .noSpecialisation

/-- `sequence_apply.hpp:55-64`: `sequence_apply<n>` for the number `n` of parsers.  It is generated
for `n` from 1 to `BOOST_METAPARSE_LIMIT_SEQUENCE_SIZE - 1` only (66-71). -/
def sequenceApply (t : List Val → Val) (ps : List P) : P :=
  .transform (.sequence ps) (sequenceApplyTransform ps.length t)

end P

/-- `build_parser.hpp:28-60`: the result of parsing from the initial position, or the static
assertion in `x__________________PARSING_FAILED__________________x`. -/
noncomputable def buildParser {I : Type} (E : Env I) (p : P) (s : I) : Out Val :=
  (run E p s start).bind fun
    | .rej m pos => .ill (.parsingFailed pos.line pos.col m)
    | .acc v _ _ => .ok v

end Metaparse
