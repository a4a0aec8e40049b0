/-!
# Basic objects of the model

Paths in comments are relative to `/repo/include/boost/metaparse/v1/` unless they start with
`/repo`.  Boost.MPL is not part of the repository; its metafunctions are modelled by their
documentation.
-/

namespace Metaparse

/-- A character, by the integer `C::type::value` the library reads from it
(`one_char.hpp:35-38`, `impl/is_char_c.hpp:25`).  Simplification: the conversions to `char` in
template arguments (`lit_c.hpp:21`) are the identity, i.e. characters are in the range of `char`. -/
macro "Chr" : term => `(Int)

/-- The value of a character literal (as in `one_char.hpp:35-38`). -/
def ch (c : Char) : Chr := (c.toNat : Int)

/-- The characters of a string literal, as in `BOOST_METAPARSE_STRING("…")` (`/repo/include/boost/metaparse/string.hpp:17`). -/
def txt (s : String) : List Chr := s.toList.map ch

/-- Error message classes: `error/*.hpp` (`error/digit_expected.hpp:19`,
`error/end_of_input_expected.hpp:19-22`, `error/expected_to_fail.hpp:19-22`,
`error/index_out_of_range.hpp:21-34`, `error/letter_expected.hpp:19`,
`error/literal_expected.hpp:19-28`, `error/none_of_the_expected_cases_found.hpp:19-22`,
`error/unexpected_character.hpp:19-22`, `error/unexpected_end_of_input.hpp:19-22`,
`error/unpaired.hpp:23-34`, `error/whitespace_expected.hpp:19-22`); `user n` stands for message
classes written by the user of the library (`define_error.hpp:14-22`). -/
inductive Msg where
  | digitExpected
  | endOfInputExpected
  | expectedToFail
  | indexOutOfRange (from_ to_ n : Int)
  | letterExpected
  | literalExpected (c : Chr)
  | noneOfTheExpectedCasesFound
  | unexpectedCharacter
  | unexpectedEndOfInput
  | unpaired (line col : Int) (msg : Msg)
  | whitespaceExpected
  | user (n : Nat)
  deriving DecidableEq, Repr

/-- Why an instantiation is ill-formed (a compile error, not a parse rejection)
(`build_parser.hpp:28-32`, `impl/next_digit.hpp:22-28`, `get_result.hpp:17-18`). -/
inductive Fault where
  /-- `build_parser.hpp:28-32`: the static assertion carrying line, column and message. -/
  | parsingFailed (line col : Int) (msg : Msg)
  /-- signed overflow in a constant expression -/
  | overflow
  /-- division by zero in a constant expression -/
  | divByZero
  /-- `T::type` of a class without a member `type` -/
  | noType
  /-- `T::value` of a class without a member `value` -/
  | noValue
  /-- use of a class template with no matching definition (incomplete type) -/
  | noSpecialisation
  /-- a failed static assertion -/
  | staticAssert
  /-- failure of a user metafunction -/
  | user (n : Nat)
  deriving DecidableEq, Repr

/-- What evaluating a template expression can do: give a class, be ill-formed, or exceed the
available instantiation depth (for example `one_char.hpp:57-64`). -/
inductive Out (α : Type u) where
  | ok (a : α)
  | ill (f : Fault)
  | deep
  deriving DecidableEq, Repr

/-- Sequencing of evaluations: the first failure is the failure of the whole (for example `unless_error.hpp:20-23`). -/
def Out.bind {α : Type u} {β : Type v} : Out α → (α → Out β) → Out β
  | .ok a, k => k a
  | .ill f, _ => .ill f
  | .deep, _ => .deep

@[simp] theorem Out.bind_ok {α : Type u} {β : Type v} (a : α) (k : α → Out β) :
    (Out.ok a).bind k = k a := rfl
@[simp] theorem Out.bind_ill {α : Type u} {β : Type v} (f : Fault) (k : α → Out β) :
    (Out.ill f : Out α).bind k = .ill f := rfl
@[simp] theorem Out.bind_deep {α : Type u} {β : Type v} (k : α → Out β) :
    (Out.deep : Out α).bind k = .deep := rfl

/-- What `grammar` builds from a rule text (`grammar.hpp:59-131`): the classes
`build_char::apply_impl`, `build_name::apply_impl`, `repeated_apply_impl`,
`build_sequence::apply_impl`, `build_selection::apply_impl`, as data. -/
inductive GExp where
  | chr (c : Chr)
  | name (n : List Chr)
  | rep (op : Chr) (e : GExp)
  | seq (a b : GExp)
  | sel (a b : GExp)
  deriving DecidableEq, Repr

/-- The classes ("template metaprogramming values") parsers return and pass around. (`accept.hpp:18-30` takes one.) -/
inductive Val where
  /-- `mpl::char_<c>` -/
  | chr (c : Chr)
  /-- `mpl::int_<n>` -/
  | int (n : Int)
  /-- `mpl::bool_<b>` -/
  | bool (b : Bool)
  /-- `impl::void_` (`impl/void_.hpp:18`) -/
  | void_
  /-- the C++ type `void`, which has no `::type` -/
  | cvoid
  /-- an MPL sequence (`mpl::vector`, `mpl::deque`); which of the two is not distinguished -/
  | seq (l : List Val)
  /-- `metaparse::string` -/
  | str (l : List Chr)
  /-- an error message class used as a value (`util/digit_to_int_c.hpp:22`) -/
  | msg (m : Msg)
  /-- what the rule parser of `grammar` builds -/
  | gexp (e : GExp)
  /-- an instance `T<args...>` of a class template of the user, with `::type` itself -/
  | user (n : Nat) (args : List Val)
  /-- an instance `T<a, b>` of a class template of the user, with `::type` equal to `T<b, a>`; the example
  `/repo/example/regexp/main.cpp:83-93` has such a class -/
  | flip (n : Nat) (a b : Val)
  /-- a nullary metafunction with `::type` equal to `v` -/
  | delayed (v : Val)
  /-- a nullary metafunction that is ill-formed when evaluated -/
  | bad (f : Fault)
  deriving Repr

/-- `T::type` (for example `foldl.hpp:36`). -/
def Val.force : Val → Out Val
  | .cvoid => .ill .noType
  | .flip n a b => .ok (.flip n b a)
  | .delayed v => .ok v
  | .bad f => .ill f
  | v => .ok v

/-- `T::type::value` (for example `one_char.hpp:35`). -/
def Val.value (v : Val) : Out Int :=
  v.force.bind fun
    | .chr c => .ok c
    | .int n => .ok n
    | .bool b => .ok (if b then 1 else 0)
    | _ => .ill .noValue

/-- Source positions, `source_position.hpp:23-32`; `get_line`, `get_col` and `get_prev_char`
(`get_line.hpp:20-22`, `get_col.hpp:20-22`, `get_prev_char.hpp:20-22`) are the fields.  Simplification: line and column are unbounded
integers instead of `int` (see `C02_pos_bounded` for why this does not matter). -/
structure Pos where
  line : Int
  col : Int
  prev : Chr
  deriving DecidableEq, Repr

/-- `start.hpp:20-26` -/
def start : Pos := ⟨1, 1, 0⟩

namespace Pos

/-- `next_char.hpp:19-24`, `source_position_tag.hpp:50-61` -/
def nextChar (p : Pos) (c : Chr) : Pos := ⟨p.line, p.col + 1, c⟩

/-- `next_line.hpp:19-24`, `source_position_tag.hpp:63-74` -/
def nextLine (p : Pos) (c : Chr) : Pos := ⟨p.line + 1, 1, c⟩

/-- `source_position.hpp:52-59` -/
def equalTo (a b : Pos) : Bool :=
  a.line == b.line && a.col == b.col && a.prev == b.prev

/-- `source_position.hpp:73-74` -/
def notEqualTo (a b : Pos) : Bool := !equalTo a b

/-- `source_position.hpp:88-100` -/
def less (a b : Pos) : Bool :=
  decide (a.line < b.line) ||
    (a.line == b.line && (decide (a.col < b.col) ||
      (a.col == b.col && decide (a.prev < b.prev))))

/-- `source_position.hpp:114-117` -/
def greater (a b : Pos) : Bool := !(less a b || equalTo a b)

/-- `source_position.hpp:131-132` -/
def greaterEqual (a b : Pos) : Bool := !less a b

/-- `source_position.hpp:146-149` -/
def lessEqual (a b : Pos) : Bool := less a b || equalTo a b

end Pos

/-- `one_char.hpp:31-44` (`next_pos`) -/
def nextPos (c : Chr) (pos : Pos) : Pos :=
  if c = ch '\r' ∨ (c = ch '\n' ∧ pos.prev ≠ ch '\r') then pos.nextLine c else pos.nextChar c

/-- The class `P::apply<S, Pos>::type`: `accept.hpp:18-30` or `reject.hpp:18-27`; `is_error`
(`is_error.hpp:22-28`) and `get_result`, `get_remaining`, `get_position`, `get_message`
(`accept_tag.hpp:22-41`, `fail_tag.hpp:23-35`; dispatching on the tag in `get_result.hpp:20-23`,
`get_remaining.hpp:20-22`, `get_position.hpp:20-22`, `get_message.hpp:20-22`) are pattern matching on it. -/
inductive Res (I : Type u) where
  | acc (result : Val) (remaining : I) (pos : Pos)
  | rej (msg : Msg) (pos : Pos)
  deriving Repr

/-- What the library needs of an input sequence: `mpl::empty`, `mpl::front`, `mpl::pop_front`
(`one_char.hpp:46-64`, `empty.hpp:28-35`). -/
structure Input (I : Type u) where
  isEmpty : I → Out Bool
  front : I → Out Chr
  popFront : I → Out I

/-- The input sequences as lists of characters: `mpl::empty`, `mpl::front`, `mpl::pop_front` by
their MPL documentation; using `front` or `pop_front` of an empty sequence is ill-formed. (`one_char.hpp:46-64` uses them.) -/
def listInput : Input (List Chr) where
  isEmpty s := .ok s.isEmpty
  front
    | [] => .ill .noSpecialisation
    | c :: _ => .ok c
  popFront
    | [] => .ill .noSpecialisation
    | _ :: s => .ok s

end Metaparse
