import Verif.Model.Derived
/-!
# The example that parses regular expressions

`/repo/example/regexp/main.cpp`; line numbers in this file refer to it.

Not modelled: Boost.Xpressive. The objects of type `sregex` are represented by what they are made of
(`as_xpr(c)`, `_` and their concatenation `>>`).
-/

namespace Metaparse

/-- The building blocks of the regular expressions (55-93). -/
inductive Piece where
  /-- `boost::xpressive::_` (67) -/
  | any
  /-- `as_xpr(c)` (78) -/
  | lit (c : Chr)
  deriving DecidableEq

namespace Regexp

/-- `r_epsilon` (55-61) -/
def epsilon : Val := .user 0 []
/-- `r_any_char` (63-69) -/
def anyChar : Val := .user 1 []
/-- `r_char_lit::apply<C>` (73-80); its `type` (48, 74) is itself -/
def charLit (c : Val) : Val := .user 2 [c]
/-- `r_append::apply<A, B>` (85-92); its `type` (48, 86) is `r_append::apply<B, A>` -/
def append (a b : Val) : Val := .flip 3 a b

/-- `V::type::run()` (57, 65, 76, 88) for the classes above. For `V = r_append::apply<A, B>`, `V::type` is
`r_append::apply<B, A>`, so this is `B::type::run() >> A::type::run()` (90). -/
def run : Val → Out (List Piece)
  | .user 0 [] => .ok []
  | .user 1 [] => .ok [.any]
  | .user 2 [c] => c.value.bind fun x => .ok [.lit x]
  | .flip 3 a b => (run b).bind fun p => (run a).bind fun q => .ok (p ++ q)
  | _ => .ill .noSpecialisation

/-- `V::value` (49, 53) for the classes above: they derive from `has_value<T>` with `T` equal to `V::type`, and
`value` is `T::run()`. -/
def value (v : Val) : Out (List Piece) := run v

/-- The parser in `non_bracket_expr` (106-109) -/
def oneChar : P :=
  .oneOf [P.alwaysC (ch '.') anyChar,
    .transform (.oneCharExceptC [ch '.', ch '(', ch ')']) charLit]

/-- `non_bracket_expr` (104-113) -/
def nonBracketExpr : P := P.foldlRejectIncomplete1 oneChar epsilon append

/-- `bracket_expr` (115) -/
def bracketExpr : P := .middleOf (P.litC (ch '(')) nonBracketExpr (P.litC (ch ')'))

/-- `regexp` (117-123) -/
def regexp : P := .foldlRejectIncomplete (.oneOf [bracketExpr, nonBracketExpr]) epsilon append

/-- `regexp_parser` (125) -/
noncomputable def regexpParser {I : Type} (E : Env I) (s : I) : Out Val :=
  buildParser E (.entireInput regexp) s

end Regexp

end Metaparse
