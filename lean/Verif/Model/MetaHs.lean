import Verif.Model.Calculator
import Verif.Model.GettingStarted
/-!
# The parser of the example `meta_hs`

`/repo/example/meta_hs/` embeds a small Haskell like language in C++: `def_parser` turns the text of the
definition of a function into a syntax tree.
-/

namespace Metaparse

namespace MetaHs

/-! ## The classes of the syntax tree (`/repo/example/meta_hs/ast.hpp`) -/

/-- `ast::value<V>` (`/repo/example/meta_hs/ast.hpp:11-15`) -/
def value (v : Val) : Val := .user 40 [v]

/-- `ast::ref<Name>` (`/repo/example/meta_hs/ast.hpp:17-21`) -/
def ref (name : Val) : Val := .user 41 [name]

/-- `ast::application<F, Arg>` (`/repo/example/meta_hs/ast.hpp:23-27`) -/
def application (f arg : Val) : Val := .user 42 [f, arg]

/-- `ast::lambda<F, ArgName>` (`/repo/example/meta_hs/ast.hpp:29-33`) -/
def lambda (f argName : Val) : Val := .user 43 [f, argName]

/-- `ast::top_bound<E>` (`/repo/example/meta_hs/ast.hpp:35-39`) -/
def topBound (e : Val) : Val := .user 44 [e]

/-- `boost::mpl::pair<First, Second>` (Boost.MPL, not part of the library)
(used at `/repo/example/meta_hs/semantic.hpp:100-109`) -/
def mplPair (a b : Val) : Val := .user 45 [a, b]

/-- `curry3<lazy_if>` (`/repo/example/meta_hs/semantic.hpp:56-57,69`), as a class the parser never looks into -/
def curryLazyIf : Val := .user 46 []

/-! ## The actions (`/repo/example/meta_hs/semantic.hpp`) -/

namespace Semantic

/-- `semantic::ref` (`/repo/example/meta_hs/semantic.hpp:21-27`) -/
def ref (name : Val) : Val := MetaHs.ref name

/-- `semantic::value` (`/repo/example/meta_hs/semantic.hpp:29-35`) -/
def value (v : Val) : Val := MetaHs.value v

/-- `semantic::lambda` (`/repo/example/meta_hs/semantic.hpp:37-43`) -/
def lambda (f argName : Val) : Val := MetaHs.lambda f argName

/-- `semantic::application` (`/repo/example/meta_hs/semantic.hpp:45-51`) -/
def application (f arg : Val) : Val := MetaHs.application f arg

/-- `semantic::if_` (`/repo/example/meta_hs/semantic.hpp:53-77`) -/
def if_ (seq : Val) : Val :=
  Val.ofOut ((Tutorial.atC seq 0).bind fun c => (Tutorial.atC seq 1).bind fun t =>
    (Tutorial.atC seq 2).bind fun f =>
      .ok (application (application (application (MetaHs.value curryLazyIf) c) t) f))

/-- `semantic::binary_op` (`/repo/example/meta_hs/semantic.hpp:79-98`) -/
def binaryOp (exp c : Val) : Val :=
  Val.ofOut ((Calc.front c).bind fun o => (Calc.back c).bind fun b =>
    .ok (application (application (ref o) exp) b))

/-- `semantic::pair` (`/repo/example/meta_hs/semantic.hpp:100-111`) -/
def pair (seq : Val) : Val :=
  Val.ofOut ((Calc.front seq).bind fun n => (Calc.back seq).bind fun e => .ok (mplPair n (topBound e)))

end Semantic

/-! ## The tokens (`/repo/example/meta_hs/token.hpp`) -/

namespace Token

/-- `token::plus` (`/repo/example/meta_hs/token.hpp:33-37`) -/
def plus : P := .token (.alwaysC (ch '+') (.str (txt ".+.")))

/-- `token::minus` (`/repo/example/meta_hs/token.hpp:39-43`) -/
def minus : P := .token (.alwaysC (ch '-') (.str (txt ".-.")))

/-- `token::mult` (`/repo/example/meta_hs/token.hpp:45-49`) -/
def mult : P := .token (.alwaysC (ch '*') (.str (txt ".*.")))

/-- `token::div` (`/repo/example/meta_hs/token.hpp:51-55`) -/
def div : P := .token (.alwaysC (ch '/') (.str (txt "./.")))

/-- The alternatives of `token::cmp` (`/repo/example/meta_hs/token.hpp:60-95`) -/
def cmpCases : List P :=
  [.lastOf [.litC (ch '='), .litC (ch '='), .ret (.str (txt ".==."))],
    .lastOf [.litC (ch '/'), .litC (ch '='), .ret (.str (txt "./=."))],
    .lastOf [.litC (ch '<'), .oneOf [.alwaysC (ch '=') (.str (txt ".<=.")), .ret (.str (txt ".<."))]],
    .lastOf [.litC (ch '>'), .optional (.alwaysC (ch '=') (.str (txt ".>=."))) (.str (txt ".>."))]]

/-- `token::cmp` (`/repo/example/meta_hs/token.hpp:57-98`) -/
def cmp : P := .token (.oneOf cmpCases)

/-- `token::open_bracket` (`/repo/example/meta_hs/token.hpp:100-102`) -/
def openBracket : P := .token (.litC (ch '('))

/-- `token::close_bracket` (`/repo/example/meta_hs/token.hpp:104-106`) -/
def closeBracket : P := .token (.litC (ch ')'))

/-- `token::define` (`/repo/example/meta_hs/token.hpp:108-110`) -/
def define : P := .token (.litC (ch '='))

/-- `token::int_` (`/repo/example/meta_hs/token.hpp:112`) -/
def int_ : P := .token P.int_

/-- The keywords (`/repo/example/meta_hs/token.hpp:138-142`) -/
def keywords : List (List Chr) := [txt "if", txt "then", txt "else"]

/-- The message `keywords_are_not_allowed` (`/repo/example/meta_hs/except_keywords.hpp:18`) -/
def keywordsAreNotAllowed : Msg := .user 40

/-- `except_keywords::not_keyword` with `not_a_keyword` (`/repo/example/meta_hs/except_keywords.hpp:24-46`):
`mpl::equal` of the two sequences of characters -/
def notKeyword (keywords : List (List Chr)) (v : Val) : Out Bool :=
  match v with
  | .str w => .ok (keywords.foldl (fun acc k => acc && !(w == k)) true)
  | _ => .ill .noSpecialisation

/-- `except_keywords` (`/repo/example/meta_hs/except_keywords.hpp:20-58`) -/
def exceptKeywords (p : P) (keywords : List (List Chr)) : P :=
  .acceptWhen p (notKeyword keywords) keywordsAreNotAllowed

/-- `mpl::lambda<mpl::push_back<string<>, _1>>` (`/repo/example/meta_hs/token.hpp:127-132`) -/
def firstLetter (c : Val) : Val := Comb.pushBack (.str []) c

/-- `mpl::lambda<mpl::push_back<_1, _2>>` (`/repo/example/meta_hs/token.hpp:134-136`) -/
def nextLetter (w c : Val) : Val := Comb.pushBack w c

/-- The parser in `token::name` (`/repo/example/meta_hs/token.hpp:117-137`) -/
def word : P :=
  .foldlRejectIncompleteStartWithParser (.oneOf [P.alphanum, .litC (ch '_')])
    (.transform (.oneOf [P.letter, .litC (ch '_')]) firstLetter) nextLetter

/-- `token::name` (`/repo/example/meta_hs/token.hpp:114-145`) -/
def name : P := .token (exceptKeywords word keywords)

/-- `token::if_` (`/repo/example/meta_hs/token.hpp:147-151`) -/
def if_ : P := .token (.keyword (txt "if") .void_)

/-- `token::then` (`/repo/example/meta_hs/token.hpp:153-157`) -/
def then_ : P := .token (.keyword (txt "then") .void_)

/-- `token::else_` (`/repo/example/meta_hs/token.hpp:159-163`) -/
def else_ : P := .token (.keyword (txt "else") .void_)

end Token

/-! ## The grammar (`/repo/example/meta_hs/grammar.hpp`) -/

/-- The number of the class `expression` (`/repo/example/meta_hs/grammar.hpp:38`) among the classes of the
user. -/
def expressionId : Nat := 0

/-- `bracket_exp` (`/repo/example/meta_hs/grammar.hpp:40-46`) -/
def bracketExp : P := .middleOf Token.openBracket (.ref expressionId) Token.closeBracket

/-- `if_exp` (`/repo/example/meta_hs/grammar.hpp:48-57`) -/
def ifExp : P :=
  .transform (.sequence [.lastOf [Token.if_, .ref expressionId], .lastOf [Token.then_, .ref expressionId],
    .lastOf [Token.else_, .ref expressionId]]) Semantic.if_

/-- `single_exp` (`/repo/example/meta_hs/grammar.hpp:59-66`) -/
def singleExp : P :=
  .oneOf [ifExp, .transform Token.name Semantic.ref, .transform Token.int_ Semantic.value, bracketExp]

/-- `application` (`/repo/example/meta_hs/grammar.hpp:68-74`) -/
def applicationExp : P := .foldlRejectIncompleteStartWithParser singleExp singleExp Semantic.application

/-- `mult_exp` (`/repo/example/meta_hs/grammar.hpp:76-85`) -/
def multExp : P :=
  .foldlRejectIncompleteStartWithParser (.sequence [.oneOf [Token.mult, Token.div], applicationExp])
    applicationExp Semantic.binaryOp

/-- `plus_exp` (`/repo/example/meta_hs/grammar.hpp:87-96`) -/
def plusExp : P :=
  .foldlRejectIncompleteStartWithParser (.sequence [.oneOf [Token.plus, Token.minus], multExp]) multExp
    Semantic.binaryOp

/-- `cmp_exp`, which is what `expression` is (`/repo/example/meta_hs/grammar.hpp:98-106`) -/
def cmpExp : P :=
  .foldlRejectIncompleteStartWithParser (.sequence [Token.cmp, plusExp]) plusExp Semantic.binaryOp

/-- `definition` (`/repo/example/meta_hs/grammar.hpp:108-120`) -/
def definition : P :=
  .transform (.sequence [Token.name, .foldrStartWithParser Token.name
    (.lastOf [Token.define, .ref expressionId]) Semantic.lambda]) Semantic.pair

/-- `def_parser` (`/repo/example/meta_hs/grammar.hpp:122-126`) -/
noncomputable def defParser {I : Type} (E : Env I) (s : I) : Out Val :=
  buildParser E (.entireInput definition) s

end MetaHs

end Metaparse
