import Verif.Model.Derived
/-!
# `grammar`

The parser of rule texts, and the parsers built from rules.  Paths in comments are relative to
`/repo/include/boost/metaparse/v1/`.
-/

namespace Metaparse

namespace Gram

/-! ## The parser of rule texts -/

/-- `grammar.hpp:81-87` (`build_repeated`).  Here and in the next definitions, arguments that are not
what the rule parser passes are ill-formed. -/
def buildRepeated (st t : Val) : Val :=
  match st with
  | .gexp e => Val.ofOut (t.value.bind fun op => .ok (.gexp (.rep op e)))
  | _ => .bad .noSpecialisation

/-- `grammar.hpp:89-109` (`build_sequence`) -/
def buildSequence (st p : Val) : Val :=
  match st, p with
  | .gexp a, .gexp b => .gexp (.seq a b)
  | _, _ => .bad .noSpecialisation

/-- `grammar.hpp:111-131` (`build_selection`) -/
def buildSelection (st p : Val) : Val :=
  match st, p with
  | .gexp a, .gexp b => .gexp (.sel a b)
  | _, _ => .bad .noSpecialisation

/-- `grammar.hpp:153-168` (`build_name`) -/
def buildName (v : Val) : Val :=
  match v with
  | .str n => .gexp (.name n)
  | _ => .bad .noSpecialisation

/-- `grammar.hpp:170-185` (`build_char`) -/
def buildChar (v : Val) : Val := Val.ofOut (v.value.bind fun c => .ok (.gexp (.chr c)))

/-- `grammar.hpp:187` -/
def repeatedToken : P := .token (.litC (ch '*'))
/-- `grammar.hpp:188` -/
def repeated1Token : P := .token (.litC (ch '+'))
/-- `grammar.hpp:189` -/
def orToken : P := .token (.litC (ch '|'))
/-- `grammar.hpp:190` -/
def openBracketToken : P := .token (.litC (ch '('))
/-- `grammar.hpp:191` -/
def closeBracketToken : P := .token (.litC (ch ')'))
/-- `grammar.hpp:192`; the default result of `keyword` is `keyword.hpp:29` -/
def defineToken : P := .token (.keyword [ch ':', ch ':', ch '='] .void_)

/-- `grammar.hpp:197-206` -/
def escape : P :=
  .lastOf [.litC (ch '\\'),
    .oneOf [.always (.litC (ch 'n')) (.chr (ch '\n')), .always (.litC (ch 'r')) (.chr (ch '\r')),
      .always (.litC (ch 't')) (.chr (ch '\t')), .litC (ch '\\'), .litC (ch '\'')]]

/-- `grammar.hpp:194-212` -/
def charToken : P :=
  .middleOf (.litC (ch '\'')) (.oneOf [escape, .oneCharExceptC [ch '\'']])
    (.token (.litC (ch '\'')))

/-- `grammar.hpp:214-222` -/
def nameToken : P :=
  .token (.foldr1 (.oneOf [.alphanum, .litC (ch '_')]) (.str []) frontInserter)

/-- The number of the class `expression` (`grammar.hpp:224, 254-260`) in the environment: it is
declared first, used in `bracket_expression` and then defined. -/
def expressionId : Nat := 0

/-- `grammar.hpp:226-228` -/
def bracketExpression : P := .middleOf openBracketToken (.ref expressionId) closeBracketToken

/-- `grammar.hpp:230-236` -/
def nameExpression : P :=
  .oneOf [.transform charToken buildChar, .transform nameToken buildName, bracketExpression]

/-- `grammar.hpp:238-244` -/
def repeatedExpression : P :=
  .foldlStartWithParser (.oneOf [repeatedToken, repeated1Token]) nameExpression buildRepeated

/-- `grammar.hpp:246-252` -/
def seqExpression : P :=
  .foldlStartWithParser repeatedExpression repeatedExpression buildSequence

/-- `grammar.hpp:254-260` -/
def expression : P :=
  .foldlStartWithParser (.lastOf [orToken, seqExpression]) seqExpression buildSelection

/-- `grammar.hpp:262` -/
def ruleDefinition : P := .sequence [nameToken, defineToken, .ref expressionId]

/-- `grammar.hpp:264`, without the `build_parser` -/
def parserParser : P := .entireInput ruleDefinition

end Gram

/-! ## Grammars -/

/-- A value of the map `Rules`: `build_parsed_parser<S>::the_parser` (`grammar.hpp:285-291`) or
`build_native_parser<P>` (`grammar.hpp:266-276`). -/
inductive RuleBody where
  | parsed (e : GExp)
  | native (p : P)

/-- `grammar_builder<Start, Rules, Actions>` (`grammar.hpp:309-334`).  The maps of Boost.MPL are lists
with the newest entry first; looking up a key gives the newest entry. -/
structure Grammar where
  start : List Chr
  rules : List (List Chr × RuleBody)
  actions : List (List Chr × (Val → Val))

namespace Grammar

/-- `grammar.hpp:374-381` -/
def empty (start : List Chr) : Grammar := ⟨start, [], []⟩

/-- What `FState::apply<G>` does (`grammar.hpp:59-131, 153-185`); `get n` is `get_parser<G, n>::type`. -/
def instantiate (get : List Chr → Out P) : GExp → Out P
  | .chr c => .ok (P.lit c)
  | .name n => get n
  | .rep op e => (instantiate get e).bind fun p =>
      .ok (if op = ch '+' then P.repeated1 p else P.repeated p)
  | .seq a b => (instantiate get a).bind fun p => (instantiate get b).bind fun q =>
      .ok (.sequence [p, q])
  | .sel a b => (instantiate get a).bind fun p => (instantiate get b).bind fun q =>
      .ok (.oneOf [p, q])

/-- The `eval_if` of `get_parser` (`grammar.hpp:141-150`). -/
def withAction (G : Grammar) (name : List Chr) (p : P) : P :=
  match G.actions.lookup name with
  | some f => .transform p f
  | none => p

/-- `get_parser<G, Name>` (`grammar.hpp:133-151`) with at most `n` nested instantiations.
`mpl::at` of a name that is not a key is `mpl::void_`, which has no `apply`. -/
def getParser (G : Grammar) : Nat → List Chr → Out P
  | 0, _ => .deep
  | n + 1, name =>
      match G.rules.lookup name with
      | none => .ill .noSpecialisation
      | some (.native p) => .ok (G.withAction name p)
      | some (.parsed e) =>
          (instantiate (getParser G n) e).bind fun p => .ok (G.withAction name p)

open Classical in
/-- `get_parser<G, Name>` without a limit on the depth (`grammar.hpp:133-151`). -/
noncomputable def parserOf (G : Grammar) (name : List Chr) : Out P :=
  if h : ∃ n, getParser G n name ≠ .deep then getParser G h.choose name else .deep

/-- `grammar.hpp:296-299` (`rebuild`): the name at the beginning of a text.  There is no
`entire_input`. -/
noncomputable def rebuild (E : Env (List Chr)) (s : List Chr) : Out (List Chr) :=
  (buildParser E Gram.nameToken s).bind fun
    | .str n => .ok n
    | _ => .ill .noSpecialisation

/-- `grammar.hpp:278-294` (`build_parsed_parser`): name and body of a rule text. -/
noncomputable def parseRule (E : Env (List Chr)) (s : List Chr) : Out (List Chr × GExp) :=
  (buildParser E Gram.parserParser s).bind fun
    | .seq [.str n, _, .gexp e] => .ok (n, e)
    | _ => .ill .noSpecialisation

/-- `add_rule` (`grammar.hpp:336-359`), for a rule that is already parsed. -/
def addRule (G : Grammar) (n : List Chr) (e : GExp) : Option (Val → Val) → Grammar
  | none => ⟨G.start, (n, .parsed e) :: G.rules, G.actions⟩
  | some f => ⟨G.start, (n, .parsed e) :: G.rules, (n, f) :: G.actions⟩

/-- `add_import` (`grammar.hpp:361-372`), for a name that is already parsed. -/
def addImport (G : Grammar) (n : List Chr) (p : P) : Grammar :=
  ⟨G.start, (n, .native p) :: G.rules, G.actions⟩

/-- `G::rule<Def, Action>` (`grammar.hpp:330-333`) -/
noncomputable def rule (G : Grammar) (E : Env (List Chr)) (text : List Chr)
    (action : Option (Val → Val)) : Out Grammar :=
  (parseRule E text).bind fun r => .ok (G.addRule r.1 r.2 action)

/-- `G::import<Name, P>` (`grammar.hpp:325-328`) -/
noncomputable def import_ (G : Grammar) (E : Env (List Chr)) (name : List Chr) (p : P) :
    Out Grammar :=
  (rebuild E name).bind fun n => .ok (G.addImport n p)

/-- A link of a chain `grammar<…>::rule<…>::import<…>…` (`grammar.hpp:325-333`). -/
inductive Addition where
  | rule (text : List Chr) (action : Option (Val → Val))
  | import_ (name : List Chr) (p : P)

/-- `G::rule<…>` or `G::import<…>` (`grammar.hpp:325-333`) -/
noncomputable def add (G : Grammar) (E : Env (List Chr)) : Addition → Out Grammar
  | .rule t a => G.rule E t a
  | .import_ n p => G.import_ E n p

/-- A chain of `::rule<…>` and `::import<…>`, from left to right (`grammar.hpp:325-333`). -/
noncomputable def addAll (E : Env (List Chr)) : Grammar → List Addition → Out Grammar
  | G, [] => .ok G
  | G, a :: l => (G.add E a).bind fun G' => addAll E G' l

/-- `G::apply<S, Pos>` (`grammar.hpp:316-323`).  `E` is the environment of the rule parser, `E'` the one
the grammar is used in (the parsers imported belong to it). -/
noncomputable def apply {I : Type} (G : Grammar) (E : Env (List Chr)) (E' : Env I) : Sem I :=
  fun s pos =>
    (rebuild E G.start).bind fun n => (G.parserOf n).bind fun p => run E' p s pos

end Grammar

end Metaparse
