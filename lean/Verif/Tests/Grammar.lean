import Verif.Tests.Harness
import Verif.Model.Grammar
/-! # The tests of `grammar` (see `Verif.Tests.Harness`); paths are relative to `/repo/test` -/

namespace Metaparse.Tests

/-- The environment of the rule parser (`grammar.hpp:224, 254-260`). -/
def grammarEnv (std : Std) : Env (List Chr) :=
  { testEnv std with rules := fun i => if i = Gram.expressionId then Gram.expression else .fail (.user 0) }

/-- `build_parser` with a depth limit -/
def buildWithin (std : Std) (p : P) (s : List Chr) : Option Val :=
  match eval (grammarEnv std) 60 p s start with
  | .ok (.acc v _ _) => some v
  | _ => none

/-- A link of a chain of `::rule` and `::import` on the grammar so far; the texts are parsed with a
depth limit. -/
def addWithin (std : Std) (G : Grammar) : Grammar.Addition → Option Grammar
  | .rule text a => match buildWithin std Gram.parserParser text with
      | some (.seq [.str n, _, .gexp e]) => some (G.addRule n e a)
      | _ => none
  | .import_ name p => match buildWithin std Gram.nameToken name with
      | some (.str n) => some (G.addImport n p)
      | _ => none

/-- `grammar<>` (with the default start symbol `S`, `grammar.hpp:374-381`) followed by the additions,
applied to an input: the outcome in every implementation satisfies `ok`. -/
def grammarTest (adds : List Grammar.Addition) (s : String) (ok : Res (List Chr) → Bool) : Bool :=
  [Std.cpp98, .cpp11, .cpp14].all fun std =>
    match adds.foldlM (addWithin std) (Grammar.empty (t "S")) with
    | none => false
    | some G => match buildWithin std Gram.nameToken G.start with
      | some (.str n) => match G.getParser 20 n with
        | .ok p => match eval (testEnv std) 60 p (t s) start with
          | .ok r => ok r
          | _ => false
        | _ => false
      | _ => false

/-- The result of the grammar is `v`. -/
def grammarResult (adds : List Grammar.Addition) (s : String) (v : Val) : Bool :=
  grammarTest adds s fun | .acc v' _ _ => Val.beq v' v | _ => false

/-- The grammar rejects the input. -/
def grammarError (adds : List Grammar.Addition) (s : String) : Bool :=
  grammarTest adds s fun | .rej _ _ => true | _ => false

/-- `::rule<text>` -/
def rule (text : String) : Grammar.Addition := .rule (t text) none

-- grammar.cpp:52-81
example : grammarResult [.import_ (t "S") (.litC (ch 'x'))] "x" (c 'x') = true := by decide +kernel
example : grammarResult [.import_ (t "I") (.litC (ch 'x')), rule "S ::= I"] "x" (c 'x') = true := by decide +kernel
-- grammar.cpp:83-183
example : grammarResult [rule "S ::= 'x'"] "x" (c 'x') = true := by decide +kernel
example : grammarError [rule "S ::= 'x'"] "y" = true := by decide +kernel
example : grammarResult [rule "S ::= '\\n'"] "\n" (c '\n') = true := by decide +kernel
example : grammarResult [rule "S ::= '\\r'"] "\r" (c '\r') = true := by decide +kernel
example : grammarResult [rule "S ::= '\\t'"] "\t" (c '\t') = true := by decide +kernel
example : grammarResult [rule "S ::= '\\\\'"] "\\" (c '\\') = true := by decide +kernel
example : grammarResult [rule "S ::= '\\''"] "'" (c '\'') = true := by decide +kernel
-- grammar.cpp:185-241
example : grammarResult [rule "R ::= 'x'", rule "S ::= R"] "x" (c 'x') = true := by decide +kernel
example : grammarResult [rule "R ::= 'x'", rule "S ::= R R"] "xx" (cs "xx") = true := by decide +kernel
example : grammarError [rule "R ::= 'x'", rule "S ::= R R"] "yx" = true := by decide +kernel
example : grammarError [rule "R ::= 'x'", rule "S ::= R R"] "xy" = true := by decide +kernel
-- grammar.cpp:243-289
example : grammarResult [rule "Y ::= 'y'", rule "X ::= 'x'", rule "S ::= X|Y"] "x" (c 'x') = true := by decide +kernel
example : grammarResult [rule "Y ::= 'y'", rule "X ::= 'x'", rule "S ::= X|Y"] "y" (c 'y') = true := by decide +kernel
example : grammarError [rule "Y ::= 'y'", rule "X ::= 'x'", rule "S ::= X|Y"] "z" = true := by decide +kernel
-- grammar.cpp:291-354
example : grammarResult [rule "X ::= 'x'", rule "S ::= X*"] "y" (.seq []) = true := by decide +kernel
example : grammarResult [rule "X ::= 'x'", rule "S ::= X*"] "xy" (cs "x") = true := by decide +kernel
example : grammarResult [rule "X ::= 'x'", rule "S ::= X*"] "xxy" (cs "xx") = true := by decide +kernel
example : grammarResult [rule "S ::= ('x')"] "x" (c 'x') = true := by decide +kernel

/-- `next_char` of grammar.cpp:26-35 -/
def nextCharAction (v : Val) : Val := Val.ofOut (v.value.bind fun x => .ok (.chr (x + 1)))

-- grammar.cpp:356-417
example : grammarResult [.rule (t "S ::= 'x'") (some nextCharAction)] "x" (c 'y') = true := by decide +kernel
example : grammarError [rule "X ::= 'x'", rule "S ::= X+"] "y" = true := by decide +kernel
example : grammarResult [rule "X ::= 'x'", rule "S ::= X+"] "xy" (cs "x") = true := by decide +kernel
example : grammarResult [rule "X ::= 'x'", rule "S ::= X+"] "xxy" (cs "xx") = true := by decide +kernel

end Metaparse.Tests
