import Verif.Model.Grammar
import Verif.Spec.Chars
import Verif.Spec.Sequences
/-!
# The language of rules

Tokens, how they are written, and the BNF of the comment in `grammar.hpp:40-49`.
-/

namespace Metaparse

/-- A character of a name: a letter, a digit or `_`. -/
def nameChar (c : Chr) : Bool := letterChar c || digitChar c || c == ch '_'

/-- The tokens of rule texts. -/
inductive Tok where
  | name (n : List Chr)
  | chr (c : Chr)
  | star
  | plus
  | bar
  | open_
  | close
  | define
  deriving DecidableEq

/-- How a token is written. -/
inductive Tok.Written : Tok → List Chr → Prop
  | name {n : List Chr} : n ≠ [] → (∀ c ∈ n, nameChar c = true) → Tok.Written (.name n) n
  | plain (c : Chr) : c ≠ ch '\'' → c ≠ ch '\\' → Tok.Written (.chr c) [ch '\'', c, ch '\'']
  | newLine : Tok.Written (.chr (ch '\n')) [ch '\'', ch '\\', ch 'n', ch '\'']
  | return_ : Tok.Written (.chr (ch '\r')) [ch '\'', ch '\\', ch 'r', ch '\'']
  | tab : Tok.Written (.chr (ch '\t')) [ch '\'', ch '\\', ch 't', ch '\'']
  | backslash : Tok.Written (.chr (ch '\\')) [ch '\'', ch '\\', ch '\\', ch '\'']
  | quote : Tok.Written (.chr (ch '\'')) [ch '\'', ch '\\', ch '\'', ch '\'']
  | star : Tok.Written .star [ch '*']
  | plus : Tok.Written .plus [ch '+']
  | bar : Tok.Written .bar [ch '|']
  | open_ : Tok.Written .open_ [ch '(']
  | close : Tok.Written .close [ch ')']
  | define : Tok.Written .define [ch ':', ch ':', ch '=']

/-- `Tokens s ts s'`: the text `s` consists of the tokens `ts`, with any white space after each of
them, and then `s'`.  As usual a token is as long as possible: a name ends where there is no further
character of a name; `s'` does not begin with white space. -/
inductive Tokens : List Chr → List Tok → List Chr → Prop
  | nil (s : List Chr) : Tokens s [] s
  | cons {t : Tok} {w ws s s' : List Chr} {ts : List Tok} : t.Written w →
      (∀ c ∈ ws, spaceChar c = true) → beginsWith spaceChar s = false →
      ((∃ n, t = .name n) → ws = [] → beginsWith nameChar s = false) →
      Tokens s ts s' → Tokens (w ++ ws ++ s) (t :: ts) s'

/-- The non-terminal symbols of the BNF. -/
inductive NonTerminal where
  | expression
  | seqExpression
  | repeatedExpression
  | nameExpression

/-- `Derives X ts e`: the tokens `ts` can be derived from the non-terminal symbol `X`, and `e` is what
they stand for. -/
inductive Derives : NonTerminal → List Tok → GExp → Prop
  /-- `name_expression ::= char_token` -/
  | chr (c : Chr) : Derives .nameExpression [.chr c] (.chr c)
  /-- `name_expression ::= name_token` -/
  | name (n : List Chr) : Derives .nameExpression [.name n] (.name n)
  /-- `name_expression ::= bracket_expression`,
  `bracket_expression ::= open_bracket_token expression close_bracket_token` -/
  | bracket {ts : List Tok} {e : GExp} : Derives .expression ts e →
      Derives .nameExpression ([.open_] ++ ts ++ [.close]) e
  /-- `repeated_expression ::= name_expression …` -/
  | once {ts : List Tok} {e : GExp} : Derives .nameExpression ts e →
      Derives .repeatedExpression ts e
  /-- `… repeated_token` -/
  | star {ts : List Tok} {e : GExp} : Derives .repeatedExpression ts e →
      Derives .repeatedExpression (ts ++ [.star]) (.rep (ch '*') e)
  /-- `… repeated1_token` -/
  | plus {ts : List Tok} {e : GExp} : Derives .repeatedExpression ts e →
      Derives .repeatedExpression (ts ++ [.plus]) (.rep (ch '+') e)
  /-- `seq_expression ::= repeated_expression …` -/
  | single {ts : List Tok} {e : GExp} : Derives .repeatedExpression ts e →
      Derives .seqExpression ts e
  /-- `… repeated_expression` -/
  | seq {ts us : List Tok} {a b : GExp} : Derives .seqExpression ts a →
      Derives .repeatedExpression us b → Derives .seqExpression (ts ++ us) (.seq a b)
  /-- `expression ::= seq_expression …` -/
  | alone {ts : List Tok} {e : GExp} : Derives .seqExpression ts e → Derives .expression ts e
  /-- `… or_token seq_expression` -/
  | sel {ts us : List Tok} {a b : GExp} : Derives .expression ts a →
      Derives .seqExpression us b → Derives .expression (ts ++ [.bar] ++ us) (.sel a b)

/-- `rule_definition ::= name_token define_token expression`: the text `s` is the rule with name `n`
and body `e`. -/
def IsRule (s : List Chr) (n : List Chr) (e : GExp) : Prop :=
  ∃ ts, Tokens s ([.name n, .define] ++ ts) [] ∧ Derives .expression ts e

/-- The environment of the rule parser: the class `expression` is the one of `grammar.hpp`, and, in
C++98, the size limits are at least what the rule parser needs. -/
structure Env.ParsesRules (E : Env (List Chr)) : Prop where
  onText : E.OnText
  expression : E.rules Gram.expressionId = Gram.expression
  limSequence : E.std = .cpp98 → 3 < E.limSequence
  limOneOf : E.std = .cpp98 → 5 ≤ E.limOneOf
  limOneCharExcept : E.std = .cpp98 → 1 < E.limOneCharExcept

/-! ## Writing rules -/

/-- How tightly an expression binds. -/
def GExp.level : GExp → NonTerminal
  | .chr _ => .nameExpression
  | .name _ => .nameExpression
  | .rep _ _ => .repeatedExpression
  | .seq _ _ => .seqExpression
  | .sel _ _ => .expression

/-- Whether an expression of the level `l` needs brackets where an `X` is expected. -/
def NonTerminal.needsBrackets : (l X : NonTerminal) → Bool
  | _, .expression => false
  | .expression, _ => true
  | _, .seqExpression => false
  | .seqExpression, _ => true
  | _, .repeatedExpression => false
  | .repeatedExpression, _ => true
  | .nameExpression, .nameExpression => false

/-- The tokens for an expression where an `X` is expected, with brackets only where they are needed. -/
def GExp.write (X : NonTerminal) (e : GExp) : List Tok :=
  let ts := match e with
    | .chr c => [.chr c]
    | .name n => [.name n]
    | .rep op a => a.write .repeatedExpression ++ [if op = ch '*' then .star else .plus]
    | .seq a b => a.write .seqExpression ++ b.write .repeatedExpression
    | .sel a b => a.write .expression ++ [.bar] ++ b.write .seqExpression
  if e.level.needsBrackets X then [.open_] ++ ts ++ [.close] else ts

/-- An expression that can be written: names are not empty and made of the characters of names, and
repetition is `*` or `+`. -/
def GExp.Writable : GExp → Prop
  | .chr _ => True
  | .name n => n ≠ [] ∧ ∀ c ∈ n, nameChar c = true
  | .rep op e => (op = ch '*' ∨ op = ch '+') ∧ e.Writable
  | .seq a b => a.Writable ∧ b.Writable
  | .sel a b => a.Writable ∧ b.Writable

/-- A way to write a token. -/
def Tok.text : Tok → List Chr
  | .name n => n
  | .chr c =>
    if c = ch '\n' then txt "'\\n'" else if c = ch '\r' then txt "'\\r'"
    else if c = ch '\t' then txt "'\\t'" else if c = ch '\\' then txt "'\\\\'"
    else if c = ch '\'' then txt "'\\''" else [ch '\'', c, ch '\'']
  | .star => txt "*"
  | .plus => txt "+"
  | .bar => txt "|"
  | .open_ => txt "("
  | .close => txt ")"
  | .define => txt "::="

/-- The tokens written one after the other, with the given white space after each of them. -/
def layOut : List (Tok × List Chr) → List Chr
  | [] => []
  | (t, ws) :: l => t.text ++ ws ++ layOut l

/-- A layout that can be read: only white space between the tokens, names are not empty and made of
the characters of names, and there is some white space between a name and a name after it. -/
inductive ProperLayout : List (Tok × List Chr) → Prop
  | nil : ProperLayout []
  | cons {t : Tok} {ws : List Chr} {l : List (Tok × List Chr)} :
      (∀ c ∈ ws, spaceChar c = true) →
      (∀ n, t = .name n → n ≠ [] ∧ ∀ c ∈ n, nameChar c = true) →
      (∀ n m ws' l', t = .name n → l = (.name m, ws') :: l' → ws ≠ []) →
      ProperLayout l → ProperLayout ((t, ws) :: l)

end Metaparse
