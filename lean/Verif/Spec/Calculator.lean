import Verif.Model.Calculator
import Verif.Spec.Chars
import Verif.Spec.Sequences
/-!
# Arithmetic expressions

Their values, the tokens of their texts and the BNF of the comment in
`/repo/example/calculator_with_parens_and_unary_ops/main.cpp:69-77`, except that a product begins with a
`simple_exp`, where the comment has `int_token` (74) and the code (140-146) has `simple_exp`.
-/

namespace Metaparse

/-- Arithmetic expressions. -/
inductive AExp where
  | num (n : Int)
  | pos (e : AExp)
  | neg (e : AExp)
  | add (a b : AExp)
  | sub (a b : AExp)
  | mul (a b : AExp)
  | div (a b : AExp)
  deriving DecidableEq

/-- A number that fits in `int`. -/
def fits (n : Int) : Option Int := if -2147483648 ≤ n ∧ n ≤ 2147483647 then some n else none

/-- The value of an expression, if all intermediate values fit in `int` and nothing is divided by zero.
Division truncates. -/
def AExp.value : AExp → Option Int
  | .num n => fits n
  | .pos e => e.value
  | .neg e => e.value.bind fun x => fits (-x)
  | .add a b => a.value.bind fun x => b.value.bind fun y => fits (x + y)
  | .sub a b => a.value.bind fun x => b.value.bind fun y => fits (x - y)
  | .mul a b => a.value.bind fun x => b.value.bind fun y => fits (x * y)
  | .div a b => a.value.bind fun x => b.value.bind fun y => if y = 0 then none else fits (x.tdiv y)

/-- The tokens of the texts of expressions. -/
inductive CTok where
  | num (n : Int)
  | plus
  | minus
  | times
  | over
  | open_
  | close
  deriving DecidableEq

/-- How a token is written. -/
inductive CTok.Written : CTok → List Chr → Prop
  | num {w : List Chr} : w ≠ [] → (∀ c ∈ w, digitChar c = true) → CTok.Written (.num (decimal w)) w
  | plus : CTok.Written .plus [ch '+']
  | minus : CTok.Written .minus [ch '-']
  | times : CTok.Written .times [ch '*']
  | over : CTok.Written .over [ch '/']
  | open_ : CTok.Written .open_ [ch '(']
  | close : CTok.Written .close [ch ')']

/-- `CTokens s ts s'`: the text `s` consists of the tokens `ts`, with any white space after each of
them, and then `s'`; a number ends where there is no further digit; `s'` does not begin with white
space. -/
inductive CTokens : List Chr → List CTok → List Chr → Prop
  | nil (s : List Chr) : CTokens s [] s
  | cons {t : CTok} {w ws s s' : List Chr} {ts : List CTok} : t.Written w →
      (∀ c ∈ ws, spaceChar c = true) → beginsWith spaceChar s = false →
      ((∃ n, t = .num n) → ws = [] → beginsWith digitChar s = false) →
      CTokens s ts s' → CTokens (w ++ ws ++ s) (t :: ts) s'

/-- The non-terminal symbols of the BNF. -/
inductive CNonTerminal where
  | plusExp
  | prodExp
  | simpleExp
  | primary

/-- `CDerives X ts e`: the tokens `ts` can be derived from the non-terminal symbol `X`, and `e` is the
expression they stand for; `+` and `-` as well as `*` and `/` associate to the left. -/
inductive CDerives : CNonTerminal → List CTok → AExp → Prop
  | num (n : Int) : CDerives .primary [.num n] (.num n)
  | bracket {ts : List CTok} {e : AExp} : CDerives .plusExp ts e →
      CDerives .primary ([.open_] ++ ts ++ [.close]) e
  | plain {ts : List CTok} {e : AExp} : CDerives .primary ts e → CDerives .simpleExp ts e
  | pos {ts : List CTok} {e : AExp} : CDerives .simpleExp ts e →
      CDerives .simpleExp ([.plus] ++ ts) (.pos e)
  | neg {ts : List CTok} {e : AExp} : CDerives .simpleExp ts e →
      CDerives .simpleExp ([.minus] ++ ts) (.neg e)
  | factor {ts : List CTok} {e : AExp} : CDerives .simpleExp ts e → CDerives .prodExp ts e
  | mul {ts us : List CTok} {a b : AExp} : CDerives .prodExp ts a → CDerives .simpleExp us b →
      CDerives .prodExp (ts ++ ([.times] ++ us)) (.mul a b)
  | div {ts us : List CTok} {a b : AExp} : CDerives .prodExp ts a → CDerives .simpleExp us b →
      CDerives .prodExp (ts ++ ([.over] ++ us)) (.div a b)
  | summand {ts : List CTok} {e : AExp} : CDerives .prodExp ts e → CDerives .plusExp ts e
  | add {ts us : List CTok} {a b : AExp} : CDerives .plusExp ts a → CDerives .prodExp us b →
      CDerives .plusExp (ts ++ ([.plus] ++ us)) (.add a b)
  | sub {ts us : List CTok} {a b : AExp} : CDerives .plusExp ts a → CDerives .prodExp us b →
      CDerives .plusExp (ts ++ ([.minus] ++ us)) (.sub a b)

/-- The text `s` is the expression `e`; there may be white space anywhere between the tokens, at the
beginning and at the end. -/
def IsExpression (s : List Chr) (e : AExp) : Prop :=
  ∃ spaces s1 ts, s = spaces ++ s1 ∧ (∀ c ∈ spaces, spaceChar c = true) ∧
    beginsWith spaceChar s1 = false ∧ CTokens s1 ts [] ∧ CDerives .plusExp ts e

/-- The text of a token. -/
def CTok.text : CTok → List Chr
  | .num n => decimalText n.toNat
  | .plus => [ch '+']
  | .minus => [ch '-']
  | .times => [ch '*']
  | .over => [ch '/']
  | .open_ => [ch '(']
  | .close => [ch ')']

/-- Tokens in brackets, if they bind less tightly (`l`) than needed (`needed`). -/
def bracketed (needed l : Nat) (ts : List CTok) : List CTok :=
  if needed ≤ l then ts else [.open_] ++ ts ++ [.close]

/-- How tightly an expression binds: 0 for sums, 1 for products, 2 for signs, 3 for numbers. -/
def AExp.level : AExp → Nat
  | .num _ => 3
  | .pos _ => 2
  | .neg _ => 2
  | .add _ _ => 0
  | .sub _ _ => 0
  | .mul _ _ => 1
  | .div _ _ => 1

/-- The tokens of an expression, with brackets only where they are needed. -/
def AExp.tokens : AExp → List CTok
  | .num n => [.num n]
  | .pos e => [.plus] ++ bracketed 2 e.level e.tokens
  | .neg e => [.minus] ++ bracketed 2 e.level e.tokens
  | .add a b => a.tokens ++ ([.plus] ++ bracketed 1 b.level b.tokens)
  | .sub a b => a.tokens ++ ([.minus] ++ bracketed 1 b.level b.tokens)
  | .mul a b => bracketed 1 a.level a.tokens ++ ([.times] ++ bracketed 2 b.level b.tokens)
  | .div a b => bracketed 1 a.level a.tokens ++ ([.over] ++ bracketed 2 b.level b.tokens)

/-- The numbers written in an expression are not negative. -/
def AExp.Unsigned : AExp → Prop
  | .num n => 0 ≤ n
  | .pos e => e.Unsigned
  | .neg e => e.Unsigned
  | .add a b => a.Unsigned ∧ b.Unsigned
  | .sub a b => a.Unsigned ∧ b.Unsigned
  | .mul a b => a.Unsigned ∧ b.Unsigned
  | .div a b => a.Unsigned ∧ b.Unsigned

/-- Tokens written one after the other, with the white space `gap i` after token number `i`. -/
def writeTokens (gap : Nat → List Chr) : List CTok → List Chr
  | [] => []
  | t :: ts => t.text ++ gap 0 ++ writeTokens (fun i => gap (i + 1)) ts

/-- The environment of the calculator: the class `plus_exp` is the one of the example, and, in C++98,
the size limits are at least what it needs. -/
structure Env.Calculates (E : Env (List Chr)) : Prop where
  onText : E.OnText
  plusExp : E.rules Calc.plusExpId = Calc.plusExp
  limSequence : E.std = .cpp98 → 3 < E.limSequence
  limOneOf : E.std = .cpp98 → 2 ≤ E.limOneOf

end Metaparse
