import Verif.Model.GettingStarted
import Verif.Spec.Formula
/-!
# What the parsers of the tutorial are meant to read

`/repo/doc/getting_started.qbk`
-/

namespace Metaparse

/-- A number with white space after it. -/
def NumberText (t : List Chr) (n : Int) : Prop :=
  ∃ w ws, t = w ++ ws ∧ w ≠ [] ∧ (∀ c ∈ w, digitChar c = true) ∧ AllSpace ws ∧ n = decimal w

/-- `ChainText ops t n items`: the text `t` is the number `n` followed by the elements `items`, which are an
operator in `ops` and a number; there may be white space after every token. -/
inductive ChainText (ops : List Chr) : List Chr → Int → List (Chr × Int) → Prop
  | one {t : List Chr} {n : Int} : NumberText t n → ChainText ops t n []
  | more {t ws u : List Chr} {c : Chr} {n k : Int} {items : List (Chr × Int)} :
      ChainText ops t n items → c ∈ ops → AllSpace ws → NumberText u k →
      ChainText ops (t ++ c :: (ws ++ u)) n (items ++ [(c, k)])

/-- `t` is the longest text in the language `L` that `s` begins with. -/
def LongestPrefix (L : List Chr → Prop) (s t : List Chr) : Prop :=
  t <+: s ∧ L t ∧ ∀ u, u <+: s → L u → u.length ≤ t.length

/-- The text is a number followed by operators in `ops` and numbers. -/
def IsChain (ops : List Chr) (t : List Chr) : Prop := ∃ n items, ChainText ops t n items

/-- The text is two numbers and a plus sign between them. -/
def IsSumOfTwo (t : List Chr) : Prop := ∃ n k, ChainText [ch '+'] t n [(ch '+', k)]

/-- The sum of the numbers of the elements. -/
def itemSum (items : List (Chr × Int)) : Int := (items.map (·.2)).sum

/-- All numbers fit in `int`. -/
def ItemsFit (n : Int) (items : List (Chr × Int)) : Prop :=
  n ≤ 2147483647 ∧ ∀ i ∈ items, i.2 ≤ 2147483647

/-- One operation on numbers, if the result fits in `int`. -/
def applyOp (x : Int) (c : Chr) (y : Int) : Option Int :=
  if c = ch '+' then fits (x + y)
  else if c = ch '-' then fits (x - y)
  else if c = ch '*' then fits (x * y)
  else none

/-- The value of a chain whose operators have all the same precedence and associate to the left, if all
numbers and intermediate values fit in `int`. -/
def chainValue (n : Int) (items : List (Chr × Int)) : Option Int :=
  (fits n).bind fun x => items.foldlM (fun x i => (fits i.2).bind fun y => applyOp x i.1 y) x

/-- The dialects of the sections: whether there is division, whether `*` and `/` associate to the right,
whether there is unary minus. -/
structure Dialect where
  div : Bool
  right : Bool
  neg : Bool

/-- `TutorialText D d l t e`: the text `t` is the expression `e`, has brackets at most `d` deep and has the
form of a primary expression (`l = 3`), a unary one (`l = 2`), a product (`l = 1`) or a sum (`l = 0`).
There may be white space after every token. -/
inductive TutorialText (D : Dialect) : Nat → Nat → List Chr → AExp → Prop
  | num {d : Nat} {t : List Chr} {n : Int} : NumberText t n → TutorialText D d 3 t (.num n)
  | bracket {d : Nat} {ws t ws' : List Chr} {e : AExp} : AllSpace ws → TutorialText D d 0 t e →
      AllSpace ws' → TutorialText D (d + 1) 3 (ch '(' :: (ws ++ (t ++ ch ')' :: ws'))) e
  | primary {d : Nat} {t : List Chr} {e : AExp} : TutorialText D d 3 t e → TutorialText D d 2 t e
  | neg {d : Nat} {ws t : List Chr} {e : AExp} : D.neg = true → AllSpace ws → TutorialText D d 2 t e →
      TutorialText D d 2 (ch '-' :: (ws ++ t)) (.neg e)
  | unary {d : Nat} {t : List Chr} {e : AExp} : TutorialText D d 2 t e → TutorialText D d 1 t e
  | mul {d : Nat} {t ws u : List Chr} {a b : AExp} : D.right = false → TutorialText D d 1 t a →
      AllSpace ws → TutorialText D d 2 u b → TutorialText D d 1 (t ++ ch '*' :: (ws ++ u)) (.mul a b)
  | div {d : Nat} {t ws u : List Chr} {a b : AExp} : D.right = false → D.div = true →
      TutorialText D d 1 t a → AllSpace ws → TutorialText D d 2 u b →
      TutorialText D d 1 (t ++ ch '/' :: (ws ++ u)) (.div a b)
  | mulRight {d : Nat} {t ws u : List Chr} {a b : AExp} : D.right = true → TutorialText D d 2 t a →
      AllSpace ws → TutorialText D d 1 u b → TutorialText D d 1 (t ++ ch '*' :: (ws ++ u)) (.mul a b)
  | divRight {d : Nat} {t ws u : List Chr} {a b : AExp} : D.right = true → D.div = true →
      TutorialText D d 2 t a → AllSpace ws → TutorialText D d 1 u b →
      TutorialText D d 1 (t ++ ch '/' :: (ws ++ u)) (.div a b)
  | product {d : Nat} {t : List Chr} {e : AExp} : TutorialText D d 1 t e → TutorialText D d 0 t e
  | add {d : Nat} {t ws u : List Chr} {a b : AExp} : TutorialText D d 0 t a → AllSpace ws →
      TutorialText D d 1 u b → TutorialText D d 0 (t ++ ch '+' :: (ws ++ u)) (.add a b)
  | sub {d : Nat} {t ws u : List Chr} {a b : AExp} : TutorialText D d 0 t a → AllSpace ws →
      TutorialText D d 1 u b → TutorialText D d 0 (t ++ ch '-' :: (ws ++ u)) (.sub a b)

/-- The dialect of `exp_parser15`: no division, left associative, no unary minus. -/
def dialect15 : Dialect := ⟨false, false, false⟩
/-- The dialect of `exp_parser16`. -/
def dialect16 : Dialect := ⟨true, false, false⟩
/-- The dialect of `exp_parser17`. -/
def dialect17 : Dialect := ⟨true, true, false⟩
/-- The dialect of `exp_parser18` and all later ones. -/
def dialect18 : Dialect := ⟨true, false, true⟩

/-- The text is an expression of the last sections: brackets may be nested in any depth. -/
def IsTutorialText (t : List Chr) (e : AExp) : Prop := ∃ d, TutorialText dialect18 d 0 t e

/-- Some expression begins with this text. -/
def BeginsExpression (u : List Chr) : Prop := ∃ w e, IsTutorialText (u ++ w) e

/-- The environment of the tutorial: the classes are those of the tutorial and, in C++98, the size limits
are at least what they need. -/
structure Env.Tutorial (E : Env (List Chr)) : Prop where
  onText : E.OnText
  plusExp2 : E.rules Tutorial.plusExp2Id = Tutorial.plusExp2
  plusExp3 : E.rules Tutorial.plusExp3Id = Tutorial.plusExp3
  plusExp6 : E.rules Tutorial.plusExp6Id = Tutorial.plusExp6
  limSequence : E.std = .cpp98 → 3 < E.limSequence
  limOneOf : E.std = .cpp98 → 3 ≤ E.limOneOf

end Metaparse
