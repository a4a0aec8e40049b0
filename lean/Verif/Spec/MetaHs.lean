import Verif.Model.MetaHs
import Verif.Spec.Grammar
import Verif.Spec.Formula
import Verif.Spec.Sequences
/-!
# The language of the example `meta_hs`

The texts of definitions, following the grammar in the comment of
`/repo/example/meta_hs/grammar.hpp:24-36`, and the syntax trees they stand for.
-/

namespace Metaparse

/-- Expressions of the language. -/
inductive HsExp where
  | num (n : Int)
  | var (name : List Chr)
  | app (f a : HsExp)
  | cond (c t e : HsExp)
  | op (o : List Chr) (a b : HsExp)
  deriving DecidableEq

/-- Names begin with one of these characters. -/
def nameStart (c : Chr) : Bool := letterChar c || c == ch '_'

/-- A name that is not a keyword. -/
structure IsName (w : List Chr) : Prop where
  starts : beginsWith nameStart w = true
  chars : ∀ c ∈ w, nameChar c = true
  notIf : w ≠ txt "if"
  notThen : w ≠ txt "then"
  notElse : w ≠ txt "else"

/-- The operators of the levels: comparisons bind weakest. -/
def opsAt : Nat → List (List Chr)
  | 0 => [txt "==", txt "<", txt "<=", txt ">", txt ">="]
  | 1 => [txt "+", txt "-"]
  | 2 => [txt "*", txt "/"]
  | _ => []

/-- `HsText lax l closed t r e`: the text `t`, when it is followed by the text `r`, is the expression `e`. The
level `l` is 0 for comparisons, 1 for sums, 2 for products, 3 for applications and 4 for single expressions.
`closed` tells that the text does not end in an `if` expression without brackets, whose `else` branch would
take everything that follows. White space belongs to the word or symbol before it, a word ends where a
character follows that can not be part of it. When `lax` is true there does not have to be anything between
`if` and a word after it, when it is false no name begins with `if`. -/
inductive HsText (lax : Bool) : Nat → Bool → List Chr → List Chr → HsExp → Prop
  | num {w ws r : List Chr} : w ≠ [] → (∀ c ∈ w, digitChar c = true) → decimal w ≤ 2147483647 → AllSpace ws →
      beginsWith digitChar (ws ++ r) = false → beginsWith spaceChar r = false →
      HsText lax 4 true (w ++ ws) r (.num (decimal w))
  | var {w ws r : List Chr} : IsName w → AllSpace ws → beginsWith nameChar (ws ++ r) = false →
      beginsWith spaceChar r = false → (lax = false → ¬ txt "if" <+: w) →
      HsText lax 4 true (w ++ ws) r (.var w)
  | brackets {ws t ws' r : List Chr} {b : Bool} {e : HsExp} : AllSpace ws →
      HsText lax 0 b t (ch ')' :: (ws' ++ r)) e → AllSpace ws' → beginsWith spaceChar r = false →
      HsText lax 4 true (ch '(' :: (ws ++ (t ++ ch ')' :: ws'))) r e
  | cond {ws1 tc ws2 tt ws3 te r : List Chr} {b1 b2 b3 : Bool} {c t e : HsExp} : AllSpace ws1 → AllSpace ws2 →
      AllSpace ws3 → (lax = false → beginsWith nameChar (ws1 ++ tc) = false) →
      HsText lax 0 b1 tc (txt "then" ++ (ws2 ++ (tt ++ (txt "else" ++ (ws3 ++ (te ++ r)))))) c →
      beginsWith nameChar (ws2 ++ tt) = false →
      HsText lax 0 b2 tt (txt "else" ++ (ws3 ++ (te ++ r))) t →
      beginsWith nameChar (ws3 ++ te) = false →
      HsText lax 0 b3 te r e →
      HsText lax 4 false (txt "if" ++ (ws1 ++ (tc ++ (txt "then" ++ (ws2 ++ (tt ++ (txt "else" ++ (ws3 ++ te))))))))
        r (.cond c t e)
  | lift {l : Nat} {b : Bool} {t r : List Chr} {e : HsExp} : l < 4 → HsText lax (l + 1) b t r e → HsText lax l b t r e
  | app {b : Bool} {t u r : List Chr} {f a : HsExp} : HsText lax 3 true t (u ++ r) f → HsText lax 4 b u r a →
      HsText lax 3 b (t ++ u) r (.app f a)
  | op {l : Nat} {b : Bool} {t o ws u r : List Chr} {x y : HsExp} : o ∈ opsAt l →
      HsText lax l true t (o ++ (ws ++ (u ++ r))) x → AllSpace ws → HsText lax (l + 1) b u r y →
      HsText lax l b (t ++ (o ++ (ws ++ u))) r (.op o x y)

/-- The names of the parameters, `=` and the body. -/
inductive HsRight (lax : Bool) : List Chr → List (List Chr) → HsExp → Prop
  | body {ws t : List Chr} {b : Bool} {e : HsExp} : AllSpace ws → HsText lax 0 b t [] e →
      HsRight lax (ch '=' :: (ws ++ t)) [] e
  | param {w ws s : List Chr} {ps : List (List Chr)} {e : HsExp} : IsName w → AllSpace ws →
      beginsWith nameChar (ws ++ s) = false → HsRight lax s ps e → HsRight lax (w ++ (ws ++ s)) (w :: ps) e

/-- The text of the definition of the function `f` with parameters `ps`. -/
def HsDef (lax : Bool) (s : List Chr) (f : List Chr) (ps : List (List Chr)) (e : HsExp) : Prop :=
  ∃ ws s', s = f ++ (ws ++ s') ∧ IsName f ∧ AllSpace ws ∧ beginsWith nameChar (ws ++ s') = false ∧
    HsRight lax s' ps e

/-- The name under which an operator is in the environment. -/
def opName (o : List Chr) : List Chr := ch '.' :: (o ++ [ch '.'])

/-- The syntax tree of an expression: operators and `if` are functions. -/
def HsExp.tree : HsExp → Val
  | .num n => MetaHs.value (.int n)
  | .var w => MetaHs.ref (.str w)
  | .app f a => MetaHs.application f.tree a.tree
  | .cond c t e => MetaHs.application (MetaHs.application (MetaHs.application
      (MetaHs.value MetaHs.curryLazyIf) c.tree) t.tree) e.tree
  | .op o a b => MetaHs.application (MetaHs.application (MetaHs.ref (.str (opName o))) a.tree) b.tree

/-- A function of the parameters. -/
def lambdas (ps : List (List Chr)) (v : Val) : Val := ps.foldr (fun p v => MetaHs.lambda v (.str p)) v

/-- The syntax tree of a definition. -/
def defTree (f : List Chr) (ps : List (List Chr)) (e : HsExp) : Val :=
  MetaHs.mplPair (.str f) (MetaHs.topBound (lambdas ps e.tree))

/-- What the parser needs. -/
structure Env.MetaHs (E : Env (List Chr)) : Prop where
  onText : E.OnText
  limSequence : E.std = .cpp98 → 3 < E.limSequence
  limOneOf : E.std = .cpp98 → 4 ≤ E.limOneOf
  expression : E.rules MetaHs.expressionId = MetaHs.cmpExp

end Metaparse
