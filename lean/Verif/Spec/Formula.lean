import Verif.Spec.Calculator
/-!
# Formulas with one variable

Their values and their texts, for the examples whose grammar is

    plus_exp  ::= prod_exp  (('+' | '-') prod_exp)*
    prod_exp  ::= value_exp (('*' | '/') value_exp)*
    value_exp ::= int_token | '_' | '(' plus_exp ')'

where some of the examples do not have `'_'` or brackets.
-/

namespace Metaparse

/-- Formulas with one variable. -/
inductive Formula where
  | num (n : Int)
  | arg
  | add (a b : Formula)
  | sub (a b : Formula)
  | mul (a b : Formula)
  | div (a b : Formula)
  deriving DecidableEq

/-- The value of a formula when the variable is `x`, if all numbers and intermediate values fit in `int`
and nothing is divided by zero. Division truncates. -/
def Formula.value (x : Int) : Formula → Option Int
  | .num n => fits n
  | .arg => some x
  | .add a b => (a.value x).bind fun m => (b.value x).bind fun n => fits (m + n)
  | .sub a b => (a.value x).bind fun m => (b.value x).bind fun n => fits (m - n)
  | .mul a b => (a.value x).bind fun m => (b.value x).bind fun n => fits (m * n)
  | .div a b => (a.value x).bind fun m => (b.value x).bind fun n =>
      if n = 0 then none else fits (m.tdiv n)

/-- All characters are white space. -/
def AllSpace (ws : List Chr) : Prop := ∀ c ∈ ws, spaceChar c = true

instance (ws : List Chr) : Decidable (AllSpace ws) :=
  inferInstanceAs (Decidable (∀ c ∈ ws, spaceChar c = true))

/-- `FormulaText brackets arg l t e`: the text `t` is the formula `e` and has the form of an operand
(`l = 2`), a product (`l = 1`) or a sum (`l = 0`). There may be white space after every token. `brackets`
and `arg` tell whether there may be brackets and the variable. -/
inductive FormulaText (brackets arg : Bool) : Nat → List Chr → Formula → Prop
  | num {w ws : List Chr} : w ≠ [] → (∀ c ∈ w, digitChar c = true) → AllSpace ws →
      FormulaText brackets arg 2 (w ++ ws) (.num (decimal w))
  | arg {ws : List Chr} : arg = true → AllSpace ws → FormulaText brackets arg 2 (ch '_' :: ws) .arg
  | bracket {ws t ws' : List Chr} {e : Formula} : brackets = true → AllSpace ws →
      FormulaText brackets arg 0 t e → AllSpace ws' →
      FormulaText brackets arg 2 (ch '(' :: (ws ++ (t ++ ch ')' :: ws'))) e
  | operand {t : List Chr} {e : Formula} : FormulaText brackets arg 2 t e → FormulaText brackets arg 1 t e
  | mul {t ws u : List Chr} {a b : Formula} : FormulaText brackets arg 1 t a → AllSpace ws →
      FormulaText brackets arg 2 u b → FormulaText brackets arg 1 (t ++ ch '*' :: (ws ++ u)) (.mul a b)
  | div {t ws u : List Chr} {a b : Formula} : FormulaText brackets arg 1 t a → AllSpace ws →
      FormulaText brackets arg 2 u b → FormulaText brackets arg 1 (t ++ ch '/' :: (ws ++ u)) (.div a b)
  | product {t : List Chr} {e : Formula} : FormulaText brackets arg 1 t e → FormulaText brackets arg 0 t e
  | add {t ws u : List Chr} {a b : Formula} : FormulaText brackets arg 0 t a → AllSpace ws →
      FormulaText brackets arg 1 u b → FormulaText brackets arg 0 (t ++ ch '+' :: (ws ++ u)) (.add a b)
  | sub {t ws u : List Chr} {a b : Formula} : FormulaText brackets arg 0 t a → AllSpace ws →
      FormulaText brackets arg 1 u b → FormulaText brackets arg 0 (t ++ ch '-' :: (ws ++ u)) (.sub a b)

/-- The text `s` is the formula `e`; there may be white space at the beginning. -/
def IsFormula (brackets arg : Bool) (s : List Chr) (e : Formula) : Prop :=
  ∃ ws t, s = ws ++ t ∧ AllSpace ws ∧ FormulaText brackets arg 0 t e

/-- The size limits that the calculators need in C++98. -/
structure Env.ReadsFormulas (E : Env (List Chr)) : Prop where
  onText : E.OnText
  limSequence : E.std = .cpp98 → 3 < E.limSequence
  limOneOf : E.std = .cpp98 → 2 ≤ E.limOneOf

end Metaparse
