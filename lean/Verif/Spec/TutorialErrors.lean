import Verif.Spec.GettingStarted
import Verif.Spec.Text
/-!
# The errors of the last parser of the tutorial
-/

namespace Metaparse

/-- The message at a place where an operand is missing. -/
def missingOperand (std : Std) : Msg :=
  if std = .cpp98 then Tutorial.missingPrimaryExpression else .noneOfTheExpectedCasesFound

/-- The text is empty or ends with an operator or an opening bracket (and white space). -/
def OperandExpected (u : List Chr) : Prop :=
  u = [] ∨ ∃ u0 c ws, u = u0 ++ c :: ws ∧ c ∈ [ch '+', ch '-', ch '*', ch '/', ch '('] ∧ AllSpace ws

/-- After `u0` the text `u` continues with an opening bracket and an expression, and ends there. -/
def BracketOpen (u0 u : List Chr) : Prop :=
  ∃ ws t e, u = u0 ++ ch '(' :: (ws ++ t) ∧ AllSpace ws ∧ IsTutorialText t e

/-- `m` says what is wrong after the text `u`, which begins at `pos`: that an operand is missing, or that the
bracket is not closed that was opened at a certain line and column. -/
def ErrorMessage (std : Std) (pos : Pos) (u : List Chr) (m : Msg) : Prop :=
  (OperandExpected u ∧ m = missingOperand std) ∨
  ∃ u0, BracketOpen u0 u ∧
    m = .unpaired (moveOver pos u0).line (moveOver pos u0).col (.literalExpected (ch ')'))

end Metaparse
