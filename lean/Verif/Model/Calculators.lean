import Verif.Model.Calculator
/-!
# The simpler calculators of the examples

`/repo/example/calculator/main.cpp` and `/repo/example/calculator_with_parens/main.cpp`. The operations
`eval_plus` and `eval_mult` of both (79-101 and 86-108) and the tokens (69-74 and 73-81) are the same as
those of `/repo/example/calculator_with_parens_and_unary_ops/main.cpp` (92-114 and 79-87): `Calc.evalPlus`,
`Calc.evalMult` and `Calc.plusToken` and so on.
-/

namespace Metaparse

namespace CalcSimple

/-- `prod_exp` of `/repo/example/calculator/main.cpp:103-109` -/
def prodExp : P :=
  .foldlRejectIncompleteStartWithParser (.sequence [.oneOf [Calc.multToken, Calc.divToken],
    Calc.intToken]) Calc.intToken Calc.evalMult

/-- `plus_exp` of `/repo/example/calculator/main.cpp:111-117` -/
def plusExp : P :=
  .foldlRejectIncompleteStartWithParser (.sequence [.oneOf [Calc.plusToken, Calc.minusToken], prodExp])
    prodExp Calc.evalPlus

/-- `expression` of `/repo/example/calculator/main.cpp:119` -/
def expression : P := .lastOf [.repeated P.space, plusExp]

/-- `calculator_parser` of `/repo/example/calculator/main.cpp:121` -/
noncomputable def calculatorParser {I : Type} (E : Env I) (s : I) : Out Val :=
  buildParser E (.entireInput expression) s

end CalcSimple

namespace CalcParens

/-- The number of the class `plus_exp` of `/repo/example/calculator_with_parens/main.cpp:110` among the
classes of the user. -/
def plusExpId : Nat := 0

/-- `paren_exp` of `/repo/example/calculator_with_parens/main.cpp:112` -/
def parenExp : P := .middleOf Calc.openParenToken (.ref plusExpId) Calc.closeParenToken

/-- `simple_exp` of `/repo/example/calculator_with_parens/main.cpp:114` -/
def simpleExp : P := .oneOf [Calc.intToken, parenExp]

/-- `prod_exp` of `/repo/example/calculator_with_parens/main.cpp:116-122` -/
def prodExp : P :=
  .foldlRejectIncompleteStartWithParser (.sequence [.oneOf [Calc.multToken, Calc.divToken], simpleExp])
    simpleExp Calc.evalMult

/-- `plus_exp` of `/repo/example/calculator_with_parens/main.cpp:124-130` -/
def plusExp : P :=
  .foldlRejectIncompleteStartWithParser (.sequence [.oneOf [Calc.plusToken, Calc.minusToken], prodExp])
    prodExp Calc.evalPlus

/-- `expression` of `/repo/example/calculator_with_parens/main.cpp:132` -/
def expression : P := .lastOf [.repeated P.space, plusExp]

/-- `calculator_parser` of `/repo/example/calculator_with_parens/main.cpp:134` -/
noncomputable def calculatorParser {I : Type} (E : Env I) (s : I) : Out Val :=
  buildParser E (.entireInput expression) s

end CalcParens

end Metaparse
