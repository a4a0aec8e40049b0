import Verif.Model.Derived
/-!
# The calculator of the examples

`/repo/example/calculator_with_parens_and_unary_ops/main.cpp`; line numbers in this file refer to it.
-/

namespace Metaparse

namespace Calc

/-- `mpl::front` of a sequence (Boost.MPL, not part of the library) (97 and 109). -/
def front : Val → Out Val
  | .seq (v :: _) => .ok v
  | _ => .ill .noSpecialisation

/-- `mpl::back` of a sequence (Boost.MPL, not part of the library) (98-99 and 110-111). -/
def back : Val → Out Val
  | .seq l => match l.getLast? with
    | some v => .ok v
    | none => .ill .noSpecialisation
  | _ => .ill .noSpecialisation

/-- `mpl::plus`, `mpl::minus`, `mpl::times` of two integral constants of type `int` (Boost.MPL, not
part of the library): overflow in the constant expression is ill-formed (98-99 and 110). -/
def arith (f : Int → Int → Int) (a b : Val) : Out Val :=
  a.value.bind fun x => b.value.bind fun y => (intC (f x y)).bind fun z => .ok (.int z)

/-- `mpl::divides` of two integral constants of type `int` (Boost.MPL, not part of the library): division
truncates, division by zero and overflow in the constant expression are ill-formed (111). -/
def divides (a b : Val) : Out Val :=
  a.value.bind fun x => b.value.bind fun y =>
    if y = 0 then .ill .divByZero else (intC (x.tdiv y)).bind fun z => .ok (.int z)

/-- `mpl::negate` of an integral constant of type `int` (Boost.MPL, not part of the library) (123). -/
def negate (a : Val) : Out Val := a.value.bind fun x => (intC (-x)).bind fun z => .ok (.int z)

/-- `eval_plus` (92-102); the arguments of `plus` and `minus` are evaluated before `eval_if` -/
def evalPlus (state c : Val) : Val :=
  Val.ofOut (state.force.bind fun s => (back c).bind fun b => (front c).bind fun f => f.value.bind
    fun op => if op = ch '+' then arith (· + ·) s b else arith (· - ·) s b)

/-- `eval_mult` (104-114) -/
def evalMult (state c : Val) : Val :=
  Val.ofOut (state.force.bind fun s => (back c).bind fun b => (front c).bind fun f => f.value.bind
    fun op => if op = ch '*' then arith (· * ·) s b else divides s b)

/-- `eval_unary_plus` (116-126) -/
def evalUnaryPlus (state c : Val) : Val :=
  Val.ofOut (state.force.bind fun s => c.value.bind fun op =>
    if op = ch '+' then .ok s else negate s)

/-- `plus_token` (79) -/
def plusToken : P := .token (.litC (ch '+'))
/-- `minus_token` (80) -/
def minusToken : P := .token (.litC (ch '-'))
/-- `mult_token` (81) -/
def multToken : P := .token (.litC (ch '*'))
/-- `div_token` (82) -/
def divToken : P := .token (.litC (ch '/'))
/-- `open_paren_token` (84) -/
def openParenToken : P := .token (.litC (ch '('))
/-- `close_paren_token` (85) -/
def closeParenToken : P := .token (.litC (ch ')'))
/-- `int_token` (87) -/
def intToken : P := .token P.int_

/-- The number of the class `plus_exp` (128) among the classes of the user. -/
def plusExpId : Nat := 0

/-- `paren_exp` (130) -/
def parenExp : P := .middleOf openParenToken (.ref plusExpId) closeParenToken

/-- `simple_exp` (132-138) -/
def simpleExp : P :=
  .foldrStartWithParser (.oneOf [plusToken, minusToken]) (.oneOf [intToken, parenExp]) evalUnaryPlus

/-- `prod_exp` (140-146) -/
def prodExp : P :=
  .foldlRejectIncompleteStartWithParser (.sequence [.oneOf [multToken, divToken], simpleExp]) simpleExp
    evalMult

/-- `plus_exp` (148-154) -/
def plusExp : P :=
  .foldlRejectIncompleteStartWithParser (.sequence [.oneOf [plusToken, minusToken], prodExp]) prodExp
    evalPlus

/-- `expression` (156) -/
def expression : P := .lastOf [.repeated P.space, plusExp]

/-- `calculator_parser` (158) -/
noncomputable def calculatorParser {I : Type} (E : Env I) (s : I) : Out Val :=
  buildParser E (.entireInput expression) s

end Calc

end Metaparse
