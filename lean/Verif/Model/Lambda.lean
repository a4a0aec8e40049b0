import Verif.Model.Calculators
/-!
# The examples that parse functions

`/repo/example/meta_lambda/main.cpp` parses a formula with the variable `_` into a metafunction class,
`/repo/example/compile_to_native_code/main.cpp` into a class of function objects. The tokens (68-73 and
58-63) are those of the calculators.

Not modelled: the macros `META_LAMBDA` and `LAMBDA`, which turn their argument into a string.
-/

namespace Metaparse

/-! ## `/repo/example/meta_lambda/main.cpp` -/

namespace Lambda

/-- `arg_token` (74) -/
def argToken : P := .token (.litC (ch '_'))

/-- `build_value::impl<V>` (153-160) -/
def valueC (v : Val) : Val := .user 0 [v]
/-- `arg` (169-178) -/
def arg : Val := .user 1 []
/-- `build_plus::_plus<A, B>` (81-90) -/
def plusC (a b : Val) : Val := .user 2 [a, b]
/-- `build_plus::_minus<A, B>` (92-101) -/
def minusC (a b : Val) : Val := .user 3 [a, b]
/-- `build_mult::_mult<A, B>` (115-124) -/
def multC (a b : Val) : Val := .user 4 [a, b]
/-- `build_mult::_div<A, B>` (126-138) -/
def divC (a b : Val) : Val := .user 5 [a, b]

/-- `build_plus` (103-110) -/
def buildPlus (state c : Val) : Val :=
  Val.ofOut ((Calc.front c).bind fun f => f.value.bind fun op => (Calc.back c).bind fun b =>
    .ok (if op = ch '+' then plusC state b else minusC state b))

/-- `build_mult` (140-147) -/
def buildMult (state c : Val) : Val :=
  Val.ofOut ((Calc.front c).bind fun f => f.value.bind fun op => (Calc.back c).bind fun b =>
    .ok (if op = ch '*' then multC state b else divC state b))

/-- `build_value` (165-166) -/
def buildValue (v : Val) : Val := Val.ofOut (v.force.bind fun x => .ok (valueC x))

/-- `value_exp` (180-182) -/
def valueExp : P := .oneOf [.transform Calc.intToken buildValue, .always argToken arg]

/-- `prod_exp` (184-190) -/
def prodExp : P :=
  .foldlRejectIncompleteStartWithParser (.sequence [.oneOf [Calc.multToken, Calc.divToken], valueExp])
    valueExp buildMult

/-- `plus_exp` (192-198) -/
def plusExp : P :=
  .foldlRejectIncompleteStartWithParser (.sequence [.oneOf [Calc.plusToken, Calc.minusToken], prodExp])
    prodExp buildPlus

/-- `expression` (200) -/
def expression : P := .lastOf [.repeated P.space, plusExp]

/-- `metafunction_parser` (202) -/
noncomputable def metafunctionParser {I : Type} (E : Env I) (s : I) : Out Val :=
  buildParser E (.entireInput expression) s

/-- `apply_wrap1<F, T>::type` for the metafunction classes above: the members `apply` of `impl` (158-159),
`arg` (173-177), `_plus` (86-89), `_minus` (97-100), `_mult` (120-123) and `_div` (131-137). -/
def applyWrap1 : Val → Val → Out Val
  | .user 0 [v], _ => v.force
  | .user 1 [], t => .ok t
  | .user 2 [a, b], t => (applyWrap1 a t).bind fun x => (applyWrap1 b t).bind fun y =>
      Calc.arith (· + ·) x y
  | .user 3 [a, b], t => (applyWrap1 a t).bind fun x => (applyWrap1 b t).bind fun y =>
      Calc.arith (· - ·) x y
  | .user 4 [a, b], t => (applyWrap1 a t).bind fun x => (applyWrap1 b t).bind fun y =>
      Calc.arith (· * ·) x y
  | .user 5 [a, b], t => (applyWrap1 a t).bind fun x => (applyWrap1 b t).bind fun y =>
      Calc.divides x y
  | _, _ => .ill .noSpecialisation

end Lambda

/-! ## `/repo/example/compile_to_native_code/main.cpp` -/

namespace Native

/-- `build_value::apply<V>` (161-171); `build_value` itself (157-172) -/
def valueC (v : Val) : Val := .user 0 [v]
/-- `arg` (174-183) -/
def arg : Val := .user 1 []
/-- `build_plus::_plus<A, B>` (71-85) -/
def plusC (a b : Val) : Val := .user 2 [a, b]
/-- `build_plus::_minus<A, B>` (87-101) -/
def minusC (a b : Val) : Val := .user 3 [a, b]
/-- `build_mult::_mult<A, B>` (115-129) -/
def multC (a b : Val) : Val := .user 4 [a, b]
/-- `build_mult::_div<A, B>` (131-145) -/
def divC (a b : Val) : Val := .user 5 [a, b]

/-- `build_plus` (103-110) -/
def buildPlus (state c : Val) : Val :=
  Val.ofOut ((Calc.front c).bind fun f => f.value.bind fun op => (Calc.back c).bind fun b =>
    .ok (if op = ch '+' then plusC state b else minusC state b))

/-- `build_mult` (147-154) -/
def buildMult (state c : Val) : Val :=
  Val.ofOut ((Calc.front c).bind fun f => f.value.bind fun op => (Calc.back c).bind fun b =>
    .ok (if op = ch '*' then multC state b else divC state b))

/-- `value_exp` (185-187) -/
def valueExp : P := .oneOf [.transform Calc.intToken valueC, .always Lambda.argToken arg]

/-- `prod_exp` (189-195) -/
def prodExp : P :=
  .foldlRejectIncompleteStartWithParser (.sequence [.oneOf [Calc.multToken, Calc.divToken], valueExp])
    valueExp buildMult

/-- `plus_exp` (197-203) -/
def plusExp : P :=
  .foldlRejectIncompleteStartWithParser (.sequence [.oneOf [Calc.plusToken, Calc.minusToken], prodExp])
    prodExp buildPlus

/-- `expression` (205) -/
def expression : P := .lastOf [.repeated P.space, plusExp]

/-- `function_parser` (207) -/
noncomputable def functionParser {I : Type} (E : Env I) (s : I) : Out Val :=
  buildParser E (.entireInput expression) s

/-- What the function objects need to know about the type `T` of their argument: the conversion from
`int` to `T` and the operators of `T`; `none` is undefined behaviour. Simplification: only types such that
an arithmetic operation on a `T` and an `int` is done in `T` (`int` itself, the longer integer types and the
floating point types, not `char` or `short`) (`/repo/example/compile_to_native_code/main.cpp:77-140`). -/
structure Num (T : Type) where
  /-- the conversion from `int` -/
  ofInt : Int → T
  /-- `+` -/
  add : T → T → Option T
  /-- `-` -/
  sub : T → T → Option T
  /-- `*` -/
  mul : T → T → Option T
  /-- `/` -/
  div : T → T → Option T

/-- The type `int`, `none` where the C++ standard says that the behaviour is undefined
(`/repo/example/compile_to_native_code/main.cpp:77-140`). -/
def Num.int : Num Int where
  ofInt n := n
  add a b := if intMin ≤ a + b ∧ a + b ≤ intMax then some (a + b) else none
  sub a b := if intMin ≤ a - b ∧ a - b ≤ intMax then some (a - b) else none
  mul a b := if intMin ≤ a * b ∧ a * b ≤ intMax then some (a * b) else none
  div a b := if b = 0 then none
    else if intMin ≤ a.tdiv b ∧ a.tdiv b ≤ intMax then some (a.tdiv b) else none

/-- A value during the evaluation of `_left(t) + _right(t)`: an `int` or a `T`
(`/repo/example/compile_to_native_code/main.cpp:80` and `166-169`). -/
inductive Operand (T : Type) where
  | int (n : Int)
  | t (x : T)

/-- The conversion of an operand to `T` (`/repo/example/compile_to_native_code/main.cpp:78-80`). -/
def Operand.toT {T : Type} (N : Num T) : Operand T → T
  | .int n => N.ofInt n
  | .t x => x

/-- An operator on two operands, the result converted to `T` (the return type of `operator()`, 78, 94, 122,
138): with two `int`s it is the operator of `int`. -/
def Num.op {T : Type} (N : Num T) (onInt : Int → Int → Option Int) (onT : T → T → Option T) :
    Operand T → Operand T → Option (Operand T)
  | .int a, .int b => (onInt a b).map fun c => .t (N.ofInt c)
  | x, y => (onT (x.toT N) (y.toT N)).map .t

/-- `f(t)` for an object of the classes above: the members `operator()` of `apply` (166-170; it returns an
`int`), `arg` (178-182), `_plus` (77-81), `_minus` (93-97), `_mult` (121-125) and `_div` (137-141). A class
that has no such member gives `none` as well. -/
def call {T : Type} (N : Num T) : Val → T → Option (Operand T)
  | .user 0 [v], _ => match v.value with
    | .ok n => some (.int n)
    | _ => none
  | .user 1 [], t => some (.t t)
  | .user 2 [a, b], t => (call N a t).bind fun x => (call N b t).bind fun y => N.op Num.int.add N.add x y
  | .user 3 [a, b], t => (call N a t).bind fun x => (call N b t).bind fun y => N.op Num.int.sub N.sub x y
  | .user 4 [a, b], t => (call N a t).bind fun x => (call N b t).bind fun y => N.op Num.int.mul N.mul x y
  | .user 5 [a, b], t => (call N a t).bind fun x => (call N b t).bind fun y => N.op Num.int.div N.div x y
  | _, _ => none

end Native

end Metaparse
