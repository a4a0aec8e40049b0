import Verif.Model.Grammar
import Verif.Model.Lambda
/-!
# The examples that use `grammar`

`/repo/example/grammar_calculator/main.cpp` and `/repo/example/meta_metaparse/main.cpp`. Numbers in
comments are lines of these files.

In the rule texts of the source, `'\n'`, `'\r'` and `'\t'` are escape sequences of the C++ string literal,
so the rule text has the character itself between the quotes. The environment `E` is the one of the rule
parser as well.
-/

namespace Metaparse

/-- `boost::mpl::fold<l, st, op>::type`: the new state is `::type` of the operation applied to the old
state and the element. `l` is a sequence of results
(`/repo/example/grammar_calculator/main.cpp:88-89`, `/repo/example/meta_metaparse/main.cpp:103-107`). -/
def mplFold (op : Val → Val → Val) : Val → List Val → Out Val
  | st, [] => .ok st
  | st, v :: vs => (op st v).force.bind fun st' => mplFold op st' vs

/-- A nullary metafunction with this `::type` (`/repo/example/meta_metaparse/main.cpp:90-92`). -/
def metafunction (o : Out Val) : Val := Val.ofOut (o.bind fun v => .ok (.delayed v))

/-- `boost::mpl::fold<back<seq>::type, front<seq>::type, op>`
(`/repo/example/grammar_calculator/main.cpp:93-95`, `/repo/example/meta_metaparse/main.cpp:103-105`) -/
def foldBack (op : Val → Val → Val) (seq : Val) : Val :=
  metafunction ((Calc.back seq).bind fun l => (Calc.front seq).bind fun x => l.force.bind fun l =>
    x.force.bind fun x =>
      match l with
      | .seq vs => mplFold op x vs
      | _ => .ill .noSpecialisation)

/-- The user writes `build_parser<entire_input<G>>` for a grammar `G`, which is itself a parser: a native
parser of the environment (`/repo/example/grammar_calculator/main.cpp:147`, `/repo/example/meta_metaparse/main.cpp:228`). -/
noncomputable def parseWholeWith (E : Env (List Chr)) (G : Out Grammar) (s : List Chr) : Out Val :=
  G.bind fun G => buildParser { E with native := fun _ => G.apply E E } (.entireInput (.native 0)) s

/-! ## `/repo/example/grammar_calculator/main.cpp`

The file includes `boost/config.hpp` only, which does not define `BOOST_METAPARSE_STD`, before it compares
`BOOST_METAPARSE_STD` with 2011 (6-8). The preprocessor takes an undefined name as 0, so what is compiled is
a `main` that asks for another compiler. The model is about the code in the `#else`. -/

namespace GrammarCalc

/-- The operation of `prod_action` (97-101): `lazy_eval_if` (81-82), `lazy_equal_to` (84-85), `lazy_times`
(75-76), `lazy_divides` (78-79). The arguments of `lazy_eval_if` are placeholder expressions themselves, so
`boost::mpl::lambda` makes nested `boost::mpl::bind`s of them and these are evaluated before `lazy_eval_if`
is: both the product and the quotient are computed. -/
def prodOp (st c : Val) : Val :=
  Val.ofOut ((Calc.front c).bind fun f => f.value.bind fun op => (Calc.back c).bind fun b =>
    (Calc.arith (· * ·) st b).bind fun t => (Calc.divides st b).bind fun d =>
      .ok (if op = ch '*' then t else d))

/-- The operation of `plus_action` (111-115): `lazy_plus` (69-70) and `lazy_minus` (72-73) are both
computed. -/
def plusOp (st c : Val) : Val :=
  Val.ofOut ((Calc.front c).bind fun f => f.value.bind fun op => (Calc.back c).bind fun b =>
    (Calc.arith (· + ·) st b).bind fun t => (Calc.arith (· - ·) st b).bind fun d =>
      .ok (if op = ch '+' then t else d))

/-- `prod_action` (92-104); `lazy_fold` (87-90) -/
def prodAction : Val → Val := foldBack prodOp

/-- `plus_action` (106-118) -/
def plusAction : Val → Val := foldBack plusOp

/-- The operation of `int_action` (125-127) -/
def intOp (st c : Val) : Val :=
  Val.ofOut ((Calc.arith (· * ·) st (.int 10)).bind fun t => (digitToInt c).force.bind fun d =>
    Calc.arith (· + ·) t d)

/-- `int_action` (120-130) -/
def intAction (v : Val) : Val :=
  metafunction (v.force.bind fun
    | .seq vs => mplFold intOp (.int 0) vs
    | _ => .ill .noSpecialisation)

/-- `front<_1>` (137-141) -/
def frontAction (v : Val) : Val := metafunction (Calc.front v)

/-- The rules of `expression` (135-144). -/
def rules : List Grammar.Addition :=
  [.rule (txt "int ::= ('0'|'1'|'2'|'3'|'4'|'5'|'6'|'7'|'8'|'9')+") (some intAction),
    .rule (txt "ws ::= (' ' | '\n' | '\r' | '\t')*") none,
    .rule (txt "int_token ::= int ws") (some frontAction),
    .rule (txt "plus_token ::= '+' ws") (some frontAction),
    .rule (txt "minus_token ::= '-' ws") (some frontAction),
    .rule (txt "mult_token ::= '*' ws") (some frontAction),
    .rule (txt "div_token ::= '/' ws") (some frontAction),
    .rule (txt "plus_token ::= '+' ws") none,
    .rule (txt "plus_exp ::= prod_exp ((plus_token | minus_token) prod_exp)*") (some plusAction),
    .rule (txt "prod_exp ::= int_token ((mult_token | div_token) int_token)*") (some prodAction)]

/-- `expression` (132-145) -/
noncomputable def expression (E : Env (List Chr)) : Out Grammar :=
  Grammar.addAll E (.empty (txt "plus_exp")) rules

/-- `calculator_parser` (147) -/
noncomputable def calculatorParser (E : Env (List Chr)) (s : List Chr) : Out Val :=
  parseWholeWith E (expression E) s

end GrammarCalc

/-! ## `/repo/example/meta_metaparse/main.cpp`

The classes `_plus` (55-69), `_minus` (71-85), `_mult` (113-127), `_div` (129-143), `build_value::apply<V>`
(173-183) and `build_arg::apply<…>` (190-200) have the same member functions as those of
`/repo/example/compile_to_native_code/main.cpp`: they are written `Native.plusC`, …, and called by
`Native.call`. The parameter of `build_arg::apply` is not used and is left out. -/

namespace MetaMetaparse

/-- `build_plus_impl` (53-95) with `is_c` (50-51) -/
def buildPlusImpl (state c : Val) : Val :=
  Val.ofOut ((Calc.front c).bind fun f => f.value.bind fun op => (Calc.back c).bind fun b =>
    .ok (if op = ch '+' then Native.plusC state b else Native.minusC state b))

/-- `build_plus` (97-109) -/
def buildPlus : Val → Val := foldBack buildPlusImpl

/-- `build_mult_impl` (111-153) -/
def buildMultImpl (state c : Val) : Val :=
  Val.ofOut ((Calc.front c).bind fun f => f.value.bind fun op => (Calc.back c).bind fun b =>
    .ok (if op = ch '*' then Native.multC state b else Native.divC state b))

/-- `build_mult` (155-167) -/
def buildMult : Val → Val := foldBack buildMultImpl

/-- `build_value` (169-184) -/
def buildValue (v : Val) : Val := Native.valueC v

/-- `build_arg` (186-201) -/
def buildArg (_ : Val) : Val := Native.arg

/-- `keep_front` (203-209) -/
def keepFront (v : Val) : Val := metafunction (Calc.front v)

/-- The rules of `g` (213-225). -/
def rules : List Grammar.Addition :=
  [.import_ (txt "int_token") (.token (.transform P.int_ buildValue)),
    .rule (txt "ws ::= (' ' | '\n' | '\r' | '\t')*") none,
    .rule (txt "plus_token ::= '+' ws") (some keepFront),
    .rule (txt "minus_token ::= '-' ws") (some keepFront),
    .rule (txt "mult_token ::= '*' ws") (some keepFront),
    .rule (txt "div_token ::= '/' ws") (some keepFront),
    .rule (txt "arg_token ::= '_' ws") (some keepFront),
    .rule (txt "plus_exp ::= prod_exp ((plus_token | minus_token) prod_exp)*") (some buildPlus),
    .rule (txt "prod_exp ::= value_exp ((mult_token | div_token) value_exp)*") (some buildMult),
    .rule (txt "value_exp ::= int_token | arg_exp") none,
    .rule (txt "arg_exp ::= arg_token") (some buildArg)]

/-- `g` (211-226) -/
noncomputable def g (E : Env (List Chr)) : Out Grammar :=
  Grammar.addAll E (.empty (txt "plus_exp")) rules

/-- `function_parser` (228) -/
noncomputable def functionParser (E : Env (List Chr)) (s : List Chr) : Out Val :=
  parseWholeWith E (g E) s

end MetaMetaparse

end Metaparse
