import Verif.Model.GrammarExamples
/-!
# The parsers of the tutorial

`/repo/example/getting_started/*.hpp`, the headers with the definitions of the sections of
`/repo/doc/getting_started.qbk`. Paths in comments are relative to that directory.

`5_2.hpp:10` includes `boost/metaparse/any.hpp`, which does not exist (it is now `repeated.hpp`), so `5_2.hpp`
and the headers after it do not compile as they are, and no Jamfile builds them. The model is about the
definitions.

Not modelled: the queries in comments, `vector_of_numbers` (`5_2_2.hpp:12-17`), `temp_result`
(`5_2_1.hpp:10`) and `paren_exp1` (`11.hpp:21`), which nothing uses. `paren_exp3` is not used either, but it
matters that it is not.
-/

namespace Metaparse

namespace Tutorial

/-! ## Numbers (sections 3 and 4) -/

/-- `exp_parser1` of `3_1.hpp:16` -/
noncomputable def expParser1 {I : Type} (E : Env I) (s : I) : Out Val := buildParser E P.int_ s

/-- `exp_parser2` of `3_3.hpp:15` -/
noncomputable def expParser2 {I : Type} (E : Env I) (s : I) : Out Val := buildParser E (.entireInput P.int_) s

/-- `exp_parser3` of `4.hpp:15` -/
noncomputable def expParser3 {I : Type} (E : Env I) (s : I) : Out Val :=
  buildParser E (.entireInput (.token P.int_)) s

/-- `int_token` of `4_2.hpp:10` -/
def intToken : P := .token P.int_

/-- `plus_token` of `4_2.hpp:12` -/
def plusToken : P := .token (.litC (ch '+'))

/-- `exp_parser4` of `4_1.hpp:14` -/
noncomputable def expParser4 {I : Type} (E : Env I) (s : I) : Out Val :=
  buildParser E (.sequence [.token P.int_, .token (.litC (ch '+')), .token P.int_]) s

/-- `exp_parser5` of `4_2.hpp:14` -/
noncomputable def expParser5 {I : Type} (E : Env I) (s : I) : Out Val :=
  buildParser E (.sequence [intToken, plusToken, intToken]) s

/-! ## Sums (section 5) -/

/-- `boost::mpl::at_c<v, n>::type` (Boost.MPL, not part of the library); no such element is ill-formed
(used at `/repo/example/getting_started/5.hpp:19-20`) -/
def atC (v : Val) (n : Nat) : Out Val :=
  match v with
  | .seq l => match l[n]? with
    | some x => .ok x
    | none => .ill .noSpecialisation
  | _ => .ill .noSpecialisation

/-- `eval_plus` of `5.hpp:16-21` -/
def evalPlus (v : Val) : Val :=
  Val.ofOut ((atC v 0).bind fun a => (atC v 2).bind fun b => Calc.arith (· + ·) a b)

/-- The parser of `exp_parser6`, `5.hpp:35-38` -/
def sumOfTwo : P := .transform (.sequence [intToken, plusToken, intToken]) evalPlus

/-- `exp_parser6` of `5.hpp:33-39` -/
noncomputable def expParser6 {I : Type} (E : Env I) (s : I) : Out Val := buildParser E sumOfTwo s

/-- `sequence<plus_token, int_token>`, the "+ <number>" elements (`5_2.hpp:16`) -/
def plusItem : P := .sequence [plusToken, intToken]

/-- `exp_parser7` of `5_2.hpp:12-18` -/
noncomputable def expParser7 {I : Type} (E : Env I) (s : I) : Out Val :=
  buildParser E (.sequence [intToken, .repeated plusItem]) s

/-- `sum_vector` of `5_2_2.hpp:19-28` -/
def sumVector (v : Val) : Val :=
  metafunction (match v with
    | .seq vs => mplFold (fun a b => Val.ofOut (Calc.arith (· + ·) a b)) (.int 0) vs
    | _ => .ill .noSpecialisation)

/-- `sum_items` of `5_2_2.hpp:33-39` -/
def sumItems (sum item : Val) : Val :=
  Val.ofOut ((atC item 1).bind fun b => Calc.arith (· + ·) sum b)

/-- The lambda expression of `5_2_3.hpp:17-25` and `5_2_3.hpp:41-47` -/
def sumOfItems (v : Val) : Val :=
  metafunction (match v with
    | .seq vs => mplFold sumItems (.int 0) vs
    | _ => .ill .noSpecialisation)

/-- The parser of `exp_parser8`, `5_2_3.hpp:12-27` -/
def numberAndSum : P := .sequence [intToken, .transform (.repeated plusItem) sumOfItems]

/-- `exp_parser8` of `5_2_3.hpp:10-28` -/
noncomputable def expParser8 {I : Type} (E : Env I) (s : I) : Out Val := buildParser E numberAndSum s

/-- `exp_parser9` of `5_2_3.hpp:33-52` -/
noncomputable def expParser9 {I : Type} (E : Env I) (s : I) : Out Val :=
  buildParser E (.transform numberAndSum sumVector) s

/-- `exp_parser10` of `5_2_4.hpp:12-24` -/
noncomputable def expParser10 {I : Type} (E : Env I) (s : I) : Out Val :=
  buildParser E (.transform (.sequence [intToken, .foldl plusItem (.int 0) sumItems]) sumVector) s

/-- `exp_parser11` of `6.hpp:12-19` -/
noncomputable def expParser11 {I : Type} (E : Env I) (s : I) : Out Val :=
  buildParser E (.foldlStartWithParser plusItem intToken sumItems) s

/-! ## Several operators (sections 6 and 7) -/

/-- `minus_token` of `6_2.hpp:10` -/
def minusToken : P := .token (.litC (ch '-'))

/-- `exp_parser12` of `6_2.hpp:14-21` -/
noncomputable def expParser12 {I : Type} (E : Env I) (s : I) : Out Val :=
  buildParser E (.foldlStartWithParser (.sequence [.oneOf [plusToken, minusToken], intToken]) intToken
    sumItems) s

/-- `eval_binary_op<L, Op, R>` of `7.hpp:12-16`, `7_2.hpp:12` and `8_1.hpp:12`; for other operators the
class is only declared. -/
def evalBinaryOp (l : Val) (op : Chr) (r : Val) : Out Val :=
  if op = ch '+' then Calc.arith (· + ·) l r
  else if op = ch '-' then Calc.arith (· - ·) l r
  else if op = ch '*' then Calc.arith (· * ·) l r
  else if op = ch '/' then Calc.divides l r
  else .ill .noSpecialisation

/-- `binary_op` of `7.hpp:24-31` -/
def binaryOp (s item : Val) : Val :=
  Val.ofOut ((atC item 0).bind fun o => o.value.bind fun op => (atC item 1).bind fun r =>
    evalBinaryOp s op r)

/-- `exp_parser13` of `7.hpp:36-43` -/
noncomputable def expParser13 {I : Type} (E : Env I) (s : I) : Out Val :=
  buildParser E (.foldlStartWithParser (.sequence [.oneOf [plusToken, minusToken], intToken]) intToken
    binaryOp) s

/-- `times_token` of `7_2.hpp:17` -/
def timesToken : P := .token (.litC (ch '*'))

/-- `exp_parser14` of `7_2.hpp:19-26`; the specialisation of `eval_binary_op` for `/` comes later
(`8_1.hpp:12`), but the parser does not read `/`. -/
noncomputable def expParser14 {I : Type} (E : Env I) (s : I) : Out Val :=
  buildParser E (.foldlStartWithParser (.sequence [.oneOf [plusToken, minusToken, timesToken], intToken])
    intToken binaryOp) s

/-! ## Precedence and associativity (sections 7 and 8) -/

/-- `mult_exp1` of `8.hpp:10` -/
def multExp1 : P := .foldlStartWithParser (.sequence [timesToken, intToken]) intToken binaryOp

/-- The fold that `exp_parser15` (`8.hpp:14-18`), `exp_parser16` (`8_1.hpp:25-29`), `exp_parser17`
(`9.hpp:31-35`), `exp_parser18` (`10.hpp:28-32`), `plus_exp1` (`11.hpp:15-19`), `plus_exp2` (`11.hpp:50-54`),
`plus_exp3` (`11_3.hpp:37-41`) and `plus_exp4` (`11_3_1.hpp:22-26`) have in common -/
def plusExp (mult : P) : P :=
  .foldlStartWithParser (.sequence [.oneOf [plusToken, minusToken], mult]) mult binaryOp

/-- `exp_parser15` of `8.hpp:12-19` -/
noncomputable def expParser15 {I : Type} (E : Env I) (s : I) : Out Val := buildParser E (plusExp multExp1) s

/-- `divides_token` of `8_1.hpp:14` -/
def dividesToken : P := .token (.litC (ch '/'))

/-- The fold that `mult_exp2` (`8_1.hpp:17-21`), `mult_exp4` (`10.hpp:20-24`), `mult_exp5` (`11.hpp:43-47`)
and `mult_exp6` (`11_3.hpp:30-34`) have in common -/
def multExp (operand : P) : P :=
  .foldlStartWithParser (.sequence [.oneOf [timesToken, dividesToken], operand]) operand binaryOp

/-- `mult_exp2` of `8_1.hpp:16-21` -/
def multExp2 : P := multExp intToken

/-- `exp_parser16` of `8_1.hpp:23-30` -/
noncomputable def expParser16 {I : Type} (E : Env I) (s : I) : Out Val := buildParser E (plusExp multExp2) s

/-- `reverse_binary_op` of `9.hpp:10-17` -/
def reverseBinaryOp (s item : Val) : Val :=
  Val.ofOut ((atC item 0).bind fun l => (atC item 1).bind fun o => o.value.bind fun op =>
    evalBinaryOp l op s)

/-- `mult_exp3` of `9.hpp:21-27` -/
def multExp3 : P :=
  .foldrStartWithParser (.sequence [intToken, .oneOf [timesToken, dividesToken]]) intToken reverseBinaryOp

/-- `exp_parser17` of `9.hpp:29-36` -/
noncomputable def expParser17 {I : Type} (E : Env I) (s : I) : Out Val := buildParser E (plusExp multExp3) s

/-! ## Unary minus (section 9) -/

/-- The fold that `unary_exp1` (`10.hpp:13-17`), `unary_exp2` (`11.hpp:36-40`), `unary_exp3`
(`11_3.hpp:23-27`) and `unary_exp4` (`12.hpp:17-21`) have in common -/
def unaryExp (primary : P) : P :=
  .foldrStartWithParser minusToken primary fun s _ => Val.ofOut (Calc.negate s)

/-- `unary_exp1` of `10.hpp:12-17` -/
def unaryExp1 : P := unaryExp intToken

/-- `mult_exp4` of `10.hpp:19-24` -/
def multExp4 : P := multExp unaryExp1

/-- `exp_parser18` of `10.hpp:26-33` -/
noncomputable def expParser18 {I : Type} (E : Env I) (s : I) : Out Val := buildParser E (plusExp multExp4) s

/-! ## Brackets (section 10) -/

/-- `lparen_token` of `11.hpp:10` -/
def lparenToken : P := .token (.litC (ch '('))

/-- `rparen_token` of `11.hpp:12` -/
def rparenToken : P := .token (.litC (ch ')'))

/-- `plus_exp1` of `11.hpp:14-19` -/
def plusExp1 : P := plusExp multExp4

/-- `paren_exp2` of `11.hpp:25` -/
def parenExp2 : P := .middleOf lparenToken plusExp1 rparenToken

/-- The number of the class `plus_exp2` of `11.hpp:29` among the classes of the user. -/
def plusExp2Id : Nat := 2

/-- `paren_exp3` of `11.hpp:31`, which is not used -/
def parenExp3 : P := .middleOf lparenToken (.ref plusExp2Id) rparenToken

/-- `primary_exp2` of `11.hpp:33`. It uses `paren_exp2`, not `paren_exp3`. -/
def primaryExp2 : P := .oneOf [intToken, parenExp2]

/-- `unary_exp2` of `11.hpp:35-40` -/
def unaryExp2 : P := unaryExp primaryExp2

/-- `mult_exp5` of `11.hpp:42-47` -/
def multExp5 : P := multExp unaryExp2

/-- `plus_exp2` of `11.hpp:49-54` -/
def plusExp2 : P := plusExp multExp5

/-- `exp_parser19` of `11.hpp:56` -/
noncomputable def expParser19 {I : Type} (E : Env I) (s : I) : Out Val :=
  buildParser E (.ref plusExp2Id) s

/-! ## Errors (section 11) -/

/-- `missing_primary_expression` of `11_3.hpp:12` -/
def missingPrimaryExpression : Msg := .user 0

/-- The number of the class `plus_exp3` of `11_3.hpp:14` among the classes of the user. -/
def plusExp3Id : Nat := 3

/-- `paren_exp4` of `11_3.hpp:16` -/
def parenExp4 : P := .middleOf lparenToken (.ref plusExp3Id) rparenToken

/-- `primary_exp3` of `11_3.hpp:20` -/
def primaryExp3 : P := .oneOf [intToken, parenExp4, .fail missingPrimaryExpression]

/-- `unary_exp3` of `11_3.hpp:22-27` -/
def unaryExp3 : P := unaryExp primaryExp3

/-- `mult_exp6` of `11_3.hpp:29-34` -/
def multExp6 : P := multExp unaryExp3

/-- `plus_exp3` of `11_3.hpp:36-41` -/
def plusExp3 : P := plusExp multExp6

/-- `exp_parser20` of `11_3.hpp:43` -/
noncomputable def expParser20 {I : Type} (E : Env I) (s : I) : Out Val :=
  buildParser E (.ref plusExp3Id) s

/-- `plus_exp4` of `11_3_1.hpp:20-30` -/
def plusExp4 : P :=
  .firstOf [plusExp multExp6,
    .failAtFirstCharExpected (.sequence [.oneOf [plusToken, minusToken], multExp6])]

/-- `exp_parser21` of `11_3_1.hpp:32` -/
noncomputable def expParser21 {I : Type} (E : Env I) (s : I) : Out Val := buildParser E plusExp4 s

/-- `plus_exp5` of `11_3_2.hpp:12-17` -/
def plusExp5 : P :=
  .foldlRejectIncompleteStartWithParser (.sequence [.oneOf [plusToken, minusToken], multExp6]) multExp6
    binaryOp

/-- `exp_parser22` of `11_3_2.hpp:19` -/
noncomputable def expParser22 {I : Type} (E : Env I) (s : I) : Out Val := buildParser E plusExp5 s

/-- The number of the class `plus_exp6` of `12.hpp:10` among the classes of the user. -/
def plusExp6Id : Nat := 6

/-- `paren_exp5` of `12.hpp:12` -/
def parenExp5 : P := .middleOf lparenToken (.ref plusExp6Id) rparenToken

/-- `primary_exp4` of `12.hpp:14` -/
def primaryExp4 : P := .oneOf [intToken, parenExp5, .fail missingPrimaryExpression]

/-- `unary_exp4` of `12.hpp:16-21` -/
def unaryExp4 : P := unaryExp primaryExp4

/-- `mult_exp7` of `12.hpp:23-28` -/
def multExp7 : P :=
  .foldlRejectIncompleteStartWithParser (.sequence [.oneOf [timesToken, dividesToken], unaryExp4])
    unaryExp4 binaryOp

/-- `plus_exp6` of `12.hpp:30-35` -/
def plusExp6 : P :=
  .foldlRejectIncompleteStartWithParser (.sequence [.oneOf [plusToken, minusToken], multExp7]) multExp7
    binaryOp

/-- `exp_parser23` of `12.hpp:37` -/
noncomputable def expParser23 {I : Type} (E : Env I) (s : I) : Out Val :=
  buildParser E (.ref plusExp6Id) s

/-- The classes `plus_exp2`, `plus_exp3` and `plus_exp6` (`11.hpp:49`, `11_3.hpp:36`, `12.hpp:30`) -/
def classes : Nat → P
  | 2 => plusExp2
  | 3 => plusExp3
  | _ => plusExp6

end Tutorial

end Metaparse
