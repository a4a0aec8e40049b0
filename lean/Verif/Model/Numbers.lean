import Verif.Model.Calculator
/-!
# The examples that parse numbers

`/repo/example/binary_number/main.cpp`, `/repo/example/rational/main.cpp` and
`/repo/example/minimal_rational/main.cpp`.
-/

namespace Metaparse

namespace Binary

/-- `next_element` of `/repo/example/binary_number/main.cpp:39-43`; `mpl::times` and `mpl::plus` are computed in
`int` -/
def nextElement (acc b : Val) : Val :=
  Val.ofOut ((Calc.arith (· * ·) acc (.int 2)).bind fun x => Calc.arith (· + ·) x b)

/-- The parser repeated by `S` of `/repo/example/binary_number/main.cpp:46` -/
def bit : P := .transform (.oneOfC [ch '0', ch '1']) digitToInt

/-- `S` of `/repo/example/binary_number/main.cpp:45-47` -/
def number : P := P.foldl1 bit (.int 0) nextElement

/-- `binary_parser` of `/repo/example/binary_number/main.cpp:49` -/
noncomputable def binaryParser {I : Type} (E : Env I) (s : I) : Out Val :=
  buildParser E (.entireInput number) s

end Binary

namespace Rational

/-- `rational` of `/repo/example/rational/main.cpp:35-44` and `/repo/example/minimal_rational/main.cpp:29-38` -/
def rational (args : List Val) : Val := .user 0 args

/-- The second parser in `rational_grammar` of `/repo/example/minimal_rational/main.cpp:45`, and the first
alternative in `/repo/example/rational/main.cpp:52` -/
def denominator : P := .lastOf [P.litC (ch '/'), .token P.int_]

/-- `rational_grammar` of `/repo/example/rational/main.cpp:46-56` -/
def rationalGrammar : P :=
  P.sequenceApply rational [.token P.int_, .oneOf [denominator, .empty (.int 1)]]

/-- `rational_parser` of `/repo/example/rational/main.cpp:58` -/
noncomputable def rationalParser {I : Type} (E : Env I) (s : I) : Out Val :=
  buildParser E (.entireInput rationalGrammar) s

/-- `rational_grammar` of `/repo/example/minimal_rational/main.cpp:40-47` -/
def minimalGrammar : P := P.sequenceApply rational [.token P.int_, denominator]

/-- `rational_parser` of `/repo/example/minimal_rational/main.cpp:49` -/
noncomputable def minimalParser {I : Type} (E : Env I) (s : I) : Out Val :=
  buildParser E (.entireInput minimalGrammar) s

/-- `rational<Num, Denom>::run()` of `/repo/example/rational/main.cpp:40-43`: the constructor of
`boost::rational<int>` (not part of the library) is called with numerator and denominator; it throws
(`none`) if the denominator is zero. The result is represented by these two numbers (`boost::rational`
divides them by their greatest common divisor). -/
def run : Val → Out (Option (Int × Int))
  | .user 0 [num, denom] => num.value.bind fun n => denom.value.bind fun d =>
      .ok (if d = 0 then none else some (n, d))
  | _ => .ill .noSpecialisation

end Rational

end Metaparse
