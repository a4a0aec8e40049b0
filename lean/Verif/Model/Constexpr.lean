import Verif.Model.Calculator
/-!
# The example that parses with `constexpr` functions

`/repo/example/constexpr_parser/main.cpp`; line numbers in this file refer to it.
-/

namespace Metaparse

namespace Counting

/-- `const_list::at` (118-121) and `const_list<T, 0>::at` (132-135) of a list of characters, with `T()` equal to 0;
the index is never negative here. -/
def constListAt : List Chr → Nat → Chr
  | [], _ => 0
  | c :: l, n => if n = 0 then c else constListAt l (n - 1)

/-- `parse_cs<C, N>` (166-173), with `N` the length of the list: `presult(value, remaining_from)`. The value is at
most `N`, so that no `int` overflows. -/
def parseCs (c : Chr) (s : List Chr) (from_ : Nat) : Nat × Nat :=
  if from_ < s.length then
    if constListAt s from_ = c then
      let r := parseCs c s (from_ + 1)
      (r.1 + 1, r.2)
    else (0, from_)
  else (0, from_)
termination_by s.length - from_

/-- `parse_impl` (175-190): the three counts -/
def parseImpl (s : List Chr) : Nat × Nat × Nat :=
  ((parseCs (ch 'a') s 0).1,
   (parseCs (ch 'b') s (parseCs (ch 'a') s 0).2).1,
   (parseCs (ch 'a') s (parseCs (ch 'b') s (parseCs (ch 'a') s 0).2).2).1)

/-- `parse` (192-196) of a string literal: the array has a zero at the end; `to_list` (138-154) copies it -/
def parse (s : List Chr) : Nat × Nat × Nat := parseImpl (s ++ [0])

/-- `count` (200-206) -/
def count (state _c : Val) : Val := Val.ofOut (Calc.arith (· + ·) (.int 1) state)

/-- `as` (208) and `bs` (209) -/
def many (c : Chr) : P := .foldl (P.litC c) (.int 0) count

/-- `s` (211) -/
def s : P := .sequence [many (ch 'a'), many (ch 'b'), many (ch 'a')]

/-- `parser` (213) -/
noncomputable def parser {I : Type} (E : Env I) (t : I) : Out Val := buildParser E (.entireInput s) t

/-- `parse_with_constexpr<C>` (254-277): `tmp_to_const_list` (223-252) copies the string -/
noncomputable def parseWithConstexpr (E : Env (List Chr)) (c : Chr) (t : List Chr) (pos : Pos) :
    Out (Res (List Chr)) :=
  run E (.lastOf [P.iterateC .oneChar (parseCs c t 0).2, .ret (.int (parseCs c t 0).1)]) t pos

/-- A program with the class `bs_mixed` (279) as the own parser number 0. -/
noncomputable def mixedEnv (E : Env (List Chr)) : Env (List Chr) :=
  { E with native := fun _ => parseWithConstexpr E (ch 'b') }

/-- `s_mixed` (281) -/
def sMixed : P := .sequence [many (ch 'a'), .native 0, many (ch 'a')]

/-- `parser_mixed` (283) -/
noncomputable def parserMixed (E : Env (List Chr)) (t : List Chr) : Out Val :=
  buildParser (mixedEnv E) (.entireInput sMixed) t

/-- `parsed::build` (72-81): the three numbers in the sequence. -/
def build : Val → Out (Int × Int × Int)
  | .seq (a :: b :: c :: _) => a.value.bind fun x => b.value.bind fun y => c.value.bind fun z => .ok (x, y, z)
  | _ => .ill .noSpecialisation

end Counting

end Metaparse
