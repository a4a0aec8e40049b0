import Verif.Spec.Outcome
import Verif.Spec.Agreement
/-!
# The right-hand sides of the equivalences of the reference

The reference (`/repo/doc/*.qbk`, sections "Expression semantics") describes many parsers by an
expression they are equivalent to.  These are the expressions that are not just a combinator of the
library applied to others.
-/

namespace Metaparse

namespace Reference

/-- `boost::mpl::at_c<_1, k>`, see `/repo/doc/nth_of_c.qbk:33-38`: the element itself, not evaluated -/
def atC (k : Nat) : Val → Val
  | .seq l => match l[k]? with
    | some v => .delayed v
    | none => .bad .noSpecialisation
  | _ => .bad .noSpecialisation

/-- `mpl::plus<mpl::times<_2, mpl::int_<10>>, _1>`, see `/repo/doc/int_.qbk:21-33`.  Overflow is
ill-formed. -/
def documentedNextDigit (a1 a2 : Val) : Val :=
  Val.ofOut <| a2.value.bind fun x => a1.value.bind fun d =>
    (intC (x * 10)).bind fun y => (intC (y + d)).bind fun z => .ok (.int z)

/-- `mpl::push_back<_2, _1>`, see `/repo/doc/repeated.qbk:40-48` -/
def documentedPushBack (a1 a2 : Val) : Val := Comb.pushBack a2 a1

/-- `/repo/doc/keyword.qbk:28-33` -/
def keyword (s : List Chr) (r : Val) : P := .lastOf (s.map P.lit ++ [.ret r])

/-- `/repo/doc/if_.qbk:29-33` -/
def if_ (p : P) (t f : Val) : P := .oneOf [.lastOf [p, .ret t], .ret f]

/-- `/repo/doc/optional.qbk:31-36` -/
def optional (p : P) (d : Val) : P := .oneOf [p, .ret d]

/-- `/repo/doc/empty.qbk:27-31` -/
def empty (c : Val) : P := .except .oneChar c .endOfInputExpected

/-- `/repo/doc/always.qbk:28-32` -/
def always (p : P) (t : Val) : P := .lastOf [p, .ret t]

/-- `/repo/doc/foldl1.qbk:35-40` -/
def foldl1 (p : P) (t : Val) (f : Val → Val → Val) : P := .lastOf [.lookAhead p, .foldl p t f]

/-- `/repo/doc/foldr1.qbk:35-40` -/
def foldr1 (p : P) (t : Val) (f : Val → Val → Val) : P := .lastOf [.lookAhead p, P.foldr p t f]

/-- `/repo/doc/repeated1.qbk:32-36` -/
def repeated1 (p : P) : P := .lastOf [.lookAhead p, P.repeated p]

/-- `/repo/doc/foldl_reject_incomplete1.qbk:34-40` -/
def foldlRejectIncomplete1 (p : P) (t : Val) (f : Val → Val → Val) : P :=
  P.firstOf [P.foldl1 p t f, .failAtFirstCharExpected p]

/-- `/repo/doc/foldr_reject_incomplete1.qbk:34-40` -/
def foldrRejectIncomplete1 (p : P) (t : Val) (f : Val → Val → Val) : P :=
  P.firstOf [P.foldr1 p t f, .failAtFirstCharExpected p]

/-- `/repo/doc/foldl_reject_incomplete_start_with_parser.qbk:48-60` -/
def foldlRejectIncompleteStartWithParser (p pt : P) (f : Val → Val → Val) : P :=
  P.firstOf [.foldlStartWithParser p pt f, .failAtFirstCharExpected p]

/-- `/repo/doc/repeated_reject_incomplete.qbk:40-46` -/
def repeatedRejectIncomplete (p : P) : P := P.firstOf [P.repeated p, .failAtFirstCharExpected p]

/-- `/repo/doc/repeated_reject_incomplete1.qbk:31-37` -/
def repeatedRejectIncomplete1 (p : P) : P := P.firstOf [P.repeated1 p, .failAtFirstCharExpected p]

/-- `/repo/doc/nth_of_c.qbk:31-38` -/
def nthOfC (k : Nat) (ps : List P) : P := .transform (.sequence ps) (atC k)

/-- `/repo/doc/iterate_c.qbk:29-40` -/
def iterateC (p : P) (n : Nat) : P := .sequence (List.replicate n p)

/-- `/repo/doc/entire_input.qbk:30-38`, with any value -/
def entireInput (p : P) (v : Val) (e : Msg) : P := P.firstOf [p, .changeErrorMessage (.empty v) e]

/-- `/repo/doc/one_of_c.qbk:33-38` -/
def oneOfC (cs : List Chr) : P := .oneOf (cs.map P.litC)

/-- `/repo/doc/lit.qbk:27-36` -/
def lit (c : Chr) : P := .acceptWhen .oneChar (isCharC c) (.literalExpected c)

/-- `/repo/doc/digit.qbk:21-25` -/
def digit : P := .acceptWhen .oneChar isDigit .digitExpected

/-- `/repo/doc/alphanum.qbk:21-25` -/
def alphanum : P := .oneOf [P.digit, P.letter]

/-- `/repo/doc/int_.qbk:21-33` -/
def int_ : P := P.foldl1 P.digitVal (.int 0) documentedNextDigit

/-- `/repo/doc/repeated.qbk:40-48` -/
def repeated (p : P) : P := .foldl p (.seq []) documentedPushBack

/-- `/repo/doc/last_of.qbk:33-37`: for `n` parsers, the one with the number `n`, counted from 0 -/
def lastOf (ps : List P) : P := .nthOfC ps.length ps

/-- `/repo/doc/middle_of.qbk:32-36` -/
def middleOf (p1 p2 p3 : P) : P := P.nthOf 1 [p1, p2, p3]

end Reference

end Metaparse
