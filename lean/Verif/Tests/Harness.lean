import Verif.Lemmas.Check
import Verif.Model.Derived
/-!
# The unit tests of the repository, run on the model

The files in this directory transcribe the assertions of `/repo/test`, which are known to hold of
the code, and evaluate them in the model.  They are no proofs of properties: they are evidence that
the model behaves like the code.  Every assertion is evaluated for all three implementations
(`cpp98`, `cpp11`, `cpp14`) unless it is said otherwise.
-/

namespace Metaparse.Tests

/-- Input texts of `/repo/test/common.hpp:21-49` are written as string literals. -/
def t (s : String) : List Chr := s.toList.map ch

/-- The environment of a test: default limits, the given implementation. -/
def testEnv (std : Std) : Env (List Chr) := { input := listInput, std := std }

/-- All outcomes of `apply_wrap2<p, s, start>` satisfy `ok`. -/
def onAll (p : P) (s : List Chr) (ok : Res (List Chr) → Bool) : Bool :=
  [Std.cpp98, .cpp11, .cpp14].all fun std =>
    match eval (testEnv std) 60 p s start with
    | .ok r => ok r
    | _ => false

/-- `is_error<apply_wrap2<p, s, start>>` -/
def isError (p : P) (s : String) : Bool :=
  onAll p (t s) fun | .rej _ _ => true | _ => false

/-- `not_<is_error<apply_wrap2<p, s, start>>>` -/
def notError (p : P) (s : String) : Bool :=
  onAll p (t s) fun | .acc _ _ _ => true | _ => false

/-- `equal_to<get_result<apply_wrap2<p, s, start>>::type, v>` -/
def result (p : P) (s : String) (v : Val) : Bool :=
  onAll p (t s) fun | .acc v' _ _ => Val.beq v' v | _ => false

/-- `equal<get_remaining<apply_wrap2<p, s, start>>::type, r>` -/
def remaining (p : P) (s r : String) : Bool :=
  onAll p (t s) fun | .acc _ r' _ => decide (r' = t r) | _ => false

/-- A predicate on `get_position<apply_wrap2<p, s, start>>::type` -/
def position (p : P) (s : String) (ok : Pos → Bool) : Bool :=
  onAll p (t s) fun | .acc _ _ pos => ok pos | .rej _ pos => ok pos

/-- `is_same<m, get_message<apply_wrap2<p, s, start>>::type>` -/
def message (p : P) (s : String) (m : Msg) : Bool :=
  onAll p (t s) fun | .rej m' _ => decide (m' = m) | _ => false

/-- `q` applied to what `p` left has result `v`. -/
def resultAfter (p q : P) (s : String) (v : Val) : Bool :=
  [Std.cpp98, .cpp11, .cpp14].all fun std =>
    match eval (testEnv std) 60 p (t s) start with
    | .ok (.acc _ s' pos') => match eval (testEnv std) 60 q s' pos' with
        | .ok (.acc v' _ _) => Val.beq v' v
        | _ => false
    | _ => false

/-- `char_<c>` -/
def c (x : Char) : Val := .chr (ch x)

/-- `vector_c<char, …>` -/
def cs (s : String) : Val := .seq (s.toList.map c)

/-- `test_failure` (`/repo/test/common.hpp:103-108`) -/
def testFailure : Msg := .user 1

/-- `lit_e`, `lit_h`, `lit_l`, `lit_x` (`/repo/test/common.hpp:89-92`) -/
def lit (x : Char) : P := P.lit (ch x)

/-- A C++ type without a member `type`, such as `int` or `double`. -/
def plainType : Val := .cvoid

end Metaparse.Tests
