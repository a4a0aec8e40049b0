import Verif.Spec.Text
import Verif.Spec.Outcome
/-!
# Well-behaved user code

The library lets the user supply whole parsers (`P.native`) and functions that replace a rejection
by an arbitrary outcome (`transform_error`).  Statements about texts need that these do not forge
inputs or positions.
-/

namespace Metaparse

/-- The outcome of parsing `s` at `pos` is honest: an acceptance leaves a suffix of `s` and the
position moved over what is missing; an error is at the position moved over some prefix. -/
def Res.HonestAt (s : List Chr) (pos : Pos) : Res (List Chr) → Prop
  | .acc _ s' pos' => ∃ consumed, s = consumed ++ s' ∧ pos' = moveOver pos consumed
  | .rej _ pos' => ∃ seen rest, s = seen ++ rest ∧ pos' = moveOver pos seen

/-- The input is a text and the user's own parsers and error functions are honest: parsers in the
sense of `Res.HonestAt`, error functions in that they give a rejection at the same position.
Recursive parsers (`P.ref`) are not restricted. -/
structure Env.Honest (E : Env (List Chr)) : Prop where
  onText : E.OnText
  native : ∀ i s pos r, E.native i s pos = .ok r → r.HonestAt s pos
  onError : ∀ k m pos r, E.onError k m pos = .ok r → ∃ m', r = .rej m' pos

end Metaparse
