import Verif.Spec.Subparsers
/-!
# Parsers and the classes they use
-/

namespace Metaparse

/-- Which of the classes of the user a parser may use: recursive parsers, own parsers and error
functions, by their numbers. -/
structure Classes where
  parsers : Nat → Prop
  natives : Nat → Prop
  errors : Nat → Prop

/-- This layer of the parser uses only the classes of `K`. -/
def P.Uses (K : Classes) : P → Prop
  | .ref i => K.parsers i
  | .native i => K.natives i
  | .transformError _ k => K.errors k
  | _ => True

/-- The two environments have the same implementation and limits, and the classes of `K` are the same
in both; the definitions of the parsers of `K` use only classes of `K`. -/
structure Classes.Shared {I : Type} (K : Classes) (E E' : Env I) : Prop where
  input : E.input = E'.input
  std : E.std = E'.std
  limSequence : E.limSequence = E'.limSequence
  limOneOf : E.limOneOf = E'.limOneOf
  limOneCharExcept : E.limOneCharExcept = E'.limOneCharExcept
  parsers : ∀ i, K.parsers i → E.rules i = E'.rules i ∧ (E.rules i).Every (P.Uses K)
  natives : ∀ i, K.natives i → E.native i = E'.native i
  errors : ∀ k, K.errors k → E.onError k = E'.onError k

end Metaparse
