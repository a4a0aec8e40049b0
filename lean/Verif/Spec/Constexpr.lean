import Verif.Model.Constexpr
import Verif.Spec.Sequences
/-!
# Texts of the form `a* b* a*`
-/

namespace Metaparse

/-- `i` times `a`, `j` times `b` and `k` times `a`; without `b` all the `a` count as the first. -/
def IsABA (s : List Chr) (i j k : Nat) : Prop :=
  s = List.replicate i (ch 'a') ++ List.replicate j (ch 'b') ++ List.replicate k (ch 'a') ∧ (j = 0 → k = 0)

/-- What the parsers need. -/
structure Env.CountsLetters (E : Env (List Chr)) : Prop where
  onText : E.OnText
  limSequence : E.std = .cpp98 → 3 < E.limSequence

end Metaparse
