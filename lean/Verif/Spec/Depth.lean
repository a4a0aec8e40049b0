import Verif.Spec.WellFormed
/-!
# Depth of instantiation

`eval E n p s pos` is the outcome with at most `n` nested applications of parsers, `run E p s pos` the one without a limit.
-/

namespace Metaparse

variable {I : Type}

/-- The depth `n` suffices to apply `p` to `s`: the outcome is the one without a limit, and there is one. -/
def Suffices (E : Env I) (n : Nat) (p : P) (s : I) (pos : Pos) : Prop :=
  eval E n p s pos = run E p s pos ∧ ¬ Diverges E p s pos

/-- There are only finitely many different parsers of the user. -/
def Env.FinitelyManyRules (E : Env I) : Prop := ∃ N, ∀ i, ∃ j, j < N ∧ E.rules i = E.rules j

end Metaparse
