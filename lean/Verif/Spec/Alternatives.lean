import Verif.Spec.Outcome
import Verif.Spec.Chars
/-!
# Alternatives that exclude each other
-/

namespace Metaparse

variable {I : Type}

/-- The same alternatives, in whatever order and number. -/
def SameAlternatives (ps qs : List P) : Prop := ∀ p, p ∈ ps ↔ p ∈ qs

/-- All alternatives that accept do so in the same way. -/
def OneAccepts (E : Env I) (ps : List P) (s : I) (pos : Pos) : Prop :=
  ∀ p ∈ ps, ∀ q ∈ ps, ∀ v s' pos' v1 s1 pos1, Accepts E p s pos v s' pos' → Accepts E q s pos v1 s1 pos1 →
    v = v1 ∧ s' = s1 ∧ pos' = pos1

/-- All alternatives that reject at `e` do so with the same message. -/
def OneMessage (E : Env I) (ps : List P) (s : I) (pos e : Pos) : Prop :=
  ∀ p ∈ ps, ∀ q ∈ ps, ∀ m m1, Rejects E p s pos m e → Rejects E q s pos m1 e → m = m1

/-- Whatever `p` accepts begins with a character of the class. -/
def OnlyBeginning (E : Env (List Chr)) (p : P) (cls : Chr → Bool) : Prop :=
  ∀ s pos v s' pos', Accepts E p s pos v s' pos' → ∃ c rest, s = c :: rest ∧ cls c = true

end Metaparse
