import Verif.Spec.Outcome
/-!
# Vocabulary for parsers made of lists of parsers
-/

namespace Metaparse

variable {I : Type}

/-- The parsers before some `p` of the list accept one after the other, and then `p` rejects with
message `m` at `e`.  Nothing is said about the parsers after `p`. -/
def FirstRejection (E : Env I) (ps : List P) (s : I) (pos : Pos) (m : Msg) (e : Pos) : Prop :=
  ∃ before p after vs s1 pos1, ps = before ++ p :: after ∧
    InSequence E before s pos vs s1 pos1 ∧ Rejects E p s1 pos1 m e

/-- The parsers before some `p` of the list accept one after the other, and then `p` does not
compile, with the error `f`. -/
def FirstFault (E : Env I) (ps : List P) (s : I) (pos : Pos) (f : Fault) : Prop :=
  ∃ before p after vs s1 pos1, ps = before ++ p :: after ∧
    InSequence E before s pos vs s1 pos1 ∧ run E p s1 pos1 = .ill f

/-- The parsers before some `p` of the list accept one after the other, and then `p` does not
finish. -/
def FirstDivergence (E : Env I) (ps : List P) (s : I) (pos : Pos) : Prop :=
  ∃ before p after vs s1 pos1, ps = before ++ p :: after ∧
    InSequence E before s pos vs s1 pos1 ∧ Diverges E p s1 pos1

/-- `nth_of`, `first_of`, `last_of`, `middle_of`, `token`, `entire_input`, … of `n` parsers exist:
in C++98 there have to be fewer than `BOOST_METAPARSE_LIMIT_SEQUENCE_SIZE`. -/
def Env.SupportsNth (E : Env I) (n : Nat) : Prop := E.std = .cpp98 → n < E.limSequence

/-- `sequence` of `n` parsers exists: in C++98 there have to be fewer than
`BOOST_METAPARSE_LIMIT_SEQUENCE_SIZE`, and that limit has to be at least 2. -/
def Env.SupportsSequence (E : Env I) (n : Nat) : Prop :=
  E.std = .cpp98 → 1 < E.limSequence ∧ n < E.limSequence

/-- `one_of` of `n` parsers exists. -/
def Env.SupportsOneOf (E : Env I) (n : Nat) : Prop := E.std = .cpp98 → n ≤ E.limOneOf

end Metaparse
