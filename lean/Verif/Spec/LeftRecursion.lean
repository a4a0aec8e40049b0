import Verif.Spec.Fold
import Verif.Spec.Sequences
/-!
# Left recursion
-/

namespace Metaparse

variable {I : Type}

/-- `MustApply E p i`: to apply `p` to a text, the parser of the user number `i` has to be applied to the same text: it
is the first one of a sequence, one of the alternatives of a choice, ... -/
inductive MustApply (E : Env I) : P → Nat → Prop
  | ref (i : Nat) : MustApply E (.ref i) i
  | rule {j i : Nat} : MustApply E (E.rules j) i → MustApply E (.ref j) i
  | acceptWhen {p : P} {i : Nat} (f : Val → Out Bool) (m : Msg) : MustApply E p i → MustApply E (.acceptWhen p f m) i
  | changeErrorMessage {p : P} {i : Nat} (m : Msg) : MustApply E p i → MustApply E (.changeErrorMessage p m) i
  | transformErrorMessage {p : P} {i : Nat} (f : Msg → Out Msg) : MustApply E p i → MustApply E (.transformErrorMessage p f) i
  | transformError {p : P} {i : Nat} (k : Nat) : MustApply E p i → MustApply E (.transformError p k) i
  | transform {p : P} {i : Nat} (f : Val → Val) : MustApply E p i → MustApply E (.transform p f) i
  | always {p : P} {i : Nat} (v : Val) : MustApply E p i → MustApply E (.always p v) i
  | lookAhead {p : P} {i : Nat} : MustApply E p i → MustApply E (.lookAhead p) i
  | except {p : P} {i : Nat} (v : Val) (m : Msg) : MustApply E p i → MustApply E (.except p v m) i
  | optional {p : P} {i : Nat} (v : Val) : MustApply E p i → MustApply E (.optional p v) i
  | if_ {p : P} {i : Nat} (t f : Val) : MustApply E p i → MustApply E (.if_ p t f) i
  | failAtFirstCharExpected {p : P} {i : Nat} : MustApply E p i → MustApply E (.failAtFirstCharExpected p) i
  | foldl {p : P} {i : Nat} (st : Val) (op : Val → Val → Val) : MustApply E p i → MustApply E (.foldl p st op) i
  | foldlRejectIncomplete {p : P} {i : Nat} (st : Val) (op : Val → Val → Val) : MustApply E p i →
      MustApply E (.foldlRejectIncomplete p st op) i
  | foldlStart {sp : P} {i : Nat} (p : P) (op : Val → Val → Val) : MustApply E sp i →
      MustApply E (.foldlStartWithParser p sp op) i
  | foldlRejectIncompleteStart {sp : P} {i : Nat} (p : P) (op : Val → Val → Val) : MustApply E sp i →
      MustApply E (.foldlRejectIncompleteStartWithParser p sp op) i
  | foldr {p : P} {i : Nat} (sp : P) (op : Val → Val → Val) : MustApply E p i →
      MustApply E (.foldrStartWithParser p sp op) i
  | ifAccepts {p : P} {i : Nat} (q : P) : MustApply E p i → MustApply E (.ifAccepts p q) i
  | sequence {p : P} {i : Nat} (ps : List P) : MustApply E p i → MustApply E (.sequence (p :: ps)) i
  /-- any of the alternatives, not only the first one -/
  | oneOf {p : P} {i : Nat} (ps : List P) : p ∈ ps → MustApply E p i → MustApply E (.oneOf ps) i
  | nthOfC {p : P} {i : Nat} (k : Int) (ps : List P) : 0 ≤ k → k < ((p :: ps).length : Int) → MustApply E p i →
      MustApply E (.nthOfC k (p :: ps)) i
  | lastOf {p : P} {i : Nat} (ps : List P) : MustApply E p i → MustApply E (.lastOf (p :: ps)) i
  | middleOf {p : P} {i : Nat} (q r : P) : MustApply E p i → MustApply E (.middleOf p q r) i
  | iterate {p : P} {i : Nat} (n : Int) (accum : List Val) : n ≠ 0 → MustApply E p i → MustApply E (.iterate n p accum) i

end Metaparse
