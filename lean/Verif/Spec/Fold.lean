import Verif.Spec.Outcome
/-!
# Vocabulary for repetition

`Steps` (in `Spec/Outcome.lean`) says that a parser accepts a number of times in a row.
-/

namespace Metaparse

variable {I : Type}

/-- The left fold: evaluate the operation on the value so far and the next result, and so on. -/
def leftFold (op : Val → Val → Val) : Val → List Val → Out Val
  | x, [] => .ok x
  | x, v :: vs => (op x v).force.bind fun y => leftFold op y vs

/-- The right fold: the last result is combined with the initial value first. -/
def rightFold (op : Val → Val → Val) (x : Val) : List Val → Out Val
  | [] => .ok x
  | v :: vs => (rightFold op x vs).bind fun y => (op y v).force

/-- `p` accepts one time after the other with the results `vs`, and then rejects with message `m` and
error position `e`. -/
def MaximalRun (E : Env I) (p : P) (s : I) (pos : Pos) (vs : List Val) (s' : I) (pos' : Pos)
    (m : Msg) (e : Pos) : Prop :=
  Steps E p s pos vs s' pos' ∧ Rejects E p s' pos' m e

/-- `p` can accept any number of times in a row. -/
def InfiniteRun (E : Env I) (p : P) (s : I) (pos : Pos) : Prop :=
  ∀ n, ∃ vs s' pos', vs.length = n ∧ Steps E p s pos vs s' pos'

/-- The operation can always be evaluated, as long as the value so far is in the class `K`, and it
stays in that class. -/
def NeverFails (K : Val → Prop) (op : Val → Val → Val) : Prop :=
  ∀ x v, K x → ∃ y, (op x v).force = .ok y ∧ K y

/-- The results of `p` are in the class `K`. -/
def ResultsIn (E : Env I) (K : Val → Prop) (p : P) : Prop :=
  ∀ s pos v s' pos', Accepts E p s pos v s' pos' → K v

/-- The operation is a function on the class `K` of evaluated values. -/
def ClosedOn (K : Val → Prop) (op : Val → Val → Val) : Prop :=
  (∀ x, K x → IsValue x) ∧ ∀ x v, K x → K v → K (op x v)

end Metaparse
