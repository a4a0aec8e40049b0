import Verif.Spec.Outcome
import Verif.Spec.Chars
import Verif.Spec.Fold
/-!
# What is written in a text

A parser described by texts alone: no positions and no messages.
-/

namespace Metaparse

/-- How values are written: `F t v rest` when `t`, followed by `rest`, stands for `v`. -/
abbrev Form := List Chr → Val → List Chr → Prop

/-- `p` accepts what is written in the form `F`, and all of it, and rejects the texts in `R`. -/
structure Describes (E : Env (List Chr)) (p : P) (F : Form) (R : List Chr → Prop) : Prop where
  accepts : ∀ s pos v s' pos', Accepts E p s pos v s' pos' ↔ ∃ t, s = t ++ s' ∧ F t v s' ∧ pos' = moveOver pos t
  rejects : ∀ s pos, (∃ m e, Rejects E p s pos m e) ↔ R s

/-- A parser with a description. -/
structure Part where
  p : P
  F : Form
  R : List Chr → Prop

/-- The description is right. -/
def Part.Ok (E : Env (List Chr)) (a : Part) : Prop := Describes E a.p a.F a.R

/-- Neither a compile error nor endless recursion. -/
def Part.Finishes (a : Part) (s : List Chr) : Prop := a.R s ∨ ∃ t v rest, s = t ++ rest ∧ a.F t v rest

namespace Form

/-- One after the other. -/
inductive Each : List Part → List Chr → List Val → List Chr → Prop
  | nil (rest : List Chr) : Each [] [] [] rest
  | cons {a : Part} {as : List Part} {t u rest : List Chr} {v : Val} {vs : List Val} :
      a.F t v (u ++ rest) → Each as u vs rest → Each (a :: as) (t ++ u) (v :: vs) rest

/-- One after the other, up to one that is rejected. -/
def Breaks (as : List Part) (s : List Chr) : Prop :=
  ∃ before a after t vs rest, as = before ++ a :: after ∧ s = t ++ rest ∧ Each before t vs rest ∧ a.R rest

/-- The same form again and again. -/
inductive Many (F : Form) : List Chr → List Val → List Chr → Prop
  | nil (rest : List Chr) : Many F [] [] rest
  | cons {t u rest : List Chr} {v : Val} {vs : List Val} :
      F t v (u ++ rest) → Many F u vs rest → Many F (t ++ u) (v :: vs) rest

/-- The first of the forms that is there. -/
def First (as : List Part) : Form := fun t v rest =>
  ∃ before a after, as = before ++ a :: after ∧ (∀ b ∈ before, b.R (t ++ rest)) ∧ a.F t v rest ∧
    ∀ b ∈ after, b.Finishes (t ++ rest)

/-- With white space after it. -/
def Spaced (F : Form) : Form := fun t v rest =>
  ∃ t1 sp, t = t1 ++ sp ∧ F t1 v (sp ++ rest) ∧ (∀ c ∈ sp, spaceChar c = true) ∧ beginsWith spaceChar rest = false

end Form

end Metaparse
