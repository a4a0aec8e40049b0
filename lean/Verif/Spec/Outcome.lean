import Verif.Model.Derived
/-!
# Vocabulary of the property statements

Nothing here refers to how a parser is implemented: only to what `apply<S, Pos>` gives.
-/

namespace Metaparse

variable {I : Type}

/-- Parser `p`, applied to input `s` at position `pos`, accepts: the result is `v`, the remaining
input `s'`, the position afterwards `pos'`. -/
def Accepts (E : Env I) (p : P) (s : I) (pos : Pos) (v : Val) (s' : I) (pos' : Pos) : Prop :=
  run E p s pos = .ok (.acc v s' pos')

/-- Parser `p` rejects `s` at `pos` with message `m`, reporting the error position `pos'`. -/
def Rejects (E : Env I) (p : P) (s : I) (pos : Pos) (m : Msg) (pos' : Pos) : Prop :=
  run E p s pos = .ok (.rej m pos')

/-- Applying `p` to `s` at `pos` does not compile. -/
def IllFormed (E : Env I) (p : P) (s : I) (pos : Pos) : Prop :=
  ∃ f, run E p s pos = .ill f

/-- Applying `p` to `s` at `pos` needs infinitely many nested instantiations. -/
def Diverges (E : Env I) (p : P) (s : I) (pos : Pos) : Prop :=
  run E p s pos = .deep

/-- The two parsers have the same outcome (accept, reject, compile error or non-termination, with
all details) at every input and position. -/
def Equivalent (E : Env I) (p q : P) : Prop := ∀ s pos, run E p s pos = run E q s pos

/-- `p` accepts one time after the other, each time on what it left before, with the results `vs`;
it starts at `s`, `pos` and ends at `s'`, `pos'`.  It may or may not accept again there. -/
inductive Steps (E : Env I) (p : P) : I → Pos → List Val → I → Pos → Prop
  | nil (s : I) (pos : Pos) : Steps E p s pos [] s pos
  | cons {s : I} {pos : Pos} {v : Val} {s1 : I} {pos1 : Pos} {vs : List Val} {s2 : I} {pos2 : Pos} :
      Accepts E p s pos v s1 pos1 → Steps E p s1 pos1 vs s2 pos2 →
      Steps E p s pos (v :: vs) s2 pos2

/-- The parsers `ps` accept one after the other, each on what the previous one left, with the
results `vs`. -/
inductive InSequence (E : Env I) : List P → I → Pos → List Val → I → Pos → Prop
  | nil (s : I) (pos : Pos) : InSequence E [] s pos [] s pos
  | cons {p : P} {ps : List P} {s : I} {pos : Pos} {v : Val} {s1 : I} {pos1 : Pos} {vs : List Val}
      {s2 : I} {pos2 : Pos} :
      Accepts E p s pos v s1 pos1 → InSequence E ps s1 pos1 vs s2 pos2 →
      InSequence E (p :: ps) s pos (v :: vs) s2 pos2

/-- `x` is a fully evaluated value: its `::type` is itself. -/
def IsValue (x : Val) : Prop := x.force = .ok x

/-- An environment for parsing texts: the input is a list of characters.  Everything else is
arbitrary. -/
def Env.OnText (E : Env (List Chr)) : Prop := E.input = listInput

/-- The environment of the examples: text input, C++11 implementation, default limits. -/
def env11 : Env (List Chr) := { input := listInput }

/-- As `env11`, with the C++98 implementation. -/
def env98 : Env (List Chr) := { input := listInput, std := .cpp98 }

theorem env11_onText : env11.OnText := rfl
theorem env98_onText : env98.OnText := rfl

end Metaparse
