import Verif.Model.Regexp
import Verif.Spec.Chars
/-!
# Regular expressions
-/

namespace Metaparse

/-- Not a bracket. -/
def plainChar (c : Chr) : Bool := c != ch '(' && c != ch ')'

/-- The brackets in the text are in pairs, there is something between them, and they are not nested. -/
inductive RegexpText : List Chr → Prop
  | nil : RegexpText []
  | chr {c : Chr} {s : List Chr} : plainChar c = true → RegexpText s → RegexpText (c :: s)
  | bracket {w s : List Chr} : w ≠ [] → (∀ c ∈ w, plainChar c = true) → RegexpText s →
      RegexpText (ch '(' :: (w ++ ch ')' :: s))

/-- The grammar in the comment `/repo/example/regexp/main.cpp:98-101`. -/
inductive RegexpComment : List Chr → Prop
  | nil : RegexpComment []
  | chr {c : Chr} {s : List Chr} : plainChar c = true → RegexpComment s → RegexpComment (c :: s)
  | bracket {w s : List Chr} : RegexpComment w → RegexpComment s →
      RegexpComment (ch '(' :: (w ++ ch ')' :: s))

/-- A dot stands for any character, every other character for itself. -/
def pieceOf (c : Chr) : Piece := if c = ch '.' then .any else .lit c

/-- What the text stands for: its characters that are not brackets. -/
def piecesOf (s : List Chr) : List Piece := (s.filter plainChar).map pieceOf

/-- The regular expression matches the text. -/
def MatchesText : List Piece → List Chr → Prop
  | [], [] => True
  | .any :: ps, _ :: s => MatchesText ps s
  | .lit c :: ps, d :: s => c = d ∧ MatchesText ps s
  | _, _ => False

/-- What the parser needs. -/
structure Env.ReadsRegexps (E : Env (List Chr)) : Prop where
  onText : E.OnText
  limSequence : E.std = .cpp98 → 3 < E.limSequence
  limOneOf : E.std = .cpp98 → 2 ≤ E.limOneOf
  limOneCharExcept : E.std = .cpp98 → 3 < E.limOneCharExcept

end Metaparse
