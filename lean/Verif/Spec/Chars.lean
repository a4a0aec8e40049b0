import Verif.Spec.Outcome
import Verif.Spec.Text
/-!
# Character classes and decimal numbers
-/

namespace Metaparse

/-- A decimal digit. -/
def digitChar (c : Chr) : Bool := decide (48 ≤ c) && decide (c ≤ 57)

/-- A letter of the basic Latin alphabet. -/
def letterChar (c : Chr) : Bool :=
  (decide (97 ≤ c) && decide (c ≤ 122)) || (decide (65 ≤ c) && decide (c ≤ 90))

/-- Space, horizontal tab, carriage return or line feed. -/
def spaceChar (c : Chr) : Bool := c == 32 || c == 9 || c == CR || c == LF

/-- `p` is a parser for one character of the class `cls`: it accepts exactly the texts beginning
with such a character `c`, consumes exactly that character and returns `val c`; the other texts are
rejected at the starting position, with `mEmpty` when there is no character and `mOther` when there
is a different one. -/
structure CharParser (E : Env (List Chr)) (p : P) (cls : Chr → Bool) (val : Chr → Val)
    (mEmpty mOther : Msg) : Prop where
  accepts : ∀ c s pos, cls c = true → Accepts E p (c :: s) pos (val c) s (moveOver pos [c])
  empty : ∀ pos, Rejects E p [] pos mEmpty pos
  other : ∀ c s pos, cls c = false → Rejects E p (c :: s) pos mOther pos

/-- The number denoted by a text of decimal digits. -/
def decimal (t : List Chr) : Int := t.foldl (fun n c => 10 * n + (c - 48)) 0

/-- The decimal representation of a number. -/
def decimalText (n : Nat) : List Chr :=
  if n < 10 then [48 + (n : Int)] else decimalText (n / 10) ++ [48 + ((n % 10 : Nat) : Int)]

/-- The text begins with a character of the class. -/
def beginsWith (cls : Chr → Bool) : List Chr → Bool
  | [] => false
  | c :: _ => cls c

end Metaparse
