import Verif.Spec.Chars
import Verif.Spec.Sequences
import Verif.Model.Numbers
/-!
# Binary and rational numbers
-/

namespace Metaparse

/-- A binary digit. -/
def bitChar (c : Chr) : Bool := c == 48 || c == 49

/-- The number denoted by a text of binary digits. -/
def binaryValue (t : List Chr) : Int := t.foldl (fun n c => 2 * n + (c - 48)) 0

/-- A text of decimal digits with white space after it, for a number that fits in `int`. -/
def IsNumber (t : List Chr) (n : Int) : Prop :=
  ∃ digits spaces, t = digits ++ spaces ∧ digits ≠ [] ∧ (∀ c ∈ digits, digitChar c = true) ∧
    (∀ c ∈ spaces, spaceChar c = true) ∧ decimal digits ≤ 2147483647 ∧ n = decimal digits

/-- A numerator, a slash and a denominator: no white space directly after the slash. -/
def IsFraction (t : List Chr) (n d : Int) : Prop :=
  ∃ t1 t2, t = t1 ++ ch '/' :: t2 ∧ IsNumber t1 n ∧ IsNumber t2 d

/-- What the parsers of numbers need. -/
structure Env.ReadsNumbers (E : Env (List Chr)) : Prop where
  onText : E.OnText
  limSequence : E.std = .cpp98 → 2 < E.limSequence
  limOneOf : E.std = .cpp98 → 2 < E.limOneOf

end Metaparse
