import Verif.Model.Basic
/-!
# Texts, lines and columns, independently of how the library counts them
-/

namespace Metaparse

/-- Carriage return. -/
macro "CR" : term => `((13 : Int))
/-- Line feed. -/
macro "LF" : term => `((10 : Int))

/-- Number of line terminators of a text, where CR LF, CR and LF are one terminator each. -/
def lineBreaks : List Chr → Nat
  | [] => 0
  | [c] => if c = CR ∨ c = LF then 1 else 0
  | c :: d :: t =>
      if c = CR ∧ d = LF then 1 + lineBreaks t
      else (if c = CR ∨ c = LF then 1 else 0) + lineBreaks (d :: t)

/-- A character that is not part of a line terminator. -/
def notBreak (c : Chr) : Bool := !(c == CR || c == LF)

/-- The text after the last line terminator. -/
def lastLine (t : List Chr) : List Chr := (t.reverse.takeWhile notBreak).reverse

/-- The last line terminator of the text is CR LF. -/
def lastBreakIsCRLF (t : List Chr) : Bool :=
  match t.reverse.dropWhile notBreak with
  | a :: b :: _ => a == LF && b == CR
  | _ => false

/-- The position moved over the characters of a text one after the other. -/
def moveOver (pos : Pos) (t : List Chr) : Pos := t.foldl (fun p c => nextPos c p) pos

end Metaparse
