import Verif.Spec.Benchmark
import Verif.Model.BenchmarkTemplate
/-!
# How the comments of a benchmark template are written
-/

namespace Metaparse.Bench

open Gen

/-- Blanks and tabulators. -/
def Blanks (s : Str) : Prop := ∀ c ∈ s, c = ' ' ∨ c = '\t'

/-- A decimal number, perhaps with zeros before it. -/
def Decimal (s : Str) (n : Nat) : Prop := s ≠ [] ∧ (∀ c ∈ s, '0' ≤ c ∧ c ≤ '9') ∧ Nat.ofDigitChars 10 s 0 = n

/-- The comment `// n in [a..b), step s`. -/
def RangeLine (line : Str) (a b s : Nat) : Prop :=
  ∃ b1 b2 b3 b4 b5 b6 b7 da db ds : Str, line = b1 ++ lit "//" ++ b2 ++ lit "n" ++ b3 ++ lit "in" ++ b4 ++ lit "[" ++ da ++
      lit ".." ++ db ++ lit ")," ++ b5 ++ lit "step" ++ b6 ++ ds ++ b7 ∧
    Blanks b1 ∧ Blanks b2 ∧ Blanks b3 ∧ Blanks b4 ∧ Blanks b5 ∧ Blanks b6 ∧ Blanks b7 ∧ b3 ≠ [] ∧ b5 ≠ [] ∧ b6 ≠ [] ∧
    Decimal da a ∧ Decimal db b ∧ Decimal ds s

/-- The comment `// name: value`; blanks at the end belong to the value. -/
def PropertyLine (name line value : Str) : Prop :=
  ∃ b1 b2 b3 : Str, line = b1 ++ lit "//" ++ b2 ++ name ++ lit ":" ++ b3 ++ value ∧
    Blanks b1 ∧ Blanks b2 ∧ Blanks b3 ∧ ∀ c t, value = c :: t → c ≠ ' ' ∧ c ≠ '\t'

/-- A text with these lines, whose ends are those of Unix or Windows; the last line may have none. -/
inductive TextOf : List Str → Str → Prop
  | nil : TextOf [] []
  | last {l : Str} : l ≠ [] → '\n' ∉ l → '\r' ∉ l → TextOf [l] l
  | unix {l s : Str} {ls : List Str} : '\n' ∉ l → '\r' ∉ l → TextOf ls s → TextOf (l :: ls) (l ++ '\n' :: s)
  | windows {l s : Str} {ls : List Str} : '\n' ∉ l → '\r' ∉ l → TextOf ls s → TextOf (l :: ls) (l ++ '\r' :: '\n' :: s)

/-- The line is the first one with the property. -/
def First (P : Str → Prop) (ls : List Str) (line : Str) : Prop :=
  P line ∧ ∃ before after, ls = before ++ line :: after ∧ ∀ l ∈ before, ¬ P l

/-- A mode as it is written. -/
def modeName : Mode → Str
  | .bmp => lit "BOOST_METAPARSE_STRING"
  | .man => lit "manual"

/-- Modes with commas between them and white space around them. -/
inductive ModeList : Str → List Mode → Prop
  | one {a b : Str} {m : Mode} : (∀ c ∈ a, blank c = true) → (∀ c ∈ b, blank c = true) → ModeList (a ++ modeName m ++ b) [m]
  | cons {a b s : Str} {m : Mode} {ms : List Mode} : (∀ c ∈ a, blank c = true) → (∀ c ∈ b, blank c = true) →
      ModeList s ms → ModeList (a ++ modeName m ++ b ++ ',' :: s) (m :: ms)

mutual

/-- The contents of the files in a tree. -/
def Tree.texts : Tree → List Str
  | .file content => [content]
  | .dir entries => entriesTexts entries
  | .other => []

/-- The contents of the files in a directory. -/
def entriesTexts : List Tree → List Str
  | [] => []
  | t :: ts => t.texts ++ entriesTexts ts

end

/-- How often a character is in the files of a tree. -/
def Tree.occurrences (t : Tree) (c : Char) : Nat := t.texts.flatten.count c

end Metaparse.Bench
