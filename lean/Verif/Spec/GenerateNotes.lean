import Verif.Spec.GenerateAgain

/-!
# The notes of the tutorial

What the generator should put in the text for the pages with definitions. Nothing here uses the functions of the
generator.
-/

namespace Metaparse.Gen

/-- A text without what is between `[section Definitions before each section]` (the flag) and `[endsect]`. -/
def withoutDefinitions : Bool → List Str → List Str
  | _, [] => []
  | true, l :: ls =>
      if trimmed l = lit "[endsect]" then l :: withoutDefinitions false ls else withoutDefinitions true ls
  | false, l :: ls =>
      if trimmed l = lit "[section Definitions before each section]" then l :: withoutDefinitions true ls
      else l :: withoutDefinitions false ls

/-- The lines of a text that are written by its author, and the notes, without blank lines. -/
def withNotes (s : Str) : List Str := nonBlank (withoutLinks false (withoutDefinitions false (textLines s)))

/-- The numbers with one digit and a dot after it that a text begins with. -/
def shortNumbers : Str → List Nat
  | c :: '.' :: s =>
      match (lit "0123456789").idxOf? c with
      | some d => d :: shortNumbers s
      | none => []
  | _ => []

/-- The number of a section, as far as its components have one digit, if the line is its heading. -/
def shortHeading (l : Str) : List Nat :=
  if (lit "[section ").isPrefixOf l then shortNumbers (l.drop 9) else []

/-- The note for a section. -/
def noteFor (n : List Nat) : Str :=
  lit "[note Note that you can find everything that has been included and defined so far [link before_" ++
    dotted '_' n ++ lit " here].]\n"

/-- Lines with a note after every heading of a section that has a page. -/
def annotated (hasPage : List Nat → Bool) (ls : List Str) : List Str :=
  ls.flatMap fun l =>
    if shortHeading l ≠ [] ∧ hasPage (shortHeading l) = true then [l, noteFor (shortHeading l)] else [l]

end Metaparse.Gen
