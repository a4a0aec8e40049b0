import Verif.Spec.GenerateAll

/-!
# Running the generator of the tutorial again

What of the text of the tutorial is written by its author, and what by the generator. Nothing here uses the
functions of the generator.
-/

namespace Metaparse.Gen

/-- The text is somewhere in the line. -/
def occurs (p l : Str) : Bool := (List.range (l.length + 1)).any fun k => p.isPrefixOf (l.drop k)

/-- A line without white space at its ends. -/
def trimmed (l : Str) : Str := ((l.dropWhile blank).reverse.dropWhile blank).reverse

/-- The lines of a text, with their ends. -/
def textLines (s : Str) : List Str := (linesOf s).dropLast.map fun l => l ++ lit "\n"

/-- A text that ends with the end of a line, or is empty. -/
def Ended (s : Str) : Prop := s = [] ∨ ∃ t, s = t ++ lit "\n"

/-- A note that links to the definitions before a section. -/
def isNote (l : Str) : Bool :=
  (lit "[note Note that you can find everything that has been included and defined so far [link before_").isPrefixOf l

/-- A text without what is generated for the definitions: the notes, and what is between
`[section Definitions before each section]` (the flag) and `[endsect]`. -/
def withoutNotes : Bool → List Str → List Str
  | _, [] => []
  | true, l :: ls =>
      if trimmed l = lit "[endsect]" then l :: withoutNotes false ls else withoutNotes true ls
  | false, l :: ls =>
      if trimmed l = lit "[section Definitions before each section]" then l :: withoutNotes true ls
      else if isNote l then withoutNotes false ls
      else l :: withoutNotes false ls

/-- A text without what is generated for the snippets: the links to them, and what is between
`[section Copy-paste friendly code examples]` (the flag) and the end of that section. -/
def withoutLinks : Bool → List Str → List Str
  | _, [] => []
  | true, l :: ls => if occurs (lit "endsect") l then l :: withoutLinks false ls else withoutLinks true ls
  | false, l :: ls =>
      if occurs (lit "[section Copy-paste friendly code examples]") l then l :: withoutLinks true ls
      else if occurs (lit "copy-paste friendly version") l then withoutLinks false ls
      else l :: withoutLinks false ls

/-- The lines that are not blank. -/
def nonBlank (ls : List Str) : List Str := ls.filter fun l => !l.all blank

/-- The lines of a text that are written by its author, without blank lines. -/
def authored (s : Str) : List Str := nonBlank (withoutLinks false (withoutNotes false (textLines s)))

/-- Nothing in the text is generated. -/
def Fresh (s : Str) : Prop := authored s = nonBlank (textLines s)

/-- A line does not confuse the generator: lines of code have none of its marks, and neither do the
headings of numbered sections. -/
structure ClearLine (l : Str) : Prop where
  code : lit "  " <+: l → ∀ m ∈ marks, ¬ Has l m
  heading : LooksLikeHeading l → ∀ m ∈ marks, ¬ Has l m
  title : trimmed l = lit "[section Definitions before each section]" → ¬ lit "  " <+: l

/-- Blank lines of code come after other lines of code; the flag: the line before is one. -/
def BlanksInCode : Bool → List Str → Prop
  | _, [] => True
  | c, l :: ls => (lit "  " <+: l → l.all blank = true → c = true) ∧ BlanksInCode ((lit "  ").isPrefixOf l) ls

/-- The lines of a text do not confuse the generator. -/
structure ClearText (ls : List Str) : Prop where
  lines : ∀ l ∈ ls, ClearLine l
  blanks : BlanksInCode false ls

/-- A name of a tutorial that does not confuse the generator. -/
def ClearName (base : Str) : Prop := '\n' ∉ base ∧ '[' ∉ base ∧ ¬ Has base (lit "endsect")

end Metaparse.Gen
