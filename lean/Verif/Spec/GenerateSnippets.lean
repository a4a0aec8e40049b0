import Verif.Spec.GenerateAgain

/-!
# The copy-paste friendly versions of the snippets

What the generator should write for a reader who wants to try out the code of the tutorial. Nothing here uses the
functions of the generator.
-/

namespace Metaparse.Gen

/-- A line that is generated, or the title of a section that is. -/
def generatedLine (l : Str) : Bool :=
  isNote l || trimmed l == lit "[section Definitions before each section]" ||
  occurs (lit "[section Copy-paste friendly code examples]") l || occurs (lit "copy-paste friendly version") l

/-- Nothing generated is right after code; the flag: the line before is code. -/
def Apart : Bool → List Str → Prop
  | _, [] => True
  | c, l :: ls => (c = true → generatedLine l = false) ∧ Apart ((lit "  ").isPrefixOf l) ls

/-- The lines of a text that are written by its author. -/
def body (s : Str) : List Str := withoutLinks false (withoutNotes false (textLines s))

/-- A text without what is between `[section Copy-paste friendly code examples]` (the flag) and the end of that
section. -/
def withoutExamples : Bool → List Str → List Str
  | _, [] => []
  | true, l :: ls => if occurs (lit "endsect") l then l :: withoutExamples false ls else withoutExamples true ls
  | false, l :: ls =>
      if occurs (lit "[section Copy-paste friendly code examples]") l then l :: withoutExamples true ls
      else l :: withoutExamples false ls

/-- The lines of a text that are written by its author, and the links to the snippets, without blank lines. -/
def withLinks (s : Str) : List Str := nonBlank (withoutExamples false (withoutNotes false (textLines s)))

/-- The number of lines that are entered in a piece. -/
def Piece.entered (p : Piece) : Nat := (p.commands.map List.length).sum

/-- The sessions in which more than one line is entered, and that something is after. -/
def copied : List Piece → List Piece
  | p :: q :: doc => if 2 ≤ p.entered then p :: copied (q :: doc) else copied (q :: doc)
  | _ => []

/-- The name of a copy. -/
def copyName (base : Str) (k : Nat) : Str := base ++ lit "_" ++ digitsOf k

/-- The link to a copy. -/
def copyLink (base : Str) (k : Nat) : Str := lit "[link " ++ copyName base k ++ lit " copy-paste friendly version]\n"

/-- The line that includes a copy. -/
def copyInclude (base : Str) (k : Nat) : Str := lit "[include " ++ copyName base k ++ lit ".qbk]\n"

/-- The lines of a tutorial with links to the copies, from a number: after the line that follows a session. -/
def linked (base : Str) : Nat → List Piece → List Str
  | k, p :: q :: doc =>
      if 2 ≤ p.entered then p.print ++ q.print ++ copyLink base k :: linked base (k + 1) doc
      else p.print ++ linked base k (q :: doc)
  | _, [p] => p.print
  | _, [] => []

/-- The lines of code of a file: those that begin with two blanks. -/
def codeLines (t : Str) : List Str := (linesOf t).filter fun l => (lit "  ").isPrefixOf l

/-- A command that can be put into one line: all lines but the last end with a blank (before the backslash), and
something is in the last one. -/
def CopyCommand (ls : List Str) : Prop :=
  (∀ l ∈ ls.dropLast, l.getLast? = some ' ') ∧ ∀ l ∈ ls.getLast?, ∃ c ∈ l, blank c = false

/-- A part of a session that can be copied: the output does not look like something entered. -/
def CopyPart : Part → Prop
  | .command ls => CopyCommand ls
  | .output l => ¬ lit "> " <+: l ∧ ¬ lit "...> " <+: l

/-- A piece that can be copied: code outside sessions does not look like something entered. -/
def CopyPiece : Piece → Prop
  | .code ls => ∀ l ∈ ls, ¬ lit "> " <+: l ∧ ¬ lit "...> " <+: l
  | .session ps => ∀ p ∈ ps, CopyPart p
  | _ => True

end Metaparse.Gen
