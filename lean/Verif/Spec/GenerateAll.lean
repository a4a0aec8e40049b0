import Verif.Model.GenerateAll

/-!
# What the generator of the tutorial is for

A tutorial as its author writes it, what a compiler sees of a header, and what the generator may change
in the text of the tutorial. Nothing here uses the functions of the generator.
-/

namespace Metaparse.Gen

/-! ## Words -/

/-- White space. -/
def blank (c : Char) : Bool := [' ', '\t', '\n', '\r', '\x0b', '\x0c'].elem c

/-- The words of a text: what is between white space. -/
def words : Str → List Str
  | [] => []
  | [c] => if blank c then [] else [[c]]
  | c :: d :: s =>
      if blank c then words (d :: s)
      else if blank d then [c] :: words (d :: s)
      else match words (d :: s) with
        | w :: ws => (c :: w) :: ws
        | [] => [[c]]

/-! ## What a compiler sees of a header -/

/-- A line of a header, for a preprocessor. -/
inductive Directive
  | ifndef (m : Str)
  | ifdef (m : Str)
  | endif
  | define (m : Str)
  | includeFile (f : Str)
  | other
deriving DecidableEq

/-- Reads a line. `#include <...>` is left as it is. -/
def directive (l : Str) : Directive :=
  let l := l.dropWhile blank
  if (lit "#ifndef ").isPrefixOf l then .ifndef (l.drop 8)
  else if (lit "#ifdef ").isPrefixOf l then .ifdef (l.drop 7)
  else if (lit "#endif").isPrefixOf l then .endif
  else if (lit "#define ").isPrefixOf l then .define (l.drop 8)
  else if (lit "#include \"").isPrefixOf l then .includeFile ((l.drop 10).takeWhile (· ≠ '"'))
  else .other

/-- Preprocesses lines: `macros` are the defined macros, `skip` is 0 or the depth of the conditionals that
are being skipped. The result is the lines that are left and the macros. -/
def preprocessLines (file : List Str → Str → Option (List Str × List Str)) :
    (macros : List Str) → (skip : Nat) → List Str → Option (List Str × List Str)
  | macros, _, [] => some ([], macros)
  | macros, skip + 1, l :: ls =>
      match directive l with
      | .ifndef _ => preprocessLines file macros (skip + 2) ls
      | .ifdef _ => preprocessLines file macros (skip + 2) ls
      | .endif => preprocessLines file macros skip ls
      | _ => preprocessLines file macros (skip + 1) ls
  | macros, 0, l :: ls =>
      match directive l with
      | .ifndef m => preprocessLines file macros (if m ∈ macros then 1 else 0) ls
      | .ifdef m => preprocessLines file macros (if m ∈ macros then 0 else 1) ls
      | .endif => preprocessLines file macros 0 ls
      | .define m => preprocessLines file (m :: macros) 0 ls
      | .includeFile f =>
          (file macros f).bind fun r => (preprocessLines file r.2 0 ls).map fun r' => (r.1 ++ r'.1, r'.2)
      | .other => (preprocessLines file macros 0 ls).map fun r => (l :: r.1, r.2)

/-- The lines of a text, without their ends. -/
def linesOf : Str → List Str
  | [] => [[]]
  | c :: s =>
      if c = '\n' then [] :: linesOf s
      else match linesOf s with
        | l :: ls => (c :: l) :: ls
        | [] => [[c]]

/-- Preprocesses a file, with includes up to the given depth. -/
def preprocessFile (files : Str → Option Str) :
    (depth : Nat) → (macros : List Str) → Str → Option (List Str × List Str)
  | 0, _, _ => none
  | n + 1, macros, f => (files f).bind fun t => preprocessLines (preprocessFile files n) macros 0 (linesOf t)

/-- What is left of a source after preprocessing, word by word, without the lines of comments. -/
def Sees (files : Str → Option Str) (macros : List Str) (source : Str) (ws : List Str) : Prop :=
  ∃ depth lines macros', preprocessLines (preprocessFile files depth) macros 0 (linesOf source) = some (lines, macros') ∧
    ws = (lines.filter fun l => !(lit "//").isPrefixOf l).flatMap words

/-! ## Tutorials -/

/-- A part of a session with Metashell: a command, in one or more lines, or a line of output. -/
inductive Part
  | command (lines : List Str)
  | output (line : Str)

/-- A part of a tutorial. -/
inductive Piece
  /-- The heading of a numbered section, such as `[section 5.2. Title]`. -/
  | heading (number : List Nat) (title : Str)
  /-- Any other line. -/
  | text (line : Str)
  /-- Code that is not entered to Metashell. -/
  | code (lines : List Str)
  /-- A session with Metashell. -/
  | session (parts : List Part)

/-- The digits of a number. -/
def digitsOf (n : Nat) : Str := Nat.toDigits 10 n

/-- `5.2.1`, or with another separator. -/
def dotted (sep : Char) : List Nat → Str
  | [] => []
  | [n] => digitsOf n
  | n :: l => digitsOf n ++ sep :: dotted sep l

/-- A source that includes the headers of some sections. -/
def including (ns : List (List Nat)) : Str := ns.flatMap fun n => lit "#include \"" ++ dotted '_' n ++ lit ".hpp\"\n"

/-- A command in lines: all lines but the first have the prompt `...>`, all but the last end with a
backslash. -/
def printCommand (prompt : Str) : List Str → List Str
  | [] => []
  | [l] => [prompt ++ l ++ lit "\n"]
  | l :: ls => (prompt ++ l ++ lit "\\\n") :: printCommand (lit "  ...> ") ls

/-- The lines of a part of a session. -/
def Part.print : Part → List Str
  | .command ls => printCommand (lit "  > ") ls
  | .output l => [lit "  " ++ l ++ lit "\n"]

/-- The lines of a part of a tutorial. -/
def Piece.print : Piece → List Str
  | .heading n title => [lit "[section " ++ dotted '.' n ++ lit ". " ++ title ++ lit "\n"]
  | .text l => [l ++ lit "\n"]
  | .code ls => ls.map fun l => lit "  " ++ l ++ lit "\n"
  | .session ps => ps.flatMap Part.print

/-- The lines of a tutorial. -/
def printTutorial (doc : List Piece) : List Str := doc.flatMap Piece.print

/-- Something is after the prompt `> `. -/
def LooksLikeCommand (l : Str) : Prop := ∃ c r, l = '>' :: ' ' :: c :: r ∧ c ≠ ' '

/-- A line looks like the heading of a numbered section. -/
def LooksLikeHeading (l : Str) : Prop :=
  ∃ k c r, l = lit "[section" ++ List.replicate k ' ' ++ c :: r ∧ (c = '.' ∨ c ∈ lit "0123456789")

/-- A line of a command: blanks are the only white space, it is not continued by itself and is not a
directive to the preprocessor, other than `#include <...>`. -/
structure CommandLine (l : Str) : Prop where
  blanks : ∀ c ∈ l, blank c = true → c = ' '
  noBackslash : l.getLast? ≠ some '\\'
  plain : ¬ lit "#" <+: l.dropWhile blank ∨ lit "#include <" <+: l.dropWhile blank

/-- A command as it should be written. -/
def WellWrittenCommand (ls : List Str) : Prop :=
  (∀ l ∈ ls, CommandLine l) ∧ ∃ c l more, ls = (c :: l) :: more ∧ c ≠ ' ' ∧ ¬ lit "//" <+: c :: l

/-- A part of a session as it should be written. -/
def WellWrittenPart : Part → Prop
  | .command ls => WellWrittenCommand ls
  | .output l => '\n' ∉ l ∧ ¬ LooksLikeCommand (l ++ lit "\n")

/-- A piece of a tutorial as it should be written. -/
def WellWrittenPiece : Piece → Prop
  | .heading n title => n ≠ [] ∧ '\n' ∉ title
  | .text l => '\n' ∉ l ∧ ¬ lit "  " <+: l ∧ ¬ LooksLikeHeading l
  | .code ls => (∀ l ∈ ls, '\n' ∉ l) ∧ ∃ l more, ls = l :: more ∧ ¬ LooksLikeCommand (l ++ lit "\n")
  | .session ps => (∀ p ∈ ps, WellWrittenPart p) ∧ ∃ ls more, ps = .command ls :: more

/-- Is it code? -/
def Piece.isSnippet : Piece → Bool
  | .code _ => true
  | .session _ => true
  | _ => false

/-- There is something between two snippets. -/
def Separated : List Piece → Prop
  | [] => True
  | [_] => True
  | p :: q :: l => (p.isSnippet = true → q.isSnippet = false) ∧ Separated (q :: l)

/-- The numbers of the sections. -/
def numbers : List Piece → List (List Nat)
  | [] => []
  | .heading n _ :: l => n :: numbers l
  | _ :: l => numbers l

/-- The order of section numbers: 2, 2.1, 2.2, 2.10, 3. -/
def Before : List Nat → List Nat → Prop
  | _, [] => False
  | [], _ :: _ => True
  | a :: l, b :: m => a < b ∨ (a = b ∧ Before l m)

/-- A tutorial as it should be written: the numbers of the sections increase. -/
structure WellWritten (doc : List Piece) : Prop where
  pieces : ∀ p ∈ doc, WellWrittenPiece p
  separated : Separated doc
  increasing : (numbers doc).Pairwise Before

/-- The text has another text in it. -/
def Has (s p : Str) : Prop := ∃ u v, s = u ++ p ++ v

/-- What the generator looks for in any line of the tutorial. -/
def marks : List Str :=
  [lit "endsect", lit "[section Copy-paste friendly code examples]", lit "copy-paste friendly version"]

/-- A part of a session does not confuse the generator: a command has none of its marks, and the output has
no line that looks like the rest of a command. -/
def ClearPart : Part → Prop
  | .command ls => ∀ l ∈ printCommand (lit "  > ") ls, ∀ m ∈ marks, ¬ Has l m
  | .output l => ¬ lit "...> " <+: l

/-- A piece does not confuse the generator. -/
def ClearPiece : Piece → Prop
  | .code ls => ∀ l ∈ ls, ¬ lit "...> " <+: l
  | .session ps => ∀ p ∈ ps, ClearPart p
  | _ => True

/-- The commands of a piece. -/
def Piece.commands : Piece → List (List Str)
  | .session ps => ps.flatMap fun | .command ls => [ls] | .output _ => []
  | _ => []

/-- A command defines something: it begins with `#include`, `using`, `struct` or `template`, or it ends
with a semicolon. -/
def Defines (ls : List Str) : Prop :=
  let ws := ls.flatMap words
  (∃ w w' r, ws = w :: w' :: r ∧ w ∈ [lit "#include", lit "using", lit "struct", lit "template"]) ∨
  (∃ r w, ws = r ++ [w ++ [';']])

/-- Definitions that only Metashell can use. -/
def OnlyMetashell (ls : List Str) : Prop := ∃ r more, ls = (lit "#include <metashell" ++ r) :: more

open Classical in
/-- The commands the headers should have: definitions, those for Metashell only if it is used. -/
noncomputable def definitions (metashell : Bool) (doc : List Piece) : List (List Str) :=
  (doc.flatMap Piece.commands).filter fun ls => Defines ls ∧ (metashell = true ∨ ¬ OnlyMetashell ls)

/-! ## The pages with the definitions before a section -/

/-- The name of the page of a section. -/
def pageName (n : List Nat) : Str := lit "before_" ++ dotted '_' n ++ lit ".qbk"

/-- Is it the heading of a numbered section? -/
def Piece.isHeading : Piece → Bool
  | .heading _ _ => true
  | _ => false

/-- What is after the first heading of a numbered section. -/
def inSections (doc : List Piece) : List Piece := doc.dropWhile fun p => !p.isHeading

/-- The words of the code of a page: of the lines that begin with two blanks. -/
def codeWords (page : Str) : List Str := ((linesOf page).filter fun l => (lit "  ").isPrefixOf l).flatMap words

end Metaparse.Gen
