import Verif.Model.Benchmark
/-!
# The templates of `tools/benchmark/generate.py` and the statistics of `tools/benchmark/char_stat.py`

Line numbers without a file are those of `/repo/tools/benchmark/generate.py`.

Simplifications: texts are lists of characters, as in `Verif/Model/Benchmark.lean`; `none` is an exception. The regular
expressions are lists of their parts. The names of properties are `x_axis_label`, `desc` and `modes`, which have no
character that is special in a regular expression. What the template engine (Cheetah) makes of the content (lines 134-141)
is given. The text of `chars.py` (`char_stat.py:55`) is Python's way to write a dictionary and is left out.
-/

namespace Metaparse.Bench

open Gen

/-- The parts of the regular expressions: one character, and at least `atLeast` characters (`[ \t]*`, `[0-9]+`), which may be in
parentheses (lines 46 and 145-157). -/
inductive Item where
  | one (p : Char → Bool)
  | many (atLeast : Nat) (group : Bool) (p : Char → Bool)

/-- The rest of a regular expression after `k` characters (line 166). -/
def attempt (f : Str → Option (List Str)) (group : Bool) (s : Str) (k : Nat) : Option (List Str) :=
  (f (s.drop k)).map fun gs => if group then s.take k :: gs else gs

/-- A repetition takes as many characters as it can, and fewer if the rest does not match then (line 166). -/
def tries (f : Str → Option (List Str)) (group : Bool) (s : Str) (atLeast : Nat) : Nat → Option (List Str)
  | 0 => if atLeast = 0 then attempt f group s 0 else none
  | k + 1 => if k + 1 < atLeast then none else (attempt f group s (k + 1)).or (tries f group s atLeast k)

/-- `cregex.match(line)` (line 166) with `$` at the end (line 47): the groups. A line has no `\n`, so `$` is the end. -/
def matchItems : List Item → Str → Option (List Str)
  | [], s => if s.isEmpty then some [] else none
  | .one _ :: _, [] => none
  | .one p :: r, c :: s => if p c then matchItems r s else none
  | .many atLeast group p :: r, s => tries (matchItems r) group s atLeast (s.takeWhile p).length

/-- A text in a regular expression (lines 46, 145-147 and 157). -/
def text (s : Str) : List Item := s.map fun c => .one fun d => d == c

/-- `[ \t]` (lines 46, 145-147 and 157). -/
def isBlankTab (c : Char) : Bool := c == ' ' || c == '\t'

/-- `.` (line 157). -/
def notNewline (c : Char) : Bool := c != '\n'

/-- `in_comment` (lines 45-47). -/
def inComment (r : List Item) : List Item :=
  .many 0 false isBlankTab :: (text (lit "//") ++ .many 0 false isBlankTab :: (r ++ [.many 0 false isBlankTab]))

/-- The regular expression of `Template.range` (lines 145-148). -/
def rangeRegex : List Item :=
  inComment (text (lit "n") ++ .many 1 false isBlankTab :: (text (lit "in") ++ .many 0 false isBlankTab :: (text (lit "[") ++
    .many 1 true isDigit :: (text (lit "..") ++ .many 1 true isDigit :: (text (lit "),") ++ .many 1 false isBlankTab ::
    (text (lit "step") ++ .many 1 false isBlankTab :: [.many 1 true isDigit]))))))

/-- The regular expression of `Template.property` (line 157). -/
def propertyRegex (name : Str) : List Item :=
  inComment (text name ++ (text (lit ":") ++ [.many 0 false isBlankTab, .many 0 true notNewline]))

/-- `self.content.splitlines()` of Python 2 (line 165). -/
def splitLines : Str → List Str
  | [] => []
  | '\n' :: s => [] :: splitLines s
  | '\r' :: '\n' :: s => [] :: splitLines s
  | '\r' :: s => [] :: splitLines s
  | c :: s => match splitLines s with
      | [] => [[c]]
      | w :: ws => (c :: w) :: ws

/-- `Template._match` (lines 162-172). -/
def firstMatch (r : List Item) (content : Str) : Option (List Str) := (splitLines content).findSome? (matchItems r)

/-- `range(a, b, s)` of Python 2 for numbers that are not negative (lines 149-153); a step of zero is a `ValueError`. -/
def pyRange (a b s : Nat) : Option (List Nat) :=
  if s = 0 then none else some ((List.range ((b - a + (s - 1)) / s)).map fun k => a + k * s)

/-- `Template.range` (lines 143-153). -/
def rangeOf (content : Str) : Option (List Nat) :=
  (firstMatch rangeRegex content).bind fun gs => match gs with
    | [a, b, s] => (toInt a).bind fun a => (toInt b).bind fun b => (toInt s).bind fun s => pyRange a b s
    | _ => none

/-- `Template.property` (lines 155-157, with `_get_line`, lines 174-176). -/
def property (name content : Str) : Option Str := (firstMatch (propertyRegex name) content).bind List.head?

/-- `Mode(name)` (lines 73-80). -/
def modeOf (name : Str) : Option Mode :=
  if name = lit "BOOST_METAPARSE_STRING" then some .bmp else if name = lit "manual" then some .man else none

/-- `Template.modes` (lines 159-161). -/
def modesOf (content : Str) : Option (List Mode) :=
  (property (lit "modes") content).bind fun v => (split ',' v).mapM fun s => modeOf (strip s)

/-- What `main` takes from a template (lines 268-295): besides what the files need, the texts of the description. -/
structure Loaded where
  template : Template
  xAxisLabel : Str
  desc : Str

/-- What `main` reads of a template (lines 268-294); `instances` is what the template engine makes of a content. (The labels
are read after the files have been written: an exception there leaves files without a description.) -/
def load (instances : Str → Nat → Str) (t : Str × Str) : Option Loaded :=
  (modesOf t.2).bind fun modes => (rangeOf t.2).bind fun range => (property (lit "x_axis_label") t.2).bind fun x =>
    (property (lit "desc") t.2).map fun d => ⟨⟨t.1, range, modes, instances t.2⟩, x, d⟩

/-- `templates_in` (lines 186-192); the directory is its files with their contents. -/
def templatesIn (dir : List (Str × Str)) : List (Str × Str) :=
  (dir.filter fun f => (lit ".cpp").isSuffixOf f.1).map fun f => (f.1.take (f.1.length - 4), f.2)

/-- All templates that `main` loads (line 267). -/
def loadAll (instances : Str → Nat → Str) (dir : List (Str × Str)) : Option (List Loaded) :=
  (templatesIn dir).mapM (load instances)

/-! ## `char_stat.py` -/

/-- What a path can be (`char_stat.py:15` and `22`): a file, a directory or something else. -/
inductive Tree where
  | file (content : Str)
  | dir (entries : List Tree)
  | other

/-- The body of the loop over the characters (`char_stat.py:19-21`). -/
def countChar (out : List (Char × Nat)) (c : Char) : List (Char × Nat) :=
  let out := if out.any fun x => x.1 == c then out else out ++ [(c, 0)]
  out.map fun x => if x.1 == c then (c, x.2 + 1) else x

mutual

/-- `count_characters` (`char_stat.py:13-24`); the lines of a file are its content. -/
def countCharacters : Tree → List (Char × Nat) → List (Char × Nat)
  | .file content, out => content.foldl countChar out
  | .dir entries, out => countEntries entries out
  | .other, out => out

/-- The loop over a directory (`char_stat.py:23-24`). -/
def countEntries : List Tree → List (Char × Nat) → List (Char × Nat)
  | [], out => out
  | t :: ts, out => countEntries ts (countCharacters t out)

end

/-- `generate_statistics` (`char_stat.py:27-31`). -/
def generateStatistics (root : Tree) : List (Char × Nat) := countCharacters root []

end Metaparse.Bench
