/-!
# `tools/generate_all.py`

The generator of the headers of the tutorial (`example/getting_started`) and of parts of its text
(`doc/getting_started.qbk`, `doc/before_*.qbk`, `doc/getting_started_*.qbk`), function by function. All
line numbers are those of `/repo/tools/generate_all.py`.

Simplifications: texts are lists of characters; white space is the ASCII white space (`str.strip` of
Python 2); files are named relative to the directory they are written to (`os.path.join`, lines 97 and
131, and the directory in `fn_base`, lines 206, 224 and 225, are left out). What a run does to the files on the disk,
`delete_old_headers` and `main`, is in `Model/GenerateMain`; the command line (lines 257-272) is left out. An exception
(`ValueError`, `IndexError`) is `none`: nothing is generated then.
-/

namespace Metaparse.Gen

/-- A Python `str` (for example line 25). -/
abbrev Str := List Char

/-- A literal of the Python source (for example line 25). -/
def lit (s : String) : Str := s.toList

/-- White space for `str.strip` (used at lines 23, 58, 62, 155, 158, 176, 199). -/
def isSpace (c : Char) : Bool :=
  c == ' ' || c == '\t' || c == '\n' || c == '\r' || c == '\x0b' || c == '\x0c'

/-- `s.lstrip()` (line 185). -/
def lstrip (s : Str) : Str := s.dropWhile isSpace

/-- `s.rstrip()`, the other half of `s.strip()` (lines 23, 58 and 62). -/
def rstrip (s : Str) : Str := (s.reverse.dropWhile isSpace).reverse

/-- `s.strip()` (line 23 and others). -/
def strip (s : Str) : Str := rstrip (lstrip s)

/-- `p in s` (lines 202, 212, 215). -/
def isIn (p : Str) : Str → Bool
  | [] => p.isEmpty
  | c :: s => p.isPrefixOf (c :: s) || isIn p s

/-- `s.split(c)` for one character (lines 29, 74, 123). -/
def split (c : Char) : Str → List Str
  | [] => [[]]
  | d :: s =>
      if d = c then [] :: split c s
      else match split c s with
        | [] => [[d]]
        | w :: ws => (d :: w) :: ws

/-- `sep.join(l)` (lines 29, 105, 123, 139). -/
def join (sep : Str) : List Str → Str
  | [] => []
  | [s] => s
  | s :: l => s ++ sep ++ join sep l

/-- `s.replace(a, b)` for characters (lines 71, 87, 134, 169). -/
def replace (a b : Char) (s : Str) : Str := s.map fun c => if c = a then b else c

/-- `readlines()` (line 274): the lines of a text, with their ends. -/
def readLines : Str → List Str
  | [] => []
  | c :: s =>
      if c = '\n' then ['\n'] :: readLines s
      else match readLines s with
        | [] => [[c]]
        | l :: ls => (c :: l) :: ls

/-- Decimal digits, `[0-9]` (lines 42 and 145). -/
def isDigit (c : Char) : Bool := '0' ≤ c && c ≤ '9'

/-- `remove_last_dot` (lines 13-17). -/
def removeLastDot (s : Str) : Str := if ['.'].isSuffixOf s then s.dropLast else s

/-- `remove_newline` (lines 19-20). -/
def removeNewline (s : Str) : Str := s.filter fun c => c != '\r' && c != '\n'

/-- `is_definition` (lines 22-26). -/
def isDefinition (s : Str) : Bool :=
  let cmd := strip s
  [lit "#include ", lit "using ", lit "struct ", lit "template "].any (fun p => p.isPrefixOf cmd) ||
    [';'].isSuffixOf cmd

/-- `prefix_lines` (lines 28-29). -/
def prefixLines (pre s : Str) : Str := join ['\n'] ((split '\n' s).map (pre ++ ·))

/-- `protect_metashell` (lines 31-35). -/
def protectMetashell (s : Str) : Str :=
  if (lit "#include <metashell").isPrefixOf s then lit "#ifdef __METASHELL\n" ++ s ++ lit "\n#endif"
  else s

/-- `numbered_section_header.match(l)`, the group of the match (lines 42 and 69-71). -/
def numberedHeader (l : Str) : Option Str :=
  if (lit "[section").isPrefixOf l then
    let n := ((l.drop 8).dropWhile (· == ' ')).takeWhile fun c => isDigit c || c == '.'
    if n.isEmpty then none else some n
  else none

/-- `metashell_command.match(ll)` (line 43). -/
def isCommand : Str → Bool
  | '>' :: ' ' :: c :: _ => c != ' '
  | _ => false

/-- `metashell_prompt.sub('', s)` (lines 44 and 53). -/
def dropPrompt (s : Str) : Str :=
  if (lit "...>").isPrefixOf s then s.drop 4 else if ['>'].isPrefixOf s then s.drop 1 else s

/-- The variables of the loop of `parse_md` (lines 38-45, 50). `inMsh` is assigned before it is used. -/
structure ParseState where
  section_ : Str := []
  inCpp : Bool := false
  inMsh : Bool := false
  cmd : Str := []
deriving DecidableEq

/-- What a line of the tutorial adds to `sections` and `defs` (lines 38-39, 62 and 72). -/
structure Found where
  sections : List Str := []
  defs : List (Str × Str) := []
deriving DecidableEq

/-- Line 47: the line is part of a code snippet. -/
def isCode (l : Str) : Bool := [' ', ' '].isPrefixOf l

/-- A command that is complete (lines 60-62). -/
def definitionOf (cmd : Str) : Str :=
  protectMetashell (strip
    (if isDefinition cmd then cmd else lit "// query:\n" ++ prefixLines (lit "//   ") cmd))

/-- Lines 53-63: a line of a command. -/
def commandLine (st : ParseState) (ll : Str) : ParseState × Found :=
  let c := dropPrompt (removeNewline ll)
  let cmd := (if st.cmd = [] then [] else st.cmd ++ ['\n']) ++ c
  if ['\\'].isSuffixOf cmd then ({ st with cmd := strip cmd.dropLast ++ [' '] }, {})
  else ({ st with cmd := [] }, { defs := [(st.section_, definitionOf cmd)] })

/-- The body of the loop of `parse_md` (lines 47-72). -/
def parseLine (st : ParseState) (l : Str) : ParseState × Found :=
  if isCode l then
    let ll := l.drop 2
    let inMsh := if st.inCpp then st.inMsh else true
    let (st', f) :=
      if inMsh then
        if isCommand ll || st.cmd ≠ [] then commandLine { st with inMsh := true } ll
        else ({ st with inMsh := st.inCpp }, {})
      else ({ st with inMsh := false }, {})
    ({ st' with inCpp := true }, f)
  else
    match numberedHeader l with
    | some n =>
        let s := replace '.' '_' (removeLastDot n)
        ({ st with inCpp := false, section_ := s }, { sections := [s] })
    | none => ({ st with inCpp := false }, {})

/-- The loop of `parse_md` (lines 46-72). -/
def parseLoop : ParseState → List Str → Found
  | _, [] => {}
  | st, l :: ls =>
      let (st', f) := parseLine st l
      let g := parseLoop st' ls
      { sections := f.sections ++ g.sections, defs := f.defs ++ g.defs }

/-- `int(n)` of digits; the empty text is a `ValueError` (line 74). -/
def toInt (s : Str) : Option Nat :=
  if s.isEmpty || !s.all isDigit then none
  else some (s.foldl (fun n c => 10 * n + (c.toNat - '0'.toNat)) 0)

/-- The key the sections are sorted by (line 74). -/
def sectionKey (s : Str) : Option (List Nat) := (split '_' s).mapM toInt

/-- The order of lists of numbers in Python (line 74). -/
def keyLe : List Nat → List Nat → Bool
  | [], _ => true
  | _ :: _, [] => false
  | a :: l, b :: m => decide (a < b) || (a == b && keyLe l m)

/-- Inserts a section in a sorted list, after the sections with the same key (line 74: `sort` is stable). -/
def insertKey (x : List Nat × Str) : List (List Nat × Str) → List (List Nat × Str)
  | [] => [x]
  | y :: l => if keyLe y.1 x.1 then y :: insertKey x l else x :: y :: l

/-- `sections.sort(key = ...)` (line 74). -/
def sortSections (l : List Str) : Option (List Str) :=
  (l.mapM fun s => (sectionKey s).map (·, s)).map fun ks =>
    (ks.foldl (fun acc x => insertKey x acc) []).map (·.2)

/-- `parse_md` (lines 37-75). -/
def parseMd (qbk : List Str) : Option (List Str × List (Str × Str)) :=
  let f := parseLoop {} qbk
  (sortSections f.sections).map (·, f.defs)

/-- A Python dictionary from names of files to their contents (lines 83, 126 and 191). -/
abbrev Files := List (Str × Str)

/-- `files[name] = content` (lines 97, 131, 226). -/
def Files.put (fs : Files) (name content : Str) : Files :=
  fs.filter (fun f => f.1 ≠ name) ++ [(name, content)]

/-- The content of a file (lines 288-290 write it). -/
def Files.get (fs : Files) (name : Str) : Option Str := fs.lookup name

/-- The content of a header (lines 87-110). -/
def header (prev s : Str) (defs : List (Str × Str)) : Str :=
  let prevName := replace '_' '.' prev
  let guard := lit "BOOST_METAPARSE_GETTING_STARTED_" ++ s ++ lit "_HPP"
  let prevInclude :=
    if prev = [] then []
    else lit "// Definitions before section " ++ prevName ++ lit "\n" ++
      lit "#include \"" ++ prev ++ lit ".hpp\"\n" ++ lit "\n"
  lit "#ifndef " ++ guard ++ lit "\n" ++
  lit "#define " ++ guard ++ lit "\n" ++
  lit "\n" ++
  lit "// Automatically generated header file\n" ++
  lit "\n" ++
  prevInclude ++
  lit "// Definitions of section " ++ prevName ++ lit "\n" ++
  join ['\n'] ((defs.filter (fun d => d.1 = prev)).map fun d => d.2 ++ ['\n']) ++
  lit "\n" ++
  lit "#endif\n" ++
  lit "\n"

/-- The loop of `gen_headers` (lines 86-111). -/
def genHeadersLoop (defs : List (Str × Str)) : Str → Files → List Str → Files
  | _, files, [] => files
  | prev, files, s :: ss =>
      genHeadersLoop defs s (files.put (s ++ lit ".hpp") (header prev s defs)) ss

/-- `gen_headers` (lines 82-112). -/
def genHeaders (sections : List Str) (defs : List (Str × Str)) : Files :=
  genHeadersLoop defs [] [] sections

/-- `remove_metashell_protection` (lines 114-120). -/
def removeMetashellProtection (s : Str) : Str :=
  if (lit "#ifdef __METASHELL\n").isPrefixOf s && (lit "#endif").isSuffixOf s then
    (s.drop 19).take (s.length - 19 - 6)
  else s

/-- `make_code_snippet` (lines 122-123). -/
def makeCodeSnippet (s : Str) : Str := join ['\n'] ((split '\n' s).map (lit "  " ++ ·))

/-- What a section adds to `so_far` (lines 139-143). -/
def sectionSnippets (defs : List (Str × Str)) (s : Str) : Str :=
  join ['\n'] ((defs.filter fun d => d.1 = s && !(lit "//").isPrefixOf d.2).map fun d =>
    makeCodeSnippet (removeMetashellProtection d.2) ++ ['\n'])

/-- The content of `before_*.qbk` (lines 132-136). -/
def beforeDoc (s soFar : Str) : Str :=
  lit "[#before_" ++ s ++ lit "]\n['Definitions before section " ++ replace '_' '.' s ++ lit ".]\n\n" ++
    soFar ++ lit "\n"

/-- The first loop of `what_we_have_so_far_docs` (lines 126-143): `files`, `sections_with_definition` and
`so_far`. -/
def beforeLoop (defs : List (Str × Str)) : Files → List Str → Str → List Str → Files × List Str
  | files, withDefs, _, [] => (files, withDefs)
  | files, withDefs, soFar, s :: ss =>
      if soFar = [] then beforeLoop defs files withDefs (soFar ++ sectionSnippets defs s) ss
      else
        beforeLoop defs (files.put (lit "before_" ++ s ++ lit ".qbk") (beforeDoc s soFar))
          (withDefs ++ [s]) (soFar ++ sectionSnippets defs s) ss

/-- The files and `sections_with_definition` of `what_we_have_so_far_docs` (lines 125-143). -/
def beforeDocs (sections : List Str) (defs : List (Str × Str)) : Files × List Str :=
  beforeLoop defs [] [] [] sections

/-- `([0-9]\.)+` at the beginning of a text, as long as possible (line 145). -/
def digitDots : Str → Str
  | c :: '.' :: s => if isDigit c then c :: '.' :: digitDots s else []
  | _ => []

/-- `is_section.match(l)`, and `section_number` (lines 145 and 167-169). -/
def noteSection (l : Str) : Option Str :=
  if (lit "[section ").isPrefixOf l then
    let n := digitDots (l.drop 9)
    if n.isEmpty then none else some (replace '.' '_' n).dropLast
  else none

/-- `note_prefix` (lines 146-148). -/
def notePrefix : Str :=
  lit "[note Note that you can find everything that has been included and defined so far [link before_"

/-- The note of a section (line 171). -/
def noteLine (s : Str) : Str := notePrefix ++ s ++ lit " here].]\n"

/-- The title of the section of definitions (line 158). -/
def definitionsTitle : Str := lit "[section Definitions before each section]"

/-- The second loop of `what_we_have_so_far_docs` (lines 150-171). The flag is
`in_definitions_before_each_section`. -/
def notesLoop (withDefs : List Str) : Bool → List Str → List Str
  | _, [] => []
  | true, l :: ls =>
      if strip l = lit "[endsect]" then l :: notesLoop withDefs false ls else notesLoop withDefs true ls
  | false, l :: ls =>
      if strip l = definitionsTitle then
        l :: ['\n'] :: (withDefs.map fun s => lit "[include before_" ++ s ++ lit ".qbk]\n") ++
          ['\n'] :: notesLoop withDefs true ls
      else if notePrefix.isPrefixOf l then notesLoop withDefs false ls
      else
        let note := match noteSection l with
          | some n => if n ∈ withDefs then [noteLine n] else []
          | none => []
        l :: note ++ notesLoop withDefs false ls

/-- `strip_not_finished_line` (lines 175-177). -/
def stripNotFinishedLine (s : Str) : Str :=
  let s := strip s
  if ['\\'].isSuffixOf s then s.dropLast else s

/-- The loop of `make_copy_paste_friendly` (lines 180-186). `result[-1]` is an `IndexError` if there is no
line yet. -/
def copyPasteLoop : List Str → List Str → Option (List Str)
  | result, [] => some result
  | result, l :: ls =>
      if (lit "> ").isPrefixOf l then copyPasteLoop (result ++ [l.drop 2]) ls
      else if (lit "...> ").isPrefixOf l then
        match result.getLast? with
        | some last =>
            copyPasteLoop (result.dropLast ++ [stripNotFinishedLine last ++ lstrip (l.drop 5)]) ls
        | none => none
      else copyPasteLoop result ls

/-- `make_copy_paste_friendly` (lines 179-186). -/
def makeCopyPasteFriendly (lines : List Str) : Option (List Str) := copyPasteLoop [] lines

/-- A number in decimal, as `format` prints it (lines 206 and 224). -/
def number (n : Nat) : Str := (toString n).toList

/-- The name of a snippet (lines 206 and 224-225). -/
def snippetName (base : Str) (n : Nat) : Str := base ++ ['_'] ++ number n

/-- The line that links to the snippet (lines 233-235). -/
def linkLine (base : Str) (n : Nat) : Str :=
  lit "[link " ++ snippetName base n ++ lit " copy-paste friendly version]\n"

/-- The content of the file of a snippet (lines 226-232). -/
def snippetFile (base : Str) (n : Nat) (code : List Str) : Str :=
  lit "[#" ++ snippetName base n ++ lit "]\n\n" ++ (code.map (lit "  " ++ ·)).flatten ++ lit "\n"

/-- The title of the section of code examples (line 212). -/
def examplesTitle : Str := lit "[section Copy-paste friendly code examples]"

/-- What marks the links (line 215). -/
def linkMark : Str := lit "copy-paste friendly version"

/-- The variables of the loop of `extract_code_snippets` (lines 191-197, 244). -/
structure ExtractState where
  inCode : Bool := false
  code : List Str := []
  counter : Nat := 0
  inExamples : Bool := false
  skipEmpty : Bool := false
deriving DecidableEq

/-- What a line of the tutorial becomes: lines of the result, and a file of a snippet (lines 190-229). -/
structure Extracted where
  lines : List Str := []
  files : Files := []
deriving DecidableEq

/-- Lines 218-244: an ordinary line. -/
def extractOrdinary (base : Str) (st : ExtractState) (l : Str) : Option (ExtractState × Extracted) :=
  if st.inCode then
    if isCode l then
      if (lit "  > ").isPrefixOf l || (lit "  ...> ").isPrefixOf l then
        some ({ st with code := st.code ++ [l.drop 2] }, { lines := [l] })
      else some (st, { lines := [l] })
    else if st.code.length > 1 then
      (makeCopyPasteFriendly st.code).map fun c =>
        ({ st with inCode := false, counter := st.counter + 1 },
         { lines := [l, linkLine base st.counter, ['\n']],
           files := [(snippetName base st.counter ++ lit ".qbk", snippetFile base st.counter c)] })
    else some ({ st with inCode := false }, { lines := [l] })
  else if isCode l then some ({ st with inCode := true, code := [l.drop 2] }, { lines := [l] })
  else some (st, { lines := [l] })

/-- The body of the loop of `extract_code_snippets` (lines 199-244). -/
def extractLine (base : Str) (st : ExtractState) (l : Str) : Option (ExtractState × Extracted) :=
  if strip l ≠ [] || !st.skipEmpty then
    let st := { st with skipEmpty := false }
    if st.inExamples then
      if isIn (lit "endsect") l then
        some ({ st with inExamples := false },
          { lines := ['\n'] :: ((List.range st.counter).map fun i =>
              lit "[include " ++ snippetName base i ++ lit ".qbk]\n") ++ [['\n'], l] })
      else some (st, {})
    else if isIn examplesTitle l then some ({ st with inExamples := true }, { lines := [l] })
    else if isIn linkMark l then some ({ st with skipEmpty := true }, {})
    else extractOrdinary base st l
  else some (st, {})

/-- The loop of `extract_code_snippets` (lines 198-246). -/
def extractLoop (base : Str) : ExtractState → List Str → Option Extracted
  | _, [] => some {}
  | st, l :: ls =>
      (extractLine base st l).bind fun r => (extractLoop base r.1 ls).map fun x =>
        { lines := r.2.lines ++ x.lines, files := r.2.files ++ x.files }

/-- `extract_code_snippets` (lines 188-246). -/
def extractCodeSnippets (base : Str) (qbk : List Str) : Option Extracted := extractLoop base {} qbk

/-- What the generator writes (lines 279-291). -/
structure Generated where
  /-- `files1`, the headers. -/
  headers : Files
  /-- `files2`, the definitions before each section. -/
  before : Files
  /-- `files3`, the copy-paste friendly versions of the snippets. -/
  snippets : Files
  /-- The new text of the tutorial. -/
  text : Str

/-- `main` (lines 274-291), for a tutorial with the name `base` and the text `src`. -/
def generate (base src : Str) : Option Generated :=
  let qbk := readLines src
  (parseMd qbk).bind fun (sections, defs) =>
    let headers := genHeaders sections defs
    let (before, withDefs) := beforeDocs sections defs
    (extractCodeSnippets base (notesLoop withDefs false qbk)).map fun x =>
      ⟨headers, before, x.files, x.lines.flatten⟩

end Metaparse.Gen
