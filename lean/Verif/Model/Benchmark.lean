import Verif.Model.GenerateAll
/-!
# `tools/benchmark/generate.py` and `tools/benchmark/benchmark.py`

The generator of the benchmarks, as far as it is about strings, and how durations are printed. Line numbers without a
file are those of `/repo/tools/benchmark/generate.py`.

Simplifications: texts are lists of characters (Python 2 has bytes: a character stands for one with its number below
256); a dictionary is a list of its items in the order in which Python enumerates them; the random numbers are given.
Left out: the template engine (Cheetah; of a template its range, modes and instances are given here, and the comments that say the
range and the modes are in `Verif/Model/BenchmarkTemplate.lean`), reading and writing files and the command line (lines 37-42,
180-183, 226-230, 238-266) and the error messages (lines 20-34); `benchmark.py` but for `format_time` is in
`Verif/Model/BenchmarkRun.lean`.
-/

namespace Metaparse.Bench

open Gen

/-- The characters that `format_character` leaves alone (lines 206-213): `string.ascii_letters`, `string.digits` and a
list. -/
def isPlain (c : Char) : Bool :=
  ('a' ≤ c && c ≤ 'z') || ('A' ≤ c && c ≤ 'Z') || ('0' ≤ c && c ≤ '9') ||
    (lit "_.:; !?+-/=<>$()@~`|#[]{}&*^%").contains c

/-- One digit of `{:02x}` (line 223). -/
def hexDigit (n : Nat) : Char := if n < 10 then Char.ofNat (48 + n) else Char.ofNat (87 + n)

/-- `format_character` (lines 204-223); `{:02x}` of a number below 256 has two digits. -/
def formatCharacter (c : Char) : Str :=
  if isPlain c then [c]
  else if c = '"' ∨ c = '\'' ∨ c = '\\' then ['\\', c]
  else if c = '\n' then lit "\\n"
  else if c = '\r' then lit "\\r"
  else if c = '\t' then lit "\\t"
  else lit "\\x" ++ [hexDigit (c.toNat / 16), hexDigit (c.toNat % 16)]

/-- `nth_char` (lines 195-201). -/
def nthChar : List (Char × Nat) → Nat → Option Char
  | [], _ => none
  | (c, k) :: m, i => if i < k then some c else nthChar m (i - k)

/-- The `char_map` of `random_chars` (lines 52-55). -/
def charMap (chars : List (Char × Nat)) : List (Char × Nat) :=
  chars.filter fun x => !(lit "\\x").isPrefixOf (formatCharacter x.1)

/-- `sum(char_map.values())` (line 57). -/
def charNum (m : List (Char × Nat)) : Nat := (m.map Prod.snd).sum

/-- `random_chars` (lines 50-61); `draws` are what `random.randint(0, char_num - 1)` gives. `None` in `nth_char` is an
exception in `format_character`. -/
def randomChars (chars : List (Char × Nat)) (draws : List Nat) : Option (List Str) :=
  draws.mapM fun i => (nthChar (charMap chars) i).map formatCharacter

/-- The `prefix` of `convert_from` (line 96). -/
def macroPrefix : Str := lit "BOOST_METAPARSE_STRING(\""

/-- `random_string` (lines 64-67). -/
def randomString (chars : List (Char × Nat)) (draws : List Nat) : Option Str :=
  (randomChars chars draws).map fun l => macroPrefix ++ l.flatten ++ lit "\")"

/-- `base.find(prefix)` (line 98): what is before the first place, and what is after it. -/
def find (pre : Str) : Str → Option (Str × Str)
  | [] => if pre.isEmpty then some ([], []) else none
  | c :: s =>
      if pre.isPrefixOf (c :: s) then some ([], (c :: s).drop pre.length)
      else (find pre s).map fun r => (c :: r.1, r.2)

/-- The `for` loop of `convert_from` (lines 105-122): what is appended to the result, and `new_base`. -/
def convertLiteral (wasBackslash : Bool) (comma : Str) : Str → Str × Str
  | [] => ([], [])
  | c :: s =>
      if wasBackslash then
        let r := convertLiteral false [','] s
        (comma ++ ['\'', '\\', c, '\''] ++ r.1, r.2)
      else if c = '"' then ([], s.drop 1)
      else if c = '\\' then convertLiteral true comma s
      else
        let r := convertLiteral false [','] s
        (comma ++ ['\'', c, '\''] ++ r.1, r.2)

/-- The `while` loop of `convert_from` (lines 97-124), with a bound for the number of rounds. -/
def convertLoop : Nat → Str → Str
  | 0, base => base
  | n + 1, base =>
      match find macroPrefix base with
      | none => base
      | some (before, after) =>
          let r := convertLiteral false [] after
          before ++ lit "::boost::metaparse::string<" ++ r.1 ++ ['>'] ++ convertLoop n r.2

/-- `Mode.convert_from` in the mode `manual` (lines 94-124). Every round makes the text shorter. -/
def convertManual (base : Str) : Str := convertLoop base.length base

/-- The modes (lines 70-80). -/
inductive Mode where
  | bmp
  | man
  deriving DecidableEq

/-- `Mode.identifier` (lines 75-78). -/
def Mode.identifier : Mode → Str
  | .bmp => lit "bmp"
  | .man => lit "man"

/-- `Mode.convert_from` (lines 89-124). -/
def Mode.convertFrom : Mode → Str → Str
  | .bmp, base => base
  | .man, base => convertManual base

/-- `out_filename` (lines 233-235). -/
def outFilename (name : Str) (n : Nat) (mode : Mode) : Str :=
  name ++ ['_'] ++ number n ++ ['_'] ++ mode.identifier ++ lit ".cpp"

/-- What `main` needs of a template: its name (line 190), the values of `n` (lines 143-153), the modes (lines 159-161)
and what its instances are (lines 134-141). -/
structure Template where
  name : Str
  range : List Nat
  modes : List Mode
  instances : Nat → Str

/-- What a file has: a document, or the description of the benchmark, whose `files` are given (lines 281-295). -/
inductive Content where
  | source (text : Str)
  | description (name : Str) (files : List (Nat × List (Str × Str)))

/-- The files that `main` writes for a template, in this order (lines 268-295). -/
def filesOf (t : Template) : List (Str × Content) :=
  (t.range.flatMap fun n => t.modes.map fun m => (outFilename t.name n m, .source (m.convertFrom (t.instances n)))) ++
    [(t.name ++ lit ".json",
      .description t.name (t.range.map fun n => (n, t.modes.map fun m => (m.identifier, outFilename t.name n m))))]

/-- The files that `main` writes (lines 267-295); a later one replaces one with the same name. -/
def allFiles (ts : List Template) : List (Str × Content) := ts.flatMap filesOf

/-- The names and lengths of `format_time` (`benchmark.py:113-116, 119-122`). -/
def units : List (Str × Nat) :=
  [(lit "week", 604800), (lit "day", 86400), (lit "hour", 3600), (lit "minute", 60), (lit "second", 1)]

/-- The loop of `format_time` (`benchmark.py:119-128`): the values and names. A second has `u` ticks, so that all
durations that are rational numbers of seconds are modelled (Python has floating point numbers here). -/
def durations (u : Nat) : List (Str × Nat) → Nat → List (Nat × Str)
  | [], _ => []
  | (name, dur) :: l, t =>
      if dur * u < t then (t / (dur * u), name) :: durations u l (t % (dur * u)) else durations u l t

/-- `format_time` (`benchmark.py:111-129`) of `t` ticks; the plural depends on the value, a whole number. -/
def formatTime (u t : Nat) : Str :=
  join [' '] ((durations u units t).map fun x => number x.1 ++ [' '] ++ x.2 ++ if 1 < x.1 then ['s'] else [])

end Metaparse.Bench
