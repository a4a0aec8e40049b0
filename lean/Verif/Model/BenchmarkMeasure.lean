import Verif.Model.BenchmarkRun
/-!
# `tools/benchmark/benchmark.py`: measuring one file, the progress and the pages

Line numbers are those of `/repo/tools/benchmark/benchmark.py` unless another file is named.

Simplifications: a floating point number is a rational one; `float` of Python is any function from texts to numbers, with
`none` for a `ValueError`; what a run of the compiler leaves behind is given. `none` is an exception. Left out: what is
printed, except for the number that the progress is printed from, and the command line.
-/

namespace Metaparse.Bench

open Gen

/-- `benchmark_command` (lines 26-45) without what is printed; `err` is what the command wrote to the standard error. -/
def benchmarkCommand (float : Str → Option Rat) (err : Str) : Option (Rat × Rat) :=
  match split ' ' (strip err) with
  | [u, m] => (float u).bind fun a => (float m).map fun b => (a, b)
  | _ => none

/-- `os.path.basename` (line 66) on POSIX. -/
def basename (path : Str) : Str := (path.reverse.takeWhile (· != '/')).reverse

/-- `os.path.splitext(name)[0]` (line 66) for a `name` without a slash: a dot after nothing but dots does not count. -/
def splitextRoot (name : Str) : Str :=
  match name.reverse.dropWhile (· != '.') with
  | [] => name
  | _ :: before => if before.any (· != '.') then before.reverse else name

/-- The file that is removed after a run (line 66). -/
def objectFile (filename : Str) : Str := splitextRoot (basename filename) ++ lit ".o"

/-- What a run of the compiler leaves behind: the standard error (line 30) and the files of the working directory, one of
which is removed (line 66). -/
structure Run where
  err : Str
  files : List Str

/-- One turn of the loop of `benchmark_file` (lines 55-66): removing a file that is not there is an `OSError`. -/
def measureRun (float : Str → Option Rat) (filename : Str) (r : Run) : Option (Rat × Rat) :=
  (benchmarkCommand float r.err).bind fun x => if r.files.contains (objectFile filename) then some x else none

/-- The loop of `benchmark_file` (lines 54-68) for the turns from `nth` on, of which there are `left`. -/
def sumRuns (measured : Nat → Option (Rat × Rat)) : (left nth : Nat) → (timeSum memSum : Rat) → Option (Rat × Rat)
  | 0, _, t, m => some (t, m)
  | left + 1, nth, t, m => (measured nth).bind fun x => sumRuns measured left (nth + 1) (t + x.1) (m + x.2)

/-- `benchmark_file` (lines 48-73): the time and the memory. `xrange` of a negative number is empty, and the sums are the
integers 0 then; a division by 0 is a `ZeroDivisionError`. -/
def benchmarkFile (float : Str → Option Rat) (filename : Str) (runs : Nat → Run) (iterCount : Int) : Option (Rat × Rat) :=
  (sumRuns (fun k => measureRun float filename (runs k)) iterCount.toNat 0 0 0).bind fun x =>
    if iterCount = 0 then none else some (x.1 / iterCount, x.2 / (iterCount * 1024 : Int))

/-- The progress that is given to `benchmark_command` (lines 62-64). -/
def progressAt (from_ to_ : Rat) (iterCount nth : Nat) : Rat := (to_ * nth + from_ * (iterCount - nth : Int)) / iterCount

/-- The loop of `benchmark` (lines 143-166) again, now with the ranges of the progress that are given to `benchmark_file`
(lines 144, 149, 158 and 165), in the order of the calls. `templateCount` is `string_template_file_cnt` and `fileCount` is
`file_count`. -/
def progressLoop {M : Type} (measure : Str → Bool → Option M) (templateCount : Nat) :
    List Str → Progress M → (fileCount : Nat) → List (Rat × Rat)
  | [], _, _ => []
  | f :: fs, p, fileCount =>
      let progress := p.result.length
      ((progress : Rat) / fileCount, ((progress + 1 : Nat) : Rat) / fileCount) ::
        match measure f false with
        | none => []
        | some m =>
            if isIn (lit "bmp") f && p.hasTemplates then
              (((progress + 1 : Nat) : Rat) / fileCount, ((progress + 2 : Nat) : Rat) / fileCount) ::
                match measure f true with
                | some m' =>
                    progressLoop measure templateCount fs ⟨assign (assign p.result f m) (withTemplates f) m', true⟩ fileCount
                | none => progressLoop measure templateCount fs ⟨assign p.result f m, false⟩ (fileCount - templateCount)
            else progressLoop measure templateCount fs ⟨assign p.result f m, p.hasTemplates⟩ fileCount

/-- The ranges of the progress of `benchmark` (lines 132-174). -/
def progressRanges {M : Type} (measure : Str → Bool → Option M) (files : List Str) : List (Rat × Rat) :=
  let templateCount := files.countP fun f => isIn (lit "bmp") f
  progressLoop measure templateCount files ⟨[], true⟩ (files.length + templateCount)

/-- What `([0-9]+(\.[0-9]+)*)` (line 85) takes after its first digit. -/
def versionTail : Str → Str
  | [] => []
  | [c] => if isDigit c then [c] else []
  | c :: d :: s =>
      if isDigit c then c :: versionTail (d :: s)
      else if c == '.' && isDigit d then c :: d :: versionTail s
      else []

/-- The regular expression of line 85 at the beginning of a text, for one of the two compilers; the result is that of
line 90. -/
def versionAt (tool s : Str) : Option Str :=
  if (tool ++ lit " version ").isPrefixOf s then
    match s.drop (tool ++ lit " version ").length with
    | c :: r => if isDigit c then some (tool ++ lit " " ++ c :: versionTail r) else none
    | [] => none
  else none

/-- `gcc_clang.search(line)` and the result (lines 88-90). -/
def searchVersion : Str → Option Str
  | [] => none
  | c :: s =>
      match versionAt (lit "gcc") (c :: s) with
      | some v => some v
      | none =>
          match versionAt (lit "clang") (c :: s) with
          | some v => some v
          | none => searchVersion s

/-- `compiler_info` (lines 76-92); `out` and `err` are what the compiler wrote. -/
def compilerInfo (compiler out err : Str) : Str :=
  match (split '\n' (out ++ err)).findSome? searchVersion with
  | some v => v
  | none => compiler

/-- `string_char` (lines 95-97). -/
def stringChar (c : Char) : Char := if [' ', '~', '(', ')', '/', '\\'].elem c then '_' else c

/-- `make_filename` (lines 100-102). -/
def makeFilename (s : Str) : Str := s.map stringChar

/-- `os.path.join` (lines 246, 274, 283 and 287) on POSIX. -/
def joinPath (a b : Str) : Str :=
  if b.head? = some '/' then b else if a = [] ∨ a.getLast? = some '/' then a ++ b else a ++ '/' :: b

/-- The content of a file: one of the pictures of lines 246-256, two of them joined (line 263) or a page (lines 286-295). -/
inductive OutFile where
  | picture (of : Str) (measured : Str)
  | joined (left right : OutFile)
  | page (text : Str)
deriving DecidableEq

/-- The files (lines 192, 226, 266 and 286). -/
abbrev Disk := Str → Option OutFile

/-- Writing a file (lines 192, 226 and 286-295). -/
def Disk.write (fs : Disk) (path : Str) (d : OutFile) : Disk := fun p => if p = path then some d else fs p

/-- `os.remove` (line 265). -/
def Disk.remove (fs : Disk) (path : Str) : Disk := fun p => if p = path then none else fs p

/-- What `plot_diagrams` uses of a configuration (lines 277 and 294). -/
structure PageConfig where
  name : Str
  desc : Str

/-- The names of the temporary pictures (lines 244-246). -/
def tempName (measured : Str) : Str := lit "_" ++ measured ++ lit ".png"

/-- `plot_diagram` (lines 260-265) with the files that `plot_temp_diagrams` writes (lines 244-256); which measurements they
show is in `curves` of `Verif/Model/BenchmarkRun.lean`, here it is the name of the configuration. -/
def plotDiagram (name imagesDir out : Str) (fs : Disk) : Option Disk :=
  let t := joinPath imagesDir (tempName (lit "time"))
  let m := joinPath imagesDir (tempName (lit "memory"))
  let fs1 := (fs.write t (.picture name (lit "time"))).write m (.picture name (lit "memory"))
  match fs1 t, fs1 m with
  | some a, some b => some (((fs1.write out (.joined a b)).remove t).remove m)
  | _, _ => none

/-- The text of a page (lines 290-294). -/
def pageText (c : PageConfig) (outPrefix platform memory compiler : Str) : Str :=
  c.desc ++ lit "\nMeasured on a " ++ platform ++ lit " host with " ++ memory ++ lit " GB memory. Compiler used: " ++ compiler
    ++ lit ".\n\n[$images/metaparse/" ++ outPrefix ++ lit ".png [width 100%]]\n"

/-- `int(math.ceil(byte_to_gb(total)))` (lines 210-212, 271-272). -/
def gigabytes (total : Nat) : Nat := (total + (1024 * 1024 * 1024 - 1)) / (1024 * 1024 * 1024)

/-- The loop of `plot_diagrams` (lines 276-295). -/
def plotLoop (platform memory compiler outDir : Str) : List PageConfig → Disk → Option Disk
  | [], fs => some fs
  | c :: cs, fs =>
      let outPrefix := c.name ++ lit "_" ++ makeFilename compiler
      let imagesDir := joinPath outDir (lit "images")
      (plotDiagram c.name imagesDir (joinPath imagesDir (outPrefix ++ lit ".png")) fs).bind fun fs =>
        plotLoop platform memory compiler outDir cs
          (fs.write (joinPath outDir (outPrefix ++ lit ".qbk")) (.page (pageText c outPrefix platform memory compiler)))

/-- `plot_diagrams` (lines 268-295); `total` is the memory of the computer. -/
def plotDiagrams (platform : Str) (total : Nat) (compiler outDir : Str) (cs : List PageConfig) (fs : Disk) : Option Disk :=
  plotLoop platform (Nat.toDigits 10 (gigabytes total)) compiler outDir cs fs

end Metaparse.Bench
