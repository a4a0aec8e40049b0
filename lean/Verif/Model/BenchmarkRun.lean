import Verif.Model.Benchmark
/-!
# `tools/benchmark/benchmark.py`: measuring the files and what is plotted

Line numbers are those of `/repo/tools/benchmark/benchmark.py` unless another file is named.

Simplifications: a dictionary is a list of its items in the order in which Python enumerates them; measuring a file
(`benchmark_command`, `benchmark_file`, lines 26-73) is given here, and `none` is an exception: every file is measured at most
once in each of the two ways, so that what is measured is a function of them. `M` is what is measured, a time and a memory usage. A diagram is its curves, each with its label
and points. The configurations are those that `generate.py` writes: a number `n` is the key `str(n)` of `files`.
Left out: what is printed (lines 168-173; `format_time` is in `Verif/Model/Benchmark.lean`), drawing and the command line.
Measuring a file, the progress (lines 138-139, 144, 149, 158 and 165), the name of the compiler and the pages are in
`Verif/Model/BenchmarkMeasure.lean`.
-/

namespace Metaparse.Bench

open Gen

/-- `files_in_dir` (lines 105-108); `dir` is what `os.listdir` gives. -/
def filesInDir (dir : List Str) (extension : Str) : List Str :=
  dir.filter fun f => (lit "." ++ extension).isSuffixOf f

/-- `str.replace(old, new)` of Python for an `old` that is not empty (lines 162 and 242); `skip` is how much of an
occurrence is still to be left out. -/
def replaceFrom (old new : Str) : (skip : Nat) → Str → Str
  | _, [] => []
  | k + 1, _ :: s => replaceFrom old new k s
  | 0, c :: s =>
      if old.isPrefixOf (c :: s) then new ++ replaceFrom old new (old.length - 1) s
      else c :: replaceFrom old new 0 s

/-- `filename.replace('bmp', 'slt')` (lines 162 and 242). -/
def withTemplates (filename : Str) : Str := replaceFrom (lit "bmp") (lit "slt") 0 filename

/-- `dictionary[key] = value` (lines 145, 162, 240 and 242). -/
def assign {β : Type} (d : List (Str × β)) (key : Str) (value : β) : List (Str × β) :=
  if d.any fun x => x.1 == key then d.map fun x => if x.1 == key then (key, value) else x
  else d ++ [(key, value)]

/-- The variables of `benchmark` (lines 137 and 142): `result` and `has_string_templates`. -/
structure Progress (M : Type) where
  result : List (Str × M)
  hasTemplates : Bool

/-- The loop of `benchmark` (lines 143-166). `measure` says what measuring a file without (lines 145-151) and with
`-Xclang -fstring-literal-templates` (lines 154-161) gives. The exception of the first measurement is not caught, that of
the second one is (line 163). -/
def benchmarkLoop {M : Type} (measure : Str → Bool → Option M) : List Str → Progress M → Option (List (Str × M))
  | [], p => some p.result
  | f :: fs, p =>
      match measure f false with
      | none => none
      | some m =>
          if isIn (lit "bmp") f && p.hasTemplates then
            match measure f true with
            | some m' => benchmarkLoop measure fs ⟨assign (assign p.result f m) (withTemplates f) m', true⟩
            | none => benchmarkLoop measure fs ⟨assign p.result f m, false⟩
          else benchmarkLoop measure fs ⟨assign p.result f m, p.hasTemplates⟩

/-- `benchmark` (lines 132-174); `files` are the files in the order that `random.shuffle` gives. -/
def benchmark {M : Type} (measure : Str → Bool → Option M) (files : List Str) : Option (List (Str × M)) :=
  benchmarkLoop measure files ⟨[], true⟩

/-- What is needed of a configuration (`generate.py:283-294`): `files` and `modes`. -/
structure Config where
  files : List (Nat × List (Str × Str))
  modes : List (Str × Str)

/-- `Mode.description` (`generate.py:82-87`). -/
def Mode.description : Mode → Str
  | .bmp => lit "Using BOOST_METAPARSE_STRING"
  | .man => lit "Generating strings manually"

/-- The configuration of a template (`generate.py:284-289` and 293). -/
def configOf (t : Template) : Config where
  files := t.range.map fun n => (n, t.modes.map fun m => (m.identifier, outFilename t.name n m))
  modes := t.modes.map fun m => (m.identifier, m.description)

/-- What `plot_temp_diagrams` does to the configuration (lines 239-242). No file is an `IndexError` and no file in the
mode `bmp` a `KeyError`. -/
def addTemplates {M : Type} (c : Config) (results : List (Str × M)) : Option Config :=
  if results.any fun r => isIn (lit "slt") r.1 then
    match c.files with
    | [] => none
    | (_, first) :: _ =>
        if first.any fun x => x.1 == lit "bmp" then
          (c.files.mapM fun (f : Nat × List (Str × Str)) => (f.2.lookup (lit "bmp")).map fun name =>
              (f.1, assign f.2 (lit "slt") (withTemplates name))).map fun files =>
            ⟨files, assign c.modes (lit "slt") (lit "Using BOOST_METAPARSE_STRING with string literal templates")⟩
        else some c
  else some c

/-- The points of a curve (line 249); a name that is missing is a `KeyError`. -/
def points {M : Type} (c : Config) (results : List (Str × M)) (mode : Str) (mpts : List Nat) : Option (List (Nat × M)) :=
  mpts.mapM fun x => (c.files.lookup x).bind fun f => (f.lookup mode).bind fun name =>
    (results.lookup name).map fun m => (x, m)

/-- The curves of a diagram (`plot_temp_diagrams`, lines 229-257, with the loop of `plot`, lines 180-186). -/
def curves {M : Type} (c : Config) (results : List (Str × M)) : Option (List (Str × List (Nat × M))) :=
  (addTemplates c results).bind fun c =>
    let mpts := (c.files.map Prod.fst).mergeSort fun a b => decide (a ≤ b)
    c.modes.mapM fun mode => (points c results mode.1 mpts).map fun vals => (mode.2, vals)

/-- A picture: width, height and the colours of its pixels (lines 215-226). -/
structure Image (C : Type) where
  width : Nat
  height : Nat
  pixel : Nat → Nat → C

/-- `joined.paste(im=img, box=(left, 0))` (line 224). What does not fit is cut off. -/
def paste {C : Type} (joined img : Image C) (left : Nat) : Image C where
  width := joined.width
  height := joined.height
  pixel := fun x y => if left ≤ x ∧ x < left + img.width ∧ y < img.height then img.pixel (x - left) y else joined.pixel x y

/-- The loop of `join_images` (lines 222-225). -/
def pasteAll {C : Type} : (joined : Image C) → (left : Nat) → List (Image C) → Image C
  | joined, _, [] => joined
  | joined, left, img :: imgs => pasteAll (paste joined img left) (left + img.width) imgs

/-- `join_images` (lines 215-226); the new picture is black. `max` of nothing is a `ValueError`. -/
def joinImages {C : Type} (black : C) (images : List (Image C)) : Option (Image C) :=
  match images.map Image.height with
  | [] => none
  | h :: hs => some (pasteAll ⟨(images.map Image.width).sum, hs.foldl max h, fun _ _ => black⟩ 0 images)

end Metaparse.Bench
