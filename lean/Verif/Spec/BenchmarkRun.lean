import Verif.Spec.Benchmark
import Verif.Model.BenchmarkRun
/-!
# What the diagrams of the benchmarks show
-/

namespace Metaparse.Bench

open Gen

/-- A template that gives files whose names can be told apart: no value of `n` and no mode twice, and `bmp` and `slt` are
not in its name. -/
structure GoodTemplate (t : Template) : Prop where
  range : t.range.Pairwise (· < ·)
  modes : t.modes.Nodup
  noBmp : ¬ Has t.name (lit "bmp")
  noSlt : ¬ Has t.name (lit "slt")

/-- The points are the measurements of the files of the template in this mode, for every value of `n` in ascending order.
`templates` says whether string literal templates were used. -/
def Shows {M : Type} (measure : Str → Bool → Option M) (t : Template) (m : Mode) (templates : Bool)
    (points : List (Nat × M)) : Prop :=
  points.map (fun p => (p.1, some p.2)) = t.range.map fun n => (n, measure (outFilename t.name n m) templates)

/-- The names in the legend. -/
def legend : Mode → Bool → Str
  | .bmp, false => lit "Using BOOST_METAPARSE_STRING"
  | .bmp, true => lit "Using BOOST_METAPARSE_STRING with string literal templates"
  | .man, _ => lit "Generating strings manually"

/-- A diagram with one curve for each of these modes. -/
inductive Diagram {M : Type} (measure : Str → Bool → Option M) (t : Template) :
    List (Mode × Bool) → List (Str × List (Nat × M)) → Prop
  | nil : Diagram measure t [] []
  | cons {m : Mode} {b : Bool} {l : List (Mode × Bool)} {ps : List (Nat × M)} {cs : List (Str × List (Nat × M))} :
      Shows measure t m b ps → Diagram measure t l cs → Diagram measure t ((m, b) :: l) ((legend m b, ps) :: cs)

/-- The files that are measured: what `generate.py` writes with the extension `cpp`, in any order. -/
def MeasuredFiles (ts : List Template) (files : List Str) : Prop :=
  files.Perm (filesInDir ((allFiles ts).map Prod.fst) (lit "cpp"))

/-- A picture in another one: its upper left corner is at this distance from the left border, at the top. -/
def ShownAt {C : Type} (whole part : Image C) (left : Nat) : Prop :=
  left + part.width ≤ whole.width ∧ part.height ≤ whole.height ∧
    ∀ x y, x < part.width → y < part.height → whole.pixel (left + x) y = part.pixel x y

end Metaparse.Bench
