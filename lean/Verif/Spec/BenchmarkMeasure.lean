import Verif.Spec.BenchmarkTemplate
import Verif.Spec.BenchmarkRun
import Verif.Model.BenchmarkMeasure
/-!
# What measuring a file gives, the progress and the pages of the benchmarks
-/

namespace Metaparse.Bench

open Gen

/-- What is expected of `float` of Python: decimal numbers are read, and a text with something before and after a line end
is not a number. -/
structure ReadsNumbers (float : Str → Option Rat) : Prop where
  whole : ∀ {s : Str} {n : Nat}, Decimal s n → float s = some (n : Rat)
  fraction : ∀ {s t : Str} {n k : Nat}, Decimal s n → Decimal t k → float (s ++ '.' :: t) = some (n + (k : Rat) / (10 ^ t.length : Nat))
  lines : ∀ {s a b : Str}, s = a ++ '\n' :: b → (∃ c ∈ a, blank c = false) → (∃ c ∈ b, blank c = false) → float s = none

/-- What `/usr/bin/time --format="%U %M"` writes: seconds with decimals, a space and kilobytes. -/
def TimeText (text : Str) (seconds kilobytes : Rat) : Prop :=
  ∃ (u f m : Str) (a b k : Nat), Decimal u a ∧ Decimal f b ∧ Decimal m k ∧ text = u ++ '.' :: f ++ ' ' :: m ++ ['\n'] ∧
    seconds = a + (b : Rat) / (10 ^ f.length : Nat) ∧ kilobytes = k

/-- The sum of the values for 0, ..., n - 1. -/
def total (n : Nat) (f : Nat → Rat) : Rat := ((List.range n).map f).sum

/-- `1`, `5.4.0`, ... -/
inductive VersionText : Str → Prop
  | last {s : Str} {n : Nat} : Decimal s n → VersionText s
  | dot {s t : Str} {n : Nat} : Decimal s n → VersionText t → VersionText (s ++ '.' :: t)

/-- `tool version v` after `before` in a line. -/
def Mentions (line before tool v : Str) : Prop :=
  (tool = lit "gcc" ∨ tool = lit "clang") ∧ VersionText v ∧ ∃ rest, line = before ++ tool ++ lit " version " ++ v ++ rest

/-- The first mention of a version in a line, with all of the version. -/
def FirstMention (line before tool v : Str) : Prop :=
  Mentions line before tool v ∧ ∀ before' tool' v', Mentions line before' tool' v' →
    before.length < before'.length ∨ (before' = before ∧ v'.length ≤ v.length)

/-- Characters that are no part of the name of a file. -/
def Special (c : Char) : Prop := c = ' ' ∨ c = '~' ∨ c = '(' ∨ c = ')' ∨ c = '/' ∨ c = '\\'

end Metaparse.Bench
