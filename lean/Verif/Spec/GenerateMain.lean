import Verif.Model.GenerateMain
import Verif.Spec.GenerateSnippets

/-!
# What a run of the generator of the tutorial may change

Nothing here uses the functions of the generator.
-/

namespace Metaparse.Gen

/-- A name of a header. -/
def IsHeader (n : Str) : Prop := lit ".hpp" <:+ n

/-- The number of a section in the name of a file, such as `5_2_1`. -/
def IsNumbering (s : Str) : Prop := s ≠ [] ∧ ∀ c ∈ s, c = '_' ∨ c ∈ lit "0123456789"

/-- A name of a page with definitions. -/
def IsPage (n : Str) : Prop := ∃ s, IsNumbering s ∧ n = lit "before_" ++ s ++ lit ".qbk"

/-- A name of a copy-paste friendly version. -/
def IsCopy (base n : Str) : Prop := ∃ k, n = copyName base k ++ lit ".qbk"

/-- The name of a tutorial is another name with the extension `.qbk`, or has another extension. -/
def Named (base name : Str) : Prop := name = base ++ lit ".qbk" ∨ (name = base ∧ ¬ lit ".qbk" <:+ name)

/-- A listing of a directory has everything in it, once, in any order. -/
def Lists (d : Disk) (dir : Str) (names : List Str) : Prop :=
  names.Nodup ∧ ∀ n, n ∈ names ↔ d (dir, n) ≠ none

/-- No directory has the name of something that is generated. -/
structure NothingInTheWay (d : Disk) (dst doc base : Str) : Prop where
  headers : ∀ n, IsHeader n → d (dst, n) ≠ some .directory
  pages : ∀ n, IsPage n → d (doc, n) ≠ some .directory
  copies : ∀ n, IsCopy base n → d (doc, n) ≠ some .directory

/-- The content of a file. -/
def fileAt (d : Disk) (p : Path) : Option Str :=
  match d p with
  | some (.file t) => some t
  | _ => none

/-- The directory has the text as a file of that name. -/
def HasFile (d : Disk) (p : Path) (t : Str) : Prop := d p = some (.file t)

/-- A dictionary can be gone through in any order. -/
def AnyOrder (order : Files → Files) : Prop := ∀ fs, (order fs).Perm fs

end Metaparse.Gen
