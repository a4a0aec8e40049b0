import Verif.Model.GenerateAll

/-!
# `main` of `tools/generate_all.py`

What a run of the generator does to the files. All line numbers are those of `/repo/tools/generate_all.py`.

Simplifications: a path is the name of a directory and a name in it, two names of a directory and links are not
modelled; the only reasons for which removing or writing a file fails are that there is a directory of that name or, for
removing, nothing. The command line (lines 257-272) is left out, its values are given.
-/

namespace Metaparse.Gen

/-- What is at a path: a file with its content or a directory (lines 78-80 and 248-250). -/
inductive Entry
  | file (content : Str)
  | directory

/-- A directory and a name in it: `os.path.join` puts them together (lines 80, 97 and 131), `os.path.dirname` takes them
apart (line 277). -/
abbrev Path := Str × Str

/-- The files and directories there are (lines 78-80, 248-250 and 274). -/
abbrev Disk := Path → Option Entry

/-- Changes what is at a path (lines 80 and 249-250). -/
def Disk.set (d : Disk) (p : Path) (e : Option Entry) : Disk := fun q => if q = p then e else d q

/-- How something ends: what is on the disk then, and whether there was no exception (lines 77-80 and 248-254). -/
structure Outcome where
  disk : Disk
  fine : Bool

/-- One thing after the other: after an exception the rest is not done (lines 274-291). -/
def Outcome.next (o : Outcome) (f : Disk → Outcome) : Outcome := if o.fine then f o.disk else o

/-- `os.remove` (line 80). -/
def osRemove (d : Disk) (p : Path) : Outcome :=
  match d p with
  | some (.file _) => ⟨d.set p none, true⟩
  | _ => ⟨d, false⟩

/-- `delete_old_headers` (lines 77-80), for what `os.listdir` has returned. -/
def deleteOldHeaders (dst : Str) : Disk → List Str → Outcome
  | d, [] => ⟨d, true⟩
  | d, f :: fs =>
      if (lit ".hpp").isSuffixOf f then (osRemove d (dst, f)).next fun d => deleteOldHeaders dst d fs
      else deleteOldHeaders dst d fs

/-- `write_file` (lines 248-250). -/
def writeFile (d : Disk) (p : Path) (content : Str) : Outcome :=
  match d p with
  | some .directory => ⟨d, false⟩
  | _ => ⟨d.set p (some (.file content)), true⟩

/-- `write_files` (lines 252-254), for files of one directory in the order of the dictionary. -/
def writeFiles (dir : Str) : Disk → Files → Outcome
  | d, [] => ⟨d, true⟩
  | d, f :: fs => (writeFile d (dir, f.1) f.2).next fun d => writeFiles dir d fs

/-- The name of the tutorial without its extension (line 285). -/
def tutorialBase (name : Str) : Str := if (lit ".qbk").isSuffixOf name then name.take (name.length - 4) else name

/-- `main` (lines 274-291), for the source `name` in the directory `doc`. `listing` is what `os.listdir` returns for
`dst`, `none` if it raises an exception; `order` is the order in which Python goes through a dictionary (line 253). -/
def runMain (order : Files → Files) (dst doc name : Str) (listing : Option (List Str)) (d : Disk) : Outcome :=
  match d (doc, name), listing with
  | some (.file src), some names =>
      (deleteOldHeaders dst d names).next fun d =>
        match generate (tutorialBase name) src with
        | none => ⟨d, false⟩
        | some g =>
            (writeFiles dst d (order g.headers)).next fun d =>
            (writeFiles doc d (order g.before)).next fun d =>
            (writeFiles doc d (order g.snippets)).next fun d =>
            writeFile d (doc, name) g.text
  | _, _ => ⟨d, false⟩

end Metaparse.Gen
