import Verif.Model.GenerateAll
/-!
# `tools/build_environment.py`

What the script does with git and with its file, for any git. Line numbers are those of
`/repo/tools/build_environment.py`.

Simplifications: texts are lists of characters below 65536. The file is only written by the script, not by git. The
dictionary that `json.load` gives is enumerated in some order (Python 2 does not define it): the order is a parameter.
Of JSON only objects of strings are read: anything else in the file is an exception here. Left out: `main` (the command
line) and what is printed.
-/

namespace Metaparse.BuildEnv

open Gen (Str lit)

/-! ### JSON: objects of strings -/

/-- A digit of `{0:04x}` of the `json` module of Python (line 66). -/
def hexChar (n : Nat) : Char := if n < 10 then Char.ofNat (48 + n) else Char.ofNat (87 + n)

/-- One character of a string in `json.dumps` (line 66), which escapes all but the printable characters of ASCII. -/
def escape (c : Char) : Str :=
  if c = '"' then lit "\\\"" else if c = '\\' then lit "\\\\"
  else if ' ' ≤ c ∧ c ≤ '~' then [c]
  else if c = '\n' then lit "\\n" else if c = '\r' then lit "\\r" else if c = '\t' then lit "\\t"
  else if c.toNat = 8 then lit "\\b" else if c.toNat = 12 then lit "\\f"
  else lit "\\u" ++ [hexChar (c.toNat / 4096 % 16), hexChar (c.toNat / 256 % 16), hexChar (c.toNat / 16 % 16),
    hexChar (c.toNat % 16)]

/-- A string in `json.dumps` (line 66). -/
def quote (s : Str) : Str := '"' :: (s.flatMap escape ++ ['"'])

/-- A key and its value in `json.dumps(…, indent=2)` (lines 66-73). -/
def item (x : Str × Str) : Str := quote x.1 ++ lit ": " ++ quote x.2

/-- Keys are compared by the numbers of their characters (line 71). -/
def keyLe : Str → Str → Bool
  | [], _ => true
  | _ :: _, [] => false
  | a :: s, b :: t => decide (a.toNat < b.toNat) || (a.toNat == b.toNat && keyLe s t)

/-- `json.dumps(…, sort_keys=True, indent=2)` (lines 66-73). Python 2 ends the lines with `, `. -/
def dumps (d : List (Str × Str)) : Str :=
  if d.isEmpty then lit "{}"
  else lit "{\n  " ++ (lit ", \n  ").intercalate ((d.mergeSort fun x y => keyLe x.1 y.1).map item) ++ lit "\n}"

/-- The value of a digit of `\uXXXX` (line 56). -/
def hexVal (c : Char) : Option Nat :=
  if '0' ≤ c ∧ c ≤ '9' then some (c.toNat - 48)
  else if 'a' ≤ c ∧ c ≤ 'f' then some (c.toNat - 87)
  else if 'A' ≤ c ∧ c ≤ 'F' then some (c.toNat - 55) else none

/-- The rest of a string after its `"`, in `json.load` (line 16). -/
def readString : Str → Option (Str × Str)
  | '"' :: t => some ([], t)
  | '\\' :: 'u' :: a :: b :: c :: d :: t =>
      match hexVal a, hexVal b, hexVal c, hexVal d with
      | some a, some b, some c, some d =>
          (readString t).map fun r => (Char.ofNat (4096 * a + 256 * b + 16 * c + d) :: r.1, r.2)
      | _, _, _, _ => none
  | '\\' :: e :: t =>
      (if e = '"' then some '"' else if e = '\\' then some '\\' else if e = '/' then some '/'
        else if e = 'n' then some '\n' else if e = 'r' then some '\r' else if e = 't' then some '\t'
        else if e = 'b' then some (Char.ofNat 8) else if e = 'f' then some (Char.ofNat 12) else none).bind fun c =>
      (readString t).map fun r => (c :: r.1, r.2)
  | ['\\'] => none
  | c :: t => if c.toNat < 32 then none else (readString t).map fun r => (c :: r.1, r.2)
  | [] => none

/-- White space in `json.load` (line 16). -/
def skip : Str → Str
  | c :: t => if c = ' ' ∨ c = '\n' ∨ c = '\r' ∨ c = '\t' then skip t else c :: t
  | [] => []

/-- A key, a `:` and a value in `json.load` (line 16). -/
def readItem (s : Str) : Option ((Str × Str) × Str) :=
  match skip s with
  | '"' :: t => (readString t).bind fun k =>
      match skip k.2 with
      | ':' :: t => match skip t with
          | '"' :: t => (readString t).map fun v => ((k.1, v.1), v.2)
          | _ => none
      | _ => none
  | _ => none

/-- The items of an object in `json.load` (line 16), after its `{`. There are not more items than characters. -/
def readItems : Nat → Str → Option (List (Str × Str) × Str)
  | 0, _ => none
  | n + 1, s => (readItem s).bind fun x =>
      match skip x.2 with
      | ',' :: t => (readItems n t).map fun r => (x.1 :: r.1, r.2)
      | '}' :: t => some ([x.1], t)
      | _ => none

/-- The items of a dictionary: the last one of a key counts (lines 56 and 67-70). -/
def lastOnes : List (Str × Str) → List (Str × Str)
  | [] => []
  | x :: l => if (l.map Prod.fst).contains x.1 then lastOnes l else x :: lastOnes l

/-- `load_json` (lines 14-16) of an object of strings. -/
def loads (s : Str) : Option (List (Str × Str)) :=
  match skip s with
  | '{' :: t => match skip t with
      | '}' :: u => if skip u = [] then some [] else none
      | _ => (readItems t.length t).bind fun r => if skip r.2 = [] then some (lastOnes r.1) else none
  | _ => none

/-! ### Running git -/

/-- Any git: what a command does with the state of the world when it runs in a directory, and what it prints; nothing if it
exits with another value than 0 (`subprocess.Popen`, lines 27-33). -/
structure Git (σ : Type) where
  exec : σ → (dir : Str) → (args : List Str) → Option Str × σ

/-- What the script works on: the world, the contents of `submodules_file` and the commands that were run so far
(lines 55-78). -/
structure State (σ : Type) where
  world : σ
  file : Str
  log : List (Str × List Str)

/-- A piece of the script, with Python's rules for exceptions: it gives a value or raises an exception (lines 24-41). -/
def Act (σ α : Type) : Type := State σ → Option α × State σ

/-- One after the other, unless there is an exception (lines 55-78). -/
def Act.bind {σ α β : Type} (a : Act σ α) (f : α → Act σ β) : Act σ β := fun s =>
  match a s with
  | (some x, s') => f x s'
  | (none, s') => (none, s')

/-- An instance for the definition above. (lines 55-78) -/
instance {σ : Type} : Monad (Act σ) where
  pure x := fun s => (some x, s)
  bind := Act.bind

/-- `ChildProcess` (lines 19-22): the command and the directory it runs in. -/
structure ChildProcess where
  cmd : List Str
  cwd : Str

/-- `raise` (lines 36-41 and 78) -/
def raised {σ α : Type} : Act σ α := fun s => (none, s)

/-- `ChildProcess.run` (lines 24-41) -/
def ChildProcess.run {σ : Type} (g : Git σ) (p : ChildProcess) (args : List Str) : Act σ Str := fun s =>
  let r := g.exec s.world p.cwd (p.cmd ++ args)
  (r.1, { s with world := r.2, log := s.log ++ [(p.cwd, p.cmd ++ args)] })

/-- `os.path.join` (line 47) on POSIX. -/
def join (a b : Str) : Str :=
  if b.head? = some '/' then b else if a = [] ∨ a.getLast? = some '/' then a ++ b else a ++ '/' :: b

/-- `ChildProcess.in_dir` (lines 43-44) -/
def ChildProcess.inDir (p : ChildProcess) (cwd : Str) : ChildProcess := ⟨p.cmd, cwd⟩

/-- `ChildProcess.in_subdir` (lines 46-47) -/
def ChildProcess.inSubdir (p : ChildProcess) (d : Str) : ChildProcess := p.inDir (join p.cwd d)

/-- The spaces of `str.split` (line 52). -/
def isSpace (c : Char) : Bool := c = ' ' || (9 ≤ c.toNat && c.toNat ≤ 13)

/-- `s.split()[0]` (line 52): an exception if there is no word. -/
def firstWord (s : Str) : Option Str :=
  match (s.dropWhile isSpace).takeWhile fun c => !isSpace c with
  | [] => none
  | w => some w

/-- `head_of_master` (lines 50-52) -/
def headOfMaster {σ : Type} (g : Git σ) (p : ChildProcess) (ref : Str) : Act σ Str := do
  let _ ← p.run g [lit "fetch"]
  let out ← p.run g [lit "show-ref", ref]
  match firstWord out with
  | some w => pure w
  | none => raised

/-- `open(submodules_file, 'w')` and `f.write` (lines 65-66): the file is replaced. -/
def write {σ : Type} (t : Str) : Act σ Unit := fun s => (some (), { s with file := t })

/-- `load_json(submodules_file)` (line 56) -/
def load {σ : Type} : Act σ (List (Str × Str)) := fun s => (loads s.file, s)

/-- The list comprehension (lines 67-70). -/
def heads {σ : Type} (g : Git σ) (p : ChildProcess) (ref : Str) : List (Str × Str) → Act σ (List (Str × Str))
  | [] => pure []
  | x :: l => do
      let h ← headOfMaster g (p.inSubdir x.1) ref
      let r ← heads g p ref l
      pure ((x.1, h) :: r)

/-- The loop of `checkout` (lines 75-76). -/
def checkouts {σ : Type} (g : Git σ) (p : ChildProcess) : List (Str × Str) → Act σ Unit
  | [] => pure ()
  | x :: l => do
      let _ ← (p.inSubdir x.1).run g [lit "checkout", x.2]
      checkouts g p l

/-- `build_environment` (lines 55-78). `order` is the order in which the dictionary is enumerated. With `update` the file is
opened for writing, which empties it, before the first `git fetch`. -/
def buildEnvironment {σ : Type} (g : Git σ) (order : List (Str × Str) → List (Str × Str)) (outDir : Str) (git : ChildProcess)
    (repo action ref : Str) : Act σ Unit := do
  let submodules ← load
  let _ ← git.run g [lit "clone", repo, outDir]
  let _ ← (git.inDir outDir).run g
    ([lit "submodule", lit "init", lit "--"] ++ ((order submodules).map Prod.fst).filter fun k => k ≠ [])
  let _ ← (git.inDir outDir).run g [lit "submodule", lit "update"]
  if action = lit "update" then do
    write []
    let d ← heads g (git.inDir outDir) ref (order submodules)
    write (dumps d)
  else if action = lit "checkout" then checkouts g (git.inDir outDir) (order submodules)
  else raised

end Metaparse.BuildEnv
