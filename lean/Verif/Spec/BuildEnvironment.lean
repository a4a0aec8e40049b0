import Verif.Model.BuildEnvironment
/-!
# What is expected of git and of `tools/build_environment.py`
-/

namespace Metaparse.BuildEnv

open Gen (Str lit)

/-- What a git that works does: `head` is the commit of a repository in a directory, `tip` what it knows about a reference and
`remote` what the reference is elsewhere. Nothing is said about commands that fail, and about other commands. -/
structure Works {σ : Type} (g : Git σ) (cmd : List Str) (head : σ → Str → Str) (tip : σ → Str → Str → Option Str)
    (remote : Str → Str → Option Str) : Prop where
  /-- `checkout` changes the commit of its own directory, and of no other. -/
  checkout : ∀ w d c out w', g.exec w d (cmd ++ [lit "checkout", c]) = (some out, w') →
    head w' d = c ∧ ∀ d', d' ≠ d → head w' d' = head w d'
  /-- After `fetch` the tips are those of the remote repository. -/
  fetch : ∀ w d out w', g.exec w d (cmd ++ [lit "fetch"]) = (some out, w') → ∀ r, tip w' d r = remote d r
  /-- `show-ref` prints the commit first. -/
  showRef : ∀ w d r out w', g.exec w d (cmd ++ [lit "show-ref", r]) = (some out, w') →
    ∃ c rest, tip w d r = some c ∧ c ≠ [] ∧ (∀ x ∈ c, isSpace x = false) ∧ out = c ++ ' ' :: rest

/-- The characters that are modelled. -/
def Text (s : Str) : Prop := ∀ c ∈ s, c.toNat < 65536

/-- A dictionary of texts. -/
def Dict (d : List (Str × Str)) : Prop := (d.map Prod.fst).Nodup ∧ ∀ x ∈ d, Text x.1 ∧ Text x.2

/-- Directories inside of the repository. -/
def Relative (d : List (Str × Str)) : Prop := ∀ x ∈ d, x.1.head? ≠ some '/'

/-- The names that a path goes through; `cur` is the beginning of a name. -/
def names : Str → Str → List Str
  | cur, [] => if cur = [] then [] else [cur]
  | cur, c :: p => if c = '/' then (if cur = [] then [] else [cur]) ++ names [] p else names (cur ++ [c]) p

end Metaparse.BuildEnv
