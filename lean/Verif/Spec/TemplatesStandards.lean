/-
The same outcome with two kinds of headers.
-/
import Verif.Spec.Templates
import Verif.Spec.Agreement

namespace Metaparse

open Tmpl

/-- The outcomes of the two kinds of headers for the same parser: the same value, rest and position; a rejection at the same
position; ill-formed; without end. `a` is the encoding of results as classes for the one kind, `b` for the other. -/
inductive Alike {I : Type} (a b : Res I → V) : Out V → Out V → Prop
  | acc (v : Val) (s : I) (pos : Pos) : Alike a b (.ok (a (.acc v s pos))) (.ok (b (.acc v s pos)))
  | rej (m m' : Msg) (pos : Pos) : Alike a b (.ok (a (.rej m pos))) (.ok (b (.rej m' pos)))
  | ill (f f' : Fault) : Alike a b (.ill f) (.ill f')
  | deep : Alike a b .deep .deep

end Metaparse
