import Verif.Spec.Outcome
/-!
# Texts of which only the beginning is known

A way to say what a parser looks at: it is given the beginning of a text, and looking beyond it does not compile.
-/

namespace Metaparse

/-- The beginning of a text as an input: looking beyond it is the compile error number `k`. -/
def beginning (k : Nat) : Input (List Chr) where
  isEmpty
    | [] => .ill (.user k)
    | _ :: _ => .ok false
  front
    | [] => .ill (.user k)
    | c :: _ => .ok c
  popFront
    | [] => .ill (.user k)
    | _ :: s => .ok s

/-- The second outcome is the first one, with `t` after what remains. -/
inductive Continues (t : List Chr) : Out (Res (List Chr)) → Out (Res (List Chr)) → Prop
  | acc (v : Val) (s : List Chr) (pos : Pos) : Continues t (.ok (.acc v s pos)) (.ok (.acc v (s ++ t) pos))
  | rej (m : Msg) (pos : Pos) : Continues t (.ok (.rej m pos)) (.ok (.rej m pos))
  | ill (f : Fault) : Continues t (.ill f) (.ill f)
  | deep : Continues t .deep .deep

/-- The environment `B` is `E` for beginnings of texts: the same implementation, limits and rules; the user's own
parsers and error functions do the same, or look beyond the beginning. -/
structure OnBeginnings (k : Nat) (B E : Env (List Chr)) : Prop where
  input : B.input = beginning k
  std : B.std = E.std
  limSequence : B.limSequence = E.limSequence
  limOneOf : B.limOneOf = E.limOneOf
  limOneCharExcept : B.limOneCharExcept = E.limOneCharExcept
  rules : ∀ i, B.rules i = E.rules i
  native : ∀ i w t pos, B.native i w pos = .ill (.user k) ∨ Continues t (B.native i w pos) (E.native i (w ++ t) pos)
  onError : ∀ i m pos t, Continues t (B.onError i m pos) (E.onError i m pos)

/-- Parsing the beginning `w` of a text looks beyond it. -/
def LooksBeyond (k : Nat) (B : Env (List Chr)) (p : P) (w : List Chr) (pos : Pos) : Prop :=
  run B p w pos = .ill (.user k)

end Metaparse
