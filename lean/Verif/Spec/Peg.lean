import Verif.Spec.Chars
import Verif.Spec.Fold
import Verif.Spec.Sequences
/-!
# Parsing expression grammars

The definitions are those of Bryan Ford, "Parsing Expression Grammars: A Recognition-Based Syntactic
Foundation" (2004), with classes of characters as terminals.
-/

namespace Metaparse

/-- Parsing expressions: nothing, a character of a class, a rule of the grammar, `a b`, `a / b`, `a*`, `!a`. -/
inductive Peg where
  | empty
  | term (cls : Chr → Bool)
  | rule (i : Nat)
  | seq (a b : Peg)
  | alt (a b : Peg)
  | star (a : Peg)
  | not (a : Peg)

namespace Peg

/-- `Parses G e s o`: in the grammar `G`, the expression `e` applied to the text `s` fails (`o = none`) or
succeeds, and leaves the text `r` (`o = some r`). -/
inductive Parses (G : Nat → Peg) : Peg → List Chr → Option (List Chr) → Prop
  | empty (s : List Chr) : Parses G .empty s (some s)
  | term {cls : Chr → Bool} {c : Chr} (s : List Chr) : cls c = true → Parses G (.term cls) (c :: s) (some s)
  | termEnd (cls : Chr → Bool) : Parses G (.term cls) [] none
  | termOther {cls : Chr → Bool} {c : Chr} (s : List Chr) : cls c = false → Parses G (.term cls) (c :: s) none
  | rule {i : Nat} {s : List Chr} {o : Option (List Chr)} : Parses G (G i) s o → Parses G (.rule i) s o
  | seq {a b : Peg} {s r : List Chr} {o : Option (List Chr)} : Parses G a s (some r) → Parses G b r o →
      Parses G (.seq a b) s o
  | seqFails {a b : Peg} {s : List Chr} : Parses G a s none → Parses G (.seq a b) s none
  | first {a b : Peg} {s r : List Chr} : Parses G a s (some r) → Parses G (.alt a b) s (some r)
  | second {a b : Peg} {s : List Chr} {o : Option (List Chr)} : Parses G a s none → Parses G b s o →
      Parses G (.alt a b) s o
  | starMore {a : Peg} {s r : List Chr} {o : Option (List Chr)} : Parses G a s (some r) →
      Parses G (.star a) r o → Parses G (.star a) s o
  | starEnd {a : Peg} {s : List Chr} : Parses G a s none → Parses G (.star a) s (some s)
  | not {a : Peg} {s : List Chr} : Parses G a s none → Parses G (.not a) s (some s)
  | notFails {a : Peg} {s r : List Chr} : Parses G a s (some r) → Parses G (.not a) s none

/-- The same, except that the second alternative has to succeed or fail even if the first one succeeds. -/
inductive Tries (G : Nat → Peg) : Peg → List Chr → Option (List Chr) → Prop
  | empty (s : List Chr) : Tries G .empty s (some s)
  | term {cls : Chr → Bool} {c : Chr} (s : List Chr) : cls c = true → Tries G (.term cls) (c :: s) (some s)
  | termEnd (cls : Chr → Bool) : Tries G (.term cls) [] none
  | termOther {cls : Chr → Bool} {c : Chr} (s : List Chr) : cls c = false → Tries G (.term cls) (c :: s) none
  | rule {i : Nat} {s : List Chr} {o : Option (List Chr)} : Tries G (G i) s o → Tries G (.rule i) s o
  | seq {a b : Peg} {s r : List Chr} {o : Option (List Chr)} : Tries G a s (some r) → Tries G b r o →
      Tries G (.seq a b) s o
  | seqFails {a b : Peg} {s : List Chr} : Tries G a s none → Tries G (.seq a b) s none
  | first {a b : Peg} {s r : List Chr} {o : Option (List Chr)} : Tries G a s (some r) → Tries G b s o →
      Tries G (.alt a b) s (some r)
  | second {a b : Peg} {s : List Chr} {o : Option (List Chr)} : Tries G a s none → Tries G b s o →
      Tries G (.alt a b) s o
  | starMore {a : Peg} {s r : List Chr} {o : Option (List Chr)} : Tries G a s (some r) →
      Tries G (.star a) r o → Tries G (.star a) s o
  | starEnd {a : Peg} {s : List Chr} : Tries G a s none → Tries G (.star a) s (some s)
  | not {a : Peg} {s : List Chr} : Tries G a s none → Tries G (.not a) s (some s)
  | notFails {a : Peg} {s r : List Chr} : Tries G a s (some r) → Tries G (.not a) s none

/-! ## Well-formed grammars -/

/-- What an expression may do: succeed without consuming, consume and succeed, or fail. -/
inductive Effect where
  | nothing | consumes | fails

/-- `May G e x`: the structure of the grammar does not exclude that `e` does `x`. -/
inductive May (G : Nat → Peg) : Peg → Effect → Prop
  | empty : May G .empty .nothing
  | term (cls : Chr → Bool) : May G (.term cls) .consumes
  | termFails (cls : Chr → Bool) : May G (.term cls) .fails
  | rule {i : Nat} {x : Effect} : May G (G i) x → May G (.rule i) x
  | seqNothing {a b : Peg} {x : Effect} : May G a .nothing → May G b x → May G (.seq a b) x
  | seqConsumes {a b : Peg} : May G a .consumes → May G b .nothing → May G (.seq a b) .consumes
  | seqConsumes2 {a b : Peg} : May G a .consumes → May G b .consumes → May G (.seq a b) .consumes
  | seqFails {a b : Peg} : May G a .fails → May G (.seq a b) .fails
  | seqFails2 {a b : Peg} : May G a .consumes → May G b .fails → May G (.seq a b) .fails
  | firstNothing {a b : Peg} : May G a .nothing → May G (.alt a b) .nothing
  | firstConsumes {a b : Peg} : May G a .consumes → May G (.alt a b) .consumes
  | second {a b : Peg} {x : Effect} : May G a .fails → May G b x → May G (.alt a b) x
  | starConsumes {a : Peg} : May G a .consumes → May G (.star a) .consumes
  | starNothing {a : Peg} : May G a .fails → May G (.star a) .nothing
  | not {a : Peg} : May G a .fails → May G (.not a) .nothing
  | notFails {a : Peg} : May G a .nothing → May G (.not a) .fails
  | notFails2 {a : Peg} : May G a .consumes → May G (.not a) .fails

/-- `Good G e`: applying `e` does not get back to the same expression without consuming, and does not repeat
an expression that may consume nothing. -/
inductive Good (G : Nat → Peg) : Peg → Prop
  | empty : Good G .empty
  | term (cls : Chr → Bool) : Good G (.term cls)
  | rule {i : Nat} : Good G (G i) → Good G (.rule i)
  | seq {a b : Peg} : Good G a → (May G a .nothing → Good G b) → Good G (.seq a b)
  | alt {a b : Peg} : Good G a → Good G b → Good G (.alt a b)
  | star {a : Peg} : Good G a → ¬ May G a .nothing → Good G (.star a)
  | not {a : Peg} : Good G a → Good G (.not a)

/-- The direct parts of an expression. -/
def parts : Peg → List Peg
  | .seq a b => [a, b]
  | .alt a b => [a, b]
  | .star a => [a]
  | .not a => [a]
  | _ => []

/-- The expression and everything in it is good. -/
inductive WellFormed (G : Nat → Peg) : Peg → Prop
  | mk {e : Peg} : Good G e → (∀ a ∈ e.parts, WellFormed G a) → WellFormed G e

/-! ## Writing parsing expressions with the library -/

/-- `IsWritten E e p`: the parser `p` is one of the usual ways to write the parsing expression `e`. -/
inductive IsWritten (E : Env (List Chr)) : Peg → P → Prop
  | return_ (v : Val) : IsWritten E .empty (.ret v)
  /-- `lit_c`, `range_c`, `digit`, `one_char`, ... -/
  | char {p : P} {cls : Chr → Bool} {val : Chr → Val} {m0 m1 : Msg} : CharParser E p cls val m0 m1 →
      IsWritten E (.term cls) p
  /-- the parser `empty` -/
  | endOfInput (v : Val) : IsWritten E (.not (.term fun _ => true)) (.empty v)
  | rule (i : Nat) : IsWritten E (.rule i) (.ref i)
  | sequence {a b : Peg} {p q : P} : IsWritten E a p → IsWritten E b q → IsWritten E (.seq a b) (.sequence [p, q])
  | firstOf {a b : Peg} {p q : P} : IsWritten E a p → IsWritten E b q →
      IsWritten E (.seq a b) (.firstOf [p, q])
  | lastOf {a b : Peg} {p q : P} : IsWritten E a p → IsWritten E b q → IsWritten E (.seq a b) (.lastOf [p, q])
  | oneOf {a b : Peg} {p q : P} : IsWritten E a p → IsWritten E b q → IsWritten E (.alt a b) (.oneOf [p, q])
  /-- `foldl` with an operation that always gives a value, for example `repeated` -/
  | foldl {a : Peg} {p : P} {op : Val → Val → Val} {st x : Val} (K : Val → Prop) : IsWritten E a p →
      NeverFails K op → st.force = .ok x → K x → IsWritten E (.star a) (.foldl p st op)
  /-- `foldl1` with an operation that always gives a value, for example `repeated1` -/
  | foldl1 {a : Peg} {p : P} {op : Val → Val → Val} {st x : Val} (K : Val → Prop) : IsWritten E a p →
      NeverFails K op → st.force = .ok x → K x → IsWritten E (.seq a (.star a)) (.foldl1 p st op)
  | except {a : Peg} {p : P} (v : Val) (m : Msg) : IsWritten E a p → IsWritten E (.not a) (.except p v m)
  | lookAhead {a : Peg} {p : P} : IsWritten E a p → IsWritten E (.not (.not a)) (.lookAhead p)
  | optional {a : Peg} {p : P} (v : Val) : IsWritten E a p → IsWritten E (.alt a .empty) (.optional p v)
  | always {a : Peg} {p : P} (v : Val) : IsWritten E a p → IsWritten E a (.always p v)
  | transform {a : Peg} {p : P} {f : Val → Val} : IsWritten E a p → (∀ v, ∃ w, (f v).force = .ok w) →
      IsWritten E a (.transform p f)
  | changeErrorMessage {a : Peg} {p : P} (m : Msg) : IsWritten E a p → IsWritten E a (.changeErrorMessage p m)

/-- Texts are parsed, and two parsers can be put together with `sequence`, `nth_of` and `one_of` (which in C++98
depends on the limits). -/
structure Supports (E : Env (List Chr)) : Prop where
  onText : E.OnText
  seq : E.SupportsSequence 2
  nth : E.SupportsNth 2
  oneOf : E.SupportsOneOf 2

end Peg

end Metaparse
