/-
What the preprocessor makes of the headers of the library.

A header is read line by line: `#include`, `#if`, `#define`, `#undef`, `#error` and, between them, pieces of
text that reach the compiler.  Of the text only the names of the library are kept: those it declares, defines
and mentions, and the macros of the library it expands.  The headers themselves are in
`Verif/Model/InclusionData.lean`, written by `translate/headers.py`.

Simplified: the headers of Boost and of the standard library are not read.  Including one may or may not bring
in Boost.Config (`Env.pulls`); it does nothing else to the macros and the names of the library.  The text that a
macro of the library puts in place of its name is looked at where the name is expanded.
-/

namespace Metaparse.Inclusion

/-- A macro that a condition looks at (`include/boost/metaparse/config.hpp` lines 18–62): one of the library, one
of the compiler (`__GNUC__`) or one of Boost.Config (`BOOST_NO_CXX11_CONSTEXPR`). -/
inductive Ref where
  | own (m : Nat)
  | compiler (m : Nat)
  | config (m : Nat)
  deriving DecidableEq

/-- The conditions of `#if`, `#ifdef`, `#ifndef` and `#elif` (`include/boost/metaparse/config.hpp` lines 18–62,
`v1/cpp11/string.hpp` lines 210–211, `v1/cpp11/impl/string.hpp` lines 35–53). -/
inductive Expr where
  | num (n : Nat)
  | val (r : Ref)
  | defd (r : Ref)
  | feature (f : Nat)
  | not (e : Expr)
  | and (a b : Expr)
  | or (a b : Expr)
  | lt (a b : Expr)
  | ge (a b : Expr)
  | gt (a b : Expr)
  | eq (a b : Expr)

/-- What a piece of text does with a name of the library: declare it, define it, mention it; or expand a macro of
the library (all of `include/`) (for example `include/boost/metaparse/v1/repeated.hpp` lines 20-21). -/
inductive Ev where
  | declare (n : Nat)
  | defn (n : Nat)
  | use (n : Nat)
  | expand (m : Nat)
  deriving DecidableEq

/-- The lines of a header (all of `include/`).  `external x` includes a header of others; number 0 is
`boost/config.hpp`.  `define m v ms ns` is `#define m v`; `ms` and `ns` are the macros
and the names of the library in its replacement. -/
inductive Prog where
  | done
  | incl (h : Nat) (k : Prog)
  | external (x : Nat) (k : Prog)
  | cond (e : Expr) (t f k : Prog)
  | define (m : Nat) (v : Option Nat) (ms ns : List Nat) (k : Prog)
  | undef (m : Nat) (k : Prog)
  | error (text : String)
  | text (evs : List Ev) (k : Prog)

/-- A header: the lines before its guard, the guard (`#ifndef` and `#define` of the same macro, down to the last
line) and the lines inside (for example `include/boost/metaparse/string.hpp` lines 6–28). -/
structure Header where
  path : List String
  pre : Prog
  guard : Option Nat
  body : Prog

/-- A macro of the library that is defined: its value, when that is a number, and what its replacement needs
(`include/boost/metaparse/v1/cpp11/impl/string.hpp` lines 56–2123). -/
structure Macro where
  value : Option Nat
  macros : List Nat
  names : List Nat

/-- What the library finds: the macros of the compiler and of Boost.Config with their values, the extensions of
the compiler, and which headers of others include Boost.Config
(`include/boost/metaparse/config.hpp` lines 10–48). -/
structure Env where
  compiler : Nat → Option (Option Nat)
  config : Nat → Option (Option Nat)
  feature : Nat → Bool
  pulls : Nat → Bool

/-- The state of the preprocessor: the macros of the library, whether Boost.Config has been included, and what has
reached the compiler, the latest first (`include/boost/metaparse/config.hpp` lines 1–71). -/
structure State where
  mac : Nat → Option Macro
  config : Bool
  seen : List Ev

/-- What stops the preprocessor: `#error`, an expression that has no value, a macro that is defined again or
expanded without being there, a header that does not exist, too many levels of inclusion
(all of `include/`; for example `v1/cpp11/impl/string.hpp` lines 45–55). -/
inductive Fault where
  | error (text : String)
  | expression
  | redefined (m : Nat)
  | notDefined (m : Nat)
  | missing (h : Nat)
  | nested
  deriving DecidableEq

/-- A macro in a condition: not there, there without a number, there with a number
(`include/boost/metaparse/config.hpp` lines 18–62). -/
def look (env : Env) (s : State) : Ref → Option (Option Nat)
  | .own m => (s.mac m).map (·.value)
  | .compiler m => env.compiler m
  | .config m => if s.config then env.config m else none

/-- The value of a condition; none when it is ill-formed.  A macro that is not defined counts as 0
(`include/boost/metaparse/config.hpp` lines 18–62). -/
def value (look : Ref → Option (Option Nat)) (feature : Nat → Bool) : Expr → Option Nat
  | .num n => some n
  | .val r => match look r with
    | none => some 0
    | some v => v
  | .defd r => some (if (look r).isSome then 1 else 0)
  | .feature f => some (if feature f then 1 else 0)
  | .not e => (value look feature e).map fun v => if v = 0 then 1 else 0
  | .and a b => do
    let x ← value look feature a
    let y ← value look feature b
    return if x ≠ 0 ∧ y ≠ 0 then 1 else 0
  | .or a b => do
    let x ← value look feature a
    let y ← value look feature b
    return if x ≠ 0 ∨ y ≠ 0 then 1 else 0
  | .lt a b => do
    let x ← value look feature a
    let y ← value look feature b
    return if x < y then 1 else 0
  | .ge a b => do
    let x ← value look feature a
    let y ← value look feature b
    return if y ≤ x then 1 else 0
  | .gt a b => do
    let x ← value look feature a
    let y ← value look feature b
    return if y < x then 1 else 0
  | .eq a b => do
    let x ← value look feature a
    let y ← value look feature b
    return if x = y then 1 else 0

/-- `#define` and `#undef` (all of `include/`; for example `v1/sequence_apply.hpp` lines 24–76). -/
def State.set (s : State) (m : Nat) (d : Option Macro) : State :=
  { s with mac := fun m' => if m' = m then d else s.mac m' }

/-- A piece of text goes to the compiler (all of `include/`)
(for example `include/boost/metaparse/v1/repeated.hpp` lines 14-24). -/
def readText : List Ev → State → Except Fault State
  | [], s => .ok s
  | .expand m :: es, s => if (s.mac m).isSome then readText es s else .error (.notDefined m)
  | e :: es, s => readText es { s with seen := e :: s.seen }

/-- The lines of a header, with `inc` for the headers it includes (all of `include/`)
(for example `include/boost/metaparse/v1/repeated.hpp` lines 1-26). -/
def exec (env : Env) (inc : Nat → State → Except Fault State) : Prog → State → Except Fault State
  | .done, s => .ok s
  | .incl h k, s => match inc h s with
    | .ok s => exec env inc k s
    | .error e => .error e
  | .external x k, s =>
    exec env inc k { s with config := s.config || x = 0 || env.pulls x }
  | .cond e t f k, s => match value (look env s) env.feature e with
    | none => .error .expression
    | some v => match if v ≠ 0 then exec env inc t s else exec env inc f s with
      | .ok s => exec env inc k s
      | .error e => .error e
  | .define m v ms ns k, s =>
    if (s.mac m).isSome then .error (.redefined m) else exec env inc k (s.set m (some ⟨v, ms, ns⟩))
  | .undef m k, s => exec env inc k (s.set m none)
  | .error text, _ => .error (.error text)
  | .text evs k, s => match readText evs s with
    | .ok s => exec env inc k s
    | .error e => .error e

/-- A header: the lines before the guard; then, unless the macro of the guard is there, its definition and the
rest (for example `include/boost/metaparse/string.hpp` lines 6–28). -/
def Header.run (env : Env) (inc : Nat → State → Except Fault State) (h : Header) (s : State) :
    Except Fault State :=
  match exec env inc h.pre s with
  | .error e => .error e
  | .ok s => match h.guard with
    | none => .ok s
    | some g => exec env inc (.cond (.not (.defd (.own g))) (.define g none [] [] h.body) .done .done) s

/-- `#include` of a header of the library, at most so many levels deep (all of `include/`)
(for example `include/boost/metaparse/v1/repeated.hpp` lines 9-12). -/
def includes (hs : List Header) (env : Env) : Nat → Nat → State → Except Fault State
  | 0, _, _ => .error .nested
  | n + 1, h, s => match hs[h]? with
    | none => .error (.missing h)
    | some hd => hd.run env (includes hs env n) s

/-- A file of the user that includes headers of the library, one after the other (`doc/`: the first lines of
every example).  256 is the number of levels of inclusion that the standard asks of a compiler. -/
def includeAll (hs : List Header) (env : Env) : List Nat → State → Except Fault State
  | [], s => .ok s
  | h :: rest, s => match includes hs env 256 h s with
    | .ok s => includeAll hs env rest s
    | .error e => .error e

end Metaparse.Inclusion
