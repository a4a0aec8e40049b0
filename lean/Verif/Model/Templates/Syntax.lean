import Verif.Model.Templates.Names
/-!
# Class templates: syntax

The part of C++ the headers of the library are written in: class templates with partial specialisations, base classes,
member typedefs, integral constants and member templates. There is no header to cite: this is the language, and the
headers are its programs (`Support.lean`, `Parsers.lean`).
-/

namespace Metaparse.Tmpl

/-- Operators of constant expressions (for example `one_char.hpp:35-39`). -/
inductive Op where
  | or | and | eq | ne | lt | le | add | sub | mul
  deriving DecidableEq

/-- The limits of C++98, that are defined as macros (`config.hpp`, `limit_sequence_size.hpp`, `limit_one_of_size.hpp`,
`limit_one_char_except_size.hpp`, `limit_string_size.hpp`). -/
structure Limits where
  sequence : Nat
  oneOf : Nat
  oneCharExcept : Nat
  string : Nat

/-- Which headers are used: those of C++11, or those of C++98 with limits
(`/repo/include/boost/metaparse/config.hpp:30-60`). -/
inductive Headers where
  | cpp11
  | cpp98 (l : Limits)

/-- What depends on the headers (for example `one_of.hpp:11-17`). -/
def Headers.pick {α : Type} (a : α) (b : Limits → α) : Headers → α
  | .cpp11 => a
  | .cpp98 l => b l

/-- The headers that are used (`/repo/include/boost/metaparse/config.hpp:30-60`). -/
class Lang where
  headers : Headers

/-- The headers of C++11. -/
@[reducible] def cpp11 : Lang := ⟨.cpp11⟩

/-- The headers of C++98 with limits. -/
@[reducible] def cpp98 (l : Limits) : Lang := ⟨.cpp98 l⟩

/-- Types and constants that are evaluated: a class is the class that encloses it, the name and the arguments
(for example `accept.hpp:18-30`). -/
inductive V where
  /-- encloses the classes of namespaces -/
  | root
  | num (n : Int)
  | cls (outer : V) (name : Id) (args : List V)
  /-- a metafunction class of the user, number `k` of the environment -/
  | fn (k : Nat)
  /-- a parser class of the user that is derived from another class, number `i` of the environment -/
  | rule (i : Nat)

/-- Types and constant expressions (for example `accept_when.hpp:43-51`). -/
inductive Tm where
  /-- a template parameter, or a typedef that comes before in the same class -/
  | var (x : Id)
  /-- `Ps...` in a list of arguments -/
  | spread (x : Id)
  /-- `(… Cs …)...` in a list of arguments -/
  | each (x : Id) (t : Tm)
  /-- `name<args>` for a class template of a namespace; `name` for a class -/
  | cls (name : Id) (args : List Tm)
  /-- the same for a class template whose last arguments may be left out -/
  | padded (name : Id) (args : List Tm)
  /-- `name<args>` for a member template of the `k`-th enclosing class -/
  | inner (k : Nat) (name : Id) (args : List Tm)
  /-- the name of the `k`-th enclosing class in it, without arguments -/
  | self (k : Nat)
  /-- `t::name` -/
  | mem (t : Tm) (name : Id)
  /-- `t::template name<args>` -/
  | memT (t : Tm) (name : Id) (args : List Tm)
  /-- a constant -/
  | num (n : Int)
  /-- an operator -/
  | op (o : Op) (a b : Tm)
  /-- `!a` -/
  | not (a : Tm)
  /-- `sizeof...(Ps)` -/
  | size (x : Id)
  /-- parameter number `i` of `BOOST_PP_ENUM_PARAMS(n, class x)` -/
  | nth (x : Id) (i : Nat)

/-- Arguments of specialisations (for example `cpp11/impl/is_none_c_impl.hpp:22-29`). -/
inductive Pat where
  | var (x : Id)
  /-- `Ps...` -/
  | pack (x : Id)
  /-- `BOOST_PP_ENUM_PARAMS(n, x)` -/
  | params (x : Id) (n : Nat)
  | num (n : Int)
  | cls (name : Id) (args : List Pat)

mutual
/-- The definition of a class template or of a specialisation of it: arguments, base classes and members. A class that is no
template has no arguments (for example `cpp11/impl/is_none_c_impl.hpp:22-29`). -/
inductive Spec where
  | mk (pats : List Pat) (bases : List Tm) (decls : List Decl)
/-- Members (for example `accept_when.hpp:24-53`). -/
inductive Decl where
  /-- a typedef or an integral constant -/
  | type (name : Id) (t : Tm)
  /-- a static assertion -/
  | assert (t : Tm)
  /-- a member template (or class) with its specialisations -/
  | tmpl (name : Id) (specs : List Spec)
end

/-- The arguments of a definition (for example `cpp11/impl/is_none_c_impl.hpp:26`). -/
def Spec.pats : Spec → List Pat | .mk p _ _ => p
/-- The base classes of a definition (for example `cpp11/impl/is_none_c_impl.hpp:26`). -/
def Spec.bases : Spec → List Tm | .mk _ b _ => b
/-- The members of a definition (for example `accept_when.hpp:24-53`). -/
def Spec.decls : Spec → List Decl | .mk _ _ d => d

end Metaparse.Tmpl
