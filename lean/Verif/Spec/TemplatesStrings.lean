import Verif.Spec.Templates
import Verif.Spec.Str
/-!
# Strings and iterators as classes

What the classes of strings, characters and iterators are, and which of the two models of strings the headers are compared
with.
-/

namespace Metaparse.Tmpl

open Metaparse (StrImpl StrIter str11 str98)

/-- The class `string<…>` with these template arguments. -/
def strV (a : List Int) : V := K .string (a.map .num)

/-- The class of a character. -/
def charV (c : Int) : V := K .mpl_char_ [.num c]

/-- The class of a number. -/
def intV (n : Int) : V := K .mpl_int_ [.num n]

/-- The class of a truth value. -/
def boolV (b : Bool) : V := K .mpl_bool_ [ofBool b]

/-- The class of an iterator. -/
def iterV (i : StrIter (List Int)) : V := K .impl_string_iterator [strV i.str, .num i.idx]

section
variable [L : Lang]

/-- The arguments of a class `string<…>`: any characters in C++11, as many as the limit in C++98 (which is at least two: with
one, the text of the headers is not C++). -/
def IsStr (a : List Int) : Prop := L.headers.pick True fun l => a.length = l.string ∧ 1 < l.string

/-- The model of strings for the headers. -/
def strImpl : StrImpl (List Int) := L.headers.pick str11 fun l => str98 l.string

/-- The characters are those of a string the headers can represent: in C++98 shorter than the limit, without
`BOOST_NO_CHAR`. -/
def Written (s : List Int) : Prop := L.headers.pick True fun l => Metaparse.Fits98 l.string s ∧ 1 < l.string

/-- A class with `T::type::value`. -/
def HasValue (U : User) (v : V) (c : Int) : Prop :=
  ∃ t, get (inst U) v .type = .ok t ∧ get (inst U) t .value = .ok (.num c)
end

/-- The class has the member `type`, and `f<>::apply<v>` has the same one. -/
def Gives (U : User) [Lang] (f : Id) (v : V) (r : Out V) : Prop :=
  get (inst U) (K f [v]) .type = r ∧ HasApply U (K f [K .mpl_na []]) (K f [K .mpl_na []]) ∧
    call U (K f [K .mpl_na []]) [v] = r

/-- An integral constant of MPL. -/
def IsNum (U : User) [Lang] (v : V) (n : Int) : Prop :=
  get (inst U) v .tag = .ok (K .mpl_integral_c_tag []) ∧ get (inst U) v .value = .ok (.num n)

end Metaparse.Tmpl
