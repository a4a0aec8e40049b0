/-
What a user expects of the headers of the library, without looking at how they include each other.
-/
import Verif.Model.Inclusion

namespace Metaparse.Inclusion

/-- The name has been declared. -/
def Declared (seen : List Ev) (n : Nat) : Prop := Ev.declare n ∈ seen ∨ Ev.defn n ∈ seen

/-- The compiler accepts what it has read (the latest first): every name of the library that it meets has been
declared before, and nothing is defined twice. -/
def Accepted : List Ev → Prop
  | [] => True
  | .use n :: before => Declared before n ∧ Accepted before
  | .defn n :: before => Ev.defn n ∉ before ∧ Accepted before
  | _ :: before => Accepted before

/-- The headers that are there for the user: not those of one standard, and not those of the implementation. -/
def isPublic (h : Header) : Bool := h.path.all fun c => !["cpp98", "cpp11", "cpp14", "impl"].contains c

/-- The name that a header is called after (`boost/metaparse/v1/one_of.hpp` is there for
`boost::metaparse::v1::one_of`, and so is the header of the same name in a directory `fwd`), or the family of that
name. -/
def CalledAfter (path : List String) (x : String) : Prop :=
  ∃ y, y ++ ".hpp" = "::".intercalate (path.filter (· ≠ "fwd")) ∧ (x = y ∨ x = y ++ "#")

/-- The headers that are not called after a name. -/
def unnamed : List (List String) :=
  [["boost", "metaparse.hpp"], ["boost", "metaparse", "config.hpp"], ["boost", "metaparse", "limit_string_size.hpp"],
    ["boost", "metaparse", "limit_sequence_size.hpp"], ["boost", "metaparse", "limit_one_of_size.hpp"],
    ["boost", "metaparse", "limit_one_char_except_size.hpp"], ["boost", "metaparse", "v1", "define_error.hpp"],
    ["boost", "metaparse", "define_error.hpp"], ["boost", "metaparse", "version.hpp"],
    ["boost", "metaparse", "v1", "string_value.hpp"], ["boost", "metaparse", "string_value.hpp"]]

/-- The headers that mention a template which they declare without defining it. -/
def leftUndefined : List (List String × String) :=
  [(["boost", "metaparse", "v1", "debug_parsing_error.hpp"], "boost::metaparse::v1::build_parser"),
    (["boost", "metaparse", "debug_parsing_error.hpp"], "boost::metaparse::v1::build_parser"),
    (["boost", "metaparse", "v1", "source_position_tag.hpp"], "boost::metaparse::v1::source_position"),
    (["boost", "metaparse", "source_position_tag.hpp"], "boost::metaparse::v1::source_position")]

/-- The headers that are there for a macro. -/
def offers : List (List String × String) :=
  [(["boost", "metaparse", "config.hpp"], "BOOST_METAPARSE_STD"),
    (["boost", "metaparse", "limit_string_size.hpp"], "BOOST_METAPARSE_LIMIT_STRING_SIZE"),
    (["boost", "metaparse", "limit_sequence_size.hpp"], "BOOST_METAPARSE_LIMIT_SEQUENCE_SIZE"),
    (["boost", "metaparse", "limit_one_of_size.hpp"], "BOOST_METAPARSE_LIMIT_ONE_OF_SIZE"),
    (["boost", "metaparse", "limit_one_char_except_size.hpp"], "BOOST_METAPARSE_LIMIT_ONE_CHAR_EXCEPT_SIZE"),
    (["boost", "metaparse", "v1", "define_error.hpp"], "BOOST_METAPARSE_V1_DEFINE_ERROR"),
    (["boost", "metaparse", "define_error.hpp"], "BOOST_METAPARSE_DEFINE_ERROR"),
    (["boost", "metaparse", "version.hpp"], "BOOST_METAPARSE_VERSION"),
    (["boost", "metaparse", "string.hpp"], "BOOST_METAPARSE_STRING"),
    (["boost", "metaparse", "string_value.hpp"], "BOOST_METAPARSE_STRING_VALUE")]

/-- Those that are there for a macro when the standard is C++11. -/
def offers11 : List (List String × String) :=
  [(["boost", "metaparse", "v1", "string.hpp"], "BOOST_METAPARSE_V1_STRING"),
    (["boost", "metaparse", "v1", "string_value.hpp"], "BOOST_METAPARSE_V1_STRING_VALUE")]

/-- The macros that the user may define before including a header. -/
def settable : List String :=
  ["BOOST_METAPARSE_STD", "BOOST_METAPARSE_LIMIT_STRING_SIZE", "BOOST_METAPARSE_LIMIT_SEQUENCE_SIZE",
    "BOOST_METAPARSE_LIMIT_ONE_OF_SIZE", "BOOST_METAPARSE_LIMIT_ONE_CHAR_EXCEPT_SIZE"]

/-- The macros of others that have a number as their value, when they are there. -/
def numeric : List String := ["__clang__", "__GNUC__", "__GNUC_MINOR__", "_MSC_VER", "BOOST_GCC"]

/-- Before the first header of the library: nothing of the library is there, except for macros that the user has
set to a number; the strings are not longer than 2048 characters.  `macros`, `compiler` and `config` are the names
of the macros. -/
structure Ready (macros compiler config : List String) (env : Env) (s : State) : Prop where
  unseen : s.seen = []
  unset : ∀ m d, s.mac m = some d →
    (∃ x ∈ settable, macros[m]? = some x) ∧ (∃ v, d = ⟨some v, [], []⟩)
  short : ∀ m v, macros[m]? = some "BOOST_METAPARSE_LIMIT_STRING_SIZE" → s.mac m = some ⟨some v, [], []⟩ → v ≤ 2048
  compilerNumbers : ∀ m x, compiler[m]? = some x → x ∈ numeric → env.compiler m ≠ some none
  configNumbers : ∀ m x, config[m]? = some x → x ∈ numeric → env.config m ≠ some none

/-- A macro that is there. -/
def there (names : List String) (f : Nat → Option (Option Nat)) (x : String) : Bool :=
  (f (names.idxOf x)).isSome

/-- The value of a macro. -/
def number (names : List String) (f : Nat → Option (Option Nat)) (x : String) : Nat :=
  ((f (names.idxOf x)).getD (some 0)).getD 0

/-- The compiler has what the version of the library for C++11 needs. -/
def hasCpp11 (compiler config : List String) (env : Env) : Bool :=
  !there config env.config "BOOST_NO_CXX11_VARIADIC_TEMPLATES" &&
  !there config env.config "BOOST_NO_VARIADIC_TEMPLATES" &&
  ((!there config env.config "BOOST_NO_CONSTEXPR" && !there config env.config "BOOST_NO_CXX11_CONSTEXPR") ||
    1900 ≤ number compiler env.compiler "_MSC_VER") &&
  (!there config env.config "BOOST_GCC" || 40700 ≤ number config env.config "BOOST_GCC")

/-- The standard that the library is used for: the one the user asks for or the one the compiler has. -/
def standard (macros compiler config : List String) (env : Env) (s : State) : Nat :=
  match s.mac (macros.idxOf "BOOST_METAPARSE_STD") with
  | some d => d.value.getD 0
  | none =>
    if hasCpp11 compiler config env then
      if there config env.config "BOOST_NO_CXX14_CONSTEXPR" then 2011 else 2014
    else 1998

/-- The pieces of text in the lines of a header; every piece begins with its own number. -/
def pieces : Prog → List Nat
  | .done => []
  | .incl _ k => pieces k
  | .external _ k => pieces k
  | .cond _ t f k => pieces t ++ pieces f ++ pieces k
  | .define _ _ _ _ k => pieces k
  | .undef _ k => pieces k
  | .error _ => []
  | .text (.defn n :: _) k => n :: pieces k
  | .text _ k => pieces k

/-- The macros that the lines of a header undefine. -/
def undefs : Prog → List Nat
  | .done => []
  | .incl _ k => undefs k
  | .external _ k => undefs k
  | .cond _ t f k => undefs t ++ undefs f ++ undefs k
  | .define _ _ _ _ k => undefs k
  | .undef m k => m :: undefs k
  | .error _ => []
  | .text _ k => undefs k

/-- Everything in the replacement of the macro is there. -/
def Complete (s : State) (d : Macro) : Prop :=
  (∀ m ∈ d.macros, (s.mac m).isSome) ∧ ∀ n ∈ d.names, Declared s.seen n

end Metaparse.Inclusion
