import Verif.Model.GenerateAll
import Verif.Model.Str
/-!
# `tools/string_headers.py`: the text that is generated

Line numbers are those of `/repo/tools/string_headers.py`. Texts are lists of characters. `math.log(512, 2)` is 9. Left out:
the command line and the name of the file (lines 118-124, 278-345), and the branch of `define_macro` for
`undefine=True`, which is not used.
-/

namespace Metaparse.StrHdr

open Gen (Str lit number)

/-- `sep.join(l)` of Python (`/repo/tools/string_headers.py:101`, `154`, `192-195` and `267`). -/
def join (sep : Str) : List Str → Str
  | [] => []
  | [x] => x
  | x :: y :: l => x ++ sep ++ join sep (y :: l)

/-- `Namespace.prefix` (lines 38-43) -/
def nsPrefix (depth : Nat) : Str := (List.replicate depth (lit "  ")).flatten

/-- The loop of `Namespace.begin` (lines 28-31), from the given depth. -/
def nsBeginFrom : Nat → List Str → Str
  | _, [] => []
  | d, n :: ns => nsPrefix d ++ lit "namespace " ++ n ++ lit "\n" ++ nsPrefix d ++ lit "{\n" ++ nsBeginFrom (d + 1) ns

/-- `Namespace.begin` (lines 25-31) -/
def nsBegin (names : List Str) : Str := lit "\n" ++ nsBeginFrom 0 names

/-- The loop of `Namespace.end` (lines 35-36): `k` are left. -/
def nsEnd : Nat → Str
  | 0 => []
  | k + 1 => nsPrefix k ++ lit "}\n" ++ nsEnd k

/-- `write_autogen_info` (lines 53-60) -/
def autogenInfo : Str :=
  lit "\n" ++
  lit "// This is an automatically generated header file.\n" ++
  lit "// Generated with the tools/string_headers.py utility of\n" ++
  lit "// Boost.Metaparse\n"

/-- `IncludeGuard.begin` (lines 69-73) -/
def guardBegin : Str :=
  lit "#ifndef " ++ lit "BOOST_METAPARSE_V1_CPP11_IMPL_STRING_HPP" ++ lit "\n#define " ++
    lit "BOOST_METAPARSE_V1_CPP11_IMPL_STRING_HPP" ++ lit "\n" ++ autogenInfo

/-- `IncludeGuard.end` (lines 75-77) -/
def guardEnd : Str := lit "\n#endif\n"

/-- `macro_name` (lines 87-89); `VERSION` is 1 (line 15). -/
def macroName (name : Str) : Str := lit "BOOST_METAPARSE_V1_" ++ name

/-- `define_macro` (lines 92-115) -/
def defineMacro (name : Str) (args : List Str) (body : Str) : Str :=
  lit "#ifdef " ++ macroName name ++ lit "\n#  error " ++ macroName name ++ lit " already defined.\n#endif\n" ++
    lit "#define " ++ macroName name ++ (if args.isEmpty then [] else lit "(" ++ join (lit ", ") args ++ lit ")") ++ lit " " ++
    body ++ lit "\n"

/-- `unique_names` (lines 140-142) -/
def uniqueNames (count : Nat) : List Str := (List.range count).map fun i => lit "C" ++ number i

/-- `generate_take` (lines 145-157) -/
def generateTake (steps : List Nat) (pre : Str) : Str :=
  pre ++ lit "constexpr inline int take(int n_)\n" ++
  pre ++ lit "{\n" ++
  pre ++ lit "  return " ++ (steps.map fun s => lit "n_ >= " ++ number s ++ lit " ? " ++ number s ++ lit " : (").flatten ++
    lit " 0 " ++ List.replicate steps.length ')' ++ lit ";\n" ++
  pre ++ lit "}\n" ++
  lit "\n"

/-- `steps` (line 162): `2 ** n` for `n` from `k` down to 0. -/
def powers : Nat → List Nat
  | 0 => [1]
  | k + 1 => 2 ^ (k + 1) :: powers k

/-- One specialisation of `make_string` (lines 184-197). -/
def specialisation (pre : Str) (i : Nat) : Str :=
  pre ++ lit "template <int LenRemaining," ++ ((uniqueNames i).map fun n => lit "char " ++ n ++ lit ",").flatten ++
  lit "char... Cs> struct make_string<" ++ number i ++ lit ",LenRemaining," ++
  ((uniqueNames i).map fun n => n ++ lit ",").flatten ++
  lit "Cs...> : concat<string<" ++ join (lit ",") (uniqueNames i) ++
  lit ">, typename make_string<take(LenRemaining),LenRemaining-take(LenRemaining),Cs...>::type> {};\n"

/-- The loop over `reversed(steps)` (lines 179-199); `sun` is `disable_sun`. -/
def specialisations (pre : Str) : Bool → List Nat → Str
  | sun, [] => if sun then lit "#endif\n" else []
  | sun, i :: is =>
      (if i > 64 ∧ sun = false then lit "#ifndef __SUNPRO_CC\n" else []) ++ specialisation pre i ++
        specialisations pre (sun || decide (i > 64)) is

/-- The names of `Namespace` (lines 164-167). -/
def implNames : List Str := [lit "boost", lit "metaparse", lit "v1", lit "impl"]

/-- `generate_make_string` (lines 160-199), for a `max_step` whose logarithm is `k`. -/
def generateMakeString (k : Nat) : Str :=
  nsBegin implNames ++
  generateTake (powers k) (nsPrefix 4) ++
  nsPrefix 4 ++ lit "template <int LenNow, int LenRemaining, char... Cs>\n" ++
  nsPrefix 4 ++ lit "struct make_string;\n\n" ++
  nsPrefix 4 ++ lit "template <char... Cs> struct make_string<0, 0, Cs...> : string<> {};\n" ++
  specialisations (nsPrefix 4) false (powers k).reverse ++
  nsEnd 4

/-- The definitions of `I0` … `I<max>` (lines 246-255), from `limit` on, `k` of them. -/
def indexNames (limits : List Nat) : Nat → Nat → Str
  | _, 0 => []
  | limit, k + 1 =>
      lit "#define " ++ macroName (lit "I" ++ number limit) ++ lit " " ++
        macroName (lit "INDEX_STR" ++ number ((StrLit.indexMacroOf limits limit).getD 0)) ++ lit "\n" ++
        indexNames limits (limit + 1) k

/-- The characters of one `INDEX_STR` macro (lines 267-271). -/
def indexChars (prevLimit limit : Nat) : Str :=
  join (lit ",") ((StrLit.xrange prevLimit limit 1).map fun i => macroName (lit "STRING_AT") ++ lit "((s), " ++ number i ++ lit ")")

/-- The definitions of the `INDEX_STR` macros (lines 258-275). -/
def indexMacros : Option Str → Nat → List Nat → Str
  | _, _, [] => []
  | prev, prevLimit, l :: ls =>
      lit "#define " ++ macroName (lit "INDEX_STR" ++ number l) ++ lit "(s) " ++
        (match prev with | some p => p ++ lit "(s)," | none => []) ++ indexChars prevLimit l ++ lit "\n" ++
        indexMacros (some (macroName (lit "INDEX_STR" ++ number l))) l ls

/-- The part of the header about the limit (lines 217-230). -/
def limitCheck (maxLimit : Nat) : Str :=
  lit "\n#ifndef BOOST_METAPARSE_LIMIT_STRING_SIZE\n" ++
  lit "#  error BOOST_METAPARSE_LIMIT_STRING_SIZE not defined\n" ++
  lit "#endif\n\n" ++
  lit "#if BOOST_METAPARSE_LIMIT_STRING_SIZE > " ++ number maxLimit ++ lit "\n" ++
  lit "#  error BOOST_METAPARSE_LIMIT_STRING_SIZE is greater than " ++ number maxLimit ++
  lit ". To increase the limit run tools/string_headers.py of Boost.Metaparse against your Boost headers.\n" ++
  lit "#endif\n\n"

/-- The body of `BOOST_METAPARSE_V1_STRING` (lines 235-242). -/
def stringBody : Str :=
  lit "::boost::metaparse::v1::impl" ++ lit "::make_string< " ++ lit "::boost::metaparse::v1::impl" ++
  lit "::take(sizeof(s)-1), sizeof(s)-1-" ++ lit "::boost::metaparse::v1::impl" ++ lit "::take(sizeof(s)-1)," ++
  lit "BOOST_PP_CAT(" ++ macroName (lit "I") ++ lit ", BOOST_METAPARSE_LIMIT_STRING_SIZE)(s)" ++ lit ">::type"

/-- `generate_string` (lines 202-275). An exception (`max` of nothing) if there are no limits. -/
def generateString (limits : List Nat) : Option Str :=
  (StrLit.maximum limits).map fun maxLimit =>
    guardBegin ++
    lit "\n#include <boost/metaparse/v" ++ number 1 ++ lit "/cpp11/impl/concat.hpp>\n#include <boost/preprocessor/cat.hpp>\n" ++
    generateMakeString 9 ++
    limitCheck maxLimit ++
    defineMacro (lit "STRING") [lit "s"] stringBody ++
    lit "\n" ++
    indexNames limits 0 (maxLimit + 1) ++
    lit "\n" ++
    indexMacros none 0 limits ++
    guardEnd

end Metaparse.StrHdr
