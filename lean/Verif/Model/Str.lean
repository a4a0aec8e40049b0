import Verif.Model.Basic
/-!
# Compile-time strings

`metaparse::string` in its two implementations (`cpp11/`, `cpp98/`), its iterators, the metafunctions
of Boost.MPL on it, and `BOOST_METAPARSE_STRING` with the generator of its header.  Paths in comments
are relative to `/repo/include/boost/metaparse/v1/` unless they start with `/repo`.
-/

namespace Metaparse

/-- What the two headers define for strings; `S` is the class `string<…>`
(`cpp11/impl/size.hpp`, `cpp98/impl/size.hpp` and the other headers named at the fields, used in `cpp11/string.hpp:55-157`). -/
structure StrImpl (S : Type) where
  /-- `impl::size` -/
  size : S → Out Int
  /-- `impl::at_c` -/
  atC : S → Int → Out Chr
  /-- `impl::push_back_c` -/
  pushBackC : S → Chr → Out S
  /-- `impl::push_front_c` -/
  pushFrontC : S → Chr → Out S
  /-- `impl::pop_back` -/
  popBack : S → Out S
  /-- `impl::pop_front` -/
  popFront : S → Out S
  /-- `string<>`, the result of `mpl::clear` -/
  clear : S
  /-- the array `mpl::c_str<S>::value` -/
  cStr : S → List Chr

/-! ## C++11: `string<char... Cs>` -/

namespace Str11

/-- `cpp11/impl/at_c.hpp:21-28` -/
def atC : List Chr → Int → Out Chr
  | [], _ => .ill .noSpecialisation
  | c :: cs, n => if n = 0 then .ok c else atC cs (n - 1)

/-- `cpp11/impl/size.hpp:23-27` -/
def size (s : List Chr) : Out Int := .ok s.length

/-- `cpp11/impl/push_back_c.hpp:19-23` -/
def pushBackC (s : List Chr) (c : Chr) : Out (List Chr) := .ok (s ++ [c])

/-- `cpp11/impl/push_front_c.hpp:19-23` -/
def pushFrontC (s : List Chr) (c : Chr) : Out (List Chr) := .ok (c :: s)

/-- `cpp11/impl/pop_front.hpp:19-23` -/
def popFront : List Chr → Out (List Chr)
  | [] => .ill .noSpecialisation
  | _ :: cs => .ok cs

/-- `cpp11/impl/pop_back.hpp:23-32`; `mpl::clear` is `cpp11/string.hpp:117-123` -/
def popBack : List Chr → Out (List Chr)
  | [] => .ill .noSpecialisation
  | [_] => .ok []
  | c :: d :: cs => (popBack (d :: cs)).bind fun s => pushFrontC s c

/-- `cpp11/impl/concat.hpp:19-23` -/
def concat (a b : List Chr) : List Chr := a ++ b

/-- `cpp11/string.hpp:189-202` with `cpp11/impl/empty_string.hpp:17-23` -/
def cStr : List Chr → List Chr
  | [] => [0]
  | c :: cs => (c :: cs) ++ [0]

end Str11

/-- `cpp11/string.hpp:46-207` -/
def str11 : StrImpl (List Chr) where
  size := Str11.size
  atC := Str11.atC
  pushBackC := Str11.pushBackC
  pushFrontC := Str11.pushFrontC
  popBack := Str11.popBack
  popFront := Str11.popFront
  clear := []
  cStr := Str11.cStr

/-! ## C++98: `string<int C0, …, int C(L-1)>` with the default `BOOST_NO_CHAR`

A class `string<…>` is the list of its `L` template arguments, `L` being
`BOOST_METAPARSE_LIMIT_STRING_SIZE`. -/

namespace Str98

/-- `impl/no_char.hpp:14`: `BOOST_NO_CHAR` is `EOF` (-1 in every usual implementation). -/
def noChar : Chr := -1

/-- `cpp98/fwd/string.hpp:20-27`: `string<cs…>`, the missing arguments being `BOOST_NO_CHAR`. -/
def mk (L : Nat) (cs : List Chr) : List Chr := cs ++ List.replicate (L - cs.length) noChar

/-- The specialisation of `cpp98/impl/size.hpp:34-48` for `n` matches `s`: from `n` on all arguments
are `BOOST_NO_CHAR`. -/
def sizeMatches (s : List Chr) (n : Nat) : Bool := (s.drop n).all (· == noChar)

/-- `cpp98/impl/size.hpp:28-54`: of the specialisations for `n = 0, …, L-1` that match, the one with
the smallest `n` is the most specialised. -/
def size (L : Nat) (s : List Chr) : Out Int :=
  match (List.range L).find? (sizeMatches s) with
  | some n => .ok n
  | none => .ill .noSpecialisation

/-- `cpp98/impl/at_c.hpp:25-49`: defined for `n = 0, …, L-1`. -/
def atC (L : Nat) (s : List Chr) (n : Int) : Out Chr :=
  if 0 ≤ n ∧ n < (L : Int) then .ok (s.getD n.toNat noChar) else .ill .noSpecialisation

/-- `cpp98/impl/update_c.hpp:27-64`: defined for `n = 0, …, L-1`.  The arguments after the new one are
`C(n+1), …, C(L-2)`: the last one is replaced by the default unless `n` is `L-1`. -/
def updateC (L : Nat) (s : List Chr) (n : Int) (c : Chr) : Out (List Chr) :=
  if 0 ≤ n ∧ n < (L : Int) then
    .ok (mk L (s.take n.toNat ++ [c] ++ (s.take (L - 1)).drop (n.toNat + 1)))
  else .ill .noSpecialisation

/-- `cpp98/impl/push_back_c.hpp:24-27` -/
def pushBackC (L : Nat) (s : List Chr) (c : Chr) : Out (List Chr) :=
  (size L s).bind fun n => updateC L s n c

/-- `cpp98/impl/push_front_c.hpp:25-40` -/
def pushFrontC (L : Nat) (s : List Chr) (c : Chr) : Out (List Chr) :=
  .ok (mk L (c :: s.take (L - 1)))

/-- `cpp98/impl/pop_back.hpp:25-32` -/
def popBack (L : Nat) (s : List Chr) : Out (List Chr) :=
  (size L s).bind fun n => updateC L s (n - 1) noChar

/-- `cpp98/impl/pop_front.hpp:31-47` (for `L = 1` the header is not valid C++; that case is not
modelled) -/
def popFront (L : Nat) (s : List Chr) : Out (List Chr) :=
  .ok (mk L ((s.take L).drop 1 ++ [noChar]))

/-- `cpp98/string.hpp:194-263` with `cpp98/impl/empty_string.hpp:17-26`: the specialisations for `n = 0, …, L-1` as for `size`, and the general
case for full strings. -/
def cStr (L : Nat) (s : List Chr) : List Chr :=
  match (List.range L).find? (sizeMatches s) with
  | some n => s.take n ++ [0]
  | none => s.take L ++ [0]

end Str98

/-- `cpp98/string.hpp:48-267` for the limit `L`; the MPL metafunctions dispatch on `string_tag.hpp:15-18`. -/
def str98 (L : Nat) : StrImpl (List Chr) where
  size := Str98.size L
  atC := Str98.atC L
  pushBackC := Str98.pushBackC L
  pushFrontC := Str98.pushFrontC L
  popBack := Str98.popBack L
  popFront := Str98.popFront L
  clear := Str98.mk L []
  cStr := Str98.cStr L

/-! ## Iterators and the metafunctions of Boost.MPL -/

/-- `impl/string_iterator.hpp:28-34` (with `impl/string_iterator_tag.hpp:17-20`).  Simplification: the index is an unbounded integer instead of an
`int`. -/
structure StrIter (S : Type) where
  str : S
  idx : Int
  deriving DecidableEq

namespace StrIter

variable {S : Type}

/-- `impl/string_iterator.hpp:38-44, 69-79` -/
def advance (it : StrIter S) (n : Int) : StrIter S := ⟨it.str, it.idx + n⟩

/-- `impl/string_iterator.hpp:48-54, 86-97`: only defined for iterators of the same string. -/
def distance [DecidableEq S] (a b : StrIter S) : Out Int :=
  if a.str = b.str then .ok (b.idx - a.idx) else .ill .noSpecialisation

/-- `impl/string_iterator.hpp:103-106` -/
def next (it : StrIter S) : StrIter S := ⟨it.str, it.idx + 1⟩

/-- `impl/string_iterator.hpp:112-115` -/
def prior (it : StrIter S) : StrIter S := ⟨it.str, it.idx - 1⟩

/-- `impl/string_iterator.hpp:121-124` -/
def deref (M : StrImpl S) (it : StrIter S) : Out Chr := M.atC it.str it.idx

/-- `impl/string_iterator.hpp:130-140` -/
def equalTo [DecidableEq S] (a b : StrIter S) : Bool := decide (a = b)

end StrIter

namespace StrImpl

variable {S : Type} (M : StrImpl S)

/-- `cpp11/string.hpp:130-138`, `cpp98/string.hpp:135-144` -/
def begin_ (s : S) : StrIter S := ⟨s, 0⟩

/-- `cpp11/string.hpp:145-156`, `cpp98/string.hpp:150-162` -/
def end_ (s : S) : Out (StrIter S) := (M.size s).bind fun n => .ok ⟨s, n⟩

/-- `cpp11/string.hpp:162-172`, `cpp98/string.hpp:168-178` -/
def equalTo [DecidableEq S] (a b : S) : Bool := decide (a = b)

/-- `mpl::front` for sequences without an own implementation (Boost.MPL, not in the repository):
`deref<begin<S>::type>`. The library uses it at `one_char.hpp:49` and `62`. -/
def front (s : S) : Out Chr := (begin_ s).deref M

/-- `mpl::back` for sequences without an own implementation (Boost.MPL): the element before the end.
It works on strings because of `impl/string_iterator.hpp:28-34`. -/
def back (s : S) : Out Chr := (M.end_ s).bind fun e => e.prior.deref M

/-- `mpl::at` for sequences without an own implementation (Boost.MPL): advance and dereference.
It works on strings because of `impl/string_iterator.hpp:41-44`. -/
def at_ (s : S) (n : Int) : Out Chr := ((begin_ s).advance n).deref M

/-- `mpl::size` for sequences without an own implementation (Boost.MPL): the distance of the ends.
It works on strings because of `impl/string_iterator.hpp:51-54`. -/
def mplSize [DecidableEq S] (s : S) : Out Int := (M.end_ s).bind fun e => (begin_ s).distance e

/-- `mpl::empty` for sequences without an own implementation (Boost.MPL): the ends are the same.
The library uses it at `one_char.hpp:60`. -/
def empty [DecidableEq S] (s : S) : Out Bool := (M.end_ s).bind fun e => .ok (decide (begin_ s = e))

/-- The elements an algorithm of Boost.MPL sees from one iterator to another: it compares, dereferences
and goes to the next, with at most `n` nested instantiations. It works on strings because of `cpp11/string.hpp:130-157`. -/
def visit [DecidableEq S] : Nat → StrIter S → StrIter S → Out (List Chr)
  | 0, _, _ => .deep
  | n + 1, it, last =>
      if it = last then .ok []
      else (it.deref M).bind fun c => (visit n it.next last).bind fun cs => .ok (c :: cs)

/-- A string as the input of a parser: `mpl::empty`, `mpl::front`, `mpl::pop_front`.
The library uses them at `one_char.hpp:46-64`. -/
def input [DecidableEq S] : Input S where
  isEmpty := M.empty
  front := M.front
  popFront := M.popFront

end StrImpl

/-! ## `BOOST_METAPARSE_STRING` -/

namespace StrLit

/-- `cpp11/impl/string.hpp:19-22` -/
def take (n : Int) : Int :=
  if n ≥ 512 then 512 else if n ≥ 256 then 256 else if n ≥ 128 then 128 else if n ≥ 64 then 64
  else if n ≥ 32 then 32 else if n ≥ 16 then 16 else if n ≥ 8 then 8 else if n ≥ 4 then 4
  else if n ≥ 2 then 2 else if n ≥ 1 then 1 else 0

/-- The values of `LenNow` for which `cpp11/impl/string.hpp:28-39` specialises `make_string` (on
compilers other than Sun's). -/
def steps : List Int := [1, 2, 4, 8, 16, 32, 64, 128, 256, 512]

/-- `cpp11/impl/string.hpp:24-39` (`make_string<LenNow, LenRemaining, Cs...>`) -/
def makeString (lenNow lenRemaining : Int) (cs : List Chr) : Out (List Chr) :=
  if lenNow = 0 ∧ lenRemaining = 0 then .ok []
  else if _h : lenNow ∈ steps ∧ lenNow.toNat ≤ cs.length then
    (makeString (take lenRemaining) (lenRemaining - take lenRemaining) (cs.drop lenNow.toNat)).bind
      fun s => .ok (Str11.concat (cs.take lenNow.toNat) s)
  else .ill .noSpecialisation
termination_by cs.length
decreasing_by
  have : 1 ≤ lenNow.toNat := by
    have := _h.1
    simp only [steps, List.mem_cons, List.not_mem_nil, or_false] at this
    omega
  simp only [List.length_drop]
  omega

/-- `cpp11/impl/string_at.hpp:19-26`, for a literal with the characters `lit` (so `Len` is one more)
and `MaxLen = maxLen` -/
def stringAt (maxLen : Nat) (lit : List Chr) (n : Nat) : Out Chr :=
  if lit.length + 1 ≤ maxLen + 1 then .ok (if n ≥ lit.length then 0 else lit.getD n 0)
  else .ill .staticAssert

/-- The characters `STRING_AT((s), i)` for the indices `i` of an index macro (`/repo/tools/string_headers.py:262-273`). -/
def charsAt (maxLen : Nat) (lit : List Chr) : List Nat → Out (List Chr)
  | [] => .ok []
  | i :: is => (stringAt maxLen lit i).bind fun c => (charsAt maxLen lit is).bind fun cs =>
      .ok (c :: cs)

/-- `xrange(start, stop, step)` of Python for a positive step (`/repo/tools/string_headers.py:132-136` and `270`). -/
def xrange (start stop step : Nat) : List Nat :=
  (List.range ((stop - start + step - 1) / step)).map fun k => start + k * step

/-- `/repo/tools/string_headers.py:127-137` (the numbers are formatted with leading zeros and read back
with `int` wherever they are used) -/
def lengthLimits (maxLengthLimit step : Nat) : List Nat :=
  xrange step (maxLengthLimit + step - 1) step

/-- The `INDEX_STR` macros generated by `/repo/tools/string_headers.py:258-275`, as the list of the
length limits with the indices in the macro. -/
def indexMacros : (prev : List Nat) → (prevLimit : Nat) → (limits : List Nat) →
    List (Nat × List Nat)
  | _, _, [] => []
  | prev, prevLimit, l :: ls =>
      let this := prev ++ xrange prevLimit l 1
      (l, this) :: indexMacros this l ls

/-- Smallest element of a non-empty list (`min` of Python) (`/repo/tools/string_headers.py:252`). -/
def minimum : List Nat → Option Nat
  | [] => none
  | l :: ls => some (ls.foldl min l)

/-- Largest element of a non-empty list (`max` of Python, `/repo/tools/string_headers.py:204`). -/
def maximum : List Nat → Option Nat
  | [] => none
  | l :: ls => some (ls.foldl max l)

/-- The macro `I<limit>` generated by `/repo/tools/string_headers.py:246-255`: the limit whose index
macro it stands for. -/
def indexMacroOf (limits : List Nat) (limit : Nat) : Option Nat :=
  minimum (limits.filter fun l => decide (l ≥ limit))

/-- `BOOST_METAPARSE_STRING(lit)` (`cpp11/impl/string.hpp:45-56`, generated by
`/repo/tools/string_headers.py:202-275`) with the given length limits and
`BOOST_METAPARSE_LIMIT_STRING_SIZE = limit`, for a literal with the characters `lit`. -/
def metaparseString (limits : List Nat) (limit : Nat) (lit : List Chr) : Out (List Chr) :=
  match maximum limits with
  | none => .ill .staticAssert
  | some m =>
    if limit > m then .ill .staticAssert
    else match indexMacroOf limits limit with
      | none => .ill .noSpecialisation
      | some l => match (indexMacros [] 0 limits).lookup l with
        | none => .ill .noSpecialisation
        | some is =>
          (charsAt limit lit is).bind fun cs =>
            makeString (take lit.length) (lit.length - take lit.length) cs

/-- The length limits of the header in the repository (`cpp11/impl/string.hpp:2108-2123`). -/
def shipped : List Nat :=
  [128, 256, 384, 512, 640, 768, 896, 1024, 1152, 1280, 1408, 1536, 1664, 1792, 1920, 2048]

end StrLit

end Metaparse
