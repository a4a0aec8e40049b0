import Verif.Model.Str
/-!
# What strings are expected to do

`enc s` is the class `string<…>` for the characters `s`; `Fits s` says that the implementation is
expected to handle this string.
-/

namespace Metaparse

/-- The operations on strings agree with the operations on lists of characters. -/
structure StringLaws {S : Type} [DecidableEq S] (M : StrImpl S) (enc : List Chr → S)
    (Fits : List Chr → Prop) : Prop where
  pushBack : ∀ s c, Fits (s ++ [c]) → M.pushBackC (enc s) c = .ok (enc (s ++ [c]))
  pushFront : ∀ s c, Fits (c :: s) → M.pushFrontC (enc s) c = .ok (enc (c :: s))
  popBack : ∀ s c, Fits (s ++ [c]) → M.popBack (enc (s ++ [c])) = .ok (enc s)
  popFront : ∀ s c, Fits (c :: s) → M.popFront (enc (c :: s)) = .ok (enc s)
  clear : M.clear = enc []
  front : ∀ s c, Fits (c :: s) → M.front (enc (c :: s)) = .ok c
  back : ∀ s c, Fits (s ++ [c]) → M.back (enc (s ++ [c])) = .ok c
  at_ : ∀ s (i : Nat) c, Fits s → s[i]? = some c → M.at_ (enc s) i = .ok c
  size : ∀ s, Fits s → M.mplSize (enc s) = .ok s.length
  empty : ∀ s, Fits s → M.empty (enc s) = .ok s.isEmpty
  equalTo : ∀ s t, Fits s → Fits t → (StrImpl.equalTo (enc s) (enc t) = true ↔ s = t)
  /-- Algorithms that go through the string see its characters in order. -/
  elements : ∀ s, Fits s → ∃ n last, M.end_ (enc s) = .ok last ∧
    M.visit n (StrImpl.begin_ (enc s)) last = .ok s
  cStr : ∀ s, Fits s → M.cStr (enc s) = s ++ [0]

/-- Compilation fails. -/
def Out.Fails {α : Type} (a : Out α) : Prop := ∃ f, a = .ill f

/-- What the C library reads from a pointer to the array `a`: the characters before the first NUL. -/
def readCString : List Chr → List Chr
  | [] => []
  | c :: a => if c = 0 then [] else c :: readCString a

/-- Strings a C++98 implementation with limit `L` handles: shorter than the limit, without the
character value that stands for "no character". -/
def Fits98 (L : Nat) (s : List Chr) : Prop := s.length < L ∧ ∀ c ∈ s, c ≠ -1

end Metaparse
