import Verif.Tests.Harness
import Verif.Model.Str
/-! # The tests of strings (see `Verif.Tests.Harness`); paths are relative to `/repo/test` -/

namespace Metaparse.Tests

/-- The evaluation gives `a`. -/
def gives {α : Type} [DecidableEq α] (o : Out α) (a : α) : Bool := match o with
  | .ok x => decide (x = a)
  | _ => false

/-- The assertions of string.cpp:79-152, at_c.cpp, pop_back.cpp, pop_front.cpp, push_back_c.cpp,
push_front_c.cpp and size.cpp, for an implementation of strings and a constructor of string
classes. -/
def stringTest (M : StrImpl (List Chr)) (mk : List Chr → List Chr) : Bool :=
  let hello := mk (t "Hello")
  let empty := mk []
  let bh := StrImpl.begin_ hello
  -- string.cpp:79-83
  decide (M.cStr empty = [0]) && decide (M.cStr hello = t "Hello" ++ [0]) &&
  -- string.cpp:85-87
  StrImpl.equalTo hello hello && !StrImpl.equalTo hello empty &&
  -- string.cpp:89-91
  gives (M.at_ hello 1) (ch 'e') && gives (M.atC hello 1) (ch 'e') &&
  -- string.cpp:93-94
  gives (M.mplSize hello) 5 &&
  -- string.cpp:99-100
  gives (M.front hello) (ch 'H') &&
  -- string.cpp:102-108
  gives (M.pushFrontC hello (ch 'x')) (mk (t "xHello")) &&
  -- string.cpp:110-111
  gives (M.back hello) (ch 'o') &&
  -- string.cpp:113-119
  gives (M.pushBackC hello (ch 'x')) (mk (t "Hellox")) &&
  -- string.cpp:121-126
  StrImpl.equalTo empty M.clear && gives (M.empty hello) false && gives (M.empty empty) true &&
  -- string.cpp:128-142
  bh.equalTo bh && gives ((M.end_ hello).bind fun e => .ok (bh.equalTo e)) false &&
  gives ((M.end_ empty).bind fun e => .ok ((StrImpl.begin_ empty).equalTo e)) true &&
  gives (bh.deref M) (ch 'H') &&
  gives ((M.end_ hello).bind fun e => .ok (e.equalTo (bh.advance 5))) true &&
  gives (bh.next.deref M) (ch 'e') &&
  gives ((M.end_ hello).bind fun e => e.prior.deref M) (ch 'o') &&
  gives ((M.end_ hello).bind fun e => bh.distance e) 5 &&
  -- string.cpp:144-152
  gives (M.popFront hello) (mk (t "ello")) && gives (M.popBack hello) (mk (t "Hell")) &&
  -- at_c.cpp:25-32
  gives (M.atC hello 0) (ch 'H') && gives (M.atC hello 2) (ch 'l') && gives (M.atC hello 4) (ch 'o') &&
  -- pop_back.cpp:34-35, pop_front.cpp:34-35
  gives (M.popBack (mk (t "x"))) empty && gives (M.popFront (mk (t "x"))) empty &&
  -- push_back_c.cpp:31-37, push_front_c.cpp:31-37
  gives (M.pushBackC (mk (t "Hell")) (ch 'o')) hello && gives (M.pushBackC empty (ch 'x')) (mk (t "x")) &&
  gives (M.pushFrontC (mk (t "ello")) (ch 'H')) hello && gives (M.pushFrontC empty (ch 'x')) (mk (t "x")) &&
  -- size.cpp:29-36
  gives (M.size empty) 0 && gives (M.size (mk (t "x"))) 1 && gives (M.size (mk (t "1234"))) 4

example : stringTest str11 id = true := by decide +kernel
/-- The limit of string.cpp:8. -/
example : stringTest (str98 64) (Str98.mk 64) = true := by decide +kernel
/-- The default limit (`/repo/include/boost/metaparse/limit_string_size.hpp:10`). -/
example : stringTest (str98 32) (Str98.mk 32) = true := by decide +kernel

-- concat.cpp:29-44
example : Str11.concat [] [] = [] ∧ Str11.concat [] (t "hello") = t "hello" ∧
    Str11.concat (t "hello") [] = t "hello" ∧ Str11.concat (t "hello") (t "hello") = t "hellohello" := by
  decide +kernel
-- update_c.cpp:26-39
example : gives (Str98.updateC 32 (Str98.mk 32 (t "hello")) 0 (ch 'x')) (Str98.mk 32 (t "xello")) = true := by
  decide +kernel
example : gives (Str98.updateC 32 (Str98.mk 32 (t "hello")) 2 (ch 'x')) (Str98.mk 32 (t "hexlo")) = true := by
  decide +kernel
example : gives (Str98.updateC 32 (Str98.mk 32 (t "hello")) 4 (ch 'x')) (Str98.mk 32 (t "hellx")) = true := by
  decide +kernel

-- BOOST_METAPARSE_STRING.cpp:23-37, too_long_string.cpp:6-12 (a test that must not compile)
example : gives (StrLit.metaparseString StrLit.shipped 4 (t "abcd")) (t "abcd") = true := by decide +kernel
example : gives (StrLit.metaparseString StrLit.shipped 8 (t "abcdefgh")) (t "abcdefgh") = true := by decide +kernel
example : (match StrLit.metaparseString StrLit.shipped 4 (t "abcde") with
    | .ill f => decide (f = .staticAssert)
    | _ => false) = true := by decide +kernel

/-- `n` times `BOOST_METAPARSE_TEST_CHARS_10` (string_macros.hpp:12-13) -/
def tens (n : Nat) : List Chr := (List.replicate n (t "0123456789")).flatten

-- BOOST_METAPARSE_STRING.cpp:40-60
example : gives (StrLit.metaparseString StrLit.shipped 127 (tens 12 ++ t "0123456"))
    (tens 12 ++ t "0123456") = true := by decide +kernel
-- long_string.cpp:10-51
example : gives (StrLit.metaparseString StrLit.shipped 1024 (tens 51 ++ t "01")) (tens 51 ++ t "01") = true := by
  decide +kernel

end Metaparse.Tests
