import Verif.Tests.Harness
/-! # The tests of positions, predicates and conversions (see `Verif.Tests.Harness`); paths are relative to `/repo/test` -/

namespace Metaparse.Tests

/-- A predicate evaluates to `b`. -/
def predIs (o : Out Bool) (b : Bool) : Bool := match o with
  | .ok x => x == b
  | _ => false

/-- `V::type` is `w`. -/
def evaluates (v w : Val) : Bool := match v.force with
  | .ok x => Val.beq x w
  | _ => false

-- digit_to_int.cpp:31-40
example : evaluates (digitToInt (c '0')) (.int 0) = true := by decide +kernel
example : evaluates (digitToInt (c '9')) (.int 9) = true := by decide +kernel
example : evaluates (digitToInt (c 'x')) (.msg .digitExpected) = true := by decide +kernel
-- int_to_digit.cpp:23-30
example : evaluates (intToDigit (.int 0)) (c '0') = true := by decide +kernel
example : evaluates (intToDigit (.int 5)) (c '5') = true := by decide +kernel
example : evaluates (intToDigit (.int 9)) (c '9') = true := by decide +kernel
-- in_range.cpp:23-33
example : predIs (inRange (.int 10) (.int 13) (.int 12)) true = true := by decide +kernel
example : predIs (inRange (.int 10) (.int 13) (.int 10)) true = true := by decide +kernel
example : predIs (inRange (.int 10) (.int 13) (.int 13)) true = true := by decide +kernel
example : predIs (inRange (.int 10) (.int 13) (.int 14)) false = true := by decide +kernel
-- in_range_c.cpp:23-33
example : predIs (inRangeC (ch 'a') (ch 'g') (c 'e')) true = true := by decide +kernel
example : predIs (inRangeC (ch 'a') (ch 'g') (c 'a')) true = true := by decide +kernel
example : predIs (inRangeC 10 13 (.int 13)) true = true := by decide +kernel
example : predIs (inRangeC 10 13 (.int 14)) false = true := by decide +kernel
-- is_digit.cpp:23-27
example : predIs (isDigit (c '7')) true = true := by decide +kernel
example : predIs (isDigit (c 'a')) false = true := by decide +kernel
-- is_char_c.cpp:19-23
example : predIs (isCharC (ch 'x') (c 'x')) true = true := by decide +kernel
example : predIs (isCharC (ch 'x') (c 'y')) false = true := by decide +kernel
-- is_letter.cpp:23-30
example : predIs (isLetter (c 'k')) true = true := by decide +kernel
example : predIs (isLetter (c 'K')) true = true := by decide +kernel
example : predIs (isLetter (c '7')) false = true := by decide +kernel
-- is_lcase_letter.cpp:23-27
example : predIs (isLcaseLetter (c 'k')) true = true := by decide +kernel
example : predIs (isLcaseLetter (c 'K')) false = true := by decide +kernel
-- is_ucase_letter.cpp:23-27
example : predIs (isUcaseLetter (c 'k')) false = true := by decide +kernel
example : predIs (isUcaseLetter (c 'K')) true = true := by decide +kernel
-- is_whitespace.cpp:23-30
example : predIs (isWhitespace (c ' ')) true = true := by decide +kernel
example : predIs (isWhitespace (c '\t')) true = true := by decide +kernel
example : predIs (isWhitespace (c 'a')) false = true := by decide +kernel
-- next_digit.cpp:21-23
example : evaluates (nextDigit (.int 0) (.int 0)) (.int 0) = true := by decide +kernel
example : evaluates (nextDigit (.int 1) (.int 0)) (.int 10) = true := by decide +kernel
example : evaluates (nextDigit (.int 1) (.int 3)) (.int 13) = true := by decide +kernel
-- back_inserter.cpp:21-24, front_inserter.cpp:21-24; `int` and `char` are the user's classes 0 and 1
example : evaluates (backInserter (.seq [.user 0 []]) (.user 1 [])) (.seq [.user 0 [], .user 1 []]) = true := by decide +kernel
example : evaluates (frontInserter (.seq [.user 1 []]) (.user 0 [])) (.seq [.user 0 [], .user 1 []]) = true := by decide +kernel

/-! ## swap.cpp, unless_error.cpp -/

-- swap.cpp:44-50
example : evaluates (swapOp (fun a _ => a) (.user 0 []) (.user 1 [])) (.user 1 []) = true := by decide +kernel
example : evaluates (swapOp (fun _ b => b) (.user 0 []) (.user 1 [])) (.user 0 []) = true := by decide +kernel
-- unless_error.cpp:34-37; the second argument there is a number instead of an accepted result
example : unlessError (I := Nat) (.rej (.user 1) start) (.ok (.acc (.int 13) 0 start)) = .ok (.rej (.user 1) start) := rfl
example : unlessError (I := Nat) (.acc (.int 11) 0 start) (.ok (.acc (.int 13) 0 start)) =
    .ok (.acc (.int 13) 0 start) := rfl

/-! ## source_position.cpp -/

/-- source_position.cpp:34 -/
def next0 : Pos := start.nextChar (ch '0')

/-- `source_position<int_<l>, int_<k>, char_<p>>` -/
def sp (l k : Int) (p : Char) : Pos := ⟨l, k, ch p⟩

-- source_position.cpp:62-92
example : start.line = 1 ∧ start.col = 1 ∧ next0.col = 2 ∧ next0.line = 1 := by decide +kernel
example : (next0.nextLine (ch '0')).col = 1 ∧ (start.nextLine (ch '0')).line = 2 := by decide +kernel
example : (start.nextChar (ch '1')).prev = ch '1' ∧ (start.nextLine (ch '1')).prev = ch '1' := by decide +kernel
-- source_position.cpp:94-121
example : Pos.equalTo ⟨11, 13, 1⟩ ⟨11, 13, 1⟩ = true := by decide +kernel
example : (sp 11 13 'a').equalTo (sp 11 13 'b') = false := by decide +kernel
example : (sp 11 13 'a').notEqualTo (sp 13 13 'a') = true := by decide +kernel
example : (sp 11 11 'a').notEqualTo (sp 11 13 'a') = true := by decide +kernel
-- source_position.cpp:123-175
example : (sp 11 13 'a').less (sp 11 13 'a') = false := by decide +kernel
example : (sp 11 11 'a').less (sp 11 13 'a') = true := by decide +kernel
example : (sp 11 13 'a').less (sp 11 11 'a') = false := by decide +kernel
example : (sp 11 13 'a').less (sp 11 13 'b') = true := by decide +kernel
example : (sp 1 28 'a').less (sp 11 13 'a') = true := by decide +kernel
example : (sp 28 2 'a').less (sp 11 13 'a') = false := by decide +kernel
-- source_position.cpp:177-229
example : (sp 11 13 'a').greaterEqual (sp 11 13 'a') = true := by decide +kernel
example : (sp 11 11 'a').greaterEqual (sp 11 13 'a') = false := by decide +kernel
example : (sp 11 13 'a').greaterEqual (sp 11 11 'a') = true := by decide +kernel
example : (sp 11 13 'a').greaterEqual (sp 11 13 'b') = false := by decide +kernel
example : (sp 1 28 'a').greaterEqual (sp 11 13 'a') = false := by decide +kernel
example : (sp 28 2 'a').greaterEqual (sp 11 13 'a') = true := by decide +kernel
-- source_position.cpp:231-285
example : (sp 11 13 'a').greater (sp 11 13 'a') = false := by decide +kernel
example : (sp 11 11 'a').greater (sp 11 13 'a') = false := by decide +kernel
example : (sp 11 13 'a').greater (sp 11 11 'a') = true := by decide +kernel
example : (sp 11 13 'a').greater (sp 11 13 'b') = false := by decide +kernel
example : (sp 1 28 'a').greater (sp 11 13 'a') = false := by decide +kernel
example : (sp 28 2 'a').greater (sp 11 13 'a') = true := by decide +kernel
-- source_position.cpp:287-337
example : (sp 11 13 'a').lessEqual (sp 11 13 'a') = true := by decide +kernel
example : (sp 11 11 'a').lessEqual (sp 11 13 'a') = true := by decide +kernel
example : (sp 11 13 'a').lessEqual (sp 11 11 'a') = false := by decide +kernel
example : (sp 11 13 'a').lessEqual (sp 11 13 'b') = true := by decide +kernel
example : (sp 1 28 'a').lessEqual (sp 11 13 'a') = true := by decide +kernel
example : (sp 28 2 'a').lessEqual (sp 11 13 'a') = false := by decide +kernel

end Metaparse.Tests
