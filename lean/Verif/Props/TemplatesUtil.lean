import Verif.Lemmas.Templates.UtilMeta
import Verif.Props.TemplatesStrings
/-!
# The class templates of `util/`

C97. The text of the headers in `util/`, translated by `/verif/translate/translate.py`, for every class with a value. The headers
are the same for C++98 and C++11.
-/

namespace Metaparse

open Tmpl

variable {U : User} [L : Lang] {v w x : V} {c m n : Int}

/-- C97: the predicates are true for the characters they are named after, for every class with a value, given as the argument
or to the metafunction class. -/
theorem C97_predicates (h : HasValue U v c) :
    Gives U .util_is_digit v (.ok (boolV (decide (ch '0' ≤ c ∧ c ≤ ch '9')))) ∧
    Gives U .util_is_lcase_letter v (.ok (boolV (decide (ch 'a' ≤ c ∧ c ≤ ch 'z')))) ∧
    Gives U .util_is_ucase_letter v (.ok (boolV (decide (ch 'A' ≤ c ∧ c ≤ ch 'Z')))) ∧
    Gives U .util_is_letter v (.ok (boolV (decide ((ch 'a' ≤ c ∧ c ≤ ch 'z') ∨ (ch 'A' ≤ c ∧ c ≤ ch 'Z'))))) ∧
    Gives U .util_is_whitespace v (.ok (boolV (decide (c ∈ txt " \r\n\t")))) := by
  have h1 := is_digit_value h
  have h2 := is_lcase_letter_value h
  have h3 := is_ucase_letter_value h
  have h4 := is_letter_value h
  have h5 := is_whitespace_value h
  have e1 : (decide (48 ≤ c) && decide (c ≤ 57)) = decide (ch '0' ≤ c ∧ c ≤ ch '9') := (Bool.decide_and ..).symm
  have e2 : (decide (97 ≤ c) && decide (c ≤ 122)) = decide (ch 'a' ≤ c ∧ c ≤ ch 'z') := (Bool.decide_and ..).symm
  have e3 : (decide (65 ≤ c) && decide (c ≤ 90)) = decide (ch 'A' ≤ c ∧ c ≤ ch 'Z') := (Bool.decide_and ..).symm
  have e5 : isWhitespaceC c = decide (c ∈ txt " \r\n\t") := by
    rw [show txt " \r\n\t" = [ch ' ', ch '\r', ch '\n', ch '\t'] from rfl]
    unfold isWhitespaceC
    by_cases h0 : c = ch ' '
    · simp [h0]
    by_cases h1 : c = ch '\r'
    · simp [h1]
    by_cases h2 : c = ch '\n'
    · simp [h2]
    by_cases h3 : c = ch '\t'
    · simp [h3]
    simp [h0, h1, h2, h3]
  rw [e1] at h1
  rw [e2] at h2
  rw [e3] at h3
  rw [e2, e3, ← Bool.decide_or] at h4
  rw [e5] at h5
  exact ⟨⟨h1, oself_inst body_util_is_digit_0 rfl, is_digit_apply.trans h1⟩,
    ⟨h2, oself_inst body_util_is_lcase_letter_0 rfl, is_lcase_letter_apply.trans h2⟩,
    ⟨h3, oself_inst body_util_is_ucase_letter_0 rfl, is_ucase_letter_apply.trans h3⟩,
    ⟨h4, oself_inst body_util_is_letter_0 rfl, is_letter_apply.trans h4⟩,
    ⟨h5, oself_inst body_util_is_whitespace_0 rfl, is_whitespace_apply.trans h5⟩⟩

/-- C97: `digit_to_int` gives the number of a digit, and otherwise the error. -/
theorem C97_digit_to_int (h : HasValue U v c) :
    Gives U .util_digit_to_int v (.ok (if ch '0' ≤ c ∧ c ≤ ch '9' then intV (c - ch '0') else K .error_digit_expected [])) := by
  have h1 := digit_to_int_value h
  have e : encVal (digitToIntC c) = if ch '0' ≤ c ∧ c ≤ ch '9' then intV (c - ch '0') else K .error_digit_expected [] := by
    change _ = if 48 ≤ c ∧ c ≤ 57 then intV (c - 48) else _
    split
    · have : c = 48 ∨ c = 49 ∨ c = 50 ∨ c = 51 ∨ c = 52 ∨ c = 53 ∨ c = 54 ∨ c = 55 ∨ c = 56 ∨ c = 57 := by omega
      rcases this with rfl | rfl | rfl | rfl | rfl | rfl | rfl | rfl | rfl | rfl <;> rfl
    · have e : ∀ d : Int, 48 ≤ d → d ≤ 57 → c ≠ d := by intro d _ _; omega
      have : digitToIntC c = .msg .digitExpected := by
        unfold digitToIntC
        rw [if_neg (e _ (by decide) (by decide)), if_neg (e _ (by decide) (by decide)), if_neg (e _ (by decide) (by decide)),
          if_neg (e _ (by decide) (by decide)), if_neg (e _ (by decide) (by decide)), if_neg (e _ (by decide) (by decide)),
          if_neg (e _ (by decide) (by decide)), if_neg (e _ (by decide) (by decide)), if_neg (e _ (by decide) (by decide)),
          if_neg (e _ (by decide) (by decide))]
      rw [this]
      rfl
  rw [e] at h1
  exact ⟨h1, oself_inst body_util_digit_to_int_0 rfl, digit_to_int_apply.trans h1⟩

/-- C97: `int_to_digit` gives the digit of a number from 0 to 9 … -/
theorem C97_int_to_digit (h : HasValue U v n) (h0 : 0 ≤ n) (h9 : n ≤ 9) :
    Gives U .util_int_to_digit v (.ok (charV (n + ch '0'))) := by
  have h1 := (int_to_digit_value h).trans (int_to_digit_c_some h0 h9)
  exact ⟨h1, oself_inst body_util_int_to_digit_0 rfl, int_to_digit_apply.trans h1⟩

/-- C97: … and is ill-formed for the others. -/
theorem C97_int_to_digit_others (h : HasValue U v n) (hn : ¬ (0 ≤ n ∧ n ≤ 9)) : ∃ f, Gives U .util_int_to_digit v (.ill f) := by
  obtain ⟨f, hf⟩ := int_to_digit_c_none (U := U) hn
  have h1 := (int_to_digit_value h).trans hf
  exact ⟨f, h1, oself_inst body_util_int_to_digit_0 rfl, int_to_digit_apply.trans h1⟩

/-- C97: the two are inverse, as metafunctions that are not evaluated before. -/
theorem C97_inverse (h : HasValue U v n) (h0 : 0 ≤ n) (h9 : n ≤ 9) :
    get (inst U) (K .util_digit_to_int [K .util_int_to_digit [v]]) .type = .ok (intV n) := by
  have hv : HasValue U (K .util_int_to_digit [v]) (n + 48) := ⟨_, (C97_int_to_digit h h0 h9).1, char_value⟩
  have h1 := (C97_digit_to_int hv).1
  change _ = Out.ok (if 48 ≤ n + 48 ∧ n + 48 ≤ 57 then intV (n + 48 - 48) else _) at h1
  rw [if_pos (by omega), show n + 48 - 48 = n by omega] at h1
  exact h1

/-- C97: `in_range` with integral constants, however many of its arguments are given to the template and how many to the
metafunction class. -/
theorem C97_in_range (hv : IsNum U v m) (hw : IsNum U w n) (hx : IsNum U x c) :
    get (inst U) (K .util_in_range [v, w, x]) .type = .ok (boolV (decide (m ≤ c ∧ c ≤ n))) ∧
    (HasApply U (K .util_in_range [v, w, K .mpl_na []]) (K .util_in_range [v, w, K .mpl_na []]) ∧
      call U (K .util_in_range [v, w, K .mpl_na []]) [x] = .ok (boolV (decide (m ≤ c ∧ c ≤ n)))) ∧
    (HasApply U (K .util_in_range [v, K .mpl_na [], K .mpl_na []]) (K .util_in_range [v, K .mpl_na [], K .mpl_na []]) ∧
      call U (K .util_in_range [v, K .mpl_na [], K .mpl_na []]) [w, x] = .ok (boolV (decide (m ≤ c ∧ c ≤ n)))) ∧
    (HasApply U (K .util_in_range [K .mpl_na [], K .mpl_na [], K .mpl_na []])
        (K .util_in_range [K .mpl_na [], K .mpl_na [], K .mpl_na []]) ∧
      call U (K .util_in_range [K .mpl_na [], K .mpl_na [], K .mpl_na []]) [v, w, x] = .ok (boolV (decide (m ≤ c ∧ c ≤ n)))) := by
  have h := in_range_num hv hw hx
  rw [← Bool.decide_and] at h
  have h2 := in_range_2 (U := U) (x := x) hv.ne_na hw.ne_na
  have h1 := in_range_1 (U := U) (w := w) (x := x) hv.ne_na
  have h0 := in_range_0 (U := U) (v := v) (w := w) (x := x)
  exact ⟨h, ⟨h2.1, h2.2.trans h⟩, ⟨h1.1, h1.2.trans h⟩, h0.1, h0.2.trans h⟩

/-- C97: the metafunction classes of `in_range` may be given some of the missing arguments and then the others, as `mpl::na` is the
default argument. -/
theorem C97_in_range_steps (hv : IsNum U v m) (hw : IsNum U w n) :
    call U (K .util_in_range [K .mpl_na [], K .mpl_na [], K .mpl_na []]) [K .mpl_na [], K .mpl_na [], K .mpl_na []] =
      .ok (K .util_in_range [K .mpl_na [], K .mpl_na [], K .mpl_na []]) ∧
    call U (K .util_in_range [K .mpl_na [], K .mpl_na [], K .mpl_na []]) [v, K .mpl_na [], K .mpl_na []] =
      .ok (K .util_in_range [v, K .mpl_na [], K .mpl_na []]) ∧
    call U (K .util_in_range [K .mpl_na [], K .mpl_na [], K .mpl_na []]) [v, w, K .mpl_na []] =
      .ok (K .util_in_range [v, w, K .mpl_na []]) ∧
    call U (K .util_in_range [v, K .mpl_na [], K .mpl_na []]) [w, K .mpl_na []] =
      .ok (K .util_in_range [v, w, K .mpl_na []]) := by
  have h2 : get (inst U) (K .util_in_range [v, w, K .mpl_na []]) .type = .ok (K .util_in_range [v, w, K .mpl_na []]) := by
    members (body_util_in_range_2 (fits_na0 hv.ne_na) (fits_na1 hw.ne_na))
  have h1 : get (inst U) (K .util_in_range [v, K .mpl_na [], K .mpl_na []]) .type =
      .ok (K .util_in_range [v, K .mpl_na [], K .mpl_na []]) := by
    members (body_util_in_range_1 (fits_na0 hv.ne_na))
  have h0 : get (inst U) (K .util_in_range [K .mpl_na [], K .mpl_na [], K .mpl_na []]) .type =
      .ok (K .util_in_range [K .mpl_na [], K .mpl_na [], K .mpl_na []]) := by
    members body_util_in_range_0
  exact ⟨in_range_0.2.trans h0, in_range_0.2.trans h1, in_range_0.2.trans h2, (in_range_1 hv.ne_na).2.trans h2⟩

/-- C97: `in_range_c` with the bounds as constants. -/
theorem C97_in_range_c {t : V} (h : HasValue U v c) :
    HasApply U (K .util_in_range_c [t, .num m, .num n]) (K .util_in_range_c [t, .num m, .num n]) ∧
    call U (K .util_in_range_c [t, .num m, .num n]) [v] = .ok (boolV (decide (m ≤ c ∧ c ≤ n))) := by
  refine ⟨ha_in_range_c, (in_range_c_value h).trans ?_⟩
  rw [← Bool.decide_and]

theorem isNum_int : IsNum U (intV n) n := ⟨by unfold intV; members body_mpl_int_, int_value⟩

/-- A character is a class with a value. -/
example : Gives U .util_is_letter (charV (ch 'q')) (.ok (boolV true)) := (C97_predicates hasValue_char).2.2.2.1

example : Gives U .util_is_whitespace (charV (ch 'q')) (.ok (boolV false)) := (C97_predicates hasValue_char).2.2.2.2

example : Gives U .util_digit_to_int (charV (ch '7')) (.ok (intV 7)) := C97_digit_to_int hasValue_char

example : Gives U .util_digit_to_int (charV (ch 'x')) (.ok (K .error_digit_expected [])) := C97_digit_to_int hasValue_char

/-- A metafunction that has not been evaluated is a class with a value. -/
example : HasValue U (K .util_digit_to_int [charV (ch '7')]) 7 :=
  ⟨_, (C97_digit_to_int (hasValue_char (c := ch '7'))).1, int_value⟩

example : ∃ f, Gives U .util_int_to_digit (intV 10) (.ill f) := C97_int_to_digit_others hasValue_int (by decide)

example : call U (K .util_in_range [intV 10, K .mpl_na [], K .mpl_na []]) [intV 13, intV 13] = .ok (boolV true) :=
  (C97_in_range isNum_int isNum_int isNum_int).2.2.1.2

/-- 13 is from 10 to 13, with one argument at a time. -/
example : call U (K .util_in_range [K .mpl_na [], K .mpl_na [], K .mpl_na []]) [intV 10, K .mpl_na [], K .mpl_na []] =
      .ok (K .util_in_range [intV 10, K .mpl_na [], K .mpl_na []]) ∧
    call U (K .util_in_range [intV 10, K .mpl_na [], K .mpl_na []]) [intV 13, K .mpl_na []] =
      .ok (K .util_in_range [intV 10, intV 13, K .mpl_na []]) ∧
    call U (K .util_in_range [intV 10, intV 13, K .mpl_na []]) [intV 13] = .ok (boolV true) :=
  ⟨(C97_in_range_steps isNum_int (isNum_int (n := 13))).2.1, (C97_in_range_steps isNum_int isNum_int).2.2.2,
    (C97_in_range isNum_int isNum_int isNum_int).2.1.2⟩

example : get (inst U) (K .util_in_range [intV 10, intV 13, intV 14]) .type = .ok (boolV false) :=
  (C97_in_range isNum_int isNum_int isNum_int).1

/-- `repeated_one_of` of C++98 is written in a class of its own; C93 and C95 have it. -/
example {C : Nat → V → Prop} {E : Env (List Int)} (h : Room (fun l => l.oneOf + 1) 2) :
    Spells U C E (repeatedOneOfV [K .lit_c [.num 97], K .one_char []]) (P.repeatedOneOf [P.litC 97, .oneChar]) :=
  .repeated_one_of (.cons .lit_c (.cons .one_char .nil)) h

example : Gives U .util_int_to_digit (intV 7) (.ok (charV (7 + ch '0'))) ∧
    get (inst U) (K .util_digit_to_int [K .util_int_to_digit [intV 7]]) .type = .ok (intV 7) :=
  ⟨C97_int_to_digit hasValue_int (by decide) (by decide), C97_inverse hasValue_int (by decide) (by decide)⟩

end Metaparse
