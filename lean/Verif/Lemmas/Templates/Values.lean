import Verif.Lemmas.Templates.Strings
/-!
# Values as classes
-/

set_option linter.unusedVariables false
set_option linter.unusedSimpArgs false
set_option linter.unusedSectionVars false

namespace Metaparse.Tmpl

open Metaparse (Val Msg GExp Pos Res P Env)

variable [Lang] {U : User}

theorem ill_of_none {o : V} {n : Id} {args : List V} (ho : ∀ k, o ≠ .fn k) (h : resolve (.cls o n args) = none) {x : Id} :
    get (inst U) (.cls o n args) x = .ill .noSpecialisation := by
  rw [get, inst_step]
  cases o with
  | fn k => exact absurd rfl (ho k)
  | _ => simp only [instantiate, h, Out.bind_ill]

theorem msg_fit (m : Msg) : Pat.fits [.cls .mpl_na []] [encMsg m] [] = none := by cases m <;> rfl

theorem unpaired_fit {l c : V} (m : Msg) :
    Pat.fits [.var .Line, .var .Col, .cls .mpl_na []] [l, c, encMsg m] [] = none := by cases m <;> rfl

theorem msg_type : (m : Msg) → get (inst U) (encMsg m) .type = .ok (encMsg m)
  | .digitExpected => by simp only [encMsg]; members body_error_digit_expected
  | .endOfInputExpected => by simp only [encMsg]; members body_error_end_of_input_expected
  | .expectedToFail => by simp only [encMsg]; members body_error_expected_to_fail
  | .indexOutOfRange a b n => by simp only [encMsg]; members body_error_index_out_of_range
  | .letterExpected => by simp only [encMsg]; members body_error_letter_expected
  | .literalExpected c => by simp only [encMsg]; members body_error_literal_expected
  | .noneOfTheExpectedCasesFound => by simp only [encMsg]; members body_error_none_of_the_expected_cases_found
  | .unexpectedCharacter => by simp only [encMsg]; members body_error_unexpected_character
  | .unexpectedEndOfInput => by simp only [encMsg]; members body_error_unexpected_end_of_input
  | .unpaired l c m => by
      rw [encMsg, get_inst (body_error_unpaired_1 (unpaired_fit m))]; dsimp! []
  | .whitespaceExpected => by simp only [encMsg]; members body_error_whitespace_expected
  | .user n => by simp only [encMsg]; members body_user_message

theorem msg_value : (m : Msg) → ∃ f, get (inst U) (encMsg m) .value = .ill f
  | .digitExpected => ⟨.noType, by simp only [encMsg]; members body_error_digit_expected⟩
  | .endOfInputExpected => ⟨.noType, by simp only [encMsg]; members body_error_end_of_input_expected⟩
  | .expectedToFail => ⟨.noType, by simp only [encMsg]; members body_error_expected_to_fail⟩
  | .indexOutOfRange a b n => ⟨.noType, by simp only [encMsg]; members body_error_index_out_of_range⟩
  | .letterExpected => ⟨.noType, by simp only [encMsg]; members body_error_letter_expected⟩
  | .literalExpected c => ⟨.noType, by simp only [encMsg]; members body_error_literal_expected⟩
  | .noneOfTheExpectedCasesFound => ⟨.noType, by simp only [encMsg]; members body_error_none_of_the_expected_cases_found⟩
  | .unexpectedCharacter => ⟨.noType, by simp only [encMsg]; members body_error_unexpected_character⟩
  | .unexpectedEndOfInput => ⟨.noType, by simp only [encMsg]; members body_error_unexpected_end_of_input⟩
  | .unpaired l c m => ⟨.noType, by
      rw [encMsg, get_inst (body_error_unpaired_1 (unpaired_fit m))]; dsimp! []⟩
  | .whitespaceExpected => ⟨.noType, by simp only [encMsg]; members body_error_whitespace_expected⟩
  | .user n => ⟨.noType, by simp only [encMsg]; members body_user_message⟩

theorem gexp_type (e : GExp) : get (inst U) (encG e) .type = .ok (encG e) := by
  cases e <;> simp only [encG] <;> members body_user_rule_of_grammar

theorem gexp_value (e : GExp) : get (inst U) (encG e) .value = .ill .noType := by
  cases e <;> simp only [encG] <;> members body_user_rule_of_grammar

theorem vector_type {l : List V} : get (inst U) (K .mpl_vector l) .type = .ok (K .mpl_vector l) := by
  members body_mpl_vector

theorem repeated_fit {c : Int} {e : V} (h : c ≠ 43) : Pat.fits [.num 43, .var .FState] [.num c, e] [] = none := by
  have : ¬ (43 : Int) = c := fun e => h e.symm
  simp [Pat.fits, Pat.fit, this, h]

theorem user_type (n : Nat) (l : List V) : get (inst U) (encUser n l) .type = .ok (encUser n l) := by
  unfold encUser
  split
  · members body_grammar_util_build_char_apply_impl
  · members body_grammar_util_build_name_apply_impl
  · rename_i c e
    by_cases h : c = 43
    · subst h; members body_grammar_util_repeated_apply_impl_0
    · members (body_grammar_util_repeated_apply_impl_1 (repeated_fit h))
  · members body_grammar_util_build_sequence_apply_impl
  · members body_grammar_util_build_selection_apply_impl
  · members body_user_value

theorem user_no {x : Id} (n : Nat) (l : List V) (h1 : x ≠ .type) (h2 : x ≠ .apply) :
    get (inst U) (encUser n l) x = .ill .noType := by
  have h1' : ¬ Id.type = x := fun e => h1 e.symm
  have h2' : ¬ Id.apply = x := fun e => h2 e.symm
  have key : ∀ v : V, Members.ty [(.type, .ty v), (.apply, .tmpl v)] x = .ill .noType ∧
      Members.ty [(.type, .ty v)] x = .ill .noType := by
    intro v
    simp [Members.ty, find, h1', h2', h1, h2]
  unfold encUser
  split
  · rw [get_inst body_grammar_util_build_char_apply_impl]; exact (key _).1
  · rw [get_inst body_grammar_util_build_name_apply_impl]; exact (key _).1
  · rename_i c e
    by_cases h : c = 43
    · subst h; rw [get_inst body_grammar_util_repeated_apply_impl_0]; exact (key _).1
    · rw [get_inst (body_grammar_util_repeated_apply_impl_1 (repeated_fit h))]; exact (key _).1
  · rw [get_inst body_grammar_util_build_sequence_apply_impl]; exact (key _).1
  · rw [get_inst body_grammar_util_build_selection_apply_impl]; exact (key _).1
  · rw [get_inst body_user_value]; exact (key _).2

theorem user_value (n : Nat) (l : List V) : get (inst U) (encUser n l) .value = .ill .noType :=
  user_no n l (by decide) (by decide)

theorem user_tag (n : Nat) (l : List V) : get (inst U) (encUser n l) .tag = .ill .noType :=
  user_no n l (by decide) (by decide)

/-- `T::type` of values. -/
theorem val_type (v : Val) : Same (get (inst U) (encVal v) .type) (omap encVal v.force) := by
  cases v with
  | chr c => simp only [encVal, char_type, Val.force, omap, Out.bind_ok, Same]
  | int n => simp only [encVal, int_type, Val.force, omap, Out.bind_ok, Same]
  | bool b => simp only [encVal, bool_type, Val.force, omap, Out.bind_ok, Same]
  | void_ =>
      have : get (inst U) (K .impl_void_ []) .type = .ok (K .impl_void_ []) := by members body_impl_void_
      simp only [encVal, this, Val.force, omap, Out.bind_ok, Same]
  | cvoid =>
      have : get (inst U) (K .t_void []) .type = .ill .noSpecialisation :=
        ill_of_none (by intro k hk; cases hk) rfl
      simp only [encVal, this, Val.force, omap, Out.bind_ill, Same]
  | seq l => simp only [encVal, vector_type, Val.force, omap, Out.bind_ok, Same]
  | str l => simp only [encVal, str_type, Val.force, omap, Out.bind_ok, Same]
  | msg m => simp only [encVal, msg_type, Val.force, omap, Out.bind_ok, Same]
  | gexp e => simp only [encVal, gexp_type, Val.force, omap, Out.bind_ok, Same]
  | user n args => simp only [encVal, user_type, Val.force, omap, Out.bind_ok, Same]
  | flip n a b =>
      have : get (inst U) (K .user_flip [.num n, encVal a, encVal b]) .type =
          .ok (K .user_flip [.num n, encVal b, encVal a]) := by members body_user_flip
      simp only [encVal, this, Val.force, omap, Out.bind_ok, Same]
  | delayed v =>
      have : get (inst U) (K .user_delayed [encVal v]) .type = .ok (encVal v) := by members body_user_delayed
      simp only [encVal, this, Val.force, omap, Out.bind_ok, Same]
  | bad f =>
      have : get (inst U) (K .user_bad []) .type = .ill .noSpecialisation :=
        ill_of_none (by intro k hk; cases hk) rfl
      simp only [encVal, this, Val.force, omap, Out.bind_ill, Same]

/-- `T::value` of values. -/
theorem val_value (v : Val) : Same (get (inst U) (encVal v) .value) (match v with
    | .chr c => .ok (.num c)
    | .int n => .ok (.num n)
    | .bool b => .ok (ofBool b)
    | _ => .ill .noValue) := by
  cases v with
  | chr c => simp only [encVal, char_value, Same]
  | int n => simp only [encVal, int_value, Same]
  | bool b => simp only [encVal, bool_value, Same]
  | void_ =>
      have : get (inst U) (K .impl_void_ []) .value = .ill .noType := by members body_impl_void_
      simp only [encVal, this, Same]
  | cvoid =>
      have : get (inst U) (K .t_void []) .value = .ill .noSpecialisation :=
        ill_of_none (by intro k hk; cases hk) rfl
      simp only [encVal, this, Same]
  | seq l =>
      have : get (inst U) (K .mpl_vector (encVals l)) .value = .ill .noType := by members body_mpl_vector
      simp only [encVal, this, Same]
  | str l => simp only [encVal, str_value, Same]
  | msg m =>
      obtain ⟨f, hf⟩ := msg_value (U := U) m
      simp only [encVal, hf, Same]
  | gexp e => simp only [encVal, gexp_value, Same]
  | user n args => simp only [encVal, user_value, Same]
  | flip n a b =>
      have : get (inst U) (K .user_flip [.num n, encVal a, encVal b]) .value = .ill .noType := by members body_user_flip
      simp only [encVal, this, Same]
  | delayed v =>
      have : get (inst U) (K .user_delayed [encVal v]) .value = .ill .noType := by members body_user_delayed
      simp only [encVal, this, Same]
  | bad f =>
      have : get (inst U) (K .user_bad []) .value = .ill .noSpecialisation :=
        ill_of_none (by intro k hk; cases hk) rfl
      simp only [encVal, this, Same]

/-- `T::type::value` of values. -/
theorem val_type_value (v : Val) :
    Same ((get (inst U) (encVal v) .type).bind fun x => get (inst U) x .value) (omap .num v.value) := by
  have h := val_type (U := U) v
  have h2 := h.bind (k := fun x => get (inst U) x .value) (k' := fun x => get (inst U) x .value) fun a => Same.rfl' _
  refine h2.trans ?_
  unfold Val.value
  cases hf : v.force with
  | ill f => simp only [omap, Out.bind_ill, Same]
  | deep => simp only [omap, Out.bind_deep, Same]
  | ok w =>
      simp only [omap, Out.bind_ok]
      refine (val_value w).trans ?_
      cases w <;> simp [Same, Out.bind]
      rename_i b
      cases b <;> simp [ofBool]

theorem encVals_append (l : List Val) (x : Val) : encVals (l ++ [x]) = encVals l ++ [encVal x] := by
  induction l with
  | nil => rfl
  | cons a l ih => simp only [List.cons_append, encVals, ih]

theorem val_fit (v : Val) : Pat.fits [.cls .mpl_na []] [encVal v] [] = none := by
  cases v with
  | msg m => exact msg_fit m
  | gexp e => cases e <;> rfl
  | user n args =>
      simp only [encVal]
      unfold encUser
      split <;> rfl
  | str l =>
      simp only [encVal]
      unfold encStr
      split <;> rfl
  | _ => rfl

end Metaparse.Tmpl
