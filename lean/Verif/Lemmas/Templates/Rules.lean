import Verif.Lemmas.Templates.Build
import Verif.Lemmas.Templates.RuleSim
/-!
# The parser of rule texts as classes
-/

set_option linter.unusedVariables false
set_option linter.unusedSimpArgs false

namespace Metaparse.Tmpl

open Metaparse (Val Msg GExp Pos Res P Env nextPos ch Sem start run buildParser Gram.charToken Gram.nameToken
  Gram.repeatedToken Gram.repeated1Token Gram.orToken Gram.openBracketToken Gram.closeBracketToken Gram.defineToken)

attribute [local instance] Tmpl.cpp11

variable {U : User}

theorem build_char_fun : Fun1 U (K .grammar_util_build_char []) buildCharT := by
  refine ⟨_, oself_inst body_grammar_util_build_char rfl, fun x => ?_⟩
  rw [call, get_inst body_grammar_util_build_char_apply]
  norm
  exact (val_type (buildCharT x))

theorem build_name_fun : Fun1 U (K .grammar_util_build_name []) buildNameT := by
  refine ⟨_, oself_inst body_grammar_util_build_name rfl, fun x => ?_⟩
  rw [call, get_inst body_grammar_util_build_name_apply]
  norm
  exact (val_type (buildNameT x))

theorem build_sequence_fun : Fun2 U (K .grammar_util_build_sequence []) buildSequenceT := by
  refine ⟨_, oself_inst body_grammar_util_build_sequence rfl, fun x y => ?_⟩
  rw [call, get_inst body_grammar_util_build_sequence_apply]
  norm
  exact (val_type (buildSequenceT x y))

theorem build_selection_fun : Fun2 U (K .grammar_util_build_selection []) buildSelectionT := by
  refine ⟨_, oself_inst body_grammar_util_build_selection rfl, fun x y => ?_⟩
  rw [call, get_inst body_grammar_util_build_selection_apply]
  norm
  exact (val_type (buildSelectionT x y))

theorem build_repeated_fun : Fun2 U (K .grammar_util_build_repeated []) buildRepeatedT := by
  refine ⟨_, oself_inst body_grammar_util_build_repeated rfl, fun x y => ?_⟩
  rw [call, get_inst body_grammar_util_build_repeated_apply]
  norm
  refine (value_bind (k' := fun c => .ok (encVal (.user 2 [.int c, x]))) fun c => ?_).trans ?_
  · exact val_type (.user 2 [.int c, x])
  · unfold buildRepeatedT
    cases hv : y.value with
    | deep => exact absurd hv (value_not_deep y)
    | _ => exact Same.rfl' _

/-- The class `expression` of the rule parser. -/
def RuleClass (i : Nat) (c : V) : Prop := i = expressionIdT ∧ c = K .grammar_util_expression []

/-- The class of `name_token`. -/
def nameTokenV : V := (K .token [K .foldr1 [K .one_of (fill .one_of [K .one_of (fill .one_of [K .accept_when [K .one_char [], K .util_is_letter [K .mpl_na []], K .error_letter_expected []], K .accept_when [K .change_error_message [K .one_char [], K .error_digit_expected []], K .util_is_digit [K .mpl_na []], K .error_digit_expected []]]), K .lit_c [.num 95]]), K .string (fill .string []), K .impl_front_inserter []]])

theorem spells_name : Spells U RuleClass bothEnv nameTokenV Gram.nameToken :=
  .token (.foldr1 (x := .str []) (.one_of (.cons (.alphanum rfl trivial) (.cons .lit_c .nil)) trivial) front_inserter_fun) trivial

theorem spells_char : Spells U RuleClass bothEnv (K .middle_of [K .lit_c [.num 39], K .one_of [K .last_of [K .lit_c [.num 92], K .one_of [K .always [K .lit_c [.num 110], K .mpl_char_ [.num 10]], K .always [K .lit_c [.num 114], K .mpl_char_ [.num 13]], K .always [K .lit_c [.num 116], K .mpl_char_ [.num 9]], K .lit_c [.num 92], K .lit_c [.num 39]]], K .one_char_except_c [.num 39]], K .token [K .lit_c [.num 39]]])
    Gram.charToken :=
  .middle_of .lit_c (.one_of (.cons (.last_of (.cons .lit_c (.cons (.one_of (.cons (.always (x := .chr 10) .lit_c)
    (.cons (.always (x := .chr 13) .lit_c) (.cons (.always (x := .chr 9) .lit_c) (.cons .lit_c (.cons .lit_c .nil))))) trivial) .nil)) trivial)
    (.cons (.one_char_except_c (l := [39]) trivial trivial) .nil)) trivial) (.token .lit_c trivial) trivial

theorem spells_nameExpression : ∃ v, Spells U RuleClass bothEnv v nameExpressionT ∧ Alias Hdr.alias_grammar_util_name_expression v :=
  ⟨_, .one_of (.cons (.transform spells_char build_char_fun) (.cons (.transform spells_name build_name_fun)
    (.cons (.middle_of (.token .lit_c trivial) (.rule ⟨rfl, rfl⟩) (.token .lit_c trivial) trivial) .nil))) trivial, rfl⟩

theorem spells_repeated : ∃ v, Spells U RuleClass bothEnv v repeatedExpressionT ∧
    Alias Hdr.alias_grammar_util_repeated_expression v := by
  obtain ⟨v, h, ha⟩ := spells_nameExpression (U := U)
  cases ha
  exact ⟨_, .foldl_start_with_parser (.one_of (.cons (.token .lit_c trivial) (.cons (.token .lit_c trivial) .nil)) trivial) h build_repeated_fun, rfl⟩

theorem spells_seq : ∃ v, Spells U RuleClass bothEnv v seqExpressionT ∧
    Alias Hdr.alias_grammar_util_seq_expression v := by
  obtain ⟨v, h, ha⟩ := spells_repeated (U := U)
  cases ha
  exact ⟨_, .foldl_start_with_parser h h build_sequence_fun, rfl⟩

theorem rules_fit : Fits U RuleClass bothEnv where
  input := rfl
  std := rfl
  rules := by
    rintro i c ⟨rfl, rfl⟩
    obtain ⟨v, h, ha⟩ := spells_seq (U := U)
    cases ha
    refine ⟨_, ?_, .foldl_start_with_parser (.last_of (.cons (.token .lit_c trivial) (.cons h .nil)) trivial) h build_selection_fun, trivial⟩
    unfold Derived
    rw [inst_of body_grammar_util_expression]
    exact obind_ok _

/-- The class of the parser in `parser_parser`. -/
def parserV : V := K .entire_input [K .sequence (fill .sequence [nameTokenV, K .token [K .keyword [K .string (fill .string [.num 58, .num 58, .num 61]), K .impl_void_ []]], K .grammar_util_expression []]), K .error_end_of_input_expected []]

theorem spells_parser : Spells U RuleClass bothEnv parserV parserParserT :=
  .entire_input (m := .endOfInputExpected) (.sequence (.cons spells_name (.cons (.token (.keyword (l := [58, 58, 61]) (x := .void_) trivial) trivial)
    (.cons (.rule ⟨rfl, rfl⟩) .nil))) trivial trivial) trivial

end Metaparse.Tmpl
