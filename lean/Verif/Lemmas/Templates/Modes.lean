import Verif.Lemmas.Templates.Values
/-!
# What the helper classes of the headers do, given what the parsers do
-/

set_option linter.unusedVariables false
set_option linter.unusedSimpArgs false
set_option linter.unusedSectionVars false

namespace Metaparse.Tmpl

open Metaparse (Val Msg GExp Pos Res P Env Comb.pushFront Comb.pushBack nextPos ch)

section Generic

variable [Lang] {U : User} {I : Type} [Inputs I] [Lawful U I]

/-! ### Data -/

section Results
variable {x : V} {s : I} {p : Pos}

theorem acc_type : get (inst U) (K .accept [x, encInp s, encPos p]) .type = .ok (K .accept [x, encInp s, encPos p]) := by
  rw [get_inst body_accept]; dsimp! [Lawful.type s, pos_type]
theorem acc_tag : get (inst U) (K .accept [x, encInp s, encPos p]) .tag = .ok (K .accept_tag []) := by
  rw [get_inst body_accept]; dsimp! [Lawful.type s, pos_type]
theorem acc_result : get (inst U) (K .accept [x, encInp s, encPos p]) .result = .ok x := by
  rw [get_inst body_accept]; dsimp! [Lawful.type s, pos_type]
theorem acc_remaining : get (inst U) (K .accept [x, encInp s, encPos p]) .remaining = .ok (encInp s) := by
  rw [get_inst body_accept]; dsimp! [Lawful.type s, pos_type]
theorem acc_position : get (inst U) (K .accept [x, encInp s, encPos p]) .source_position = .ok (encPos p) := by
  rw [get_inst body_accept]; dsimp! [Lawful.type s, pos_type]
theorem rej_type : get (inst U) (K .reject [x, encPos p]) .type = .ok (K .reject [x, encPos p]) := by
  rw [get_inst body_reject]; dsimp! [pos_type]
theorem rej_tag : get (inst U) (K .reject [x, encPos p]) .tag = .ok (K .fail_tag []) := by
  rw [get_inst body_reject]; dsimp! [pos_type]
theorem rej_position : get (inst U) (K .reject [x, encPos p]) .source_position = .ok (encPos p) := by
  rw [get_inst body_reject]; dsimp! [pos_type]
theorem rej_message : get (inst U) (K .reject [x, encPos p]) .message = .ok x := by
  rw [get_inst body_reject]; dsimp! [pos_type]

theorem get_line_pos : get (inst U) (K .get_line [encPos p]) .type = .ok (K .mpl_int_ [.num p.line]) := by
  rw [get_inst body_get_line]; dsimp! [pos_type, pos_tag]
  rw [owner_inst body_get_line_impl]; dsimp! []
  rw [get_inst body_get_line_impl_apply]; dsimp! [pos_line, int_type]
theorem get_col_pos : get (inst U) (K .get_col [encPos p]) .type = .ok (K .mpl_int_ [.num p.col]) := by
  rw [get_inst body_get_col]; dsimp! [pos_type, pos_tag]
  rw [owner_inst body_get_col_impl]; dsimp! []
  rw [get_inst body_get_col_impl_apply]; dsimp! [pos_col, int_type]
theorem get_prev_pos : get (inst U) (K .get_prev_char [encPos p]) .type = .ok (K .mpl_char_ [.num p.prev]) := by
  rw [get_inst body_get_prev_char]; dsimp! [pos_type, pos_tag]
  rw [owner_inst body_get_prev_char_impl]; dsimp! []
  rw [get_inst body_get_prev_char_impl_apply]; dsimp! [pos_prev, char_type]

end Results

theorem eval_if_inst_1 {A B : V} : inst U (K .mpl_eval_if [K .mpl_bool_ [.num 1], A, B]) = inst U A := by
  rw [inst_of body_mpl_eval_if, get_inst body_mpl_if_]; dsimp! [bool_value]
  rw [get_inst (body_mpl_if_c_1 rfl)]; dsimp! []
theorem eval_if_inst_0 {A B : V} : inst U (K .mpl_eval_if [K .mpl_bool_ [.num 0], A, B]) = inst U B := by
  rw [inst_of body_mpl_eval_if, get_inst body_mpl_if_]; dsimp! [bool_value]
  rw [get_inst body_mpl_if_c_0]; dsimp! []

theorem get_eval_if_1 {A B : V} {x : Id} :
    get (inst U) (K .mpl_eval_if [K .mpl_bool_ [.num 1], A, B]) x = get (inst U) A x := by rw [get, eval_if_inst_1, get]
theorem get_eval_if_0 {A B : V} {x : Id} :
    get (inst U) (K .mpl_eval_if [K .mpl_bool_ [.num 0], A, B]) x = get (inst U) B x := by rw [get, eval_if_inst_0, get]

/-! ### `one_char` -/

section Next
variable {c : Int} {s : I} {p : Pos}

theorem next_line_front (hf : get (inst U) (K .mpl_front [encInp s]) .type = .ok (K .mpl_char_ [.num c])) : get (inst U) (K .next_line [encPos p, K .mpl_front [encInp s]]) .type =
    .ok (encPos ⟨p.line + 1, 1, c⟩) := by
  rw [get_inst body_next_line]; dsimp! [pos_type, tag_pos, hf]
  rw [owner_inst body_next_line_impl]; dsimp! []
  rw [get_inst body_next_line_impl_apply]; dsimp! [get_line_pos, int_value, Op.ev, sp_type]
  rfl

theorem next_char_front (hf : get (inst U) (K .mpl_front [encInp s]) .type = .ok (K .mpl_char_ [.num c])) : get (inst U) (K .next_char [encPos p, K .mpl_front [encInp s]]) .type =
    .ok (encPos ⟨p.line, p.col + 1, c⟩) := by
  rw [get_inst body_next_char]; dsimp! [pos_type, tag_pos, hf]
  rw [owner_inst body_next_char_impl]; dsimp! []
  rw [get_inst body_next_char_impl_apply]; dsimp! [get_line_pos, get_col_pos, int_value, Op.ev, sp_type]
  rfl

theorem next_pos_front (hf : get (inst U) (K .mpl_front [encInp s]) .type = .ok (K .mpl_char_ [.num c])) : get (inst U) (.cls (K .one_char []) .next_pos [K .mpl_front [encInp s], encPos p]) .type =
    .ok (encPos (nextPos c p)) := by
  rw [get_inst body_one_char_next_pos]
  dsimp! [hf, char_type, char_value, get_prev_pos, Op.ev, ofBool]
  have hr : ch '\r' = 13 := rfl
  have hn : ch '\n' = 10 := rfl
  by_cases h1 : c = 13
  · simp [h1, get_eval_if_1, next_line_front hf, nextPos, hr, hn, Pos.nextLine, Pos.nextChar]
  · by_cases h2 : c = 10
    · by_cases h3 : p.prev = 13
      · simp [h1, h2, h3, get_eval_if_0, next_char_front hf, nextPos, hr, hn, Pos.nextLine, Pos.nextChar]
      · simp [h1, h2, h3, get_eval_if_1, next_line_front hf, nextPos, hr, hn, Pos.nextLine, Pos.nextChar]
    · simp [h1, h2, get_eval_if_0, next_char_front hf, nextPos, hr, hn, Pos.nextLine, Pos.nextChar]

end Next

/-! ### Sequences -/

section Push
variable {l : List V} {x : V}

theorem vector_tag : get (inst U) (K .mpl_vector l) .tag = .ok (K .mpl_vector_tag []) := by members body_mpl_vector
theorem seq_tag_vector : get (inst U) (K .mpl_sequence_tag [K .mpl_vector l]) .type = .ok (K .mpl_vector_tag []) := by
  rw [get_inst body_mpl_sequence_tag]; dsimp! [vector_tag]

theorem push_back_vector : get (inst U) (K .mpl_push_back [K .mpl_vector l, x]) .type = .ok (K .mpl_vector (l ++ [x])) := by
  rw [get_inst body_mpl_push_back]; dsimp! [seq_tag_vector]
  rw [owner_inst body_mpl_push_back_impl_0]; dsimp! []
  rw [get_inst body_mpl_push_back_impl_0_apply]; dsimp! [vector_type]
  rw [get_inst body_mpl_vector_push_back]; dsimp! [vector_type]

theorem push_front_vector : get (inst U) (K .mpl_push_front [K .mpl_vector l, x]) .type = .ok (K .mpl_vector (x :: l)) := by
  rw [get_inst body_mpl_push_front]; dsimp! [seq_tag_vector]
  rw [owner_inst body_mpl_push_front_impl_0]; dsimp! []
  rw [get_inst body_mpl_push_front_impl_0_apply]; dsimp! [vector_type]
  rw [get_inst body_mpl_vector_push_front]; dsimp! [vector_type]

end Push

theorem Same.ill {α : Type} {f g : Fault} : Same (Out.ill f : Out α) (.ill g) := trivial

theorem Same.bindl {α β : Type} {x y : Out α} (h : Same x y) (k : α → Out β) : Same (x.bind k) (y.bind k) :=
  h.bind fun _ => Same.rfl' _

theorem msg_tag (m : Msg) : get (inst U) (encMsg m) .tag = .ill .noType := by
  cases m <;> simp only [encMsg] <;>
    first
    | members body_error_digit_expected
    | members body_error_end_of_input_expected
    | members body_error_expected_to_fail
    | members body_error_index_out_of_range
    | members body_error_letter_expected
    | members body_error_literal_expected
    | members body_error_none_of_the_expected_cases_found
    | members body_error_unexpected_character
    | members body_error_unexpected_end_of_input
    | members body_error_whitespace_expected
    | members body_user_message
    | (rw [get_inst (body_error_unpaired_1 (unpaired_fit _))]; dsimp! [])

/-- Classes that are no sequences. -/
theorem not_seq_tag (v : Val) (h1 : ∀ l, v ≠ .seq l) (h2 : ∀ l, v ≠ .str l) :
    (∃ f, get (inst U) (K .mpl_sequence_tag [encVal v]) .type = .ill f) ∨
    get (inst U) (K .mpl_sequence_tag [encVal v]) .type = .ok (K .mpl_integral_c_tag []) := by
  rw [get_inst body_mpl_sequence_tag]
  dsimp! []
  cases v with
  | seq l => exact absurd rfl (h1 l)
  | str l => exact absurd rfl (h2 l)
  | chr c =>
      have : get (inst U) (K .mpl_char_ [.num c]) .tag = .ok (K .mpl_integral_c_tag []) := by members body_mpl_char_
      right; simp only [encVal, this, Out.bind_ok]
  | int c =>
      have : get (inst U) (K .mpl_int_ [.num c]) .tag = .ok (K .mpl_integral_c_tag []) := by members body_mpl_int_
      right; simp only [encVal, this, Out.bind_ok]
  | bool c =>
      have : get (inst U) (K .mpl_bool_ [ofBool c]) .tag = .ok (K .mpl_integral_c_tag []) := by members body_mpl_bool_
      right; simp only [encVal, this, Out.bind_ok]
  | void_ =>
      have : get (inst U) (K .impl_void_ []) .tag = .ill .noType := by members body_impl_void_
      left; exact ⟨.noType, by simp only [encVal, this, Out.bind_ill]⟩
  | cvoid =>
      have : get (inst U) (K .t_void []) .tag = .ill .noSpecialisation :=
        ill_of_none (by intro k hk; cases hk) rfl
      left; exact ⟨.noSpecialisation, by simp only [encVal, this, Out.bind_ill]⟩
  | msg m => left; exact ⟨.noType, by simp only [encVal, msg_tag, Out.bind_ill]⟩
  | gexp e =>
      have : get (inst U) (encG e) .tag = .ill .noType := by
        cases e <;> simp only [encG] <;> members body_user_rule_of_grammar
      left; exact ⟨.noType, by simp only [encVal, this, Out.bind_ill]⟩
  | user n args => left; exact ⟨.noType, by simp only [encVal, user_tag, Out.bind_ill]⟩
  | flip n a b =>
      have : get (inst U) (K .user_flip [.num n, encVal a, encVal b]) .tag = .ill .noType := by members body_user_flip
      left; exact ⟨.noType, by simp only [encVal, this, Out.bind_ill]⟩
  | delayed v =>
      have : get (inst U) (K .user_delayed [encVal v]) .tag = .ill .noType := by members body_user_delayed
      left; exact ⟨.noType, by simp only [encVal, this, Out.bind_ill]⟩
  | bad f =>
      have : get (inst U) (K .user_bad []) .tag = .ill .noSpecialisation :=
        ill_of_none (by intro k hk; cases hk) rfl
      left; exact ⟨.noSpecialisation, by simp only [encVal, this, Out.bind_ill]⟩

theorem owner_ill_of_none {o : V} {n : Id} {args : List V} (ho : ∀ k, o ≠ .fn k) (h : resolve (.cls o n args) = none) {x : Id} :
    owner (inst U) (.cls o n args) x = .ill .noSpecialisation := by
  rw [owner, inst_step]
  cases o with
  | fn k => exact absurd rfl (ho k)
  | _ => simp only [instantiate, h, Out.bind_ill]

theorem value_not_deep (v : Val) : v.value ≠ .deep := by
  unfold Val.value
  cases v <;> simp [Val.force] <;> rename_i w <;> cases w <;> simp

theorem push_front_other (l v : Val) (h2 : ∀ k, l ≠ .str k) :
    Same (get (inst U) (K .mpl_push_front [encVal l, encVal v]) .type) (omap encVal (Comb.pushFront l v).force) := by
  by_cases h1 : ∃ k, l = .seq k
  · obtain ⟨k, rfl⟩ := h1
    simp only [encVal, push_front_vector, Comb.pushFront, Val.force, omap, Out.bind_ok, encVals, Same]
  · have hp : Comb.pushFront l v = .bad .noSpecialisation := by
      cases l <;> simp_all [Comb.pushFront]
    rw [hp, get_inst body_mpl_push_front]
    rcases not_seq_tag (U := U) l (fun k hk => h1 ⟨k, hk⟩) h2 with ⟨f, h⟩ | h
    · dsimp! [h, Out.bind_ill]
      exact trivial
    · dsimp! [h]
      rw [owner_ill_of_none (by intro k hk; cases hk) rfl]
      exact trivial

theorem push_back_other (l v : Val) (h2 : ∀ k, l ≠ .str k) :
    Same (get (inst U) (K .mpl_push_back [encVal l, encVal v]) .type) (omap encVal (Comb.pushBack l v).force) := by
  by_cases h1 : ∃ k, l = .seq k
  · obtain ⟨k, rfl⟩ := h1
    simp only [encVal, push_back_vector, Comb.pushBack, Val.force, omap, Out.bind_ok, encVals_append, Same]
  · have hp : Comb.pushBack l v = .bad .noSpecialisation := by
      cases l <;> simp_all [Comb.pushBack]
    rw [hp, get_inst body_mpl_push_back]
    rcases not_seq_tag (U := U) l (fun k hk => h1 ⟨k, hk⟩) h2 with ⟨f, h⟩ | h
    · dsimp! [h, Out.bind_ill]
      exact trivial
    · dsimp! [h]
      rw [owner_ill_of_none (by intro k hk; cases hk) rfl]
      exact trivial

end Generic

/-! ### Strings of C++11 -/

section Strings11

attribute [local instance] cpp11

variable {U : User}

theorem good_11 (s : List Int) : GoodStr s := trivial

theorem encStr_11 (s : List Int) : encStr s = K .string (s.map .num) := rfl

theorem string_type_11 {l : List V} : get (inst U) (K .string l) .type = .ok (K .string l) := by members body_string

theorem push_str_front {s : List Int} {v : Val} :
    Same (get (inst U) (K .mpl_push_front [encStr s, encVal v]) .type)
      (v.value.bind fun c => .ok (encStr (c :: s))) := by
  rw [get_inst body_mpl_push_front]; dsimp! [seq_tag_string (good_11 s)]
  rw [owner_inst body_mpl_push_front_impl_1]; dsimp! []
  rw [get_inst body_mpl_push_front_impl_1_apply]; dsimp! [str_type]
  have h := (val_type_value (U := U) v).bindl fun x3 => get (inst U) (K .impl_push_front_c [encStr s, x3]) .type
  rw [obind_assoc] at h
  refine h.trans ?_
  simp only [omap, obind_assoc, Out.bind_ok]
  refine Same.bind (Same.rfl' _) fun c => ?_
  rw [encStr_11, get_inst body_impl_push_front_c]; dsimp! [string_type_11]
  exact Same.rfl' _

theorem push_str_back {s : List Int} {v : Val} :
    Same (get (inst U) (K .mpl_push_back [encStr s, encVal v]) .type)
      (v.value.bind fun c => .ok (encStr (s ++ [c]))) := by
  rw [get_inst body_mpl_push_back]; dsimp! [seq_tag_string (good_11 s)]
  rw [owner_inst body_mpl_push_back_impl_1]; dsimp! []
  rw [get_inst body_mpl_push_back_impl_1_apply]; dsimp! [str_type]
  have h := (val_type_value (U := U) v).bindl fun x3 => get (inst U) (K .impl_push_back_c [encStr s, x3]) .type
  rw [obind_assoc] at h
  refine h.trans ?_
  simp only [omap, obind_assoc, Out.bind_ok]
  refine Same.bind (Same.rfl' _) fun c => ?_
  rw [encStr_11, get_inst body_impl_push_back_c]; dsimp! [string_type_11]
  rw [show encStr (s ++ [c]) = K .string (s.map .num ++ [.num c]) by simp [encStr_11]]
  exact Same.rfl' _

theorem push_front_val (l v : Val) :
    Same (get (inst U) (K .mpl_push_front [encVal l, encVal v]) .type) (omap encVal (Comb.pushFront l v).force) := by
  by_cases h2 : ∃ k, l = .str k
  · obtain ⟨k, rfl⟩ := h2
    refine push_str_front.trans ?_
    simp only [Comb.pushFront]
    cases hv : v.value with
    | deep => exact absurd hv (value_not_deep v)
    | _ => simp [Val.force, omap, Same, encVal]
  · exact push_front_other l v fun k hk => h2 ⟨k, hk⟩

theorem push_back_val (l v : Val) :
    Same (get (inst U) (K .mpl_push_back [encVal l, encVal v]) .type) (omap encVal (Comb.pushBack l v).force) := by
  by_cases h2 : ∃ k, l = .str k
  · obtain ⟨k, rfl⟩ := h2
    refine push_str_back.trans ?_
    simp only [Comb.pushBack]
    cases hv : v.value with
    | deep => exact absurd hv (value_not_deep v)
    | _ => simp [Val.force, omap, Same, encVal]
  · exact push_back_other l v fun k hk => h2 ⟨k, hk⟩

end Strings11

end Metaparse.Tmpl
