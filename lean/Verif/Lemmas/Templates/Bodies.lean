import Verif.Lemmas.Templates.Resolve
/-!
# What the instantiation of each class consists of

Generated by `/verif/translate/bodies.py` from the same texts as the definitions: for each class template and
specialisation, the steps of its instantiation, proved by computation.
-/

set_option linter.unusedVariables false
set_option linter.unusedSimpArgs false
set_option linter.unusedSectionVars false

namespace Metaparse.Tmpl

variable {U : User} {h : V → Out Members}

section

variable [Lang]

theorem body_mpl_na :
    instantiate U h (V.cls .root .mpl_na []) =
    Out.ok ([(.type, .ty (V.cls .root .mpl_na []))]) := by
  apply Eq.trans (b := _)
  apply body_of
  apply resolve_top
  refine choose_here rfl
  · intro k hk; cases hk
  body_simp

theorem body_mpl_integral_c_tag :
    instantiate U h (V.cls .root .mpl_integral_c_tag []) =
    Out.ok ([(.type, .ty (V.cls .root .mpl_integral_c_tag []))]) := by
  apply Eq.trans (b := _)
  apply body_of
  apply resolve_top
  refine choose_here rfl
  · intro k hk; cases hk
  body_simp

theorem body_mpl_random_access_iterator_tag :
    instantiate U h (V.cls .root .mpl_random_access_iterator_tag []) =
    Out.ok ([(.type, .ty (V.cls .root .mpl_random_access_iterator_tag []))]) := by
  apply Eq.trans (b := _)
  apply body_of
  apply resolve_top
  refine choose_here rfl
  · intro k hk; cases hk
  body_simp

theorem body_mpl_int_ {vN : V} :
    instantiate U h (V.cls .root .mpl_int_ [vN]) =
    Out.ok ([(.type, .ty (V.cls .root .mpl_int_ [vN])), (.tag, .ty (V.cls .root .mpl_integral_c_tag [])), (.value, .ty vN)]) := by
  apply Eq.trans (b := _)
  apply body_of
  apply resolve_top
  refine choose_here rfl
  · intro k hk; cases hk
  body_simp

theorem body_mpl_char_ {vC : V} :
    instantiate U h (V.cls .root .mpl_char_ [vC]) =
    Out.ok ([(.type, .ty (V.cls .root .mpl_char_ [vC])), (.tag, .ty (V.cls .root .mpl_integral_c_tag [])), (.value, .ty vC)]) := by
  apply Eq.trans (b := _)
  apply body_of
  apply resolve_top
  refine choose_here rfl
  · intro k hk; cases hk
  body_simp

theorem body_mpl_bool_ {vB : V} :
    instantiate U h (V.cls .root .mpl_bool_ [vB]) =
    Out.ok ([(.type, .ty (V.cls .root .mpl_bool_ [vB])), (.tag, .ty (V.cls .root .mpl_integral_c_tag [])), (.value, .ty vB)]) := by
  apply Eq.trans (b := _)
  apply body_of
  apply resolve_top
  refine choose_here rfl
  · intro k hk; cases hk
  body_simp

theorem body_mpl_if_c_0 {vT vF : V} :
    instantiate U h (V.cls .root .mpl_if_c [(V.num 0), vT, vF]) =
    Out.ok ([(.type, .ty vF)]) := by
  apply Eq.trans (b := _)
  apply body_of
  apply resolve_top
  refine choose_here rfl
  · intro k hk; cases hk
  body_simp

theorem body_mpl_if_c_1 {vC vT vF : V}
    (hmpl_if_c0 : Pat.fits [.num 0, .var .T, .var .F] [vC, vT, vF] [] = none) :
    instantiate U h (V.cls .root .mpl_if_c [vC, vT, vF]) =
    Out.ok ([(.type, .ty vT)]) := by
  apply Eq.trans (b := _)
  apply body_of
  apply resolve_top
  apply choose_next
  · exact hmpl_if_c0
  refine choose_here rfl
  · intro k hk; cases hk
  body_simp

theorem body_mpl_if_ {vC vT vF : V} :
    instantiate U h (V.cls .root .mpl_if_ [vC, vT, vF]) =
    (get h vC .value).bind fun x1 =>
    (h (V.cls .root .mpl_if_c [x1, vT, vF])).bind fun b2 =>
    Out.ok b2 := by
  apply Eq.trans (b := _)
  apply body_of
  apply resolve_top
  refine choose_here rfl
  · intro k hk; cases hk
  body_simp

theorem body_mpl_eval_if {vC vT vF : V} :
    instantiate U h (V.cls .root .mpl_eval_if [vC, vT, vF]) =
    (get h (V.cls .root .mpl_if_ [vC, vT, vF]) .type).bind fun x1 =>
    (h x1).bind fun b2 =>
    Out.ok b2 := by
  apply Eq.trans (b := _)
  apply body_of
  apply resolve_top
  refine choose_here rfl
  · intro k hk; cases hk
  body_simp

theorem body_mpl_tag {vT : V} :
    instantiate U h (V.cls .root .mpl_tag [vT]) =
    (get h vT .tag).bind fun x1 =>
    Out.ok ([(.type, .ty x1)]) := by
  apply Eq.trans (b := _)
  apply body_of
  apply resolve_top
  refine choose_here rfl
  · intro k hk; cases hk
  body_simp

theorem body_mpl_sequence_tag {vS : V} :
    instantiate U h (V.cls .root .mpl_sequence_tag [vS]) =
    (get h vS .tag).bind fun x1 =>
    Out.ok ([(.type, .ty x1)]) := by
  apply Eq.trans (b := _)
  apply body_of
  apply resolve_top
  refine choose_here rfl
  · intro k hk; cases hk
  body_simp

theorem body_mpl_begin {vS : V} :
    instantiate U h (V.cls .root .mpl_begin [vS]) =
    (get h (V.cls .root .mpl_sequence_tag [vS]) .type).bind fun x1 =>
    (owner h (V.cls .root .mpl_begin_impl [x1]) .apply).bind fun o2 =>
    (get h (V.cls o2 .apply [vS]) .type).bind fun x3 =>
    Out.ok ([(.type, .ty x3)]) := by
  apply Eq.trans (b := _)
  apply body_of
  apply resolve_top
  refine choose_here rfl
  · intro k hk; cases hk
  body_simp

theorem body_mpl_end {vS : V} :
    instantiate U h (V.cls .root .mpl_end [vS]) =
    (get h (V.cls .root .mpl_sequence_tag [vS]) .type).bind fun x1 =>
    (owner h (V.cls .root .mpl_end_impl [x1]) .apply).bind fun o2 =>
    (get h (V.cls o2 .apply [vS]) .type).bind fun x3 =>
    Out.ok ([(.type, .ty x3)]) := by
  apply Eq.trans (b := _)
  apply body_of
  apply resolve_top
  refine choose_here rfl
  · intro k hk; cases hk
  body_simp

theorem body_mpl_front_impl_0 :
    instantiate U h (V.cls .root .mpl_front_impl [(V.cls .root .mpl_vector_tag [])]) =
    Out.ok ([(.apply, .tmpl (V.cls .root .mpl_front_impl [(V.cls .root .mpl_vector_tag [])]))]) := by
  apply Eq.trans (b := _)
  apply body_of
  apply resolve_top
  refine choose_here rfl
  · intro k hk; cases hk
  body_simp

theorem body_mpl_front_impl_0_apply {vS : V} :
    instantiate U h (V.cls (V.cls .root .mpl_front_impl [(V.cls .root .mpl_vector_tag [])]) .apply [vS]) =
    (get h vS .type).bind fun x1 =>
    (h (V.cls .root .mpl_vector_front [x1])).bind fun b2 =>
    Out.ok b2 := by
  apply Eq.trans (b := _)
  apply body_of
  apply resolve_in
  apply resolve_top
  refine choose_here rfl
  refine choose_here rfl
  · intro k hk; cases hk
  body_simp

theorem body_mpl_front_impl_1 {vTag : V}
    (hmpl_front_impl0 : Pat.fits [.cls .mpl_vector_tag []] [vTag] [] = none) :
    instantiate U h (V.cls .root .mpl_front_impl [vTag]) =
    Out.ok ([(.apply, .tmpl (V.cls .root .mpl_front_impl [vTag]))]) := by
  apply Eq.trans (b := _)
  apply body_of
  apply resolve_top
  apply choose_next
  · exact hmpl_front_impl0
  refine choose_here rfl
  · intro k hk; cases hk
  body_simp

theorem body_mpl_front_impl_1_apply {vTag vS : V}
    (hmpl_front_impl0 : Pat.fits [.cls .mpl_vector_tag []] [vTag] [] = none) :
    instantiate U h (V.cls (V.cls .root .mpl_front_impl [vTag]) .apply [vS]) =
    (get h (V.cls .root .mpl_begin [vS]) .type).bind fun x1 =>
    (get h (V.cls .root .mpl_deref [x1]) .type).bind fun x2 =>
    Out.ok ([(.type, .ty x2)]) := by
  apply Eq.trans (b := _)
  apply body_of
  apply resolve_in
  apply resolve_top
  apply choose_next
  · exact hmpl_front_impl0
  refine choose_here rfl
  refine choose_here rfl
  · intro k hk; cases hk
  body_simp

theorem body_mpl_front {vS : V} :
    instantiate U h (V.cls .root .mpl_front [vS]) =
    (get h (V.cls .root .mpl_sequence_tag [vS]) .type).bind fun x1 =>
    (owner h (V.cls .root .mpl_front_impl [x1]) .apply).bind fun o2 =>
    (h (V.cls o2 .apply [vS])).bind fun b3 =>
    Out.ok b3 := by
  apply Eq.trans (b := _)
  apply body_of
  apply resolve_top
  refine choose_here rfl
  · intro k hk; cases hk
  body_simp

theorem body_mpl_empty_impl {vTag : V} :
    instantiate U h (V.cls .root .mpl_empty_impl [vTag]) =
    Out.ok ([(.apply, .tmpl (V.cls .root .mpl_empty_impl [vTag]))]) := by
  apply Eq.trans (b := _)
  apply body_of
  apply resolve_top
  refine choose_here rfl
  · intro k hk; cases hk
  body_simp

theorem body_mpl_empty_impl_apply {vTag vS : V} :
    instantiate U h (V.cls (V.cls .root .mpl_empty_impl [vTag]) .apply [vS]) =
    (get h (V.cls .root .mpl_begin [vS]) .type).bind fun x1 =>
    (get h (V.cls .root .mpl_end [vS]) .type).bind fun x2 =>
    (h (V.cls .root .boost_is_same [x1, x2])).bind fun b3 =>
    Out.ok b3 := by
  apply Eq.trans (b := _)
  apply body_of
  apply resolve_in
  apply resolve_top
  refine choose_here rfl
  refine choose_here rfl
  · intro k hk; cases hk
  body_simp

theorem body_mpl_empty {vS : V} :
    instantiate U h (V.cls .root .mpl_empty [vS]) =
    (get h (V.cls .root .mpl_sequence_tag [vS]) .type).bind fun x1 =>
    (owner h (V.cls .root .mpl_empty_impl [x1]) .apply).bind fun o2 =>
    (h (V.cls o2 .apply [vS])).bind fun b3 =>
    Out.ok b3 := by
  apply Eq.trans (b := _)
  apply body_of
  apply resolve_top
  refine choose_here rfl
  · intro k hk; cases hk
  body_simp

theorem body_mpl_clear {vS : V} :
    instantiate U h (V.cls .root .mpl_clear [vS]) =
    (get h (V.cls .root .mpl_sequence_tag [vS]) .type).bind fun x1 =>
    (owner h (V.cls .root .mpl_clear_impl [x1]) .apply).bind fun o2 =>
    (h (V.cls o2 .apply [vS])).bind fun b3 =>
    Out.ok b3 := by
  apply Eq.trans (b := _)
  apply body_of
  apply resolve_top
  refine choose_here rfl
  · intro k hk; cases hk
  body_simp

theorem body_mpl_pop_front {vS : V} :
    instantiate U h (V.cls .root .mpl_pop_front [vS]) =
    (get h (V.cls .root .mpl_sequence_tag [vS]) .type).bind fun x1 =>
    (owner h (V.cls .root .mpl_pop_front_impl [x1]) .apply).bind fun o2 =>
    (h (V.cls o2 .apply [vS])).bind fun b3 =>
    Out.ok b3 := by
  apply Eq.trans (b := _)
  apply body_of
  apply resolve_top
  refine choose_here rfl
  · intro k hk; cases hk
  body_simp

theorem body_mpl_pop_back {vS : V} :
    instantiate U h (V.cls .root .mpl_pop_back [vS]) =
    (get h (V.cls .root .mpl_sequence_tag [vS]) .type).bind fun x1 =>
    (owner h (V.cls .root .mpl_pop_back_impl [x1]) .apply).bind fun o2 =>
    (h (V.cls o2 .apply [vS])).bind fun b3 =>
    Out.ok b3 := by
  apply Eq.trans (b := _)
  apply body_of
  apply resolve_top
  refine choose_here rfl
  · intro k hk; cases hk
  body_simp

theorem body_mpl_push_back {vS vT : V} :
    instantiate U h (V.cls .root .mpl_push_back [vS, vT]) =
    (get h (V.cls .root .mpl_sequence_tag [vS]) .type).bind fun x1 =>
    (owner h (V.cls .root .mpl_push_back_impl [x1]) .apply).bind fun o2 =>
    (h (V.cls o2 .apply [vS, vT])).bind fun b3 =>
    Out.ok b3 := by
  apply Eq.trans (b := _)
  apply body_of
  apply resolve_top
  refine choose_here rfl
  · intro k hk; cases hk
  body_simp

theorem body_mpl_push_front {vS vT : V} :
    instantiate U h (V.cls .root .mpl_push_front [vS, vT]) =
    (get h (V.cls .root .mpl_sequence_tag [vS]) .type).bind fun x1 =>
    (owner h (V.cls .root .mpl_push_front_impl [x1]) .apply).bind fun o2 =>
    (h (V.cls o2 .apply [vS, vT])).bind fun b3 =>
    Out.ok b3 := by
  apply Eq.trans (b := _)
  apply body_of
  apply resolve_top
  refine choose_here rfl
  · intro k hk; cases hk
  body_simp

theorem body_mpl_equal_to {vA vB : V} :
    instantiate U h (V.cls .root .mpl_equal_to [vA, vB]) =
    (get h (V.cls .root .mpl_tag [vA]) .type).bind fun x1 =>
    (get h (V.cls .root .mpl_tag [vB]) .type).bind fun x2 =>
    (owner h (V.cls .root .mpl_equal_to_impl [x1, x2]) .apply).bind fun o3 =>
    (get h (V.cls o3 .apply [vA, vB]) .type).bind fun x4 =>
    (h x4).bind fun b5 =>
    Out.ok b5 := by
  apply Eq.trans (b := _)
  apply body_of
  apply resolve_top
  refine choose_here rfl
  · intro k hk; cases hk
  body_simp

theorem body_mpl_less {vA vB : V} :
    instantiate U h (V.cls .root .mpl_less [vA, vB]) =
    (get h (V.cls .root .mpl_tag [vA]) .type).bind fun x1 =>
    (get h (V.cls .root .mpl_tag [vB]) .type).bind fun x2 =>
    (owner h (V.cls .root .mpl_less_impl [x1, x2]) .apply).bind fun o3 =>
    (get h (V.cls o3 .apply [vA, vB]) .type).bind fun x4 =>
    (h x4).bind fun b5 =>
    Out.ok b5 := by
  apply Eq.trans (b := _)
  apply body_of
  apply resolve_top
  refine choose_here rfl
  · intro k hk; cases hk
  body_simp

theorem body_mpl_less_equal_impl_0 :
    instantiate U h (V.cls .root .mpl_less_equal_impl [(V.cls .root .mpl_integral_c_tag []), (V.cls .root .mpl_integral_c_tag [])]) =
    Out.ok ([(.apply, .tmpl (V.cls .root .mpl_less_equal_impl [(V.cls .root .mpl_integral_c_tag []), (V.cls .root .mpl_integral_c_tag [])]))]) := by
  apply Eq.trans (b := _)
  apply body_of
  apply resolve_top
  refine choose_here rfl
  · intro k hk; cases hk
  body_simp

theorem body_mpl_less_equal_impl_0_apply {vA vB : V} :
    instantiate U h (V.cls (V.cls .root .mpl_less_equal_impl [(V.cls .root .mpl_integral_c_tag []), (V.cls .root .mpl_integral_c_tag [])]) .apply [vA, vB]) =
    (get h vA .value).bind fun x1 =>
    (get h vB .value).bind fun x2 =>
    (Op.ev .le x1 x2).bind fun x3 =>
    (h (V.cls .root .mpl_bool_ [x3])).bind fun b4 =>
    Out.ok b4 := by
  apply Eq.trans (b := _)
  apply body_of
  apply resolve_in
  apply resolve_top
  refine choose_here rfl
  refine choose_here rfl
  · intro k hk; cases hk
  body_simp

theorem body_mpl_less_equal_impl_1 :
    instantiate U h (V.cls .root .mpl_less_equal_impl [(V.cls .root .source_position_tag []), (V.cls .root .source_position_tag [])]) =
    Out.ok ([(.type, .ty (V.cls .root .mpl_less_equal_impl [(V.cls .root .source_position_tag []), (V.cls .root .source_position_tag [])])), (.apply, .tmpl (V.cls .root .mpl_less_equal_impl [(V.cls .root .source_position_tag []), (V.cls .root .source_position_tag [])]))]) := by
  apply Eq.trans (b := _)
  apply body_of
  apply resolve_top
  apply choose_next
  · exact rfl
  refine choose_here rfl
  · intro k hk; cases hk
  body_simp

theorem body_mpl_less_equal_impl_1_apply {vA vB : V} :
    instantiate U h (V.cls (V.cls .root .mpl_less_equal_impl [(V.cls .root .source_position_tag []), (V.cls .root .source_position_tag [])]) .apply [vA, vB]) =
    (get h (V.cls .root .mpl_less [vA, vB]) .type).bind fun x1 =>
    (get h x1 .value).bind fun x2 =>
    (get h (V.cls .root .mpl_equal_to [vA, vB]) .type).bind fun x3 =>
    (get h x3 .value).bind fun x4 =>
    (Op.ev .or x2 x4).bind fun x5 =>
    (h (V.cls .root .mpl_bool_ [x5])).bind fun b6 =>
    Out.ok b6 := by
  apply Eq.trans (b := _)
  apply body_of
  apply resolve_in
  apply resolve_top
  apply choose_next
  · exact rfl
  refine choose_here rfl
  refine choose_here rfl
  · intro k hk; cases hk
  body_simp

theorem body_mpl_less_equal {vA vB : V} :
    instantiate U h (V.cls .root .mpl_less_equal [vA, vB]) =
    (get h (V.cls .root .mpl_tag [vA]) .type).bind fun x1 =>
    (get h (V.cls .root .mpl_tag [vB]) .type).bind fun x2 =>
    (owner h (V.cls .root .mpl_less_equal_impl [x1, x2]) .apply).bind fun o3 =>
    (get h (V.cls o3 .apply [vA, vB]) .type).bind fun x4 =>
    (h x4).bind fun b5 =>
    Out.ok b5 := by
  apply Eq.trans (b := _)
  apply body_of
  apply resolve_top
  refine choose_here rfl
  · intro k hk; cases hk
  body_simp

theorem body_mpl_advance {vI vN : V} :
    instantiate U h (V.cls .root .mpl_advance [vI, vN]) =
    (get h (V.cls .root .mpl_tag [vI]) .type).bind fun x1 =>
    (owner h (V.cls .root .mpl_advance_impl [x1]) .apply).bind fun o2 =>
    (h (V.cls o2 .apply [vI, vN])).bind fun b3 =>
    Out.ok b3 := by
  apply Eq.trans (b := _)
  apply body_of
  apply resolve_top
  refine choose_here rfl
  · intro k hk; cases hk
  body_simp

theorem body_mpl_distance {vA vB : V} :
    instantiate U h (V.cls .root .mpl_distance [vA, vB]) =
    (get h (V.cls .root .mpl_tag [vA]) .type).bind fun x1 =>
    (owner h (V.cls .root .mpl_distance_impl [x1]) .apply).bind fun o2 =>
    (h (V.cls o2 .apply [vA, vB])).bind fun b3 =>
    Out.ok b3 := by
  apply Eq.trans (b := _)
  apply body_of
  apply resolve_top
  refine choose_here rfl
  · intro k hk; cases hk
  body_simp

theorem body_mpl_size_impl {vTag : V} :
    instantiate U h (V.cls .root .mpl_size_impl [vTag]) =
    Out.ok ([(.apply, .tmpl (V.cls .root .mpl_size_impl [vTag]))]) := by
  apply Eq.trans (b := _)
  apply body_of
  apply resolve_top
  refine choose_here rfl
  · intro k hk; cases hk
  body_simp

theorem body_mpl_size_impl_apply {vTag vS : V} :
    instantiate U h (V.cls (V.cls .root .mpl_size_impl [vTag]) .apply [vS]) =
    (get h (V.cls .root .mpl_begin [vS]) .type).bind fun x1 =>
    (get h (V.cls .root .mpl_end [vS]) .type).bind fun x2 =>
    (h (V.cls .root .mpl_distance [x1, x2])).bind fun b3 =>
    Out.ok b3 := by
  apply Eq.trans (b := _)
  apply body_of
  apply resolve_in
  apply resolve_top
  refine choose_here rfl
  refine choose_here rfl
  · intro k hk; cases hk
  body_simp

theorem body_mpl_size {vS : V} :
    instantiate U h (V.cls .root .mpl_size [vS]) =
    (get h (V.cls .root .mpl_sequence_tag [vS]) .type).bind fun x1 =>
    (owner h (V.cls .root .mpl_size_impl [x1]) .apply).bind fun o2 =>
    (h (V.cls o2 .apply [vS])).bind fun b3 =>
    Out.ok b3 := by
  apply Eq.trans (b := _)
  apply body_of
  apply resolve_top
  refine choose_here rfl
  · intro k hk; cases hk
  body_simp

theorem body_mpl_back_impl_0 :
    instantiate U h (V.cls .root .mpl_back_impl [(V.cls .root .mpl_vector_tag [])]) =
    Out.ok ([(.apply, .tmpl (V.cls .root .mpl_back_impl [(V.cls .root .mpl_vector_tag [])]))]) := by
  apply Eq.trans (b := _)
  apply body_of
  apply resolve_top
  refine choose_here rfl
  · intro k hk; cases hk
  body_simp

theorem body_mpl_back_impl_0_apply {vS : V} :
    instantiate U h (V.cls (V.cls .root .mpl_back_impl [(V.cls .root .mpl_vector_tag [])]) .apply [vS]) =
    (get h vS .type).bind fun x1 =>
    (h (V.cls .root .mpl_vector_back [x1])).bind fun b2 =>
    Out.ok b2 := by
  apply Eq.trans (b := _)
  apply body_of
  apply resolve_in
  apply resolve_top
  refine choose_here rfl
  refine choose_here rfl
  · intro k hk; cases hk
  body_simp

theorem body_mpl_back_impl_1 {vTag : V}
    (hmpl_back_impl0 : Pat.fits [.cls .mpl_vector_tag []] [vTag] [] = none) :
    instantiate U h (V.cls .root .mpl_back_impl [vTag]) =
    Out.ok ([(.apply, .tmpl (V.cls .root .mpl_back_impl [vTag]))]) := by
  apply Eq.trans (b := _)
  apply body_of
  apply resolve_top
  apply choose_next
  · exact hmpl_back_impl0
  refine choose_here rfl
  · intro k hk; cases hk
  body_simp

theorem body_mpl_back_impl_1_apply {vTag vS : V}
    (hmpl_back_impl0 : Pat.fits [.cls .mpl_vector_tag []] [vTag] [] = none) :
    instantiate U h (V.cls (V.cls .root .mpl_back_impl [vTag]) .apply [vS]) =
    (get h (V.cls .root .mpl_end [vS]) .type).bind fun x1 =>
    (get h (V.cls .root .mpl_prior [x1]) .type).bind fun x2 =>
    (get h (V.cls .root .mpl_deref [x2]) .type).bind fun x3 =>
    Out.ok ([(.type, .ty x3)]) := by
  apply Eq.trans (b := _)
  apply body_of
  apply resolve_in
  apply resolve_top
  apply choose_next
  · exact hmpl_back_impl0
  refine choose_here rfl
  refine choose_here rfl
  · intro k hk; cases hk
  body_simp

theorem body_mpl_back {vS : V} :
    instantiate U h (V.cls .root .mpl_back [vS]) =
    (get h (V.cls .root .mpl_sequence_tag [vS]) .type).bind fun x1 =>
    (owner h (V.cls .root .mpl_back_impl [x1]) .apply).bind fun o2 =>
    (h (V.cls o2 .apply [vS])).bind fun b3 =>
    Out.ok b3 := by
  apply Eq.trans (b := _)
  apply body_of
  apply resolve_top
  refine choose_here rfl
  · intro k hk; cases hk
  body_simp

theorem body_mpl_at_impl_0 :
    instantiate U h (V.cls .root .mpl_at_impl [(V.cls .root .mpl_map_tag [])]) =
    Out.ok ([(.apply, .tmpl (V.cls .root .mpl_at_impl [(V.cls .root .mpl_map_tag [])]))]) := by
  apply Eq.trans (b := _)
  apply body_of
  apply resolve_top
  refine choose_here rfl
  · intro k hk; cases hk
  body_simp

theorem body_mpl_at_impl_0_apply {vM vK : V} :
    instantiate U h (V.cls (V.cls .root .mpl_at_impl [(V.cls .root .mpl_map_tag [])]) .apply [vM, vK]) =
    (get h vM .type).bind fun x1 =>
    (h (V.cls .root .mpl_map_at [x1, vK])).bind fun b2 =>
    Out.ok b2 := by
  apply Eq.trans (b := _)
  apply body_of
  apply resolve_in
  apply resolve_top
  refine choose_here rfl
  refine choose_here rfl
  · intro k hk; cases hk
  body_simp

theorem body_mpl_at_impl_1 :
    instantiate U h (V.cls .root .mpl_at_impl [(V.cls .root .mpl_vector_tag [])]) =
    Out.ok ([(.apply, .tmpl (V.cls .root .mpl_at_impl [(V.cls .root .mpl_vector_tag [])]))]) := by
  apply Eq.trans (b := _)
  apply body_of
  apply resolve_top
  apply choose_next
  · exact rfl
  refine choose_here rfl
  · intro k hk; cases hk
  body_simp

theorem body_mpl_at_impl_1_apply {vS vN : V} :
    instantiate U h (V.cls (V.cls .root .mpl_at_impl [(V.cls .root .mpl_vector_tag [])]) .apply [vS, vN]) =
    (get h vS .type).bind fun x1 =>
    (get h vN .value).bind fun x2 =>
    (h (V.cls .root .mpl_vector_at [x1, x2])).bind fun b3 =>
    Out.ok b3 := by
  apply Eq.trans (b := _)
  apply body_of
  apply resolve_in
  apply resolve_top
  apply choose_next
  · exact rfl
  refine choose_here rfl
  refine choose_here rfl
  · intro k hk; cases hk
  body_simp

theorem body_mpl_at_impl_2 {vTag : V}
    (hmpl_at_impl0 : Pat.fits [.cls .mpl_map_tag []] [vTag] [] = none)
    (hmpl_at_impl1 : Pat.fits [.cls .mpl_vector_tag []] [vTag] [] = none) :
    instantiate U h (V.cls .root .mpl_at_impl [vTag]) =
    Out.ok ([(.apply, .tmpl (V.cls .root .mpl_at_impl [vTag]))]) := by
  apply Eq.trans (b := _)
  apply body_of
  apply resolve_top
  apply choose_next
  · exact hmpl_at_impl0
  apply choose_next
  · exact hmpl_at_impl1
  refine choose_here rfl
  · intro k hk; cases hk
  body_simp

theorem body_mpl_at_impl_2_apply {vTag vS vN : V}
    (hmpl_at_impl0 : Pat.fits [.cls .mpl_map_tag []] [vTag] [] = none)
    (hmpl_at_impl1 : Pat.fits [.cls .mpl_vector_tag []] [vTag] [] = none) :
    instantiate U h (V.cls (V.cls .root .mpl_at_impl [vTag]) .apply [vS, vN]) =
    (get h (V.cls .root .mpl_begin [vS]) .type).bind fun x1 =>
    (get h (V.cls .root .mpl_advance [x1, vN]) .type).bind fun x2 =>
    (get h (V.cls .root .mpl_deref [x2]) .type).bind fun x3 =>
    Out.ok ([(.type, .ty x3)]) := by
  apply Eq.trans (b := _)
  apply body_of
  apply resolve_in
  apply resolve_top
  apply choose_next
  · exact hmpl_at_impl0
  apply choose_next
  · exact hmpl_at_impl1
  refine choose_here rfl
  refine choose_here rfl
  · intro k hk; cases hk
  body_simp

theorem body_mpl_at {vS vN : V} :
    instantiate U h (V.cls .root .mpl_at [vS, vN]) =
    (get h (V.cls .root .mpl_sequence_tag [vS]) .type).bind fun x1 =>
    (owner h (V.cls .root .mpl_at_impl [x1]) .apply).bind fun o2 =>
    (h (V.cls o2 .apply [vS, vN])).bind fun b3 =>
    Out.ok b3 := by
  apply Eq.trans (b := _)
  apply body_of
  apply resolve_top
  refine choose_here rfl
  · intro k hk; cases hk
  body_simp

theorem body_mpl_at_c {vS vN : V} :
    instantiate U h (V.cls .root .mpl_at_c [vS, vN]) =
    (get h (V.cls .root .mpl_sequence_tag [vS]) .type).bind fun x1 =>
    (owner h (V.cls .root .mpl_at_impl [x1]) .apply).bind fun o2 =>
    (h (V.cls o2 .apply [vS, (V.cls .root .mpl_int_ [vN])])).bind fun b3 =>
    Out.ok b3 := by
  apply Eq.trans (b := _)
  apply body_of
  apply resolve_top
  refine choose_here rfl
  · intro k hk; cases hk
  body_simp

theorem body_mpl_vector_tag :
    instantiate U h (V.cls .root .mpl_vector_tag []) =
    Out.ok ([(.type, .ty (V.cls .root .mpl_vector_tag []))]) := by
  apply Eq.trans (b := _)
  apply body_of
  apply resolve_top
  refine choose_here rfl
  · intro k hk; cases hk
  body_simp

theorem body_mpl_vector {vTs : List V} :
    instantiate U h (V.cls .root .mpl_vector vTs) =
    Out.ok ([(.type, .ty (V.cls .root .mpl_vector vTs)), (.tag, .ty (V.cls .root .mpl_vector_tag []))]) := by
  apply Eq.trans (b := _)
  apply body_of
  apply resolve_top
  refine choose_here rfl
  · intro k hk; cases hk
  body_simp

theorem body_mpl_vector_push_back {vT : V} {vTs : List V} :
    instantiate U h (V.cls .root .mpl_vector_push_back [(V.cls .root .mpl_vector vTs), vT]) =
    (h (V.cls .root .mpl_vector (vTs ++ [vT]))).bind fun b1 =>
    Out.ok b1 := by
  apply Eq.trans (b := _)
  apply body_of
  apply resolve_top
  refine choose_here rfl
  · intro k hk; cases hk
  body_simp

theorem body_mpl_vector_push_front {vT : V} {vTs : List V} :
    instantiate U h (V.cls .root .mpl_vector_push_front [(V.cls .root .mpl_vector vTs), vT]) =
    (h (V.cls .root .mpl_vector (vT :: vTs))).bind fun b1 =>
    Out.ok b1 := by
  apply Eq.trans (b := _)
  apply body_of
  apply resolve_top
  refine choose_here rfl
  · intro k hk; cases hk
  body_simp

theorem body_mpl_push_back_impl_0 :
    instantiate U h (V.cls .root .mpl_push_back_impl [(V.cls .root .mpl_vector_tag [])]) =
    Out.ok ([(.apply, .tmpl (V.cls .root .mpl_push_back_impl [(V.cls .root .mpl_vector_tag [])]))]) := by
  apply Eq.trans (b := _)
  apply body_of
  apply resolve_top
  refine choose_here rfl
  · intro k hk; cases hk
  body_simp

theorem body_mpl_push_back_impl_0_apply {vS vT : V} :
    instantiate U h (V.cls (V.cls .root .mpl_push_back_impl [(V.cls .root .mpl_vector_tag [])]) .apply [vS, vT]) =
    (get h vS .type).bind fun x1 =>
    (h (V.cls .root .mpl_vector_push_back [x1, vT])).bind fun b2 =>
    Out.ok b2 := by
  apply Eq.trans (b := _)
  apply body_of
  apply resolve_in
  apply resolve_top
  refine choose_here rfl
  refine choose_here rfl
  · intro k hk; cases hk
  body_simp

theorem body_mpl_push_back_impl_1 :
    instantiate U h (V.cls .root .mpl_push_back_impl [(V.cls .root .string_tag [])]) =
    Out.ok ([(.type, .ty (V.cls .root .mpl_push_back_impl [(V.cls .root .string_tag [])])), (.apply, .tmpl (V.cls .root .mpl_push_back_impl [(V.cls .root .string_tag [])]))]) := by
  apply Eq.trans (b := _)
  apply body_of
  apply resolve_top
  apply choose_next
  · exact rfl
  refine choose_here rfl
  · intro k hk; cases hk
  body_simp

theorem body_mpl_push_back_impl_1_apply {vS vC : V} :
    instantiate U h (V.cls (V.cls .root .mpl_push_back_impl [(V.cls .root .string_tag [])]) .apply [vS, vC]) =
    (get h vS .type).bind fun x1 =>
    (get h vC .type).bind fun x2 =>
    (get h x2 .value).bind fun x3 =>
    (h (V.cls .root .impl_push_back_c [x1, x3])).bind fun b4 =>
    Out.ok b4 := by
  apply Eq.trans (b := _)
  apply body_of
  apply resolve_in
  apply resolve_top
  apply choose_next
  · exact rfl
  refine choose_here rfl
  refine choose_here rfl
  · intro k hk; cases hk
  body_simp

theorem body_mpl_push_front_impl_0 :
    instantiate U h (V.cls .root .mpl_push_front_impl [(V.cls .root .mpl_vector_tag [])]) =
    Out.ok ([(.apply, .tmpl (V.cls .root .mpl_push_front_impl [(V.cls .root .mpl_vector_tag [])]))]) := by
  apply Eq.trans (b := _)
  apply body_of
  apply resolve_top
  refine choose_here rfl
  · intro k hk; cases hk
  body_simp

theorem body_mpl_push_front_impl_0_apply {vS vT : V} :
    instantiate U h (V.cls (V.cls .root .mpl_push_front_impl [(V.cls .root .mpl_vector_tag [])]) .apply [vS, vT]) =
    (get h vS .type).bind fun x1 =>
    (h (V.cls .root .mpl_vector_push_front [x1, vT])).bind fun b2 =>
    Out.ok b2 := by
  apply Eq.trans (b := _)
  apply body_of
  apply resolve_in
  apply resolve_top
  refine choose_here rfl
  refine choose_here rfl
  · intro k hk; cases hk
  body_simp

theorem body_mpl_push_front_impl_1 :
    instantiate U h (V.cls .root .mpl_push_front_impl [(V.cls .root .string_tag [])]) =
    Out.ok ([(.type, .ty (V.cls .root .mpl_push_front_impl [(V.cls .root .string_tag [])])), (.apply, .tmpl (V.cls .root .mpl_push_front_impl [(V.cls .root .string_tag [])]))]) := by
  apply Eq.trans (b := _)
  apply body_of
  apply resolve_top
  apply choose_next
  · exact rfl
  refine choose_here rfl
  · intro k hk; cases hk
  body_simp

theorem body_mpl_push_front_impl_1_apply {vS vC : V} :
    instantiate U h (V.cls (V.cls .root .mpl_push_front_impl [(V.cls .root .string_tag [])]) .apply [vS, vC]) =
    (get h vS .type).bind fun x1 =>
    (get h vC .type).bind fun x2 =>
    (get h x2 .value).bind fun x3 =>
    (h (V.cls .root .impl_push_front_c [x1, x3])).bind fun b4 =>
    Out.ok b4 := by
  apply Eq.trans (b := _)
  apply body_of
  apply resolve_in
  apply resolve_top
  apply choose_next
  · exact rfl
  refine choose_here rfl
  refine choose_here rfl
  · intro k hk; cases hk
  body_simp

theorem body_mpl_vector_front {vT : V} {vTs : List V} :
    instantiate U h (V.cls .root .mpl_vector_front [(V.cls .root .mpl_vector (vT :: vTs))]) =
    Out.ok ([(.type, .ty vT)]) := by
  apply Eq.trans (b := _)
  apply body_of
  apply resolve_top
  refine choose_here rfl
  · intro k hk; cases hk
  body_simp

theorem body_mpl_vector_back_0 {vT : V} :
    instantiate U h (V.cls .root .mpl_vector_back [(V.cls .root .mpl_vector [vT])]) =
    Out.ok ([(.type, .ty vT)]) := by
  apply Eq.trans (b := _)
  apply body_of
  apply resolve_top
  refine choose_here rfl
  · intro k hk; cases hk
  body_simp

theorem body_mpl_vector_back_1 {vT vU : V} {vTs : List V} :
    instantiate U h (V.cls .root .mpl_vector_back [(V.cls .root .mpl_vector (vT :: vU :: vTs))]) =
    (h (V.cls .root .mpl_vector_back [(V.cls .root .mpl_vector (vU :: vTs))])).bind fun b1 =>
    Out.ok b1 := by
  apply Eq.trans (b := _)
  apply body_of
  apply resolve_top
  apply choose_next
  · exact rfl
  refine choose_here rfl
  · intro k hk; cases hk
  body_simp

theorem body_mpl_vector_pop_front {vT : V} {vTs : List V} :
    instantiate U h (V.cls .root .mpl_vector_pop_front [(V.cls .root .mpl_vector (vT :: vTs))]) =
    (h (V.cls .root .mpl_vector vTs)).bind fun b1 =>
    Out.ok b1 := by
  apply Eq.trans (b := _)
  apply body_of
  apply resolve_top
  refine choose_here rfl
  · intro k hk; cases hk
  body_simp

theorem body_mpl_pop_front_impl_0 :
    instantiate U h (V.cls .root .mpl_pop_front_impl [(V.cls .root .mpl_vector_tag [])]) =
    Out.ok ([(.apply, .tmpl (V.cls .root .mpl_pop_front_impl [(V.cls .root .mpl_vector_tag [])]))]) := by
  apply Eq.trans (b := _)
  apply body_of
  apply resolve_top
  refine choose_here rfl
  · intro k hk; cases hk
  body_simp

theorem body_mpl_pop_front_impl_0_apply {vS : V} :
    instantiate U h (V.cls (V.cls .root .mpl_pop_front_impl [(V.cls .root .mpl_vector_tag [])]) .apply [vS]) =
    (get h vS .type).bind fun x1 =>
    (h (V.cls .root .mpl_vector_pop_front [x1])).bind fun b2 =>
    Out.ok b2 := by
  apply Eq.trans (b := _)
  apply body_of
  apply resolve_in
  apply resolve_top
  refine choose_here rfl
  refine choose_here rfl
  · intro k hk; cases hk
  body_simp

theorem body_mpl_pop_front_impl_1 :
    instantiate U h (V.cls .root .mpl_pop_front_impl [(V.cls .root .string_tag [])]) =
    Out.ok ([(.type, .ty (V.cls .root .mpl_pop_front_impl [(V.cls .root .string_tag [])])), (.apply, .tmpl (V.cls .root .mpl_pop_front_impl [(V.cls .root .string_tag [])]))]) := by
  apply Eq.trans (b := _)
  apply body_of
  apply resolve_top
  apply choose_next
  · exact rfl
  refine choose_here rfl
  · intro k hk; cases hk
  body_simp

theorem body_mpl_pop_front_impl_1_apply {vS : V} :
    instantiate U h (V.cls (V.cls .root .mpl_pop_front_impl [(V.cls .root .string_tag [])]) .apply [vS]) =
    (h (V.cls .root .impl_pop_front [vS])).bind fun b1 =>
    Out.ok b1 := by
  apply Eq.trans (b := _)
  apply body_of
  apply resolve_in
  apply resolve_top
  apply choose_next
  · exact rfl
  refine choose_here rfl
  refine choose_here rfl
  · intro k hk; cases hk
  body_simp

theorem body_mpl_vector_fold_0 {vState vOp : V} :
    instantiate U h (V.cls .root .mpl_vector_fold [(V.cls .root .mpl_vector []), vState, vOp]) =
    Out.ok ([(.type, .ty vState)]) := by
  apply Eq.trans (b := _)
  apply body_of
  apply resolve_top
  refine choose_here rfl
  · intro k hk; cases hk
  body_simp

theorem body_mpl_vector_fold_1 {vState vOp : V} {vTs : List V} :
    instantiate U h (V.cls .root .mpl_vector_fold [(V.cls .root .mpl_vector ((V.cls .root .mpl_na []) :: vTs)), vState, vOp]) =
    Out.ok ([(.type, .ty vState)]) := by
  apply Eq.trans (b := _)
  apply body_of
  apply resolve_top
  apply choose_next
  · exact rfl
  refine choose_here rfl
  · intro k hk; cases hk
  body_simp

theorem body_mpl_vector_fold_2 {vT vState vOp : V} {vTs : List V}
    (hmpl_vector_fold1 : Pat.fits [.cls .mpl_vector [.cls .mpl_na [], .pack .Ts], .var .State, .var .Op] [(V.cls .root .mpl_vector (vT :: vTs)), vState, vOp] [] = none) :
    instantiate U h (V.cls .root .mpl_vector_fold [(V.cls .root .mpl_vector (vT :: vTs)), vState, vOp]) =
    (owner h vOp .apply).bind fun o1 =>
    (get h (V.cls o1 .apply [vState, vT]) .type).bind fun x2 =>
    (h (V.cls .root .mpl_vector_fold [(V.cls .root .mpl_vector vTs), x2, vOp])).bind fun b3 =>
    Out.ok b3 := by
  apply Eq.trans (b := _)
  apply body_of
  apply resolve_top
  apply choose_next
  · exact rfl
  apply choose_next
  · exact hmpl_vector_fold1
  refine choose_here rfl
  · intro k hk; cases hk
  body_simp

theorem body_mpl_fold {vS vState vOp : V} :
    instantiate U h (V.cls .root .mpl_fold [vS, vState, vOp]) =
    (get h vS .type).bind fun x1 =>
    (get h (V.cls .root .mpl_lambda [vOp]) .type).bind fun x2 =>
    (h (V.cls .root .mpl_vector_fold [x1, vState, x2])).bind fun b3 =>
    Out.ok b3 := by
  apply Eq.trans (b := _)
  apply body_of
  apply resolve_top
  refine choose_here rfl
  · intro k hk; cases hk
  body_simp

theorem body_mpl_pair {vA vB : V} :
    instantiate U h (V.cls .root .mpl_pair [vA, vB]) =
    Out.ok ([(.type, .ty (V.cls .root .mpl_pair [vA, vB])), (.first, .ty vA), (.second, .ty vB)]) := by
  apply Eq.trans (b := _)
  apply body_of
  apply resolve_top
  refine choose_here rfl
  · intro k hk; cases hk
  body_simp

theorem body_mpl_map_tag :
    instantiate U h (V.cls .root .mpl_map_tag []) =
    Out.ok ([(.type, .ty (V.cls .root .mpl_map_tag []))]) := by
  apply Eq.trans (b := _)
  apply body_of
  apply resolve_top
  refine choose_here rfl
  · intro k hk; cases hk
  body_simp

theorem body_mpl_map {vPs : List V} :
    instantiate U h (V.cls .root .mpl_map vPs) =
    Out.ok ([(.type, .ty (V.cls .root .mpl_map vPs)), (.tag, .ty (V.cls .root .mpl_map_tag []))]) := by
  apply Eq.trans (b := _)
  apply body_of
  apply resolve_top
  refine choose_here rfl
  · intro k hk; cases hk
  body_simp

theorem body_mpl_map_insert {vP : V} {vPs : List V} :
    instantiate U h (V.cls .root .mpl_map_insert [(V.cls .root .mpl_map vPs), vP]) =
    (h (V.cls .root .mpl_map (vP :: vPs))).bind fun b1 =>
    Out.ok b1 := by
  apply Eq.trans (b := _)
  apply body_of
  apply resolve_top
  refine choose_here rfl
  · intro k hk; cases hk
  body_simp

theorem body_mpl_insert {vM vP : V} :
    instantiate U h (V.cls .root .mpl_insert [vM, vP]) =
    (get h vM .type).bind fun x1 =>
    (h (V.cls .root .mpl_map_insert [x1, vP])).bind fun b2 =>
    Out.ok b2 := by
  apply Eq.trans (b := _)
  apply body_of
  apply resolve_top
  refine choose_here rfl
  · intro k hk; cases hk
  body_simp

theorem body_mpl_void_ :
    instantiate U h (V.cls .root .mpl_void_ []) =
    Out.ok ([(.type, .ty (V.cls .root .mpl_void_ []))]) := by
  apply Eq.trans (b := _)
  apply body_of
  apply resolve_top
  refine choose_here rfl
  · intro k hk; cases hk
  body_simp

theorem body_mpl_map_at_0 {vK : V} :
    instantiate U h (V.cls .root .mpl_map_at [(V.cls .root .mpl_map []), vK]) =
    Out.ok ([(.type, .ty (V.cls .root .mpl_void_ []))]) := by
  apply Eq.trans (b := _)
  apply body_of
  apply resolve_top
  refine choose_here rfl
  · intro k hk; cases hk
  body_simp

theorem body_mpl_map_at_1 {vK vT : V} {vPs : List V} :
    instantiate U h (V.cls .root .mpl_map_at [(V.cls .root .mpl_map ((V.cls .root .mpl_pair [vK, vT]) :: vPs)), vK]) =
    Out.ok ([(.type, .ty vT)]) := by
  apply Eq.trans (b := _)
  apply body_of
  apply resolve_top
  apply choose_next
  · exact rfl
  refine choose_here fits_dup_mpl_map_at_1
  · intro k hk; cases hk
  body_simp

theorem body_mpl_map_at_2 {vL vT vK : V} {vPs : List V}
    (hmpl_map_at1 : Pat.fits [.cls .mpl_map [.cls .mpl_pair [.var .K, .var .T], .pack .Ps], .var .K] [(V.cls .root .mpl_map ((V.cls .root .mpl_pair [vL, vT]) :: vPs)), vK] [] = none) :
    instantiate U h (V.cls .root .mpl_map_at [(V.cls .root .mpl_map ((V.cls .root .mpl_pair [vL, vT]) :: vPs)), vK]) =
    (h (V.cls .root .mpl_map_at [(V.cls .root .mpl_map vPs), vK])).bind fun b1 =>
    Out.ok b1 := by
  apply Eq.trans (b := _)
  apply body_of
  apply resolve_top
  apply choose_next
  · exact rfl
  apply choose_next
  · exact hmpl_map_at1
  refine choose_here rfl
  · intro k hk; cases hk
  body_simp

theorem body_mpl_vector_at_0 {vT : V} {vTs : List V} :
    instantiate U h (V.cls .root .mpl_vector_at [(V.cls .root .mpl_vector (vT :: vTs)), (V.num 0)]) =
    Out.ok ([(.type, .ty vT)]) := by
  apply Eq.trans (b := _)
  apply body_of
  apply resolve_top
  refine choose_here rfl
  · intro k hk; cases hk
  body_simp

theorem body_mpl_vector_at_1 {vT vN : V} {vTs : List V}
    (hmpl_vector_at0 : Pat.fits [.cls .mpl_vector [.var .T, .pack .Ts], .num 0] [(V.cls .root .mpl_vector (vT :: vTs)), vN] [] = none) :
    instantiate U h (V.cls .root .mpl_vector_at [(V.cls .root .mpl_vector (vT :: vTs)), vN]) =
    (Op.ev .sub vN (V.num 1)).bind fun x1 =>
    (h (V.cls .root .mpl_vector_at [(V.cls .root .mpl_vector vTs), x1])).bind fun b2 =>
    Out.ok b2 := by
  apply Eq.trans (b := _)
  apply body_of
  apply resolve_top
  apply choose_next
  · exact hmpl_vector_at0
  refine choose_here rfl
  · intro k hk; cases hk
  body_simp

theorem body_mpl_map_has_key_0 {vK : V} :
    instantiate U h (V.cls .root .mpl_map_has_key [(V.cls .root .mpl_map []), vK]) =
    (h (V.cls .root .mpl_bool_ [(V.num 0)])).bind fun b1 =>
    Out.ok b1 := by
  apply Eq.trans (b := _)
  apply body_of
  apply resolve_top
  refine choose_here rfl
  · intro k hk; cases hk
  body_simp

theorem body_mpl_map_has_key_1 {vK vT : V} {vPs : List V} :
    instantiate U h (V.cls .root .mpl_map_has_key [(V.cls .root .mpl_map ((V.cls .root .mpl_pair [vK, vT]) :: vPs)), vK]) =
    (h (V.cls .root .mpl_bool_ [(V.num 1)])).bind fun b1 =>
    Out.ok b1 := by
  apply Eq.trans (b := _)
  apply body_of
  apply resolve_top
  apply choose_next
  · exact rfl
  refine choose_here fits_dup_mpl_map_has_key_1
  · intro k hk; cases hk
  body_simp

theorem body_mpl_map_has_key_2 {vL vT vK : V} {vPs : List V}
    (hmpl_map_has_key1 : Pat.fits [.cls .mpl_map [.cls .mpl_pair [.var .K, .var .T], .pack .Ps], .var .K] [(V.cls .root .mpl_map ((V.cls .root .mpl_pair [vL, vT]) :: vPs)), vK] [] = none) :
    instantiate U h (V.cls .root .mpl_map_has_key [(V.cls .root .mpl_map ((V.cls .root .mpl_pair [vL, vT]) :: vPs)), vK]) =
    (h (V.cls .root .mpl_map_has_key [(V.cls .root .mpl_map vPs), vK])).bind fun b1 =>
    Out.ok b1 := by
  apply Eq.trans (b := _)
  apply body_of
  apply resolve_top
  apply choose_next
  · exact rfl
  apply choose_next
  · exact hmpl_map_has_key1
  refine choose_here rfl
  · intro k hk; cases hk
  body_simp

theorem body_mpl_has_key {vM vK : V} :
    instantiate U h (V.cls .root .mpl_has_key [vM, vK]) =
    (get h vM .type).bind fun x1 =>
    (h (V.cls .root .mpl_map_has_key [x1, vK])).bind fun b2 =>
    Out.ok b2 := by
  apply Eq.trans (b := _)
  apply body_of
  apply resolve_top
  refine choose_here rfl
  · intro k hk; cases hk
  body_simp

theorem body_mpl_lambda {vF : V} :
    instantiate U h (V.cls .root .mpl_lambda [vF]) =
    Out.ok ([(.type, .ty vF)]) := by
  apply Eq.trans (b := _)
  apply body_of
  apply resolve_top
  refine choose_here rfl
  · intro k hk; cases hk
  body_simp

theorem body_boost_is_same_0 {vT : V} :
    instantiate U h (V.cls .root .boost_is_same [vT, vT]) =
    (h (V.cls .root .mpl_bool_ [(V.num 1)])).bind fun b1 =>
    Out.ok b1 := by
  apply Eq.trans (b := _)
  apply body_of
  apply resolve_top
  refine choose_here fits_dup_boost_is_same_0
  · intro k hk; cases hk
  body_simp

theorem body_boost_is_same_1 {vA vB : V}
    (hboost_is_same0 : Pat.fits [.var .T, .var .T] [vA, vB] [] = none) :
    instantiate U h (V.cls .root .boost_is_same [vA, vB]) =
    (h (V.cls .root .mpl_bool_ [(V.num 0)])).bind fun b1 =>
    Out.ok b1 := by
  apply Eq.trans (b := _)
  apply body_of
  apply resolve_top
  apply choose_next
  · exact hboost_is_same0
  refine choose_here rfl
  · intro k hk; cases hk
  body_simp

theorem body_std_conditional_0 {vT vF : V} :
    instantiate U h (V.cls .root .std_conditional [(V.num 0), vT, vF]) =
    Out.ok ([(.type, .ty vF)]) := by
  apply Eq.trans (b := _)
  apply body_of
  apply resolve_top
  refine choose_here rfl
  · intro k hk; cases hk
  body_simp

theorem body_std_conditional_1 {vC vT vF : V}
    (hstd_conditional0 : Pat.fits [.num 0, .var .T, .var .F] [vC, vT, vF] [] = none) :
    instantiate U h (V.cls .root .std_conditional [vC, vT, vF]) =
    Out.ok ([(.type, .ty vT)]) := by
  apply Eq.trans (b := _)
  apply body_of
  apply resolve_top
  apply choose_next
  · exact hstd_conditional0
  refine choose_here rfl
  · intro k hk; cases hk
  body_simp

theorem body_user_value {vN : V} {vArgs : List V} :
    instantiate U h (V.cls .root .user_value (vN :: vArgs)) =
    Out.ok ([(.type, .ty (V.cls .root .user_value (vN :: vArgs)))]) := by
  apply Eq.trans (b := _)
  apply body_of
  apply resolve_top
  refine choose_here rfl
  · intro k hk; cases hk
  body_simp

theorem body_user_flip {vN vA vB : V} :
    instantiate U h (V.cls .root .user_flip [vN, vA, vB]) =
    Out.ok ([(.type, .ty (V.cls .root .user_flip [vN, vB, vA]))]) := by
  apply Eq.trans (b := _)
  apply body_of
  apply resolve_top
  refine choose_here rfl
  · intro k hk; cases hk
  body_simp

theorem body_user_delayed {vT : V} :
    instantiate U h (V.cls .root .user_delayed [vT]) =
    Out.ok ([(.type, .ty vT)]) := by
  apply Eq.trans (b := _)
  apply body_of
  apply resolve_top
  refine choose_here rfl
  · intro k hk; cases hk
  body_simp

theorem body_user_rule_of_grammar {vK : V} {vArgs : List V} :
    instantiate U h (V.cls .root .user_rule_of_grammar (vK :: vArgs)) =
    Out.ok ([(.type, .ty (V.cls .root .user_rule_of_grammar (vK :: vArgs)))]) := by
  apply Eq.trans (b := _)
  apply body_of
  apply resolve_top
  refine choose_here rfl
  · intro k hk; cases hk
  body_simp

theorem body_user_long_string {vCs : List V} :
    instantiate U h (V.cls .root .user_long_string vCs) =
    Out.ok ([(.type, .ty (V.cls .root .user_long_string vCs))]) := by
  apply Eq.trans (b := _)
  apply body_of
  apply resolve_top
  refine choose_here rfl
  · intro k hk; cases hk
  body_simp

theorem body_user_message {vN : V} :
    instantiate U h (V.cls .root .user_message [vN]) =
    Out.ok ([(.type, .ty (V.cls .root .user_message [vN]))]) := by
  apply Eq.trans (b := _)
  apply body_of
  apply resolve_top
  refine choose_here rfl
  · intro k hk; cases hk
  body_simp

theorem body_accept_tag :
    instantiate U h (V.cls .root .accept_tag []) =
    Out.ok ([(.type, .ty (V.cls .root .accept_tag []))]) := by
  apply Eq.trans (b := _)
  apply body_of
  apply resolve_top
  refine choose_here rfl
  · intro k hk; cases hk
  body_simp

theorem body_get_position_impl_0 :
    instantiate U h (V.cls .root .get_position_impl [(V.cls .root .accept_tag [])]) =
    Out.ok ([(.apply, .tmpl (V.cls .root .get_position_impl [(V.cls .root .accept_tag [])]))]) := by
  apply Eq.trans (b := _)
  apply body_of
  apply resolve_top
  refine choose_here rfl
  · intro k hk; cases hk
  body_simp

theorem body_get_position_impl_0_apply {vA : V} :
    instantiate U h (V.cls (V.cls .root .get_position_impl [(V.cls .root .accept_tag [])]) .apply [vA]) =
    (get h vA .source_position).bind fun x1 =>
    (h x1).bind fun b2 =>
    Out.ok b2 := by
  apply Eq.trans (b := _)
  apply body_of
  apply resolve_in
  apply resolve_top
  refine choose_here rfl
  refine choose_here rfl
  · intro k hk; cases hk
  body_simp

theorem body_get_position_impl_1 :
    instantiate U h (V.cls .root .get_position_impl [(V.cls .root .fail_tag [])]) =
    Out.ok ([(.apply, .tmpl (V.cls .root .get_position_impl [(V.cls .root .fail_tag [])]))]) := by
  apply Eq.trans (b := _)
  apply body_of
  apply resolve_top
  apply choose_next
  · exact rfl
  refine choose_here rfl
  · intro k hk; cases hk
  body_simp

theorem body_get_position_impl_1_apply {vA : V} :
    instantiate U h (V.cls (V.cls .root .get_position_impl [(V.cls .root .fail_tag [])]) .apply [vA]) =
    (get h vA .source_position).bind fun x1 =>
    (h x1).bind fun b2 =>
    Out.ok b2 := by
  apply Eq.trans (b := _)
  apply body_of
  apply resolve_in
  apply resolve_top
  apply choose_next
  · exact rfl
  refine choose_here rfl
  refine choose_here rfl
  · intro k hk; cases hk
  body_simp

theorem body_get_remaining_impl :
    instantiate U h (V.cls .root .get_remaining_impl [(V.cls .root .accept_tag [])]) =
    Out.ok ([(.apply, .tmpl (V.cls .root .get_remaining_impl [(V.cls .root .accept_tag [])]))]) := by
  apply Eq.trans (b := _)
  apply body_of
  apply resolve_top
  refine choose_here rfl
  · intro k hk; cases hk
  body_simp

theorem body_get_remaining_impl_apply {vA : V} :
    instantiate U h (V.cls (V.cls .root .get_remaining_impl [(V.cls .root .accept_tag [])]) .apply [vA]) =
    (get h vA .remaining).bind fun x1 =>
    (h x1).bind fun b2 =>
    Out.ok b2 := by
  apply Eq.trans (b := _)
  apply body_of
  apply resolve_in
  apply resolve_top
  refine choose_here rfl
  refine choose_here rfl
  · intro k hk; cases hk
  body_simp

theorem body_get_result_impl :
    instantiate U h (V.cls .root .get_result_impl [(V.cls .root .accept_tag [])]) =
    Out.ok ([(.apply, .tmpl (V.cls .root .get_result_impl [(V.cls .root .accept_tag [])]))]) := by
  apply Eq.trans (b := _)
  apply body_of
  apply resolve_top
  refine choose_here rfl
  · intro k hk; cases hk
  body_simp

theorem body_get_result_impl_apply {vA : V} :
    instantiate U h (V.cls (V.cls .root .get_result_impl [(V.cls .root .accept_tag [])]) .apply [vA]) =
    (get h vA .result).bind fun x1 =>
    Out.ok ([(.type, .ty x1)]) := by
  apply Eq.trans (b := _)
  apply body_of
  apply resolve_in
  apply resolve_top
  refine choose_here rfl
  refine choose_here rfl
  · intro k hk; cases hk
  body_simp

theorem body_fail_tag :
    instantiate U h (V.cls .root .fail_tag []) =
    Out.ok ([(.type, .ty (V.cls .root .fail_tag []))]) := by
  apply Eq.trans (b := _)
  apply body_of
  apply resolve_top
  refine choose_here rfl
  · intro k hk; cases hk
  body_simp

theorem body_get_message_impl :
    instantiate U h (V.cls .root .get_message_impl [(V.cls .root .fail_tag [])]) =
    Out.ok ([(.apply, .tmpl (V.cls .root .get_message_impl [(V.cls .root .fail_tag [])]))]) := by
  apply Eq.trans (b := _)
  apply body_of
  apply resolve_top
  refine choose_here rfl
  · intro k hk; cases hk
  body_simp

theorem body_get_message_impl_apply {vA : V} :
    instantiate U h (V.cls (V.cls .root .get_message_impl [(V.cls .root .fail_tag [])]) .apply [vA]) =
    (get h vA .message).bind fun x1 =>
    Out.ok ([(.type, .ty x1)]) := by
  apply Eq.trans (b := _)
  apply body_of
  apply resolve_in
  apply resolve_top
  refine choose_here rfl
  refine choose_here rfl
  · intro k hk; cases hk
  body_simp

theorem body_accept {vResult vRemaining vPos : V} :
    instantiate U h (V.cls .root .accept [vResult, vRemaining, vPos]) =
    (get h vRemaining .type).bind fun x1 =>
    (get h vPos .type).bind fun x2 =>
    Out.ok ([(.tag, .ty (V.cls .root .accept_tag [])), (.type, .ty (V.cls .root .accept [vResult, x1, x2])), (.result, .ty vResult), (.remaining, .ty vRemaining), (.source_position, .ty vPos)]) := by
  apply Eq.trans (b := _)
  apply body_of
  apply resolve_top
  refine choose_here rfl
  · intro k hk; cases hk
  body_simp

theorem body_reject {vMsg vPos : V} :
    instantiate U h (V.cls .root .reject [vMsg, vPos]) =
    (get h vPos .type).bind fun x1 =>
    Out.ok ([(.tag, .ty (V.cls .root .fail_tag [])), (.type, .ty (V.cls .root .reject [vMsg, x1])), (.source_position, .ty vPos), (.message, .ty vMsg)]) := by
  apply Eq.trans (b := _)
  apply body_of
  apply resolve_top
  refine choose_here rfl
  · intro k hk; cases hk
  body_simp

theorem body_get_result {vT : V} :
    instantiate U h (V.cls .root .get_result [vT]) =
    (get h vT .type).bind fun x1 =>
    (get h x1 .tag).bind fun x2 =>
    (owner h (V.cls .root .get_result_impl [x2]) .apply).bind fun o3 =>
    (get h vT .type).bind fun x4 =>
    (h (V.cls o3 .apply [x4])).bind fun b5 =>
    Out.ok b5 := by
  apply Eq.trans (b := _)
  apply body_of
  apply resolve_top
  refine choose_here rfl
  · intro k hk; cases hk
  body_simp

theorem body_get_remaining {vT : V} :
    instantiate U h (V.cls .root .get_remaining [vT]) =
    (get h vT .type).bind fun x1 =>
    (get h x1 .tag).bind fun x2 =>
    (owner h (V.cls .root .get_remaining_impl [x2]) .apply).bind fun o3 =>
    (get h vT .type).bind fun x4 =>
    (h (V.cls o3 .apply [x4])).bind fun b5 =>
    Out.ok b5 := by
  apply Eq.trans (b := _)
  apply body_of
  apply resolve_top
  refine choose_here rfl
  · intro k hk; cases hk
  body_simp

theorem body_get_position {vT : V} :
    instantiate U h (V.cls .root .get_position [vT]) =
    (get h vT .type).bind fun x1 =>
    (get h x1 .tag).bind fun x2 =>
    (owner h (V.cls .root .get_position_impl [x2]) .apply).bind fun o3 =>
    (get h vT .type).bind fun x4 =>
    (h (V.cls o3 .apply [x4])).bind fun b5 =>
    Out.ok b5 := by
  apply Eq.trans (b := _)
  apply body_of
  apply resolve_top
  refine choose_here rfl
  · intro k hk; cases hk
  body_simp

theorem body_get_message {vT : V} :
    instantiate U h (V.cls .root .get_message [vT]) =
    (get h vT .type).bind fun x1 =>
    (get h x1 .tag).bind fun x2 =>
    (owner h (V.cls .root .get_message_impl [x2]) .apply).bind fun o3 =>
    (get h vT .type).bind fun x4 =>
    (h (V.cls o3 .apply [x4])).bind fun b5 =>
    Out.ok b5 := by
  apply Eq.trans (b := _)
  apply body_of
  apply resolve_top
  refine choose_here rfl
  · intro k hk; cases hk
  body_simp

theorem body_get_line_impl :
    instantiate U h (V.cls .root .get_line_impl [(V.cls .root .source_position_tag [])]) =
    Out.ok ([(.apply, .tmpl (V.cls .root .get_line_impl [(V.cls .root .source_position_tag [])]))]) := by
  apply Eq.trans (b := _)
  apply body_of
  apply resolve_top
  refine choose_here rfl
  · intro k hk; cases hk
  body_simp

theorem body_get_line_impl_apply {vP : V} :
    instantiate U h (V.cls (V.cls .root .get_line_impl [(V.cls .root .source_position_tag [])]) .apply [vP]) =
    (get h vP .line).bind fun x1 =>
    (h x1).bind fun b2 =>
    Out.ok b2 := by
  apply Eq.trans (b := _)
  apply body_of
  apply resolve_in
  apply resolve_top
  refine choose_here rfl
  refine choose_here rfl
  · intro k hk; cases hk
  body_simp

theorem body_get_line {vT : V} :
    instantiate U h (V.cls .root .get_line [vT]) =
    (get h vT .type).bind fun x1 =>
    (get h x1 .tag).bind fun x2 =>
    (owner h (V.cls .root .get_line_impl [x2]) .apply).bind fun o3 =>
    (get h vT .type).bind fun x4 =>
    (h (V.cls o3 .apply [x4])).bind fun b5 =>
    Out.ok b5 := by
  apply Eq.trans (b := _)
  apply body_of
  apply resolve_top
  refine choose_here rfl
  · intro k hk; cases hk
  body_simp

theorem body_get_col_impl :
    instantiate U h (V.cls .root .get_col_impl [(V.cls .root .source_position_tag [])]) =
    Out.ok ([(.apply, .tmpl (V.cls .root .get_col_impl [(V.cls .root .source_position_tag [])]))]) := by
  apply Eq.trans (b := _)
  apply body_of
  apply resolve_top
  refine choose_here rfl
  · intro k hk; cases hk
  body_simp

theorem body_get_col_impl_apply {vP : V} :
    instantiate U h (V.cls (V.cls .root .get_col_impl [(V.cls .root .source_position_tag [])]) .apply [vP]) =
    (get h vP .col).bind fun x1 =>
    (h x1).bind fun b2 =>
    Out.ok b2 := by
  apply Eq.trans (b := _)
  apply body_of
  apply resolve_in
  apply resolve_top
  refine choose_here rfl
  refine choose_here rfl
  · intro k hk; cases hk
  body_simp

theorem body_get_col {vT : V} :
    instantiate U h (V.cls .root .get_col [vT]) =
    (get h vT .type).bind fun x1 =>
    (get h x1 .tag).bind fun x2 =>
    (owner h (V.cls .root .get_col_impl [x2]) .apply).bind fun o3 =>
    (get h vT .type).bind fun x4 =>
    (h (V.cls o3 .apply [x4])).bind fun b5 =>
    Out.ok b5 := by
  apply Eq.trans (b := _)
  apply body_of
  apply resolve_top
  refine choose_here rfl
  · intro k hk; cases hk
  body_simp

theorem body_get_prev_char_impl :
    instantiate U h (V.cls .root .get_prev_char_impl [(V.cls .root .source_position_tag [])]) =
    Out.ok ([(.apply, .tmpl (V.cls .root .get_prev_char_impl [(V.cls .root .source_position_tag [])]))]) := by
  apply Eq.trans (b := _)
  apply body_of
  apply resolve_top
  refine choose_here rfl
  · intro k hk; cases hk
  body_simp

theorem body_get_prev_char_impl_apply {vP : V} :
    instantiate U h (V.cls (V.cls .root .get_prev_char_impl [(V.cls .root .source_position_tag [])]) .apply [vP]) =
    (get h vP .prev_char).bind fun x1 =>
    (h x1).bind fun b2 =>
    Out.ok b2 := by
  apply Eq.trans (b := _)
  apply body_of
  apply resolve_in
  apply resolve_top
  refine choose_here rfl
  refine choose_here rfl
  · intro k hk; cases hk
  body_simp

theorem body_get_prev_char {vT : V} :
    instantiate U h (V.cls .root .get_prev_char [vT]) =
    (get h vT .type).bind fun x1 =>
    (get h x1 .tag).bind fun x2 =>
    (owner h (V.cls .root .get_prev_char_impl [x2]) .apply).bind fun o3 =>
    (get h vT .type).bind fun x4 =>
    (h (V.cls o3 .apply [x4])).bind fun b5 =>
    Out.ok b5 := by
  apply Eq.trans (b := _)
  apply body_of
  apply resolve_top
  refine choose_here rfl
  · intro k hk; cases hk
  body_simp

theorem body_is_error_0 :
    instantiate U h (V.cls .root .is_error [(V.cls .root .mpl_na [])]) =
    Out.ok ([(.type, .ty (V.cls .root .is_error [(V.cls .root .mpl_na [])])), (.apply, .tmpl (V.cls .root .is_error [(V.cls .root .mpl_na [])]))]) := by
  apply Eq.trans (b := _)
  apply body_of
  apply resolve_top
  refine choose_here rfl
  · intro k hk; cases hk
  body_simp

theorem body_is_error_0_apply {vT : V} :
    instantiate U h (V.cls (V.cls .root .is_error [(V.cls .root .mpl_na [])]) .apply [vT]) =
    (h (V.cls .root .is_error [vT])).bind fun b1 =>
    Out.ok b1 := by
  apply Eq.trans (b := _)
  apply body_of
  apply resolve_in
  apply resolve_top
  refine choose_here rfl
  refine choose_here rfl
  · intro k hk; cases hk
  body_simp

theorem body_is_error_1 {vT : V}
    (his_error0 : Pat.fits [.cls .mpl_na []] [vT] [] = none) :
    instantiate U h (V.cls .root .is_error [vT]) =
    (get h vT .type).bind fun x1 =>
    (get h (V.cls .root .mpl_tag [x1]) .type).bind fun x2 =>
    (h (V.cls .root .boost_is_same [(V.cls .root .fail_tag []), x2])).bind fun b3 =>
    Out.ok b3 := by
  apply Eq.trans (b := _)
  apply body_of
  apply resolve_top
  apply choose_next
  · exact his_error0
  refine choose_here rfl
  · intro k hk; cases hk
  body_simp

theorem body_unless_error {vT vNotErrorCase : V} :
    instantiate U h (V.cls .root .unless_error [vT, vNotErrorCase]) =
    (get h (V.cls .root .is_error [vT]) .type).bind fun x1 =>
    (h (V.cls .root .mpl_eval_if [x1, vT, vNotErrorCase])).bind fun b2 =>
    Out.ok b2 := by
  apply Eq.trans (b := _)
  apply body_of
  apply resolve_top
  refine choose_here rfl
  · intro k hk; cases hk
  body_simp

theorem body_source_position_tag :
    instantiate U h (V.cls .root .source_position_tag []) =
    Out.ok ([(.type, .ty (V.cls .root .source_position_tag []))]) := by
  apply Eq.trans (b := _)
  apply body_of
  apply resolve_top
  refine choose_here rfl
  · intro k hk; cases hk
  body_simp

theorem body_next_char_impl :
    instantiate U h (V.cls .root .next_char_impl [(V.cls .root .source_position_tag [])]) =
    Out.ok ([(.apply, .tmpl (V.cls .root .next_char_impl [(V.cls .root .source_position_tag [])]))]) := by
  apply Eq.trans (b := _)
  apply body_of
  apply resolve_top
  refine choose_here rfl
  · intro k hk; cases hk
  body_simp

theorem body_next_char_impl_apply {vP vCh : V} :
    instantiate U h (V.cls (V.cls .root .next_char_impl [(V.cls .root .source_position_tag [])]) .apply [vP, vCh]) =
    (get h (V.cls .root .get_line [vP]) .type).bind fun x1 =>
    (get h (V.cls .root .get_col [vP]) .type).bind fun x2 =>
    (get h x2 .value).bind fun x3 =>
    (Op.ev .add x3 (V.num 1)).bind fun x4 =>
    (h (V.cls .root .source_position [x1, (V.cls .root .mpl_int_ [x4]), vCh])).bind fun b5 =>
    Out.ok b5 := by
  apply Eq.trans (b := _)
  apply body_of
  apply resolve_in
  apply resolve_top
  refine choose_here rfl
  refine choose_here rfl
  · intro k hk; cases hk
  body_simp

theorem body_next_line_impl :
    instantiate U h (V.cls .root .next_line_impl [(V.cls .root .source_position_tag [])]) =
    Out.ok ([(.apply, .tmpl (V.cls .root .next_line_impl [(V.cls .root .source_position_tag [])]))]) := by
  apply Eq.trans (b := _)
  apply body_of
  apply resolve_top
  refine choose_here rfl
  · intro k hk; cases hk
  body_simp

theorem body_next_line_impl_apply {vP vCh : V} :
    instantiate U h (V.cls (V.cls .root .next_line_impl [(V.cls .root .source_position_tag [])]) .apply [vP, vCh]) =
    (get h (V.cls .root .get_line [vP]) .type).bind fun x1 =>
    (get h x1 .value).bind fun x2 =>
    (Op.ev .add x2 (V.num 1)).bind fun x3 =>
    (h (V.cls .root .source_position [(V.cls .root .mpl_int_ [x3]), (V.cls .root .mpl_int_ [(V.num 1)]), vCh])).bind fun b4 =>
    Out.ok b4 := by
  apply Eq.trans (b := _)
  apply body_of
  apply resolve_in
  apply resolve_top
  refine choose_here rfl
  refine choose_here rfl
  · intro k hk; cases hk
  body_simp

theorem body_source_position {vLine vCol vPrevChar : V} :
    instantiate U h (V.cls .root .source_position [vLine, vCol, vPrevChar]) =
    Out.ok ([(.tag, .ty (V.cls .root .source_position_tag [])), (.type, .ty (V.cls .root .source_position [vLine, vCol, vPrevChar])), (.line, .ty vLine), (.col, .ty vCol), (.prev_char, .ty vPrevChar)]) := by
  apply Eq.trans (b := _)
  apply body_of
  apply resolve_top
  refine choose_here rfl
  · intro k hk; cases hk
  body_simp

theorem body_mpl_equal_to_impl_0 :
    instantiate U h (V.cls .root .mpl_equal_to_impl [(V.cls .root .source_position_tag []), (V.cls .root .source_position_tag [])]) =
    Out.ok ([(.type, .ty (V.cls .root .mpl_equal_to_impl [(V.cls .root .source_position_tag []), (V.cls .root .source_position_tag [])])), (.apply, .tmpl (V.cls .root .mpl_equal_to_impl [(V.cls .root .source_position_tag []), (V.cls .root .source_position_tag [])]))]) := by
  apply Eq.trans (b := _)
  apply body_of
  apply resolve_top
  refine choose_here rfl
  · intro k hk; cases hk
  body_simp

theorem body_mpl_equal_to_impl_0_apply {vA vB : V} :
    instantiate U h (V.cls (V.cls .root .mpl_equal_to_impl [(V.cls .root .source_position_tag []), (V.cls .root .source_position_tag [])]) .apply [vA, vB]) =
    (get h vA .type).bind fun x1 =>
    (get h x1 .line).bind fun x2 =>
    (get h x2 .value).bind fun x3 =>
    (get h vB .type).bind fun x4 =>
    (get h x4 .line).bind fun x5 =>
    (get h x5 .value).bind fun x6 =>
    (Op.ev .eq x3 x6).bind fun x7 =>
    (get h vA .type).bind fun x8 =>
    (get h x8 .col).bind fun x9 =>
    (get h x9 .value).bind fun x10 =>
    (get h vB .type).bind fun x11 =>
    (get h x11 .col).bind fun x12 =>
    (get h x12 .value).bind fun x13 =>
    (Op.ev .eq x10 x13).bind fun x14 =>
    (Op.ev .and x7 x14).bind fun x15 =>
    (get h vA .type).bind fun x16 =>
    (get h x16 .prev_char).bind fun x17 =>
    (get h x17 .value).bind fun x18 =>
    (get h vB .type).bind fun x19 =>
    (get h x19 .prev_char).bind fun x20 =>
    (get h x20 .value).bind fun x21 =>
    (Op.ev .eq x18 x21).bind fun x22 =>
    (Op.ev .and x15 x22).bind fun x23 =>
    (h (V.cls .root .mpl_bool_ [x23])).bind fun b24 =>
    Out.ok b24 := by
  apply Eq.trans (b := _)
  apply body_of
  apply resolve_in
  apply resolve_top
  refine choose_here rfl
  refine choose_here rfl
  · intro k hk; cases hk
  body_simp

theorem body_mpl_equal_to_impl_1 :
    instantiate U h (V.cls .root .mpl_equal_to_impl [(V.cls .root .impl_string_iterator_tag []), (V.cls .root .impl_string_iterator_tag [])]) =
    Out.ok ([(.type, .ty (V.cls .root .mpl_equal_to_impl [(V.cls .root .impl_string_iterator_tag []), (V.cls .root .impl_string_iterator_tag [])])), (.apply, .tmpl (V.cls .root .mpl_equal_to_impl [(V.cls .root .impl_string_iterator_tag []), (V.cls .root .impl_string_iterator_tag [])]))]) := by
  apply Eq.trans (b := _)
  apply body_of
  apply resolve_top
  apply choose_next
  · exact rfl
  refine choose_here rfl
  · intro k hk; cases hk
  body_simp

theorem body_mpl_equal_to_impl_1_apply {vA vB : V} :
    instantiate U h (V.cls (V.cls .root .mpl_equal_to_impl [(V.cls .root .impl_string_iterator_tag []), (V.cls .root .impl_string_iterator_tag [])]) .apply [vA, vB]) =
    (get h vA .type).bind fun x1 =>
    (get h vB .type).bind fun x2 =>
    (h (V.cls .root .boost_is_same [x1, x2])).bind fun b3 =>
    Out.ok b3 := by
  apply Eq.trans (b := _)
  apply body_of
  apply resolve_in
  apply resolve_top
  apply choose_next
  · exact rfl
  refine choose_here rfl
  refine choose_here rfl
  · intro k hk; cases hk
  body_simp

theorem body_mpl_equal_to_impl_2 {vT : V}
    (hmpl_equal_to_impl1 : Pat.fits [.cls .impl_string_iterator_tag [], .cls .impl_string_iterator_tag []] [(V.cls .root .impl_string_iterator_tag []), vT] [] = none) :
    instantiate U h (V.cls .root .mpl_equal_to_impl [(V.cls .root .impl_string_iterator_tag []), vT]) =
    Out.ok ([(.type, .ty (V.cls .root .mpl_equal_to_impl [(V.cls .root .impl_string_iterator_tag []), vT])), (.apply, .tmpl (V.cls .root .mpl_equal_to_impl [(V.cls .root .impl_string_iterator_tag []), vT]))]) := by
  apply Eq.trans (b := _)
  apply body_of
  apply resolve_top
  apply choose_next
  · exact rfl
  apply choose_next
  · exact hmpl_equal_to_impl1
  refine choose_here rfl
  · intro k hk; cases hk
  body_simp

theorem body_mpl_equal_to_impl_2_apply {vT v_0 v_1 : V}
    (hmpl_equal_to_impl1 : Pat.fits [.cls .impl_string_iterator_tag [], .cls .impl_string_iterator_tag []] [(V.cls .root .impl_string_iterator_tag []), vT] [] = none) :
    instantiate U h (V.cls (V.cls .root .mpl_equal_to_impl [(V.cls .root .impl_string_iterator_tag []), vT]) .apply [v_0, v_1]) =
    (h (V.cls .root .mpl_bool_ [(V.num 0)])).bind fun b1 =>
    Out.ok b1 := by
  apply Eq.trans (b := _)
  apply body_of
  apply resolve_in
  apply resolve_top
  apply choose_next
  · exact rfl
  apply choose_next
  · exact hmpl_equal_to_impl1
  refine choose_here rfl
  refine choose_here rfl
  · intro k hk; cases hk
  body_simp

theorem body_mpl_equal_to_impl_3 {vT : V}
    (hmpl_equal_to_impl0 : Pat.fits [.cls .source_position_tag [], .cls .source_position_tag []] [vT, (V.cls .root .impl_string_iterator_tag [])] [] = none)
    (hmpl_equal_to_impl1 : Pat.fits [.cls .impl_string_iterator_tag [], .cls .impl_string_iterator_tag []] [vT, (V.cls .root .impl_string_iterator_tag [])] [] = none)
    (hmpl_equal_to_impl2 : Pat.fits [.cls .impl_string_iterator_tag [], .var .T] [vT, (V.cls .root .impl_string_iterator_tag [])] [] = none) :
    instantiate U h (V.cls .root .mpl_equal_to_impl [vT, (V.cls .root .impl_string_iterator_tag [])]) =
    (h (V.cls .root .mpl_equal_to_impl [(V.cls .root .impl_string_iterator_tag []), vT])).bind fun b1 =>
    Out.ok b1 := by
  apply Eq.trans (b := _)
  apply body_of
  apply resolve_top
  apply choose_next
  · exact hmpl_equal_to_impl0
  apply choose_next
  · exact hmpl_equal_to_impl1
  apply choose_next
  · exact hmpl_equal_to_impl2
  refine choose_here rfl
  · intro k hk; cases hk
  body_simp

theorem body_mpl_equal_to_impl_4 :
    instantiate U h (V.cls .root .mpl_equal_to_impl [(V.cls .root .string_tag []), (V.cls .root .string_tag [])]) =
    Out.ok ([(.type, .ty (V.cls .root .mpl_equal_to_impl [(V.cls .root .string_tag []), (V.cls .root .string_tag [])])), (.apply, .tmpl (V.cls .root .mpl_equal_to_impl [(V.cls .root .string_tag []), (V.cls .root .string_tag [])]))]) := by
  apply Eq.trans (b := _)
  apply body_of
  apply resolve_top
  apply choose_next
  · exact rfl
  apply choose_next
  · exact rfl
  apply choose_next
  · exact rfl
  apply choose_next
  · exact rfl
  refine choose_here rfl
  · intro k hk; cases hk
  body_simp

theorem body_mpl_equal_to_impl_4_apply {vA vB : V} :
    instantiate U h (V.cls (V.cls .root .mpl_equal_to_impl [(V.cls .root .string_tag []), (V.cls .root .string_tag [])]) .apply [vA, vB]) =
    (get h vA .type).bind fun x1 =>
    (get h vB .type).bind fun x2 =>
    (h (V.cls .root .boost_is_same [x1, x2])).bind fun b3 =>
    Out.ok b3 := by
  apply Eq.trans (b := _)
  apply body_of
  apply resolve_in
  apply resolve_top
  apply choose_next
  · exact rfl
  apply choose_next
  · exact rfl
  apply choose_next
  · exact rfl
  apply choose_next
  · exact rfl
  refine choose_here rfl
  refine choose_here rfl
  · intro k hk; cases hk
  body_simp

theorem body_mpl_equal_to_impl_5 {vT : V}
    (hmpl_equal_to_impl3 : Pat.fits [.var .T, .cls .impl_string_iterator_tag []] [(V.cls .root .string_tag []), vT] [] = none)
    (hmpl_equal_to_impl4 : Pat.fits [.cls .string_tag [], .cls .string_tag []] [(V.cls .root .string_tag []), vT] [] = none) :
    instantiate U h (V.cls .root .mpl_equal_to_impl [(V.cls .root .string_tag []), vT]) =
    Out.ok ([(.type, .ty (V.cls .root .mpl_equal_to_impl [(V.cls .root .string_tag []), vT])), (.apply, .tmpl (V.cls .root .mpl_equal_to_impl [(V.cls .root .string_tag []), vT]))]) := by
  apply Eq.trans (b := _)
  apply body_of
  apply resolve_top
  apply choose_next
  · exact rfl
  apply choose_next
  · exact rfl
  apply choose_next
  · exact rfl
  apply choose_next
  · exact hmpl_equal_to_impl3
  apply choose_next
  · exact hmpl_equal_to_impl4
  refine choose_here rfl
  · intro k hk; cases hk
  body_simp

theorem body_mpl_equal_to_impl_5_apply {vT v_0 v_1 : V}
    (hmpl_equal_to_impl3 : Pat.fits [.var .T, .cls .impl_string_iterator_tag []] [(V.cls .root .string_tag []), vT] [] = none)
    (hmpl_equal_to_impl4 : Pat.fits [.cls .string_tag [], .cls .string_tag []] [(V.cls .root .string_tag []), vT] [] = none) :
    instantiate U h (V.cls (V.cls .root .mpl_equal_to_impl [(V.cls .root .string_tag []), vT]) .apply [v_0, v_1]) =
    (h (V.cls .root .mpl_bool_ [(V.num 0)])).bind fun b1 =>
    Out.ok b1 := by
  apply Eq.trans (b := _)
  apply body_of
  apply resolve_in
  apply resolve_top
  apply choose_next
  · exact rfl
  apply choose_next
  · exact rfl
  apply choose_next
  · exact rfl
  apply choose_next
  · exact hmpl_equal_to_impl3
  apply choose_next
  · exact hmpl_equal_to_impl4
  refine choose_here rfl
  refine choose_here rfl
  · intro k hk; cases hk
  body_simp

theorem body_mpl_equal_to_impl_6 {vT : V}
    (hmpl_equal_to_impl0 : Pat.fits [.cls .source_position_tag [], .cls .source_position_tag []] [vT, (V.cls .root .string_tag [])] [] = none)
    (hmpl_equal_to_impl1 : Pat.fits [.cls .impl_string_iterator_tag [], .cls .impl_string_iterator_tag []] [vT, (V.cls .root .string_tag [])] [] = none)
    (hmpl_equal_to_impl2 : Pat.fits [.cls .impl_string_iterator_tag [], .var .T] [vT, (V.cls .root .string_tag [])] [] = none)
    (hmpl_equal_to_impl4 : Pat.fits [.cls .string_tag [], .cls .string_tag []] [vT, (V.cls .root .string_tag [])] [] = none)
    (hmpl_equal_to_impl5 : Pat.fits [.cls .string_tag [], .var .T] [vT, (V.cls .root .string_tag [])] [] = none) :
    instantiate U h (V.cls .root .mpl_equal_to_impl [vT, (V.cls .root .string_tag [])]) =
    (h (V.cls .root .mpl_equal_to_impl [(V.cls .root .string_tag []), vT])).bind fun b1 =>
    Out.ok b1 := by
  apply Eq.trans (b := _)
  apply body_of
  apply resolve_top
  apply choose_next
  · exact hmpl_equal_to_impl0
  apply choose_next
  · exact hmpl_equal_to_impl1
  apply choose_next
  · exact hmpl_equal_to_impl2
  apply choose_next
  · exact rfl
  apply choose_next
  · exact hmpl_equal_to_impl4
  apply choose_next
  · exact hmpl_equal_to_impl5
  refine choose_here rfl
  · intro k hk; cases hk
  body_simp

theorem body_mpl_not_equal_to_impl :
    instantiate U h (V.cls .root .mpl_not_equal_to_impl [(V.cls .root .source_position_tag []), (V.cls .root .source_position_tag [])]) =
    Out.ok ([(.type, .ty (V.cls .root .mpl_not_equal_to_impl [(V.cls .root .source_position_tag []), (V.cls .root .source_position_tag [])])), (.apply, .tmpl (V.cls .root .mpl_not_equal_to_impl [(V.cls .root .source_position_tag []), (V.cls .root .source_position_tag [])]))]) := by
  apply Eq.trans (b := _)
  apply body_of
  apply resolve_top
  refine choose_here rfl
  · intro k hk; cases hk
  body_simp

theorem body_mpl_not_equal_to_impl_apply {vA vB : V} :
    instantiate U h (V.cls (V.cls .root .mpl_not_equal_to_impl [(V.cls .root .source_position_tag []), (V.cls .root .source_position_tag [])]) .apply [vA, vB]) =
    (get h (V.cls .root .mpl_equal_to [vA, vB]) .type).bind fun x1 =>
    (get h x1 .value).bind fun x2 =>
    (evNot x2).bind fun x3 =>
    (h (V.cls .root .mpl_bool_ [x3])).bind fun b4 =>
    Out.ok b4 := by
  apply Eq.trans (b := _)
  apply body_of
  apply resolve_in
  apply resolve_top
  refine choose_here rfl
  refine choose_here rfl
  · intro k hk; cases hk
  body_simp

theorem body_mpl_less_impl :
    instantiate U h (V.cls .root .mpl_less_impl [(V.cls .root .source_position_tag []), (V.cls .root .source_position_tag [])]) =
    Out.ok ([(.type, .ty (V.cls .root .mpl_less_impl [(V.cls .root .source_position_tag []), (V.cls .root .source_position_tag [])])), (.apply, .tmpl (V.cls .root .mpl_less_impl [(V.cls .root .source_position_tag []), (V.cls .root .source_position_tag [])]))]) := by
  apply Eq.trans (b := _)
  apply body_of
  apply resolve_top
  refine choose_here rfl
  · intro k hk; cases hk
  body_simp

theorem body_mpl_less_impl_apply {vA vB : V} :
    instantiate U h (V.cls (V.cls .root .mpl_less_impl [(V.cls .root .source_position_tag []), (V.cls .root .source_position_tag [])]) .apply [vA, vB]) =
    (get h vA .type).bind fun x1 =>
    (get h x1 .line).bind fun x2 =>
    (get h x2 .value).bind fun x3 =>
    (get h vB .type).bind fun x4 =>
    (get h x4 .line).bind fun x5 =>
    (get h x5 .value).bind fun x6 =>
    (Op.ev .lt x3 x6).bind fun x7 =>
    (get h vA .type).bind fun x8 =>
    (get h x8 .line).bind fun x9 =>
    (get h x9 .value).bind fun x10 =>
    (get h vB .type).bind fun x11 =>
    (get h x11 .line).bind fun x12 =>
    (get h x12 .value).bind fun x13 =>
    (Op.ev .eq x10 x13).bind fun x14 =>
    (get h vA .type).bind fun x15 =>
    (get h x15 .col).bind fun x16 =>
    (get h x16 .value).bind fun x17 =>
    (get h vB .type).bind fun x18 =>
    (get h x18 .col).bind fun x19 =>
    (get h x19 .value).bind fun x20 =>
    (Op.ev .lt x17 x20).bind fun x21 =>
    (get h vA .type).bind fun x22 =>
    (get h x22 .col).bind fun x23 =>
    (get h x23 .value).bind fun x24 =>
    (get h vB .type).bind fun x25 =>
    (get h x25 .col).bind fun x26 =>
    (get h x26 .value).bind fun x27 =>
    (Op.ev .eq x24 x27).bind fun x28 =>
    (get h vA .type).bind fun x29 =>
    (get h x29 .prev_char).bind fun x30 =>
    (get h x30 .value).bind fun x31 =>
    (get h vB .type).bind fun x32 =>
    (get h x32 .prev_char).bind fun x33 =>
    (get h x33 .value).bind fun x34 =>
    (Op.ev .lt x31 x34).bind fun x35 =>
    (Op.ev .and x28 x35).bind fun x36 =>
    (Op.ev .or x21 x36).bind fun x37 =>
    (Op.ev .and x14 x37).bind fun x38 =>
    (Op.ev .or x7 x38).bind fun x39 =>
    (h (V.cls .root .mpl_bool_ [x39])).bind fun b40 =>
    Out.ok b40 := by
  apply Eq.trans (b := _)
  apply body_of
  apply resolve_in
  apply resolve_top
  refine choose_here rfl
  refine choose_here rfl
  · intro k hk; cases hk
  body_simp

theorem body_mpl_greater_impl :
    instantiate U h (V.cls .root .mpl_greater_impl [(V.cls .root .source_position_tag []), (V.cls .root .source_position_tag [])]) =
    Out.ok ([(.type, .ty (V.cls .root .mpl_greater_impl [(V.cls .root .source_position_tag []), (V.cls .root .source_position_tag [])])), (.apply, .tmpl (V.cls .root .mpl_greater_impl [(V.cls .root .source_position_tag []), (V.cls .root .source_position_tag [])]))]) := by
  apply Eq.trans (b := _)
  apply body_of
  apply resolve_top
  refine choose_here rfl
  · intro k hk; cases hk
  body_simp

theorem body_mpl_greater_impl_apply {vA vB : V} :
    instantiate U h (V.cls (V.cls .root .mpl_greater_impl [(V.cls .root .source_position_tag []), (V.cls .root .source_position_tag [])]) .apply [vA, vB]) =
    (get h (V.cls .root .mpl_less [vA, vB]) .type).bind fun x1 =>
    (get h x1 .value).bind fun x2 =>
    (get h (V.cls .root .mpl_equal_to [vA, vB]) .type).bind fun x3 =>
    (get h x3 .value).bind fun x4 =>
    (Op.ev .or x2 x4).bind fun x5 =>
    (evNot x5).bind fun x6 =>
    (h (V.cls .root .mpl_bool_ [x6])).bind fun b7 =>
    Out.ok b7 := by
  apply Eq.trans (b := _)
  apply body_of
  apply resolve_in
  apply resolve_top
  refine choose_here rfl
  refine choose_here rfl
  · intro k hk; cases hk
  body_simp

theorem body_mpl_greater_equal_impl :
    instantiate U h (V.cls .root .mpl_greater_equal_impl [(V.cls .root .source_position_tag []), (V.cls .root .source_position_tag [])]) =
    Out.ok ([(.type, .ty (V.cls .root .mpl_greater_equal_impl [(V.cls .root .source_position_tag []), (V.cls .root .source_position_tag [])])), (.apply, .tmpl (V.cls .root .mpl_greater_equal_impl [(V.cls .root .source_position_tag []), (V.cls .root .source_position_tag [])]))]) := by
  apply Eq.trans (b := _)
  apply body_of
  apply resolve_top
  refine choose_here rfl
  · intro k hk; cases hk
  body_simp

theorem body_mpl_greater_equal_impl_apply {vA vB : V} :
    instantiate U h (V.cls (V.cls .root .mpl_greater_equal_impl [(V.cls .root .source_position_tag []), (V.cls .root .source_position_tag [])]) .apply [vA, vB]) =
    (get h (V.cls .root .mpl_less [vA, vB]) .type).bind fun x1 =>
    (get h x1 .value).bind fun x2 =>
    (evNot x2).bind fun x3 =>
    (h (V.cls .root .mpl_bool_ [x3])).bind fun b4 =>
    Out.ok b4 := by
  apply Eq.trans (b := _)
  apply body_of
  apply resolve_in
  apply resolve_top
  refine choose_here rfl
  refine choose_here rfl
  · intro k hk; cases hk
  body_simp

theorem body_next_char {vP vCh : V} :
    instantiate U h (V.cls .root .next_char [vP, vCh]) =
    (get h vP .type).bind fun x1 =>
    (get h (V.cls .root .mpl_tag [x1]) .type).bind fun x2 =>
    (owner h (V.cls .root .next_char_impl [x2]) .apply).bind fun o3 =>
    (get h vP .type).bind fun x4 =>
    (get h vCh .type).bind fun x5 =>
    (h (V.cls o3 .apply [x4, x5])).bind fun b6 =>
    Out.ok b6 := by
  apply Eq.trans (b := _)
  apply body_of
  apply resolve_top
  refine choose_here rfl
  · intro k hk; cases hk
  body_simp

theorem body_next_line {vP vCh : V} :
    instantiate U h (V.cls .root .next_line [vP, vCh]) =
    (get h vP .type).bind fun x1 =>
    (get h (V.cls .root .mpl_tag [x1]) .type).bind fun x2 =>
    (owner h (V.cls .root .next_line_impl [x2]) .apply).bind fun o3 =>
    (get h vP .type).bind fun x4 =>
    (get h vCh .type).bind fun x5 =>
    (h (V.cls o3 .apply [x4, x5])).bind fun b6 =>
    Out.ok b6 := by
  apply Eq.trans (b := _)
  apply body_of
  apply resolve_top
  refine choose_here rfl
  · intro k hk; cases hk
  body_simp

theorem body_string_tag :
    instantiate U h (V.cls .root .string_tag []) =
    Out.ok ([(.type, .ty (V.cls .root .string_tag []))]) := by
  apply Eq.trans (b := _)
  apply body_of
  apply resolve_top
  refine choose_here rfl
  · intro k hk; cases hk
  body_simp

theorem body_impl_string_iterator_tag :
    instantiate U h (V.cls .root .impl_string_iterator_tag []) =
    Out.ok ([(.type, .ty (V.cls .root .impl_string_iterator_tag []))]) := by
  apply Eq.trans (b := _)
  apply body_of
  apply resolve_top
  refine choose_here rfl
  · intro k hk; cases hk
  body_simp

theorem body_impl_string_iterator {vS vN : V} :
    instantiate U h (V.cls .root .impl_string_iterator [vS, vN]) =
    Out.ok ([(.type, .ty (V.cls .root .impl_string_iterator [vS, vN])), (.tag, .ty (V.cls .root .impl_string_iterator_tag [])), (.category, .ty (V.cls .root .mpl_random_access_iterator_tag []))]) := by
  apply Eq.trans (b := _)
  apply body_of
  apply resolve_top
  refine choose_here rfl
  · intro k hk; cases hk
  body_simp

theorem body_impl_advance_c {vS vN vP : V} :
    instantiate U h (V.cls .root .impl_advance_c [(V.cls .root .impl_string_iterator [vS, vN]), vP]) =
    (Op.ev .add vN vP).bind fun x1 =>
    (h (V.cls .root .impl_string_iterator [vS, x1])).bind fun b2 =>
    Out.ok b2 := by
  apply Eq.trans (b := _)
  apply body_of
  apply resolve_top
  refine choose_here rfl
  · intro k hk; cases hk
  body_simp

theorem body_impl_distance {vS vA vB : V} :
    instantiate U h (V.cls .root .impl_distance [(V.cls .root .impl_string_iterator [vS, vA]), (V.cls .root .impl_string_iterator [vS, vB])]) =
    (Op.ev .sub vB vA).bind fun x1 =>
    (h (V.cls .root .mpl_int_ [x1])).bind fun b2 =>
    Out.ok b2 := by
  apply Eq.trans (b := _)
  apply body_of
  apply resolve_top
  refine choose_here fits_dup_impl_distance
  · intro k hk; cases hk
  body_simp

theorem body_mpl_advance_impl :
    instantiate U h (V.cls .root .mpl_advance_impl [(V.cls .root .impl_string_iterator_tag [])]) =
    Out.ok ([(.type, .ty (V.cls .root .mpl_advance_impl [(V.cls .root .impl_string_iterator_tag [])])), (.apply, .tmpl (V.cls .root .mpl_advance_impl [(V.cls .root .impl_string_iterator_tag [])]))]) := by
  apply Eq.trans (b := _)
  apply body_of
  apply resolve_top
  refine choose_here rfl
  · intro k hk; cases hk
  body_simp

theorem body_mpl_advance_impl_apply {vS vN : V} :
    instantiate U h (V.cls (V.cls .root .mpl_advance_impl [(V.cls .root .impl_string_iterator_tag [])]) .apply [vS, vN]) =
    (get h vS .type).bind fun x1 =>
    (get h vN .type).bind fun x2 =>
    (get h x2 .value).bind fun x3 =>
    (h (V.cls .root .impl_advance_c [x1, x3])).bind fun b4 =>
    Out.ok b4 := by
  apply Eq.trans (b := _)
  apply body_of
  apply resolve_in
  apply resolve_top
  refine choose_here rfl
  refine choose_here rfl
  · intro k hk; cases hk
  body_simp

theorem body_mpl_distance_impl :
    instantiate U h (V.cls .root .mpl_distance_impl [(V.cls .root .impl_string_iterator_tag [])]) =
    Out.ok ([(.type, .ty (V.cls .root .mpl_distance_impl [(V.cls .root .impl_string_iterator_tag [])])), (.apply, .tmpl (V.cls .root .mpl_distance_impl [(V.cls .root .impl_string_iterator_tag [])]))]) := by
  apply Eq.trans (b := _)
  apply body_of
  apply resolve_top
  refine choose_here rfl
  · intro k hk; cases hk
  body_simp

theorem body_mpl_distance_impl_apply {vA vB : V} :
    instantiate U h (V.cls (V.cls .root .mpl_distance_impl [(V.cls .root .impl_string_iterator_tag [])]) .apply [vA, vB]) =
    (get h vA .type).bind fun x1 =>
    (get h vB .type).bind fun x2 =>
    (h (V.cls .root .impl_distance [x1, x2])).bind fun b3 =>
    Out.ok b3 := by
  apply Eq.trans (b := _)
  apply body_of
  apply resolve_in
  apply resolve_top
  refine choose_here rfl
  refine choose_here rfl
  · intro k hk; cases hk
  body_simp

theorem body_mpl_next {vS vN : V} :
    instantiate U h (V.cls .root .mpl_next [(V.cls .root .impl_string_iterator [vS, vN])]) =
    (Op.ev .add vN (V.num 1)).bind fun x1 =>
    (h (V.cls .root .impl_string_iterator [vS, x1])).bind fun b2 =>
    Out.ok b2 := by
  apply Eq.trans (b := _)
  apply body_of
  apply resolve_top
  refine choose_here rfl
  · intro k hk; cases hk
  body_simp

theorem body_mpl_prior {vS vN : V} :
    instantiate U h (V.cls .root .mpl_prior [(V.cls .root .impl_string_iterator [vS, vN])]) =
    (Op.ev .sub vN (V.num 1)).bind fun x1 =>
    (h (V.cls .root .impl_string_iterator [vS, x1])).bind fun b2 =>
    Out.ok b2 := by
  apply Eq.trans (b := _)
  apply body_of
  apply resolve_top
  refine choose_here rfl
  · intro k hk; cases hk
  body_simp

theorem body_mpl_deref {vS vN : V} :
    instantiate U h (V.cls .root .mpl_deref [(V.cls .root .impl_string_iterator [vS, vN])]) =
    (h (V.cls .root .impl_at_c [vS, vN])).bind fun b1 =>
    Out.ok b1 := by
  apply Eq.trans (b := _)
  apply body_of
  apply resolve_top
  refine choose_here rfl
  · intro k hk; cases hk
  body_simp

theorem body_mpl_pop_back_impl :
    instantiate U h (V.cls .root .mpl_pop_back_impl [(V.cls .root .string_tag [])]) =
    Out.ok ([(.type, .ty (V.cls .root .mpl_pop_back_impl [(V.cls .root .string_tag [])])), (.apply, .tmpl (V.cls .root .mpl_pop_back_impl [(V.cls .root .string_tag [])]))]) := by
  apply Eq.trans (b := _)
  apply body_of
  apply resolve_top
  refine choose_here rfl
  · intro k hk; cases hk
  body_simp

theorem body_mpl_pop_back_impl_apply {vS : V} :
    instantiate U h (V.cls (V.cls .root .mpl_pop_back_impl [(V.cls .root .string_tag [])]) .apply [vS]) =
    (h (V.cls .root .impl_pop_back [vS])).bind fun b1 =>
    Out.ok b1 := by
  apply Eq.trans (b := _)
  apply body_of
  apply resolve_in
  apply resolve_top
  refine choose_here rfl
  refine choose_here rfl
  · intro k hk; cases hk
  body_simp

theorem body_mpl_clear_impl :
    instantiate U h (V.cls .root .mpl_clear_impl [(V.cls .root .string_tag [])]) =
    Out.ok ([(.type, .ty (V.cls .root .mpl_clear_impl [(V.cls .root .string_tag [])])), (.apply, .tmpl (V.cls .root .mpl_clear_impl [(V.cls .root .string_tag [])]))]) := by
  apply Eq.trans (b := _)
  apply body_of
  apply resolve_top
  refine choose_here rfl
  · intro k hk; cases hk
  body_simp

theorem body_mpl_clear_impl_apply {vS : V} :
    instantiate U h (V.cls (V.cls .root .mpl_clear_impl [(V.cls .root .string_tag [])]) .apply [vS]) =
    (h (V.cls .root .string (fill .string []))).bind fun b1 =>
    Out.ok b1 := by
  apply Eq.trans (b := _)
  apply body_of
  apply resolve_in
  apply resolve_top
  refine choose_here rfl
  refine choose_here rfl
  · intro k hk; cases hk
  body_simp

theorem body_mpl_begin_impl :
    instantiate U h (V.cls .root .mpl_begin_impl [(V.cls .root .string_tag [])]) =
    Out.ok ([(.type, .ty (V.cls .root .mpl_begin_impl [(V.cls .root .string_tag [])])), (.apply, .tmpl (V.cls .root .mpl_begin_impl [(V.cls .root .string_tag [])]))]) := by
  apply Eq.trans (b := _)
  apply body_of
  apply resolve_top
  refine choose_here rfl
  · intro k hk; cases hk
  body_simp

theorem body_mpl_begin_impl_apply {vS : V} :
    instantiate U h (V.cls (V.cls .root .mpl_begin_impl [(V.cls .root .string_tag [])]) .apply [vS]) =
    (get h vS .type).bind fun x1 =>
    (h (V.cls .root .impl_string_iterator [x1, (V.num 0)])).bind fun b2 =>
    Out.ok b2 := by
  apply Eq.trans (b := _)
  apply body_of
  apply resolve_in
  apply resolve_top
  refine choose_here rfl
  refine choose_here rfl
  · intro k hk; cases hk
  body_simp

theorem body_mpl_end_impl :
    instantiate U h (V.cls .root .mpl_end_impl [(V.cls .root .string_tag [])]) =
    Out.ok ([(.type, .ty (V.cls .root .mpl_end_impl [(V.cls .root .string_tag [])])), (.apply, .tmpl (V.cls .root .mpl_end_impl [(V.cls .root .string_tag [])]))]) := by
  apply Eq.trans (b := _)
  apply body_of
  apply resolve_top
  refine choose_here rfl
  · intro k hk; cases hk
  body_simp

theorem body_mpl_end_impl_apply {vS : V} :
    instantiate U h (V.cls (V.cls .root .mpl_end_impl [(V.cls .root .string_tag [])]) .apply [vS]) =
    (get h vS .type).bind fun x1 =>
    (get h vS .type).bind fun x2 =>
    (get h (V.cls .root .impl_size [x2]) .type).bind fun x3 =>
    (get h x3 .value).bind fun x4 =>
    (h (V.cls .root .impl_string_iterator [x1, x4])).bind fun b5 =>
    Out.ok b5 := by
  apply Eq.trans (b := _)
  apply body_of
  apply resolve_in
  apply resolve_top
  refine choose_here rfl
  refine choose_here rfl
  · intro k hk; cases hk
  body_simp

theorem body_impl_empty_string {vIgnore : V} :
    instantiate U h (V.cls .root .impl_empty_string [vIgnore]) =
    Out.ok ([(.type, .ty (V.cls .root .impl_empty_string [vIgnore]))]) := by
  apply Eq.trans (b := _)
  apply body_of
  apply resolve_top
  refine choose_here rfl
  · intro k hk; cases hk
  body_simp

theorem body_error_digit_expected :
    instantiate U h (V.cls .root .error_digit_expected []) =
    Out.ok ([(.type, .ty (V.cls .root .error_digit_expected []))]) := by
  apply Eq.trans (b := _)
  apply body_of
  apply resolve_top
  refine choose_here rfl
  · intro k hk; cases hk
  body_simp

theorem body_error_end_of_input_expected :
    instantiate U h (V.cls .root .error_end_of_input_expected []) =
    Out.ok ([(.type, .ty (V.cls .root .error_end_of_input_expected []))]) := by
  apply Eq.trans (b := _)
  apply body_of
  apply resolve_top
  refine choose_here rfl
  · intro k hk; cases hk
  body_simp

theorem body_error_expected_to_fail :
    instantiate U h (V.cls .root .error_expected_to_fail []) =
    Out.ok ([(.type, .ty (V.cls .root .error_expected_to_fail []))]) := by
  apply Eq.trans (b := _)
  apply body_of
  apply resolve_top
  refine choose_here rfl
  · intro k hk; cases hk
  body_simp

theorem body_error_index_out_of_range {vFrom vTo vN : V} :
    instantiate U h (V.cls .root .error_index_out_of_range [vFrom, vTo, vN]) =
    Out.ok ([(.type, .ty (V.cls .root .error_index_out_of_range [vFrom, vTo, vN]))]) := by
  apply Eq.trans (b := _)
  apply body_of
  apply resolve_top
  refine choose_here rfl
  · intro k hk; cases hk
  body_simp

theorem body_error_letter_expected :
    instantiate U h (V.cls .root .error_letter_expected []) =
    Out.ok ([(.type, .ty (V.cls .root .error_letter_expected []))]) := by
  apply Eq.trans (b := _)
  apply body_of
  apply resolve_top
  refine choose_here rfl
  · intro k hk; cases hk
  body_simp

theorem body_error_literal_expected {vC : V} :
    instantiate U h (V.cls .root .error_literal_expected [vC]) =
    Out.ok ([(.type, .ty (V.cls .root .error_literal_expected [vC]))]) := by
  apply Eq.trans (b := _)
  apply body_of
  apply resolve_top
  refine choose_here rfl
  · intro k hk; cases hk
  body_simp

theorem body_error_none_of_the_expected_cases_found :
    instantiate U h (V.cls .root .error_none_of_the_expected_cases_found []) =
    Out.ok ([(.type, .ty (V.cls .root .error_none_of_the_expected_cases_found []))]) := by
  apply Eq.trans (b := _)
  apply body_of
  apply resolve_top
  refine choose_here rfl
  · intro k hk; cases hk
  body_simp

theorem body_error_unexpected_character :
    instantiate U h (V.cls .root .error_unexpected_character []) =
    Out.ok ([(.type, .ty (V.cls .root .error_unexpected_character []))]) := by
  apply Eq.trans (b := _)
  apply body_of
  apply resolve_top
  refine choose_here rfl
  · intro k hk; cases hk
  body_simp

theorem body_error_unexpected_end_of_input :
    instantiate U h (V.cls .root .error_unexpected_end_of_input []) =
    Out.ok ([(.type, .ty (V.cls .root .error_unexpected_end_of_input []))]) := by
  apply Eq.trans (b := _)
  apply body_of
  apply resolve_top
  refine choose_here rfl
  · intro k hk; cases hk
  body_simp

theorem body_error_unpaired_0 {vLine vCol : V} :
    instantiate U h (V.cls .root .error_unpaired [vLine, vCol, (V.cls .root .mpl_na [])]) =
    Out.ok ([(.type, .ty (V.cls .root .error_unpaired [vLine, vCol, (V.cls .root .mpl_na [])])), (.apply, .tmpl (V.cls .root .error_unpaired [vLine, vCol, (V.cls .root .mpl_na [])]))]) := by
  apply Eq.trans (b := _)
  apply body_of
  apply resolve_top
  refine choose_here rfl
  · intro k hk; cases hk
  body_simp

theorem body_error_unpaired_0_apply {vLine vCol vMsg : V} :
    instantiate U h (V.cls (V.cls .root .error_unpaired [vLine, vCol, (V.cls .root .mpl_na [])]) .apply [vMsg]) =
    (h (V.cls .root .error_unpaired [vLine, vCol, vMsg])).bind fun b1 =>
    Out.ok b1 := by
  apply Eq.trans (b := _)
  apply body_of
  apply resolve_in
  apply resolve_top
  refine choose_here rfl
  refine choose_here rfl
  · intro k hk; cases hk
  body_simp

theorem body_error_unpaired_1 {vLine vCol vMsg : V}
    (herror_unpaired0 : Pat.fits [.var .Line, .var .Col, .cls .mpl_na []] [vLine, vCol, vMsg] [] = none) :
    instantiate U h (V.cls .root .error_unpaired [vLine, vCol, vMsg]) =
    Out.ok ([(.type, .ty (V.cls .root .error_unpaired [vLine, vCol, vMsg]))]) := by
  apply Eq.trans (b := _)
  apply body_of
  apply resolve_top
  apply choose_next
  · exact herror_unpaired0
  refine choose_here rfl
  · intro k hk; cases hk
  body_simp

theorem body_error_whitespace_expected :
    instantiate U h (V.cls .root .error_whitespace_expected []) =
    Out.ok ([(.type, .ty (V.cls .root .error_whitespace_expected []))]) := by
  apply Eq.trans (b := _)
  apply body_of
  apply resolve_top
  refine choose_here rfl
  · intro k hk; cases hk
  body_simp

theorem body_impl_void_ :
    instantiate U h (V.cls .root .impl_void_ []) =
    Out.ok ([(.type, .ty (V.cls .root .impl_void_ []))]) := by
  apply Eq.trans (b := _)
  apply body_of
  apply resolve_top
  refine choose_here rfl
  · intro k hk; cases hk
  body_simp

theorem body_impl_is_char_c {vC : V} :
    instantiate U h (V.cls .root .impl_is_char_c [vC]) =
    Out.ok ([(.type, .ty (V.cls .root .impl_is_char_c [vC])), (.apply, .tmpl (V.cls .root .impl_is_char_c [vC]))]) := by
  apply Eq.trans (b := _)
  apply body_of
  apply resolve_top
  refine choose_here rfl
  · intro k hk; cases hk
  body_simp

theorem body_impl_is_char_c_apply {vC vCh : V} :
    instantiate U h (V.cls (V.cls .root .impl_is_char_c [vC]) .apply [vCh]) =
    (get h vCh .type).bind fun x1 =>
    (get h x1 .value).bind fun x2 =>
    (Op.ev .eq x2 vC).bind fun x3 =>
    (h (V.cls .root .mpl_bool_ [x3])).bind fun b4 =>
    Out.ok b4 := by
  apply Eq.trans (b := _)
  apply body_of
  apply resolve_in
  apply resolve_top
  refine choose_here rfl
  refine choose_here rfl
  · intro k hk; cases hk
  body_simp

theorem body_impl_next_digit :
    instantiate U h (V.cls .root .impl_next_digit []) =
    Out.ok ([(.type, .ty (V.cls .root .impl_next_digit [])), (.apply, .tmpl (V.cls .root .impl_next_digit []))]) := by
  apply Eq.trans (b := _)
  apply body_of
  apply resolve_top
  refine choose_here rfl
  · intro k hk; cases hk
  body_simp

theorem body_impl_next_digit_apply {vPartialResult vNextDigit : V} :
    instantiate U h (V.cls (V.cls .root .impl_next_digit []) .apply [vPartialResult, vNextDigit]) =
    (get h vPartialResult .type).bind fun x1 =>
    (get h x1 .value).bind fun x2 =>
    (Op.ev .mul x2 (V.num 10)).bind fun x3 =>
    (get h vNextDigit .type).bind fun x4 =>
    (get h x4 .value).bind fun x5 =>
    (Op.ev .add x3 x5).bind fun x6 =>
    (h (V.cls .root .mpl_int_ [x6])).bind fun b7 =>
    Out.ok b7 := by
  apply Eq.trans (b := _)
  apply body_of
  apply resolve_in
  apply resolve_top
  refine choose_here rfl
  refine choose_here rfl
  · intro k hk; cases hk
  body_simp

theorem body_impl_back_inserter :
    instantiate U h (V.cls .root .impl_back_inserter []) =
    Out.ok ([(.type, .ty (V.cls .root .impl_back_inserter [])), (.apply, .tmpl (V.cls .root .impl_back_inserter []))]) := by
  apply Eq.trans (b := _)
  apply body_of
  apply resolve_top
  refine choose_here rfl
  · intro k hk; cases hk
  body_simp

theorem body_impl_back_inserter_apply {vT0 vT1 : V} :
    instantiate U h (V.cls (V.cls .root .impl_back_inserter []) .apply [vT0, vT1]) =
    (h (V.cls .root .mpl_push_back [vT0, vT1])).bind fun b1 =>
    Out.ok b1 := by
  apply Eq.trans (b := _)
  apply body_of
  apply resolve_in
  apply resolve_top
  refine choose_here rfl
  refine choose_here rfl
  · intro k hk; cases hk
  body_simp

theorem body_impl_front_inserter :
    instantiate U h (V.cls .root .impl_front_inserter []) =
    Out.ok ([(.type, .ty (V.cls .root .impl_front_inserter [])), (.apply, .tmpl (V.cls .root .impl_front_inserter []))]) := by
  apply Eq.trans (b := _)
  apply body_of
  apply resolve_top
  refine choose_here rfl
  · intro k hk; cases hk
  body_simp

theorem body_impl_front_inserter_apply {vT0 vT1 : V} :
    instantiate U h (V.cls (V.cls .root .impl_front_inserter []) .apply [vT0, vT1]) =
    (h (V.cls .root .mpl_push_front [vT0, vT1])).bind fun b1 =>
    Out.ok b1 := by
  apply Eq.trans (b := _)
  apply body_of
  apply resolve_in
  apply resolve_top
  refine choose_here rfl
  refine choose_here rfl
  · intro k hk; cases hk
  body_simp

theorem body_util_in_range_c {vT vLowerBound vUpperBound : V} :
    instantiate U h (V.cls .root .util_in_range_c [vT, vLowerBound, vUpperBound]) =
    Out.ok ([(.type, .ty (V.cls .root .util_in_range_c [vT, vLowerBound, vUpperBound])), (.apply, .tmpl (V.cls .root .util_in_range_c [vT, vLowerBound, vUpperBound]))]) := by
  apply Eq.trans (b := _)
  apply body_of
  apply resolve_top
  refine choose_here rfl
  · intro k hk; cases hk
  body_simp

theorem body_util_in_range_c_apply {vT vLowerBound vUpperBound vItem : V} :
    instantiate U h (V.cls (V.cls .root .util_in_range_c [vT, vLowerBound, vUpperBound]) .apply [vItem]) =
    (get h vItem .type).bind fun x1 =>
    (get h x1 .value).bind fun x2 =>
    (Op.ev .le vLowerBound x2).bind fun x3 =>
    (get h vItem .type).bind fun x4 =>
    (get h x4 .value).bind fun x5 =>
    (Op.ev .le x5 vUpperBound).bind fun x6 =>
    (Op.ev .and x3 x6).bind fun x7 =>
    (h (V.cls .root .mpl_bool_ [x7])).bind fun b8 =>
    Out.ok b8 := by
  apply Eq.trans (b := _)
  apply body_of
  apply resolve_in
  apply resolve_top
  refine choose_here rfl
  refine choose_here rfl
  · intro k hk; cases hk
  body_simp

theorem body_util_is_digit_0 :
    instantiate U h (V.cls .root .util_is_digit [(V.cls .root .mpl_na [])]) =
    Out.ok ([(.type, .ty (V.cls .root .util_is_digit [(V.cls .root .mpl_na [])])), (.apply, .tmpl (V.cls .root .util_is_digit [(V.cls .root .mpl_na [])]))]) := by
  apply Eq.trans (b := _)
  apply body_of
  apply resolve_top
  refine choose_here rfl
  · intro k hk; cases hk
  body_simp

theorem body_util_is_digit_0_apply {vC : V} :
    instantiate U h (V.cls (V.cls .root .util_is_digit [(V.cls .root .mpl_na [])]) .apply [vC]) =
    (h (V.cls .root .util_is_digit [vC])).bind fun b1 =>
    Out.ok b1 := by
  apply Eq.trans (b := _)
  apply body_of
  apply resolve_in
  apply resolve_top
  refine choose_here rfl
  refine choose_here rfl
  · intro k hk; cases hk
  body_simp

theorem body_util_is_digit_1 {vC : V}
    (hutil_is_digit0 : Pat.fits [.cls .mpl_na []] [vC] [] = none) :
    instantiate U h (V.cls .root .util_is_digit [vC]) =
    (owner h (V.cls .root .util_in_range_c [(V.cls .root .t_char []), (V.num 48), (V.num 57)]) .apply).bind fun o1 =>
    (h (V.cls o1 .apply [vC])).bind fun b2 =>
    Out.ok b2 := by
  apply Eq.trans (b := _)
  apply body_of
  apply resolve_top
  apply choose_next
  · exact hutil_is_digit0
  refine choose_here rfl
  · intro k hk; cases hk
  body_simp

theorem body_util_is_lcase_letter_0 :
    instantiate U h (V.cls .root .util_is_lcase_letter [(V.cls .root .mpl_na [])]) =
    Out.ok ([(.type, .ty (V.cls .root .util_is_lcase_letter [(V.cls .root .mpl_na [])])), (.apply, .tmpl (V.cls .root .util_is_lcase_letter [(V.cls .root .mpl_na [])]))]) := by
  apply Eq.trans (b := _)
  apply body_of
  apply resolve_top
  refine choose_here rfl
  · intro k hk; cases hk
  body_simp

theorem body_util_is_lcase_letter_0_apply {vC : V} :
    instantiate U h (V.cls (V.cls .root .util_is_lcase_letter [(V.cls .root .mpl_na [])]) .apply [vC]) =
    (h (V.cls .root .util_is_lcase_letter [vC])).bind fun b1 =>
    Out.ok b1 := by
  apply Eq.trans (b := _)
  apply body_of
  apply resolve_in
  apply resolve_top
  refine choose_here rfl
  refine choose_here rfl
  · intro k hk; cases hk
  body_simp

theorem body_util_is_lcase_letter_1 {vC : V}
    (hutil_is_lcase_letter0 : Pat.fits [.cls .mpl_na []] [vC] [] = none) :
    instantiate U h (V.cls .root .util_is_lcase_letter [vC]) =
    (owner h (V.cls .root .util_in_range_c [(V.cls .root .t_char []), (V.num 97), (V.num 122)]) .apply).bind fun o1 =>
    (h (V.cls o1 .apply [vC])).bind fun b2 =>
    Out.ok b2 := by
  apply Eq.trans (b := _)
  apply body_of
  apply resolve_top
  apply choose_next
  · exact hutil_is_lcase_letter0
  refine choose_here rfl
  · intro k hk; cases hk
  body_simp

theorem body_util_is_ucase_letter_0 :
    instantiate U h (V.cls .root .util_is_ucase_letter [(V.cls .root .mpl_na [])]) =
    Out.ok ([(.type, .ty (V.cls .root .util_is_ucase_letter [(V.cls .root .mpl_na [])])), (.apply, .tmpl (V.cls .root .util_is_ucase_letter [(V.cls .root .mpl_na [])]))]) := by
  apply Eq.trans (b := _)
  apply body_of
  apply resolve_top
  refine choose_here rfl
  · intro k hk; cases hk
  body_simp

theorem body_util_is_ucase_letter_0_apply {vC : V} :
    instantiate U h (V.cls (V.cls .root .util_is_ucase_letter [(V.cls .root .mpl_na [])]) .apply [vC]) =
    (h (V.cls .root .util_is_ucase_letter [vC])).bind fun b1 =>
    Out.ok b1 := by
  apply Eq.trans (b := _)
  apply body_of
  apply resolve_in
  apply resolve_top
  refine choose_here rfl
  refine choose_here rfl
  · intro k hk; cases hk
  body_simp

theorem body_util_is_ucase_letter_1 {vC : V}
    (hutil_is_ucase_letter0 : Pat.fits [.cls .mpl_na []] [vC] [] = none) :
    instantiate U h (V.cls .root .util_is_ucase_letter [vC]) =
    (owner h (V.cls .root .util_in_range_c [(V.cls .root .t_char []), (V.num 65), (V.num 90)]) .apply).bind fun o1 =>
    (h (V.cls o1 .apply [vC])).bind fun b2 =>
    Out.ok b2 := by
  apply Eq.trans (b := _)
  apply body_of
  apply resolve_top
  apply choose_next
  · exact hutil_is_ucase_letter0
  refine choose_here rfl
  · intro k hk; cases hk
  body_simp

theorem body_util_is_letter_0 :
    instantiate U h (V.cls .root .util_is_letter [(V.cls .root .mpl_na [])]) =
    Out.ok ([(.type, .ty (V.cls .root .util_is_letter [(V.cls .root .mpl_na [])])), (.apply, .tmpl (V.cls .root .util_is_letter [(V.cls .root .mpl_na [])]))]) := by
  apply Eq.trans (b := _)
  apply body_of
  apply resolve_top
  refine choose_here rfl
  · intro k hk; cases hk
  body_simp

theorem body_util_is_letter_0_apply {vC : V} :
    instantiate U h (V.cls (V.cls .root .util_is_letter [(V.cls .root .mpl_na [])]) .apply [vC]) =
    (h (V.cls .root .util_is_letter [vC])).bind fun b1 =>
    Out.ok b1 := by
  apply Eq.trans (b := _)
  apply body_of
  apply resolve_in
  apply resolve_top
  refine choose_here rfl
  refine choose_here rfl
  · intro k hk; cases hk
  body_simp

theorem body_util_is_letter_1 {vC : V}
    (hutil_is_letter0 : Pat.fits [.cls .mpl_na []] [vC] [] = none) :
    instantiate U h (V.cls .root .util_is_letter [vC]) =
    (get h (V.cls .root .util_is_lcase_letter [vC]) .type).bind fun x1 =>
    (get h x1 .value).bind fun x2 =>
    (get h (V.cls .root .util_is_ucase_letter [vC]) .type).bind fun x3 =>
    (get h x3 .value).bind fun x4 =>
    (Op.ev .or x2 x4).bind fun x5 =>
    (h (V.cls .root .mpl_bool_ [x5])).bind fun b6 =>
    Out.ok b6 := by
  apply Eq.trans (b := _)
  apply body_of
  apply resolve_top
  apply choose_next
  · exact hutil_is_letter0
  refine choose_here rfl
  · intro k hk; cases hk
  body_simp

theorem body_util_is_whitespace_c_0 :
    instantiate U h (V.cls .root .util_is_whitespace_c [(V.num 32)]) =
    (h (V.cls .root .mpl_bool_ [(V.num 1)])).bind fun b1 =>
    Out.ok b1 := by
  apply Eq.trans (b := _)
  apply body_of
  apply resolve_top
  refine choose_here rfl
  · intro k hk; cases hk
  body_simp

theorem body_util_is_whitespace_c_1 :
    instantiate U h (V.cls .root .util_is_whitespace_c [(V.num 13)]) =
    (h (V.cls .root .mpl_bool_ [(V.num 1)])).bind fun b1 =>
    Out.ok b1 := by
  apply Eq.trans (b := _)
  apply body_of
  apply resolve_top
  apply choose_next
  · exact rfl
  refine choose_here rfl
  · intro k hk; cases hk
  body_simp

theorem body_util_is_whitespace_c_2 :
    instantiate U h (V.cls .root .util_is_whitespace_c [(V.num 10)]) =
    (h (V.cls .root .mpl_bool_ [(V.num 1)])).bind fun b1 =>
    Out.ok b1 := by
  apply Eq.trans (b := _)
  apply body_of
  apply resolve_top
  apply choose_next
  · exact rfl
  apply choose_next
  · exact rfl
  refine choose_here rfl
  · intro k hk; cases hk
  body_simp

theorem body_util_is_whitespace_c_3 :
    instantiate U h (V.cls .root .util_is_whitespace_c [(V.num 9)]) =
    (h (V.cls .root .mpl_bool_ [(V.num 1)])).bind fun b1 =>
    Out.ok b1 := by
  apply Eq.trans (b := _)
  apply body_of
  apply resolve_top
  apply choose_next
  · exact rfl
  apply choose_next
  · exact rfl
  apply choose_next
  · exact rfl
  refine choose_here rfl
  · intro k hk; cases hk
  body_simp

theorem body_util_is_whitespace_c_4 {vC : V}
    (hutil_is_whitespace_c0 : Pat.fits [.num 32] [vC] [] = none)
    (hutil_is_whitespace_c1 : Pat.fits [.num 13] [vC] [] = none)
    (hutil_is_whitespace_c2 : Pat.fits [.num 10] [vC] [] = none)
    (hutil_is_whitespace_c3 : Pat.fits [.num 9] [vC] [] = none) :
    instantiate U h (V.cls .root .util_is_whitespace_c [vC]) =
    (h (V.cls .root .mpl_bool_ [(V.num 0)])).bind fun b1 =>
    Out.ok b1 := by
  apply Eq.trans (b := _)
  apply body_of
  apply resolve_top
  apply choose_next
  · exact hutil_is_whitespace_c0
  apply choose_next
  · exact hutil_is_whitespace_c1
  apply choose_next
  · exact hutil_is_whitespace_c2
  apply choose_next
  · exact hutil_is_whitespace_c3
  refine choose_here rfl
  · intro k hk; cases hk
  body_simp

theorem body_util_is_whitespace_0 :
    instantiate U h (V.cls .root .util_is_whitespace [(V.cls .root .mpl_na [])]) =
    Out.ok ([(.type, .ty (V.cls .root .util_is_whitespace [(V.cls .root .mpl_na [])])), (.apply, .tmpl (V.cls .root .util_is_whitespace [(V.cls .root .mpl_na [])]))]) := by
  apply Eq.trans (b := _)
  apply body_of
  apply resolve_top
  refine choose_here rfl
  · intro k hk; cases hk
  body_simp

theorem body_util_is_whitespace_0_apply {vC : V} :
    instantiate U h (V.cls (V.cls .root .util_is_whitespace [(V.cls .root .mpl_na [])]) .apply [vC]) =
    (h (V.cls .root .util_is_whitespace [vC])).bind fun b1 =>
    Out.ok b1 := by
  apply Eq.trans (b := _)
  apply body_of
  apply resolve_in
  apply resolve_top
  refine choose_here rfl
  refine choose_here rfl
  · intro k hk; cases hk
  body_simp

theorem body_util_is_whitespace_1 {vC : V}
    (hutil_is_whitespace0 : Pat.fits [.cls .mpl_na []] [vC] [] = none) :
    instantiate U h (V.cls .root .util_is_whitespace [vC]) =
    (get h vC .type).bind fun x1 =>
    (get h x1 .value).bind fun x2 =>
    (h (V.cls .root .util_is_whitespace_c [x2])).bind fun b3 =>
    Out.ok b3 := by
  apply Eq.trans (b := _)
  apply body_of
  apply resolve_top
  apply choose_next
  · exact hutil_is_whitespace0
  refine choose_here rfl
  · intro k hk; cases hk
  body_simp

theorem body_util_digit_to_int_c_0 :
    instantiate U h (V.cls .root .util_digit_to_int_c [(V.num 48)]) =
    (h (V.cls .root .mpl_int_ [(V.num 0)])).bind fun b1 =>
    Out.ok b1 := by
  apply Eq.trans (b := _)
  apply body_of
  apply resolve_top
  refine choose_here rfl
  · intro k hk; cases hk
  body_simp

theorem body_util_digit_to_int_c_1 :
    instantiate U h (V.cls .root .util_digit_to_int_c [(V.num 49)]) =
    (h (V.cls .root .mpl_int_ [(V.num 1)])).bind fun b1 =>
    Out.ok b1 := by
  apply Eq.trans (b := _)
  apply body_of
  apply resolve_top
  apply choose_next
  · exact rfl
  refine choose_here rfl
  · intro k hk; cases hk
  body_simp

theorem body_util_digit_to_int_c_2 :
    instantiate U h (V.cls .root .util_digit_to_int_c [(V.num 50)]) =
    (h (V.cls .root .mpl_int_ [(V.num 2)])).bind fun b1 =>
    Out.ok b1 := by
  apply Eq.trans (b := _)
  apply body_of
  apply resolve_top
  apply choose_next
  · exact rfl
  apply choose_next
  · exact rfl
  refine choose_here rfl
  · intro k hk; cases hk
  body_simp

theorem body_util_digit_to_int_c_3 :
    instantiate U h (V.cls .root .util_digit_to_int_c [(V.num 51)]) =
    (h (V.cls .root .mpl_int_ [(V.num 3)])).bind fun b1 =>
    Out.ok b1 := by
  apply Eq.trans (b := _)
  apply body_of
  apply resolve_top
  apply choose_next
  · exact rfl
  apply choose_next
  · exact rfl
  apply choose_next
  · exact rfl
  refine choose_here rfl
  · intro k hk; cases hk
  body_simp

theorem body_util_digit_to_int_c_4 :
    instantiate U h (V.cls .root .util_digit_to_int_c [(V.num 52)]) =
    (h (V.cls .root .mpl_int_ [(V.num 4)])).bind fun b1 =>
    Out.ok b1 := by
  apply Eq.trans (b := _)
  apply body_of
  apply resolve_top
  apply choose_next
  · exact rfl
  apply choose_next
  · exact rfl
  apply choose_next
  · exact rfl
  apply choose_next
  · exact rfl
  refine choose_here rfl
  · intro k hk; cases hk
  body_simp

theorem body_util_digit_to_int_c_5 :
    instantiate U h (V.cls .root .util_digit_to_int_c [(V.num 53)]) =
    (h (V.cls .root .mpl_int_ [(V.num 5)])).bind fun b1 =>
    Out.ok b1 := by
  apply Eq.trans (b := _)
  apply body_of
  apply resolve_top
  apply choose_next
  · exact rfl
  apply choose_next
  · exact rfl
  apply choose_next
  · exact rfl
  apply choose_next
  · exact rfl
  apply choose_next
  · exact rfl
  refine choose_here rfl
  · intro k hk; cases hk
  body_simp

theorem body_util_digit_to_int_c_6 :
    instantiate U h (V.cls .root .util_digit_to_int_c [(V.num 54)]) =
    (h (V.cls .root .mpl_int_ [(V.num 6)])).bind fun b1 =>
    Out.ok b1 := by
  apply Eq.trans (b := _)
  apply body_of
  apply resolve_top
  apply choose_next
  · exact rfl
  apply choose_next
  · exact rfl
  apply choose_next
  · exact rfl
  apply choose_next
  · exact rfl
  apply choose_next
  · exact rfl
  apply choose_next
  · exact rfl
  refine choose_here rfl
  · intro k hk; cases hk
  body_simp

theorem body_util_digit_to_int_c_7 :
    instantiate U h (V.cls .root .util_digit_to_int_c [(V.num 55)]) =
    (h (V.cls .root .mpl_int_ [(V.num 7)])).bind fun b1 =>
    Out.ok b1 := by
  apply Eq.trans (b := _)
  apply body_of
  apply resolve_top
  apply choose_next
  · exact rfl
  apply choose_next
  · exact rfl
  apply choose_next
  · exact rfl
  apply choose_next
  · exact rfl
  apply choose_next
  · exact rfl
  apply choose_next
  · exact rfl
  apply choose_next
  · exact rfl
  refine choose_here rfl
  · intro k hk; cases hk
  body_simp

theorem body_util_digit_to_int_c_8 :
    instantiate U h (V.cls .root .util_digit_to_int_c [(V.num 56)]) =
    (h (V.cls .root .mpl_int_ [(V.num 8)])).bind fun b1 =>
    Out.ok b1 := by
  apply Eq.trans (b := _)
  apply body_of
  apply resolve_top
  apply choose_next
  · exact rfl
  apply choose_next
  · exact rfl
  apply choose_next
  · exact rfl
  apply choose_next
  · exact rfl
  apply choose_next
  · exact rfl
  apply choose_next
  · exact rfl
  apply choose_next
  · exact rfl
  apply choose_next
  · exact rfl
  refine choose_here rfl
  · intro k hk; cases hk
  body_simp

theorem body_util_digit_to_int_c_9 :
    instantiate U h (V.cls .root .util_digit_to_int_c [(V.num 57)]) =
    (h (V.cls .root .mpl_int_ [(V.num 9)])).bind fun b1 =>
    Out.ok b1 := by
  apply Eq.trans (b := _)
  apply body_of
  apply resolve_top
  apply choose_next
  · exact rfl
  apply choose_next
  · exact rfl
  apply choose_next
  · exact rfl
  apply choose_next
  · exact rfl
  apply choose_next
  · exact rfl
  apply choose_next
  · exact rfl
  apply choose_next
  · exact rfl
  apply choose_next
  · exact rfl
  apply choose_next
  · exact rfl
  refine choose_here rfl
  · intro k hk; cases hk
  body_simp

theorem body_util_digit_to_int_c_10 {vC : V}
    (hutil_digit_to_int_c0 : Pat.fits [.num 48] [vC] [] = none)
    (hutil_digit_to_int_c1 : Pat.fits [.num 49] [vC] [] = none)
    (hutil_digit_to_int_c2 : Pat.fits [.num 50] [vC] [] = none)
    (hutil_digit_to_int_c3 : Pat.fits [.num 51] [vC] [] = none)
    (hutil_digit_to_int_c4 : Pat.fits [.num 52] [vC] [] = none)
    (hutil_digit_to_int_c5 : Pat.fits [.num 53] [vC] [] = none)
    (hutil_digit_to_int_c6 : Pat.fits [.num 54] [vC] [] = none)
    (hutil_digit_to_int_c7 : Pat.fits [.num 55] [vC] [] = none)
    (hutil_digit_to_int_c8 : Pat.fits [.num 56] [vC] [] = none)
    (hutil_digit_to_int_c9 : Pat.fits [.num 57] [vC] [] = none) :
    instantiate U h (V.cls .root .util_digit_to_int_c [vC]) =
    (h (V.cls .root .error_digit_expected [])).bind fun b1 =>
    Out.ok b1 := by
  apply Eq.trans (b := _)
  apply body_of
  apply resolve_top
  apply choose_next
  · exact hutil_digit_to_int_c0
  apply choose_next
  · exact hutil_digit_to_int_c1
  apply choose_next
  · exact hutil_digit_to_int_c2
  apply choose_next
  · exact hutil_digit_to_int_c3
  apply choose_next
  · exact hutil_digit_to_int_c4
  apply choose_next
  · exact hutil_digit_to_int_c5
  apply choose_next
  · exact hutil_digit_to_int_c6
  apply choose_next
  · exact hutil_digit_to_int_c7
  apply choose_next
  · exact hutil_digit_to_int_c8
  apply choose_next
  · exact hutil_digit_to_int_c9
  refine choose_here rfl
  · intro k hk; cases hk
  body_simp

theorem body_util_digit_to_int_0 :
    instantiate U h (V.cls .root .util_digit_to_int [(V.cls .root .mpl_na [])]) =
    Out.ok ([(.type, .ty (V.cls .root .util_digit_to_int [(V.cls .root .mpl_na [])])), (.apply, .tmpl (V.cls .root .util_digit_to_int [(V.cls .root .mpl_na [])]))]) := by
  apply Eq.trans (b := _)
  apply body_of
  apply resolve_top
  refine choose_here rfl
  · intro k hk; cases hk
  body_simp

theorem body_util_digit_to_int_0_apply {vD : V} :
    instantiate U h (V.cls (V.cls .root .util_digit_to_int [(V.cls .root .mpl_na [])]) .apply [vD]) =
    (h (V.cls .root .util_digit_to_int [vD])).bind fun b1 =>
    Out.ok b1 := by
  apply Eq.trans (b := _)
  apply body_of
  apply resolve_in
  apply resolve_top
  refine choose_here rfl
  refine choose_here rfl
  · intro k hk; cases hk
  body_simp

theorem body_util_digit_to_int_1 {vD : V}
    (hutil_digit_to_int0 : Pat.fits [.cls .mpl_na []] [vD] [] = none) :
    instantiate U h (V.cls .root .util_digit_to_int [vD]) =
    (get h vD .type).bind fun x1 =>
    (get h x1 .value).bind fun x2 =>
    (h (V.cls .root .util_digit_to_int_c [x2])).bind fun b3 =>
    Out.ok b3 := by
  apply Eq.trans (b := _)
  apply body_of
  apply resolve_top
  apply choose_next
  · exact hutil_digit_to_int0
  refine choose_here rfl
  · intro k hk; cases hk
  body_simp

theorem body_util_in_range_0 :
    instantiate U h (V.cls .root .util_in_range [(V.cls .root .mpl_na []), (V.cls .root .mpl_na []), (V.cls .root .mpl_na [])]) =
    Out.ok ([(.type, .ty (V.cls .root .util_in_range [(V.cls .root .mpl_na []), (V.cls .root .mpl_na []), (V.cls .root .mpl_na [])])), (.apply, .tmpl (V.cls .root .util_in_range [(V.cls .root .mpl_na []), (V.cls .root .mpl_na []), (V.cls .root .mpl_na [])]))]) := by
  apply Eq.trans (b := _)
  apply body_of
  apply resolve_top
  refine choose_here rfl
  · intro k hk; cases hk
  body_simp

theorem body_util_in_range_0_apply {vLowerBound vUpperBound vItem : V} :
    instantiate U h (V.cls (V.cls .root .util_in_range [(V.cls .root .mpl_na []), (V.cls .root .mpl_na []), (V.cls .root .mpl_na [])]) .apply [vLowerBound, vUpperBound, vItem]) =
    (h (V.cls .root .util_in_range [vLowerBound, vUpperBound, vItem])).bind fun b1 =>
    Out.ok b1 := by
  apply Eq.trans (b := _)
  apply body_of
  apply resolve_in
  apply resolve_top
  refine choose_here rfl
  refine choose_here rfl
  · intro k hk; cases hk
  body_simp

theorem body_util_in_range_1 {vLowerBound : V}
    (hutil_in_range0 : Pat.fits [.cls .mpl_na [], .cls .mpl_na [], .cls .mpl_na []] [vLowerBound, (V.cls .root .mpl_na []), (V.cls .root .mpl_na [])] [] = none) :
    instantiate U h (V.cls .root .util_in_range [vLowerBound, (V.cls .root .mpl_na []), (V.cls .root .mpl_na [])]) =
    Out.ok ([(.type, .ty (V.cls .root .util_in_range [vLowerBound, (V.cls .root .mpl_na []), (V.cls .root .mpl_na [])])), (.apply, .tmpl (V.cls .root .util_in_range [vLowerBound, (V.cls .root .mpl_na []), (V.cls .root .mpl_na [])]))]) := by
  apply Eq.trans (b := _)
  apply body_of
  apply resolve_top
  apply choose_next
  · exact hutil_in_range0
  refine choose_here rfl
  · intro k hk; cases hk
  body_simp

theorem body_util_in_range_1_apply {vLowerBound vUpperBound vItem : V}
    (hutil_in_range0 : Pat.fits [.cls .mpl_na [], .cls .mpl_na [], .cls .mpl_na []] [vLowerBound, (V.cls .root .mpl_na []), (V.cls .root .mpl_na [])] [] = none) :
    instantiate U h (V.cls (V.cls .root .util_in_range [vLowerBound, (V.cls .root .mpl_na []), (V.cls .root .mpl_na [])]) .apply [vUpperBound, vItem]) =
    (h (V.cls .root .util_in_range [vLowerBound, vUpperBound, vItem])).bind fun b1 =>
    Out.ok b1 := by
  apply Eq.trans (b := _)
  apply body_of
  apply resolve_in
  apply resolve_top
  apply choose_next
  · exact hutil_in_range0
  refine choose_here rfl
  refine choose_here rfl
  · intro k hk; cases hk
  body_simp

theorem body_util_in_range_2 {vLowerBound vUpperBound : V}
    (hutil_in_range0 : Pat.fits [.cls .mpl_na [], .cls .mpl_na [], .cls .mpl_na []] [vLowerBound, vUpperBound, (V.cls .root .mpl_na [])] [] = none)
    (hutil_in_range1 : Pat.fits [.var .LowerBound, .cls .mpl_na [], .cls .mpl_na []] [vLowerBound, vUpperBound, (V.cls .root .mpl_na [])] [] = none) :
    instantiate U h (V.cls .root .util_in_range [vLowerBound, vUpperBound, (V.cls .root .mpl_na [])]) =
    Out.ok ([(.type, .ty (V.cls .root .util_in_range [vLowerBound, vUpperBound, (V.cls .root .mpl_na [])])), (.apply, .tmpl (V.cls .root .util_in_range [vLowerBound, vUpperBound, (V.cls .root .mpl_na [])]))]) := by
  apply Eq.trans (b := _)
  apply body_of
  apply resolve_top
  apply choose_next
  · exact hutil_in_range0
  apply choose_next
  · exact hutil_in_range1
  refine choose_here rfl
  · intro k hk; cases hk
  body_simp

theorem body_util_in_range_2_apply {vLowerBound vUpperBound vItem : V}
    (hutil_in_range0 : Pat.fits [.cls .mpl_na [], .cls .mpl_na [], .cls .mpl_na []] [vLowerBound, vUpperBound, (V.cls .root .mpl_na [])] [] = none)
    (hutil_in_range1 : Pat.fits [.var .LowerBound, .cls .mpl_na [], .cls .mpl_na []] [vLowerBound, vUpperBound, (V.cls .root .mpl_na [])] [] = none) :
    instantiate U h (V.cls (V.cls .root .util_in_range [vLowerBound, vUpperBound, (V.cls .root .mpl_na [])]) .apply [vItem]) =
    (h (V.cls .root .util_in_range [vLowerBound, vUpperBound, vItem])).bind fun b1 =>
    Out.ok b1 := by
  apply Eq.trans (b := _)
  apply body_of
  apply resolve_in
  apply resolve_top
  apply choose_next
  · exact hutil_in_range0
  apply choose_next
  · exact hutil_in_range1
  refine choose_here rfl
  refine choose_here rfl
  · intro k hk; cases hk
  body_simp

theorem body_util_in_range_3 {vLowerBound vUpperBound vItem : V}
    (hutil_in_range0 : Pat.fits [.cls .mpl_na [], .cls .mpl_na [], .cls .mpl_na []] [vLowerBound, vUpperBound, vItem] [] = none)
    (hutil_in_range1 : Pat.fits [.var .LowerBound, .cls .mpl_na [], .cls .mpl_na []] [vLowerBound, vUpperBound, vItem] [] = none)
    (hutil_in_range2 : Pat.fits [.var .LowerBound, .var .UpperBound, .cls .mpl_na []] [vLowerBound, vUpperBound, vItem] [] = none) :
    instantiate U h (V.cls .root .util_in_range [vLowerBound, vUpperBound, vItem]) =
    (get h (V.cls .root .mpl_less_equal [vLowerBound, vItem]) .type).bind fun x1 =>
    (get h x1 .value).bind fun x2 =>
    (get h (V.cls .root .mpl_less_equal [vItem, vUpperBound]) .type).bind fun x3 =>
    (get h x3 .value).bind fun x4 =>
    (Op.ev .and x2 x4).bind fun x5 =>
    (h (V.cls .root .mpl_bool_ [x5])).bind fun b6 =>
    Out.ok b6 := by
  apply Eq.trans (b := _)
  apply body_of
  apply resolve_top
  apply choose_next
  · exact hutil_in_range0
  apply choose_next
  · exact hutil_in_range1
  apply choose_next
  · exact hutil_in_range2
  refine choose_here rfl
  · intro k hk; cases hk
  body_simp

theorem body_util_int_to_digit_c_0 :
    instantiate U h (V.cls .root .util_int_to_digit_c [(V.num 0)]) =
    (h (V.cls .root .mpl_char_ [(V.num 48)])).bind fun b1 =>
    Out.ok b1 := by
  apply Eq.trans (b := _)
  apply body_of
  apply resolve_top
  refine choose_here rfl
  · intro k hk; cases hk
  body_simp

theorem body_util_int_to_digit_c_1 :
    instantiate U h (V.cls .root .util_int_to_digit_c [(V.num 1)]) =
    (h (V.cls .root .mpl_char_ [(V.num 49)])).bind fun b1 =>
    Out.ok b1 := by
  apply Eq.trans (b := _)
  apply body_of
  apply resolve_top
  apply choose_next
  · exact rfl
  refine choose_here rfl
  · intro k hk; cases hk
  body_simp

theorem body_util_int_to_digit_c_2 :
    instantiate U h (V.cls .root .util_int_to_digit_c [(V.num 2)]) =
    (h (V.cls .root .mpl_char_ [(V.num 50)])).bind fun b1 =>
    Out.ok b1 := by
  apply Eq.trans (b := _)
  apply body_of
  apply resolve_top
  apply choose_next
  · exact rfl
  apply choose_next
  · exact rfl
  refine choose_here rfl
  · intro k hk; cases hk
  body_simp

theorem body_util_int_to_digit_c_3 :
    instantiate U h (V.cls .root .util_int_to_digit_c [(V.num 3)]) =
    (h (V.cls .root .mpl_char_ [(V.num 51)])).bind fun b1 =>
    Out.ok b1 := by
  apply Eq.trans (b := _)
  apply body_of
  apply resolve_top
  apply choose_next
  · exact rfl
  apply choose_next
  · exact rfl
  apply choose_next
  · exact rfl
  refine choose_here rfl
  · intro k hk; cases hk
  body_simp

theorem body_util_int_to_digit_c_4 :
    instantiate U h (V.cls .root .util_int_to_digit_c [(V.num 4)]) =
    (h (V.cls .root .mpl_char_ [(V.num 52)])).bind fun b1 =>
    Out.ok b1 := by
  apply Eq.trans (b := _)
  apply body_of
  apply resolve_top
  apply choose_next
  · exact rfl
  apply choose_next
  · exact rfl
  apply choose_next
  · exact rfl
  apply choose_next
  · exact rfl
  refine choose_here rfl
  · intro k hk; cases hk
  body_simp

theorem body_util_int_to_digit_c_5 :
    instantiate U h (V.cls .root .util_int_to_digit_c [(V.num 5)]) =
    (h (V.cls .root .mpl_char_ [(V.num 53)])).bind fun b1 =>
    Out.ok b1 := by
  apply Eq.trans (b := _)
  apply body_of
  apply resolve_top
  apply choose_next
  · exact rfl
  apply choose_next
  · exact rfl
  apply choose_next
  · exact rfl
  apply choose_next
  · exact rfl
  apply choose_next
  · exact rfl
  refine choose_here rfl
  · intro k hk; cases hk
  body_simp

theorem body_util_int_to_digit_c_6 :
    instantiate U h (V.cls .root .util_int_to_digit_c [(V.num 6)]) =
    (h (V.cls .root .mpl_char_ [(V.num 54)])).bind fun b1 =>
    Out.ok b1 := by
  apply Eq.trans (b := _)
  apply body_of
  apply resolve_top
  apply choose_next
  · exact rfl
  apply choose_next
  · exact rfl
  apply choose_next
  · exact rfl
  apply choose_next
  · exact rfl
  apply choose_next
  · exact rfl
  apply choose_next
  · exact rfl
  refine choose_here rfl
  · intro k hk; cases hk
  body_simp

theorem body_util_int_to_digit_c_7 :
    instantiate U h (V.cls .root .util_int_to_digit_c [(V.num 7)]) =
    (h (V.cls .root .mpl_char_ [(V.num 55)])).bind fun b1 =>
    Out.ok b1 := by
  apply Eq.trans (b := _)
  apply body_of
  apply resolve_top
  apply choose_next
  · exact rfl
  apply choose_next
  · exact rfl
  apply choose_next
  · exact rfl
  apply choose_next
  · exact rfl
  apply choose_next
  · exact rfl
  apply choose_next
  · exact rfl
  apply choose_next
  · exact rfl
  refine choose_here rfl
  · intro k hk; cases hk
  body_simp

theorem body_util_int_to_digit_c_8 :
    instantiate U h (V.cls .root .util_int_to_digit_c [(V.num 8)]) =
    (h (V.cls .root .mpl_char_ [(V.num 56)])).bind fun b1 =>
    Out.ok b1 := by
  apply Eq.trans (b := _)
  apply body_of
  apply resolve_top
  apply choose_next
  · exact rfl
  apply choose_next
  · exact rfl
  apply choose_next
  · exact rfl
  apply choose_next
  · exact rfl
  apply choose_next
  · exact rfl
  apply choose_next
  · exact rfl
  apply choose_next
  · exact rfl
  apply choose_next
  · exact rfl
  refine choose_here rfl
  · intro k hk; cases hk
  body_simp

theorem body_util_int_to_digit_c_9 :
    instantiate U h (V.cls .root .util_int_to_digit_c [(V.num 9)]) =
    (h (V.cls .root .mpl_char_ [(V.num 57)])).bind fun b1 =>
    Out.ok b1 := by
  apply Eq.trans (b := _)
  apply body_of
  apply resolve_top
  apply choose_next
  · exact rfl
  apply choose_next
  · exact rfl
  apply choose_next
  · exact rfl
  apply choose_next
  · exact rfl
  apply choose_next
  · exact rfl
  apply choose_next
  · exact rfl
  apply choose_next
  · exact rfl
  apply choose_next
  · exact rfl
  apply choose_next
  · exact rfl
  refine choose_here rfl
  · intro k hk; cases hk
  body_simp

theorem body_util_int_to_digit_0 :
    instantiate U h (V.cls .root .util_int_to_digit [(V.cls .root .mpl_na [])]) =
    Out.ok ([(.type, .ty (V.cls .root .util_int_to_digit [(V.cls .root .mpl_na [])])), (.apply, .tmpl (V.cls .root .util_int_to_digit [(V.cls .root .mpl_na [])]))]) := by
  apply Eq.trans (b := _)
  apply body_of
  apply resolve_top
  refine choose_here rfl
  · intro k hk; cases hk
  body_simp

theorem body_util_int_to_digit_0_apply {vN : V} :
    instantiate U h (V.cls (V.cls .root .util_int_to_digit [(V.cls .root .mpl_na [])]) .apply [vN]) =
    (h (V.cls .root .util_int_to_digit [vN])).bind fun b1 =>
    Out.ok b1 := by
  apply Eq.trans (b := _)
  apply body_of
  apply resolve_in
  apply resolve_top
  refine choose_here rfl
  refine choose_here rfl
  · intro k hk; cases hk
  body_simp

theorem body_util_int_to_digit_1 {vN : V}
    (hutil_int_to_digit0 : Pat.fits [.cls .mpl_na []] [vN] [] = none) :
    instantiate U h (V.cls .root .util_int_to_digit [vN]) =
    (get h vN .type).bind fun x1 =>
    (get h x1 .value).bind fun x2 =>
    (h (V.cls .root .util_int_to_digit_c [x2])).bind fun b3 =>
    Out.ok b3 := by
  apply Eq.trans (b := _)
  apply body_of
  apply resolve_top
  apply choose_next
  · exact hutil_int_to_digit0
  refine choose_here rfl
  · intro k hk; cases hk
  body_simp

theorem body_one_char :
    instantiate U h (V.cls .root .one_char []) =
    Out.ok ([(.next_pos, .tmpl (V.cls .root .one_char [])), (.unchecked, .tmpl (V.cls .root .one_char [])), (.type, .ty (V.cls .root .one_char [])), (.apply, .tmpl (V.cls .root .one_char []))]) := by
  apply Eq.trans (b := _)
  apply body_of
  apply resolve_top
  refine choose_here rfl
  · intro k hk; cases hk
  body_simp

theorem body_one_char_next_pos {vC vPos : V} :
    instantiate U h (V.cls (V.cls .root .one_char []) .next_pos [vC, vPos]) =
    (get h vC .type).bind fun x1 =>
    (get h x1 .value).bind fun x2 =>
    (Op.ev .eq x2 (V.num 13)).bind fun x3 =>
    (get h vC .type).bind fun x4 =>
    (get h x4 .value).bind fun x5 =>
    (Op.ev .eq x5 (V.num 10)).bind fun x6 =>
    (get h (V.cls .root .get_prev_char [vPos]) .type).bind fun x7 =>
    (get h x7 .value).bind fun x8 =>
    (Op.ev .ne x8 (V.num 13)).bind fun x9 =>
    (Op.ev .and x6 x9).bind fun x10 =>
    (Op.ev .or x3 x10).bind fun x11 =>
    (h (V.cls .root .mpl_eval_if [(V.cls .root .mpl_bool_ [x11]), (V.cls .root .next_line [vPos, vC]), (V.cls .root .next_char [vPos, vC])])).bind fun b12 =>
    Out.ok b12 := by
  apply Eq.trans (b := _)
  apply body_of
  apply resolve_in
  apply resolve_top
  refine choose_here rfl
  refine choose_here rfl
  · intro k hk; cases hk
  body_simp

theorem body_one_char_unchecked {vS vNextPos : V} :
    instantiate U h (V.cls (V.cls .root .one_char []) .unchecked [vS, vNextPos]) =
    (get h (V.cls .root .mpl_front [vS]) .type).bind fun x1 =>
    (h (V.cls .root .accept [x1, (V.cls .root .mpl_pop_front [vS]), vNextPos])).bind fun b2 =>
    Out.ok b2 := by
  apply Eq.trans (b := _)
  apply body_of
  apply resolve_in
  apply resolve_top
  refine choose_here rfl
  refine choose_here rfl
  · intro k hk; cases hk
  body_simp

theorem body_one_char_apply {vS vPos : V} :
    instantiate U h (V.cls (V.cls .root .one_char []) .apply [vS, vPos]) =
    (get h (V.cls .root .mpl_empty [vS]) .type).bind fun x1 =>
    (h (V.cls .root .mpl_eval_if [x1, (V.cls .root .reject [(V.cls .root .error_unexpected_end_of_input []), vPos]), (V.cls (V.cls .root .one_char []) .unchecked [vS, (V.cls (V.cls .root .one_char []) .next_pos [(V.cls .root .mpl_front [vS]), vPos])])])).bind fun b2 =>
    Out.ok b2 := by
  apply Eq.trans (b := _)
  apply body_of
  apply resolve_in
  apply resolve_top
  refine choose_here rfl
  refine choose_here rfl
  · intro k hk; cases hk
  body_simp

theorem body_empty {vResult : V} :
    instantiate U h (V.cls .root .empty [vResult]) =
    Out.ok ([(.type, .ty (V.cls .root .empty [vResult])), (.apply, .tmpl (V.cls .root .empty [vResult]))]) := by
  apply Eq.trans (b := _)
  apply body_of
  apply resolve_top
  refine choose_here rfl
  · intro k hk; cases hk
  body_simp

theorem body_empty_apply {vResult vS vPos : V} :
    instantiate U h (V.cls (V.cls .root .empty [vResult]) .apply [vS, vPos]) =
    (h (V.cls .root .mpl_if_ [(V.cls .root .mpl_empty [vS]), (V.cls .root .accept [vResult, vS, vPos]), (V.cls .root .reject [(V.cls .root .error_end_of_input_expected []), vPos])])).bind fun b1 =>
    Out.ok b1 := by
  apply Eq.trans (b := _)
  apply body_of
  apply resolve_in
  apply resolve_top
  refine choose_here rfl
  refine choose_here rfl
  · intro k hk; cases hk
  body_simp

theorem body_fail {vMsg : V} :
    instantiate U h (V.cls .root .fail [vMsg]) =
    Out.ok ([(.type, .ty (V.cls .root .fail [vMsg])), (.apply, .tmpl (V.cls .root .fail [vMsg]))]) := by
  apply Eq.trans (b := _)
  apply body_of
  apply resolve_top
  refine choose_here rfl
  · intro k hk; cases hk
  body_simp

theorem body_fail_apply {vMsg vS vPos : V} :
    instantiate U h (V.cls (V.cls .root .fail [vMsg]) .apply [vS, vPos]) =
    (h (V.cls .root .reject [vMsg, vPos])).bind fun b1 =>
    Out.ok b1 := by
  apply Eq.trans (b := _)
  apply body_of
  apply resolve_in
  apply resolve_top
  refine choose_here rfl
  refine choose_here rfl
  · intro k hk; cases hk
  body_simp

theorem body_return_ {vC : V} :
    instantiate U h (V.cls .root .return_ [vC]) =
    Out.ok ([(.type, .ty (V.cls .root .return_ [vC])), (.apply, .tmpl (V.cls .root .return_ [vC]))]) := by
  apply Eq.trans (b := _)
  apply body_of
  apply resolve_top
  refine choose_here rfl
  · intro k hk; cases hk
  body_simp

theorem body_return__apply {vC vS vPos : V} :
    instantiate U h (V.cls (V.cls .root .return_ [vC]) .apply [vS, vPos]) =
    (h (V.cls .root .accept [vC, vS, vPos])).bind fun b1 =>
    Out.ok b1 := by
  apply Eq.trans (b := _)
  apply body_of
  apply resolve_in
  apply resolve_top
  refine choose_here rfl
  refine choose_here rfl
  · intro k hk; cases hk
  body_simp

theorem body_accept_when {vP vPred vMsg : V} :
    instantiate U h (V.cls .root .accept_when [vP, vPred, vMsg]) =
    Out.ok ([(.unchecked, .tmpl (V.cls .root .accept_when [vP, vPred, vMsg])), (.type, .ty (V.cls .root .accept_when [vP, vPred, vMsg])), (.apply, .tmpl (V.cls .root .accept_when [vP, vPred, vMsg]))]) := by
  apply Eq.trans (b := _)
  apply body_of
  apply resolve_top
  refine choose_here rfl
  · intro k hk; cases hk
  body_simp

theorem body_accept_when_unchecked {vP vPred vMsg : V} :
    instantiate U h (V.cls (V.cls .root .accept_when [vP, vPred, vMsg]) .unchecked []) =
    Out.ok ([(.apply, .tmpl (V.cls (V.cls .root .accept_when [vP, vPred, vMsg]) .unchecked []))]) := by
  apply Eq.trans (b := _)
  apply body_of
  apply resolve_in
  apply resolve_top
  refine choose_here rfl
  refine choose_here rfl
  · intro k hk; cases hk
  body_simp

theorem body_accept_when_unchecked_apply {vP vPred vMsg vS vPos : V} :
    instantiate U h (V.cls (V.cls (V.cls .root .accept_when [vP, vPred, vMsg]) .unchecked []) .apply [vS, vPos]) =
    (owner h vPred .apply).bind fun o1 =>
    (owner h vP .apply).bind fun o2 =>
    (get h (V.cls .root .get_result [(V.cls o2 .apply [vS, vPos])]) .type).bind fun x3 =>
    (get h (V.cls o1 .apply [x3]) .type).bind fun x4 =>
    (owner h vP .apply).bind fun o5 =>
    (h (V.cls .root .mpl_eval_if [x4, (V.cls o5 .apply [vS, vPos]), (V.cls .root .reject [vMsg, vPos])])).bind fun b6 =>
    Out.ok b6 := by
  apply Eq.trans (b := _)
  apply body_of
  apply resolve_in
  apply resolve_in
  apply resolve_top
  refine choose_here rfl
  refine choose_here rfl
  refine choose_here rfl
  · intro k hk; cases hk
  body_simp

theorem body_accept_when_apply {vP vPred vMsg vS vPos : V} :
    instantiate U h (V.cls (V.cls .root .accept_when [vP, vPred, vMsg]) .apply [vS, vPos]) =
    (owner h vP .apply).bind fun o1 =>
    (get h (V.cls .root .mpl_if_ [(V.cls .root .is_error [(V.cls o1 .apply [vS, vPos])]), vP, (V.cls (V.cls .root .accept_when [vP, vPred, vMsg]) .unchecked [])]) .type).bind fun x2 =>
    (owner h x2 .apply).bind fun o3 =>
    (h (V.cls o3 .apply [vS, vPos])).bind fun b4 =>
    Out.ok b4 := by
  apply Eq.trans (b := _)
  apply body_of
  apply resolve_in
  apply resolve_top
  refine choose_here rfl
  refine choose_here rfl
  · intro k hk; cases hk
  body_simp

theorem body_change_error_message {vP vMsg : V} :
    instantiate U h (V.cls .root .change_error_message [vP, vMsg]) =
    Out.ok ([(.apply, .tmpl (V.cls .root .change_error_message [vP, vMsg])), (.type, .ty (V.cls .root .change_error_message [vP, vMsg]))]) := by
  apply Eq.trans (b := _)
  apply body_of
  apply resolve_top
  refine choose_here rfl
  · intro k hk; cases hk
  body_simp

theorem body_change_error_message_apply {vP vMsg vS vPos : V} :
    instantiate U h (V.cls (V.cls .root .change_error_message [vP, vMsg]) .apply [vS, vPos]) =
    (owner h vP .apply).bind fun o1 =>
    (get h (V.cls .root .is_error [(V.cls o1 .apply [vS, vPos])]) .type).bind fun x2 =>
    (owner h vP .apply).bind fun o3 =>
    (h (V.cls .root .mpl_eval_if [x2, (V.cls .root .reject [vMsg, vPos]), (V.cls o3 .apply [vS, vPos])])).bind fun b4 =>
    Out.ok b4 := by
  apply Eq.trans (b := _)
  apply body_of
  apply resolve_in
  apply resolve_top
  refine choose_here rfl
  refine choose_here rfl
  · intro k hk; cases hk
  body_simp

theorem body_transform_error_message {vP vF : V} :
    instantiate U h (V.cls .root .transform_error_message [vP, vF]) =
    Out.ok ([(.rejection, .tmpl (V.cls .root .transform_error_message [vP, vF])), (.apply, .tmpl (V.cls .root .transform_error_message [vP, vF])), (.type, .ty (V.cls .root .transform_error_message [vP, vF]))]) := by
  apply Eq.trans (b := _)
  apply body_of
  apply resolve_top
  refine choose_here rfl
  · intro k hk; cases hk
  body_simp

theorem body_transform_error_message_rejection {vP vF vR : V} :
    instantiate U h (V.cls (V.cls .root .transform_error_message [vP, vF]) .rejection [vR]) =
    (owner h vF .apply).bind fun o1 =>
    (get h (V.cls .root .get_message [vR]) .type).bind fun x2 =>
    (get h (V.cls o1 .apply [x2]) .type).bind fun x3 =>
    (h (V.cls .root .reject [x3, (V.cls .root .get_position [vR])])).bind fun b4 =>
    Out.ok b4 := by
  apply Eq.trans (b := _)
  apply body_of
  apply resolve_in
  apply resolve_top
  refine choose_here rfl
  refine choose_here rfl
  · intro k hk; cases hk
  body_simp

theorem body_transform_error_message_apply {vP vF vS vPos : V} :
    instantiate U h (V.cls (V.cls .root .transform_error_message [vP, vF]) .apply [vS, vPos]) =
    (owner h vP .apply).bind fun o1 =>
    (get h (V.cls .root .is_error [(V.cls o1 .apply [vS, vPos])]) .type).bind fun x2 =>
    (owner h vP .apply).bind fun o3 =>
    (owner h vP .apply).bind fun o4 =>
    (h (V.cls .root .mpl_eval_if [x2, (V.cls (V.cls .root .transform_error_message [vP, vF]) .rejection [(V.cls o3 .apply [vS, vPos])]), (V.cls o4 .apply [vS, vPos])])).bind fun b5 =>
    Out.ok b5 := by
  apply Eq.trans (b := _)
  apply body_of
  apply resolve_in
  apply resolve_top
  refine choose_here rfl
  refine choose_here rfl
  · intro k hk; cases hk
  body_simp

theorem body_transform_error {vP vF : V} :
    instantiate U h (V.cls .root .transform_error [vP, vF]) =
    Out.ok ([(.apply, .tmpl (V.cls .root .transform_error [vP, vF])), (.type, .ty (V.cls .root .transform_error [vP, vF]))]) := by
  apply Eq.trans (b := _)
  apply body_of
  apply resolve_top
  refine choose_here rfl
  · intro k hk; cases hk
  body_simp

theorem body_transform_error_apply {vP vF vS vPos : V} :
    instantiate U h (V.cls (V.cls .root .transform_error [vP, vF]) .apply [vS, vPos]) =
    (owner h vP .apply).bind fun o1 =>
    (get h (V.cls .root .is_error [(V.cls o1 .apply [vS, vPos])]) .type).bind fun x2 =>
    (owner h vF .apply).bind fun o3 =>
    (owner h vP .apply).bind fun o4 =>
    (get h (V.cls o4 .apply [vS, vPos]) .type).bind fun x5 =>
    (owner h vP .apply).bind fun o6 =>
    (h (V.cls .root .mpl_eval_if [x2, (V.cls o3 .apply [x5]), (V.cls o6 .apply [vS, vPos])])).bind fun b7 =>
    Out.ok b7 := by
  apply Eq.trans (b := _)
  apply body_of
  apply resolve_in
  apply resolve_top
  refine choose_here rfl
  refine choose_here rfl
  · intro k hk; cases hk
  body_simp

theorem body_transform {vP vT : V} :
    instantiate U h (V.cls .root .transform [vP, vT]) =
    Out.ok ([(.no_error, .tmpl (V.cls .root .transform [vP, vT])), (.type, .ty (V.cls .root .transform [vP, vT])), (.apply, .tmpl (V.cls .root .transform [vP, vT]))]) := by
  apply Eq.trans (b := _)
  apply body_of
  apply resolve_top
  refine choose_here rfl
  · intro k hk; cases hk
  body_simp

theorem body_transform_no_error {vP vT vS vPos : V} :
    instantiate U h (V.cls (V.cls .root .transform [vP, vT]) .no_error [vS, vPos]) =
    (owner h vT .apply).bind fun o1 =>
    (owner h vP .apply).bind fun o2 =>
    (get h (V.cls .root .get_result [(V.cls o2 .apply [vS, vPos])]) .type).bind fun x3 =>
    (get h (V.cls o1 .apply [x3]) .type).bind fun x4 =>
    (owner h vP .apply).bind fun o5 =>
    (owner h vP .apply).bind fun o6 =>
    (h (V.cls .root .accept [x4, (V.cls .root .get_remaining [(V.cls o5 .apply [vS, vPos])]), (V.cls .root .get_position [(V.cls o6 .apply [vS, vPos])])])).bind fun b7 =>
    Out.ok b7 := by
  apply Eq.trans (b := _)
  apply body_of
  apply resolve_in
  apply resolve_top
  refine choose_here rfl
  refine choose_here rfl
  · intro k hk; cases hk
  body_simp

theorem body_transform_apply {vP vT vS vPos : V} :
    instantiate U h (V.cls (V.cls .root .transform [vP, vT]) .apply [vS, vPos]) =
    (owner h vP .apply).bind fun o1 =>
    (h (V.cls .root .unless_error [(V.cls o1 .apply [vS, vPos]), (V.cls (V.cls .root .transform [vP, vT]) .no_error [vS, vPos])])).bind fun b2 =>
    Out.ok b2 := by
  apply Eq.trans (b := _)
  apply body_of
  apply resolve_in
  apply resolve_top
  refine choose_here rfl
  refine choose_here rfl
  · intro k hk; cases hk
  body_simp

theorem body_always {vP vResult : V} :
    instantiate U h (V.cls .root .always [vP, vResult]) =
    Out.ok ([(.apply_unchecked, .tmpl (V.cls .root .always [vP, vResult])), (.type, .ty (V.cls .root .always [vP, vResult])), (.apply, .tmpl (V.cls .root .always [vP, vResult]))]) := by
  apply Eq.trans (b := _)
  apply body_of
  apply resolve_top
  refine choose_here rfl
  · intro k hk; cases hk
  body_simp

theorem body_always_apply_unchecked {vP vResult vRes : V} :
    instantiate U h (V.cls (V.cls .root .always [vP, vResult]) .apply_unchecked [vRes]) =
    (get h (V.cls .root .get_remaining [vRes]) .type).bind fun x1 =>
    (get h (V.cls .root .get_position [vRes]) .type).bind fun x2 =>
    (h (V.cls .root .accept [vResult, x1, x2])).bind fun b3 =>
    Out.ok b3 := by
  apply Eq.trans (b := _)
  apply body_of
  apply resolve_in
  apply resolve_top
  refine choose_here rfl
  refine choose_here rfl
  · intro k hk; cases hk
  body_simp

theorem body_always_apply {vP vResult vS vPos : V} :
    instantiate U h (V.cls (V.cls .root .always [vP, vResult]) .apply [vS, vPos]) =
    (owner h vP .apply).bind fun o1 =>
    (get h (V.cls .root .is_error [(V.cls o1 .apply [vS, vPos])]) .type).bind fun x2 =>
    (owner h vP .apply).bind fun o3 =>
    (owner h vP .apply).bind fun o4 =>
    (h (V.cls .root .mpl_eval_if [x2, (V.cls o3 .apply [vS, vPos]), (V.cls (V.cls .root .always [vP, vResult]) .apply_unchecked [(V.cls o4 .apply [vS, vPos])])])).bind fun b5 =>
    Out.ok b5 := by
  apply Eq.trans (b := _)
  apply body_of
  apply resolve_in
  apply resolve_top
  refine choose_here rfl
  refine choose_here rfl
  · intro k hk; cases hk
  body_simp

theorem body_look_ahead {vP : V} :
    instantiate U h (V.cls .root .look_ahead [vP]) =
    Out.ok ([(.no_error, .tmpl (V.cls .root .look_ahead [vP])), (.type, .ty (V.cls .root .look_ahead [vP])), (.apply, .tmpl (V.cls .root .look_ahead [vP]))]) := by
  apply Eq.trans (b := _)
  apply body_of
  apply resolve_top
  refine choose_here rfl
  · intro k hk; cases hk
  body_simp

theorem body_look_ahead_no_error {vP vS vPos : V} :
    instantiate U h (V.cls (V.cls .root .look_ahead [vP]) .no_error [vS, vPos]) =
    (owner h vP .apply).bind fun o1 =>
    (get h (V.cls .root .get_result [(V.cls o1 .apply [vS, vPos])]) .type).bind fun x2 =>
    (h (V.cls .root .accept [x2, vS, vPos])).bind fun b3 =>
    Out.ok b3 := by
  apply Eq.trans (b := _)
  apply body_of
  apply resolve_in
  apply resolve_top
  refine choose_here rfl
  refine choose_here rfl
  · intro k hk; cases hk
  body_simp

theorem body_look_ahead_apply {vP vS vPos : V} :
    instantiate U h (V.cls (V.cls .root .look_ahead [vP]) .apply [vS, vPos]) =
    (owner h vP .apply).bind fun o1 =>
    (get h (V.cls .root .is_error [(V.cls o1 .apply [vS, vPos])]) .type).bind fun x2 =>
    (owner h vP .apply).bind fun o3 =>
    (h (V.cls .root .mpl_eval_if [x2, (V.cls o3 .apply [vS, vPos]), (V.cls (V.cls .root .look_ahead [vP]) .no_error [vS, vPos])])).bind fun b4 =>
    Out.ok b4 := by
  apply Eq.trans (b := _)
  apply body_of
  apply resolve_in
  apply resolve_top
  refine choose_here rfl
  refine choose_here rfl
  · intro k hk; cases hk
  body_simp

theorem body_except {vP vResult vErrorMsg : V} :
    instantiate U h (V.cls .root .except [vP, vResult, vErrorMsg]) =
    Out.ok ([(.type, .ty (V.cls .root .except [vP, vResult, vErrorMsg])), (.apply, .tmpl (V.cls .root .except [vP, vResult, vErrorMsg]))]) := by
  apply Eq.trans (b := _)
  apply body_of
  apply resolve_top
  refine choose_here rfl
  · intro k hk; cases hk
  body_simp

theorem body_except_apply {vP vResult vErrorMsg vS vPos : V} :
    instantiate U h (V.cls (V.cls .root .except [vP, vResult, vErrorMsg]) .apply [vS, vPos]) =
    (owner h vP .apply).bind fun o1 =>
    (h (V.cls .root .mpl_if_ [(V.cls .root .is_error [(V.cls o1 .apply [vS, vPos])]), (V.cls .root .accept [vResult, vS, vPos]), (V.cls .root .reject [vErrorMsg, vPos])])).bind fun b2 =>
    Out.ok b2 := by
  apply Eq.trans (b := _)
  apply body_of
  apply resolve_in
  apply resolve_top
  refine choose_here rfl
  refine choose_here rfl
  · intro k hk; cases hk
  body_simp

theorem body_optional {vP vDefault : V} :
    instantiate U h (V.cls .root .optional [vP, vDefault]) =
    Out.ok ([(.type, .ty (V.cls .root .optional [vP, vDefault])), (.apply, .tmpl (V.cls .root .optional [vP, vDefault]))]) := by
  apply Eq.trans (b := _)
  apply body_of
  apply resolve_top
  refine choose_here rfl
  · intro k hk; cases hk
  body_simp

theorem body_optional_apply {vP vDefault vS vPos : V} :
    instantiate U h (V.cls (V.cls .root .optional [vP, vDefault]) .apply [vS, vPos]) =
    (owner h vP .apply).bind fun o1 =>
    (owner h vP .apply).bind fun o2 =>
    (get h (V.cls o2 .apply [vS, vPos]) .type).bind fun x3 =>
    (h (V.cls .root .mpl_if_ [(V.cls .root .is_error [(V.cls o1 .apply [vS, vPos])]), (V.cls .root .accept [vDefault, vS, vPos]), x3])).bind fun b4 =>
    Out.ok b4 := by
  apply Eq.trans (b := _)
  apply body_of
  apply resolve_in
  apply resolve_top
  refine choose_here rfl
  refine choose_here rfl
  · intro k hk; cases hk
  body_simp

theorem body_if_ {vP vT vF : V} :
    instantiate U h (V.cls .root .if_ [vP, vT, vF]) =
    Out.ok ([(.type, .ty (V.cls .root .if_ [vP, vT, vF])), (.apply, .tmpl (V.cls .root .if_ [vP, vT, vF]))]) := by
  apply Eq.trans (b := _)
  apply body_of
  apply resolve_top
  refine choose_here rfl
  · intro k hk; cases hk
  body_simp

theorem body_if__apply {vP vT vF vS vPos : V} :
    instantiate U h (V.cls (V.cls .root .if_ [vP, vT, vF]) .apply [vS, vPos]) =
    (owner h vP .apply).bind fun o1 =>
    (get h (V.cls .root .mpl_if_ [(V.cls .root .is_error [(V.cls o1 .apply [vS, vPos])]), vF, vT]) .type).bind fun x2 =>
    (h (V.cls .root .accept [x2, vS, vPos])).bind fun b3 =>
    Out.ok b3 := by
  apply Eq.trans (b := _)
  apply body_of
  apply resolve_in
  apply resolve_top
  refine choose_here rfl
  refine choose_here rfl
  · intro k hk; cases hk
  body_simp

theorem body_fail_at_first_char_expected {vP : V} :
    instantiate U h (V.cls .root .fail_at_first_char_expected [vP]) =
    Out.ok ([(.apply_err, .tmpl (V.cls .root .fail_at_first_char_expected [vP])), (.type, .ty (V.cls .root .fail_at_first_char_expected [vP])), (.apply, .tmpl (V.cls .root .fail_at_first_char_expected [vP]))]) := by
  apply Eq.trans (b := _)
  apply body_of
  apply resolve_top
  refine choose_here rfl
  · intro k hk; cases hk
  body_simp

theorem body_fail_at_first_char_expected_apply_err {vP vS vPos : V} :
    instantiate U h (V.cls (V.cls .root .fail_at_first_char_expected [vP]) .apply_err [vS, vPos]) =
    (owner h vP .apply).bind fun o1 =>
    (get h (V.cls .root .get_position [(V.cls o1 .apply [vS, vPos])]) .type).bind fun x2 =>
    (get h (V.cls .root .mpl_equal_to [vPos, x2]) .type).bind fun x3 =>
    (owner h vP .apply).bind fun o4 =>
    (h (V.cls .root .mpl_eval_if [x3, (V.cls .root .accept [(V.cls .root .impl_void_ []), vS, vPos]), (V.cls o4 .apply [vS, vPos])])).bind fun b5 =>
    Out.ok b5 := by
  apply Eq.trans (b := _)
  apply body_of
  apply resolve_in
  apply resolve_top
  refine choose_here rfl
  refine choose_here rfl
  · intro k hk; cases hk
  body_simp

theorem body_fail_at_first_char_expected_apply {vP vS vPos : V} :
    instantiate U h (V.cls (V.cls .root .fail_at_first_char_expected [vP]) .apply [vS, vPos]) =
    (owner h vP .apply).bind fun o1 =>
    (get h (V.cls .root .is_error [(V.cls o1 .apply [vS, vPos])]) .type).bind fun x2 =>
    (h (V.cls .root .mpl_eval_if [x2, (V.cls (V.cls .root .fail_at_first_char_expected [vP]) .apply_err [vS, vPos]), (V.cls .root .reject [(V.cls .root .error_expected_to_fail []), vPos])])).bind fun b3 =>
    Out.ok b3 := by
  apply Eq.trans (b := _)
  apply body_of
  apply resolve_in
  apply resolve_top
  refine choose_here rfl
  refine choose_here rfl
  · intro k hk; cases hk
  body_simp

theorem body_foldl {vP vState vForwardOp : V} :
    instantiate U h (V.cls .root .foldl [vP, vState, vForwardOp]) =
    Out.ok ([(.apply_unchecked, .tmpl (V.cls .root .foldl [vP, vState, vForwardOp])), (.next_iteration, .tmpl (V.cls .root .foldl [vP, vState, vForwardOp])), (.type, .ty (V.cls .root .foldl [vP, vState, vForwardOp])), (.apply, .tmpl (V.cls .root .foldl [vP, vState, vForwardOp]))]) := by
  apply Eq.trans (b := _)
  apply body_of
  apply resolve_top
  refine choose_here rfl
  · intro k hk; cases hk
  body_simp

theorem body_foldl_apply_unchecked {vP vState vForwardOp vRes : V} :
    instantiate U h (V.cls (V.cls .root .foldl [vP, vState, vForwardOp]) .apply_unchecked [vRes]) =
    (owner h vForwardOp .apply).bind fun o1 =>
    (get h vState .type).bind fun x2 =>
    (get h (V.cls .root .get_result [vRes]) .type).bind fun x3 =>
    (owner h (V.cls .root .foldl [vP, (V.cls o1 .apply [x2, x3]), vForwardOp]) .apply).bind fun o4 =>
    (get h (V.cls .root .get_remaining [vRes]) .type).bind fun x5 =>
    (get h (V.cls .root .get_position [vRes]) .type).bind fun x6 =>
    (h (V.cls o4 .apply [x5, x6])).bind fun b7 =>
    Out.ok b7 := by
  apply Eq.trans (b := _)
  apply body_of
  apply resolve_in
  apply resolve_top
  refine choose_here rfl
  refine choose_here rfl
  · intro k hk; cases hk
  body_simp

theorem body_foldl_next_iteration {vP vState vForwardOp vS vPos : V} :
    instantiate U h (V.cls (V.cls .root .foldl [vP, vState, vForwardOp]) .next_iteration [vS, vPos]) =
    (get h vState .type).bind fun x1 =>
    (h (V.cls .root .accept [x1, vS, vPos])).bind fun b2 =>
    Out.ok b2 := by
  apply Eq.trans (b := _)
  apply body_of
  apply resolve_in
  apply resolve_top
  refine choose_here rfl
  refine choose_here rfl
  · intro k hk; cases hk
  body_simp

theorem body_foldl_apply {vP vState vForwardOp vS vPos : V} :
    instantiate U h (V.cls (V.cls .root .foldl [vP, vState, vForwardOp]) .apply [vS, vPos]) =
    (owner h vP .apply).bind fun o1 =>
    (get h (V.cls .root .is_error [(V.cls o1 .apply [vS, vPos])]) .type).bind fun x2 =>
    (owner h vP .apply).bind fun o3 =>
    (h (V.cls .root .mpl_eval_if [x2, (V.cls (V.cls .root .foldl [vP, vState, vForwardOp]) .next_iteration [vS, vPos]), (V.cls (V.cls .root .foldl [vP, vState, vForwardOp]) .apply_unchecked [(V.cls o3 .apply [vS, vPos])])])).bind fun b4 =>
    Out.ok b4 := by
  apply Eq.trans (b := _)
  apply body_of
  apply resolve_in
  apply resolve_top
  refine choose_here rfl
  refine choose_here rfl
  · intro k hk; cases hk
  body_simp

theorem body_foldl_reject_incomplete {vP vState vForwardOp : V} :
    instantiate U h (V.cls .root .foldl_reject_incomplete [vP, vState, vForwardOp]) =
    Out.ok ([(.apply_unchecked, .tmpl (V.cls .root .foldl_reject_incomplete [vP, vState, vForwardOp])), (.accept_state, .tmpl (V.cls .root .foldl_reject_incomplete [vP, vState, vForwardOp])), (.end_of_folding, .tmpl (V.cls .root .foldl_reject_incomplete [vP, vState, vForwardOp])), (.type, .ty (V.cls .root .foldl_reject_incomplete [vP, vState, vForwardOp])), (.apply, .tmpl (V.cls .root .foldl_reject_incomplete [vP, vState, vForwardOp]))]) := by
  apply Eq.trans (b := _)
  apply body_of
  apply resolve_top
  refine choose_here rfl
  · intro k hk; cases hk
  body_simp

theorem body_foldl_reject_incomplete_apply_unchecked {vP vState vForwardOp vRes : V} :
    instantiate U h (V.cls (V.cls .root .foldl_reject_incomplete [vP, vState, vForwardOp]) .apply_unchecked [vRes]) =
    (owner h vForwardOp .apply).bind fun o1 =>
    (get h vState .type).bind fun x2 =>
    (get h (V.cls .root .get_result [vRes]) .type).bind fun x3 =>
    (owner h (V.cls .root .foldl_reject_incomplete [vP, (V.cls o1 .apply [x2, x3]), vForwardOp]) .apply).bind fun o4 =>
    (get h (V.cls .root .get_remaining [vRes]) .type).bind fun x5 =>
    (get h (V.cls .root .get_position [vRes]) .type).bind fun x6 =>
    (h (V.cls o4 .apply [x5, x6])).bind fun b7 =>
    Out.ok b7 := by
  apply Eq.trans (b := _)
  apply body_of
  apply resolve_in
  apply resolve_top
  refine choose_here rfl
  refine choose_here rfl
  · intro k hk; cases hk
  body_simp

theorem body_foldl_reject_incomplete_accept_state {vP vState vForwardOp vS vPos : V} :
    instantiate U h (V.cls (V.cls .root .foldl_reject_incomplete [vP, vState, vForwardOp]) .accept_state [vS, vPos]) =
    (get h vState .type).bind fun x1 =>
    (h (V.cls .root .accept [x1, vS, vPos])).bind fun b2 =>
    Out.ok b2 := by
  apply Eq.trans (b := _)
  apply body_of
  apply resolve_in
  apply resolve_top
  refine choose_here rfl
  refine choose_here rfl
  · intro k hk; cases hk
  body_simp

theorem body_foldl_reject_incomplete_end_of_folding {vP vState vForwardOp vS vPos : V} :
    instantiate U h (V.cls (V.cls .root .foldl_reject_incomplete [vP, vState, vForwardOp]) .end_of_folding [vS, vPos]) =
    (get h vPos .type).bind fun x1 =>
    (owner h vP .apply).bind fun o2 =>
    (get h (V.cls .root .get_position [(V.cls o2 .apply [vS, vPos])]) .type).bind fun x3 =>
    (get h (V.cls .root .mpl_equal_to [x1, x3]) .type).bind fun x4 =>
    (owner h vP .apply).bind fun o5 =>
    (h (V.cls .root .mpl_eval_if [x4, (V.cls (V.cls .root .foldl_reject_incomplete [vP, vState, vForwardOp]) .accept_state [vS, vPos]), (V.cls o5 .apply [vS, vPos])])).bind fun b6 =>
    Out.ok b6 := by
  apply Eq.trans (b := _)
  apply body_of
  apply resolve_in
  apply resolve_top
  refine choose_here rfl
  refine choose_here rfl
  · intro k hk; cases hk
  body_simp

theorem body_foldl_reject_incomplete_apply {vP vState vForwardOp vS vPos : V} :
    instantiate U h (V.cls (V.cls .root .foldl_reject_incomplete [vP, vState, vForwardOp]) .apply [vS, vPos]) =
    (owner h vP .apply).bind fun o1 =>
    (get h (V.cls .root .is_error [(V.cls o1 .apply [vS, vPos])]) .type).bind fun x2 =>
    (owner h vP .apply).bind fun o3 =>
    (h (V.cls .root .mpl_eval_if [x2, (V.cls (V.cls .root .foldl_reject_incomplete [vP, vState, vForwardOp]) .end_of_folding [vS, vPos]), (V.cls (V.cls .root .foldl_reject_incomplete [vP, vState, vForwardOp]) .apply_unchecked [(V.cls o3 .apply [vS, vPos])])])).bind fun b4 =>
    Out.ok b4 := by
  apply Eq.trans (b := _)
  apply body_of
  apply resolve_in
  apply resolve_top
  refine choose_here rfl
  refine choose_here rfl
  · intro k hk; cases hk
  body_simp

theorem body_foldl_start_with_parser {vP vStateP vForwardOp : V} :
    instantiate U h (V.cls .root .foldl_start_with_parser [vP, vStateP, vForwardOp]) =
    Out.ok ([(.apply_unchecked, .tmpl (V.cls .root .foldl_start_with_parser [vP, vStateP, vForwardOp])), (.type, .ty (V.cls .root .foldl_start_with_parser [vP, vStateP, vForwardOp])), (.apply, .tmpl (V.cls .root .foldl_start_with_parser [vP, vStateP, vForwardOp]))]) := by
  apply Eq.trans (b := _)
  apply body_of
  apply resolve_top
  refine choose_here rfl
  · intro k hk; cases hk
  body_simp

theorem body_foldl_start_with_parser_apply_unchecked {vP vStateP vForwardOp vRes : V} :
    instantiate U h (V.cls (V.cls .root .foldl_start_with_parser [vP, vStateP, vForwardOp]) .apply_unchecked [vRes]) =
    (get h (V.cls .root .get_result [vRes]) .type).bind fun x1 =>
    (owner h (V.cls .root .foldl [vP, x1, vForwardOp]) .apply).bind fun o2 =>
    (get h (V.cls .root .get_remaining [vRes]) .type).bind fun x3 =>
    (get h (V.cls .root .get_position [vRes]) .type).bind fun x4 =>
    (h (V.cls o2 .apply [x3, x4])).bind fun b5 =>
    Out.ok b5 := by
  apply Eq.trans (b := _)
  apply body_of
  apply resolve_in
  apply resolve_top
  refine choose_here rfl
  refine choose_here rfl
  · intro k hk; cases hk
  body_simp

theorem body_foldl_start_with_parser_apply {vP vStateP vForwardOp vS vPos : V} :
    instantiate U h (V.cls (V.cls .root .foldl_start_with_parser [vP, vStateP, vForwardOp]) .apply [vS, vPos]) =
    (owner h vStateP .apply).bind fun o1 =>
    (get h (V.cls .root .is_error [(V.cls o1 .apply [vS, vPos])]) .type).bind fun x2 =>
    (owner h vStateP .apply).bind fun o3 =>
    (owner h vStateP .apply).bind fun o4 =>
    (h (V.cls .root .mpl_eval_if [x2, (V.cls o3 .apply [vS, vPos]), (V.cls (V.cls .root .foldl_start_with_parser [vP, vStateP, vForwardOp]) .apply_unchecked [(V.cls o4 .apply [vS, vPos])])])).bind fun b5 =>
    Out.ok b5 := by
  apply Eq.trans (b := _)
  apply body_of
  apply resolve_in
  apply resolve_top
  refine choose_here rfl
  refine choose_here rfl
  · intro k hk; cases hk
  body_simp

theorem body_foldl_reject_incomplete_start_with_parser {vP vStateP vForwardOp : V} :
    instantiate U h (V.cls .root .foldl_reject_incomplete_start_with_parser [vP, vStateP, vForwardOp]) =
    Out.ok ([(.apply_unchecked, .tmpl (V.cls .root .foldl_reject_incomplete_start_with_parser [vP, vStateP, vForwardOp])), (.type, .ty (V.cls .root .foldl_reject_incomplete_start_with_parser [vP, vStateP, vForwardOp])), (.apply, .tmpl (V.cls .root .foldl_reject_incomplete_start_with_parser [vP, vStateP, vForwardOp]))]) := by
  apply Eq.trans (b := _)
  apply body_of
  apply resolve_top
  refine choose_here rfl
  · intro k hk; cases hk
  body_simp

theorem body_foldl_reject_incomplete_start_with_parser_apply_unchecked {vP vStateP vForwardOp vRes : V} :
    instantiate U h (V.cls (V.cls .root .foldl_reject_incomplete_start_with_parser [vP, vStateP, vForwardOp]) .apply_unchecked [vRes]) =
    (get h (V.cls .root .get_result [vRes]) .type).bind fun x1 =>
    (owner h (V.cls .root .foldl_reject_incomplete [vP, x1, vForwardOp]) .apply).bind fun o2 =>
    (get h (V.cls .root .get_remaining [vRes]) .type).bind fun x3 =>
    (get h (V.cls .root .get_position [vRes]) .type).bind fun x4 =>
    (h (V.cls o2 .apply [x3, x4])).bind fun b5 =>
    Out.ok b5 := by
  apply Eq.trans (b := _)
  apply body_of
  apply resolve_in
  apply resolve_top
  refine choose_here rfl
  refine choose_here rfl
  · intro k hk; cases hk
  body_simp

theorem body_foldl_reject_incomplete_start_with_parser_apply {vP vStateP vForwardOp vS vPos : V} :
    instantiate U h (V.cls (V.cls .root .foldl_reject_incomplete_start_with_parser [vP, vStateP, vForwardOp]) .apply [vS, vPos]) =
    (owner h vStateP .apply).bind fun o1 =>
    (get h (V.cls .root .is_error [(V.cls o1 .apply [vS, vPos])]) .type).bind fun x2 =>
    (owner h vStateP .apply).bind fun o3 =>
    (owner h vStateP .apply).bind fun o4 =>
    (h (V.cls .root .mpl_eval_if [x2, (V.cls o3 .apply [vS, vPos]), (V.cls (V.cls .root .foldl_reject_incomplete_start_with_parser [vP, vStateP, vForwardOp]) .apply_unchecked [(V.cls o4 .apply [vS, vPos])])])).bind fun b5 =>
    Out.ok b5 := by
  apply Eq.trans (b := _)
  apply body_of
  apply resolve_in
  apply resolve_top
  refine choose_here rfl
  refine choose_here rfl
  · intro k hk; cases hk
  body_simp

theorem body_foldr_start_with_parser {vP vStateP vBackwardOp : V} :
    instantiate U h (V.cls .root .foldr_start_with_parser [vP, vStateP, vBackwardOp]) =
    Out.ok ([(.apply_unchecked1, .tmpl (V.cls .root .foldr_start_with_parser [vP, vStateP, vBackwardOp])), (.type, .ty (V.cls .root .foldr_start_with_parser [vP, vStateP, vBackwardOp])), (.apply, .tmpl (V.cls .root .foldr_start_with_parser [vP, vStateP, vBackwardOp])), (.apply_unchecked, .tmpl (V.cls .root .foldr_start_with_parser [vP, vStateP, vBackwardOp]))]) := by
  apply Eq.trans (b := _)
  apply body_of
  apply resolve_top
  refine choose_here rfl
  · intro k hk; cases hk
  body_simp

theorem body_foldr_start_with_parser_apply_unchecked1 {vP vStateP vBackwardOp vRes vRem : V} :
    instantiate U h (V.cls (V.cls .root .foldr_start_with_parser [vP, vStateP, vBackwardOp]) .apply_unchecked1 [vRes, vRem]) =
    (owner h vBackwardOp .apply).bind fun o1 =>
    (get h (V.cls .root .get_result [vRem]) .type).bind fun x2 =>
    (get h (V.cls .root .get_result [vRes]) .type).bind fun x3 =>
    (get h (V.cls o1 .apply [x2, x3]) .type).bind fun x4 =>
    (get h (V.cls .root .get_remaining [vRem]) .type).bind fun x5 =>
    (get h (V.cls .root .get_position [vRem]) .type).bind fun x6 =>
    (h (V.cls .root .accept [x4, x5, x6])).bind fun b7 =>
    Out.ok b7 := by
  apply Eq.trans (b := _)
  apply body_of
  apply resolve_in
  apply resolve_top
  refine choose_here rfl
  refine choose_here rfl
  · intro k hk; cases hk
  body_simp

theorem body_foldr_start_with_parser_apply {vP vStateP vBackwardOp vS vPos : V} :
    instantiate U h (V.cls (V.cls .root .foldr_start_with_parser [vP, vStateP, vBackwardOp]) .apply [vS, vPos]) =
    (owner h vP .apply).bind fun o1 =>
    (get h (V.cls .root .is_error [(V.cls o1 .apply [vS, vPos])]) .type).bind fun x2 =>
    (owner h vStateP .apply).bind fun o3 =>
    (owner h vP .apply).bind fun o4 =>
    (h (V.cls .root .mpl_eval_if [x2, (V.cls o3 .apply [vS, vPos]), (V.cls (V.cls .root .foldr_start_with_parser [vP, vStateP, vBackwardOp]) .apply_unchecked [(V.cls o4 .apply [vS, vPos])])])).bind fun b5 =>
    Out.ok b5 := by
  apply Eq.trans (b := _)
  apply body_of
  apply resolve_in
  apply resolve_top
  refine choose_here rfl
  refine choose_here rfl
  · intro k hk; cases hk
  body_simp

theorem body_foldr_start_with_parser_apply_unchecked {vP vStateP vBackwardOp vRes : V} :
    instantiate U h (V.cls (V.cls .root .foldr_start_with_parser [vP, vStateP, vBackwardOp]) .apply_unchecked [vRes]) =
    (owner h (V.cls .root .foldr_start_with_parser [vP, vStateP, vBackwardOp]) .apply).bind fun o1 =>
    (get h (V.cls .root .get_remaining [vRes]) .type).bind fun x2 =>
    (get h (V.cls .root .get_position [vRes]) .type).bind fun x3 =>
    (get h (V.cls .root .is_error [(V.cls o1 .apply [x2, x3])]) .type).bind fun x4 =>
    (get h (V.cls .root .mpl_eval_if [x4, (V.cls o1 .apply [x2, x3]), (V.cls (V.cls .root .foldr_start_with_parser [vP, vStateP, vBackwardOp]) .apply_unchecked1 [vRes, (V.cls o1 .apply [x2, x3])])]) .type).bind fun x5 =>
    Out.ok ([(.parsed_remaining, .ty (V.cls o1 .apply [x2, x3])), (.type, .ty x5)]) := by
  apply Eq.trans (b := _)
  apply body_of
  apply resolve_in
  apply resolve_top
  refine choose_here rfl
  refine choose_here rfl
  · intro k hk; cases hk
  body_simp

theorem body_middle_of {vP1 vP2 vP3 : V} :
    instantiate U h (V.cls .root .middle_of [vP1, vP2, vP3]) =
    Out.ok ([(.type, .ty (V.cls .root .middle_of [vP1, vP2, vP3])), (.apply, .tmpl (V.cls .root .middle_of [vP1, vP2, vP3]))]) := by
  apply Eq.trans (b := _)
  apply body_of
  apply resolve_top
  refine choose_here rfl
  · intro k hk; cases hk
  body_simp

theorem body_middle_of_apply {vP1 vP2 vP3 vS vPos : V} :
    instantiate U h (V.cls (V.cls .root .middle_of [vP1, vP2, vP3]) .apply [vS, vPos]) =
    (get h (V.cls .root .get_line [vPos]) .type).bind fun x1 =>
    (get h x1 .value).bind fun x2 =>
    (get h (V.cls .root .get_col [vPos]) .type).bind fun x3 =>
    (get h x3 .value).bind fun x4 =>
    (owner h (V.cls .root .nth_of_c (fill .nth_of_c [(V.num 1), vP1, vP2, (V.cls .root .transform_error_message [vP3, (V.cls .root .error_unpaired [x2, x4, (V.cls .root .mpl_na [])])])])) .apply).bind fun o5 =>
    (h (V.cls o5 .apply [vS, vPos])).bind fun b6 =>
    Out.ok b6 := by
  apply Eq.trans (b := _)
  apply body_of
  apply resolve_in
  apply resolve_top
  refine choose_here rfl
  refine choose_here rfl
  · intro k hk; cases hk
  body_simp

theorem body_impl_iterate_impl_unchecked {vN vP vAccum vS vPos : V} :
    instantiate U h (V.cls .root .impl_iterate_impl_unchecked [vN, vP, vAccum, vS, vPos]) =
    (Op.ev .sub vN (V.num 1)).bind fun x1 =>
    (owner h vP .apply).bind fun o2 =>
    (get h (V.cls .root .get_result [(V.cls o2 .apply [vS, vPos])]) .type).bind fun x3 =>
    (get h (V.cls .root .mpl_push_back [vAccum, x3]) .type).bind fun x4 =>
    (owner h (V.cls .root .impl_iterate_impl [x1, vP, x4]) .apply).bind fun o5 =>
    (owner h vP .apply).bind fun o6 =>
    (get h (V.cls .root .get_remaining [(V.cls o6 .apply [vS, vPos])]) .type).bind fun x7 =>
    (owner h vP .apply).bind fun o8 =>
    (get h (V.cls .root .get_position [(V.cls o8 .apply [vS, vPos])]) .type).bind fun x9 =>
    (h (V.cls o5 .apply [x7, x9])).bind fun b10 =>
    Out.ok b10 := by
  apply Eq.trans (b := _)
  apply body_of
  apply resolve_top
  refine choose_here rfl
  · intro k hk; cases hk
  body_simp

theorem body_impl_iterate_impl_0 {vP vAccum : V} :
    instantiate U h (V.cls .root .impl_iterate_impl [(V.num 0), vP, vAccum]) =
    (h (V.cls .root .return_ [vAccum])).bind fun b1 =>
    Out.ok b1 := by
  apply Eq.trans (b := _)
  apply body_of
  apply resolve_top
  refine choose_here rfl
  · intro k hk; cases hk
  body_simp

theorem body_impl_iterate_impl_1 {vN vP vAccum : V}
    (himpl_iterate_impl0 : Pat.fits [.num 0, .var .P, .var .Accum] [vN, vP, vAccum] [] = none) :
    instantiate U h (V.cls .root .impl_iterate_impl [vN, vP, vAccum]) =
    Out.ok ([(.type, .ty (V.cls .root .impl_iterate_impl [vN, vP, vAccum])), (.apply, .tmpl (V.cls .root .impl_iterate_impl [vN, vP, vAccum]))]) := by
  apply Eq.trans (b := _)
  apply body_of
  apply resolve_top
  apply choose_next
  · exact himpl_iterate_impl0
  refine choose_here rfl
  · intro k hk; cases hk
  body_simp

theorem body_impl_iterate_impl_1_apply {vN vP vAccum vS vPos : V}
    (himpl_iterate_impl0 : Pat.fits [.num 0, .var .P, .var .Accum] [vN, vP, vAccum] [] = none) :
    instantiate U h (V.cls (V.cls .root .impl_iterate_impl [vN, vP, vAccum]) .apply [vS, vPos]) =
    (owner h vP .apply).bind fun o1 =>
    (get h (V.cls .root .is_error [(V.cls o1 .apply [vS, vPos])]) .type).bind fun x2 =>
    (owner h vP .apply).bind fun o3 =>
    (h (V.cls .root .mpl_eval_if [x2, (V.cls o3 .apply [vS, vPos]), (V.cls .root .impl_iterate_impl_unchecked [vN, vP, vAccum, vS, vPos])])).bind fun b4 =>
    Out.ok b4 := by
  apply Eq.trans (b := _)
  apply body_of
  apply resolve_in
  apply resolve_top
  apply choose_next
  · exact himpl_iterate_impl0
  refine choose_here rfl
  refine choose_here rfl
  · intro k hk; cases hk
  body_simp

theorem body_iterate_c {vP vN : V} :
    instantiate U h (V.cls .root .iterate_c [vP, vN]) =
    (h (V.cls .root .impl_iterate_impl [vN, vP, (V.cls .root .mpl_vector [])])).bind fun b1 =>
    Out.ok b1 := by
  apply Eq.trans (b := _)
  apply body_of
  apply resolve_top
  refine choose_here rfl
  · intro k hk; cases hk
  body_simp

theorem body_iterate {vP vN : V} :
    instantiate U h (V.cls .root .iterate [vP, vN]) =
    (get h vN .type).bind fun x1 =>
    (get h x1 .value).bind fun x2 =>
    (h (V.cls .root .iterate_c [vP, x2])).bind fun b3 =>
    Out.ok b3 := by
  apply Eq.trans (b := _)
  apply body_of
  apply resolve_top
  refine choose_here rfl
  · intro k hk; cases hk
  body_simp

theorem body_lit_c {vC : V} :
    instantiate U h (V.cls .root .lit_c [vC]) =
    (h (V.cls .root .accept_when [(V.cls .root .change_error_message [(V.cls .root .one_char []), (V.cls .root .error_literal_expected [vC])]), (V.cls .root .impl_is_char_c [vC]), (V.cls .root .error_literal_expected [vC])])).bind fun b1 =>
    Out.ok b1 := by
  apply Eq.trans (b := _)
  apply body_of
  apply resolve_top
  refine choose_here rfl
  · intro k hk; cases hk
  body_simp

theorem body_lit {vC : V} :
    instantiate U h (V.cls .root .lit [vC]) =
    (get h vC .type).bind fun x1 =>
    (get h x1 .value).bind fun x2 =>
    (h (V.cls .root .lit_c [x2])).bind fun b3 =>
    Out.ok b3 := by
  apply Eq.trans (b := _)
  apply body_of
  apply resolve_top
  refine choose_here rfl
  · intro k hk; cases hk
  body_simp

theorem body_keyword {vKw vResultType : V} :
    instantiate U h (V.cls .root .keyword [vKw, vResultType]) =
    Out.ok ([(.nonempty, .tmpl (V.cls .root .keyword [vKw, vResultType])), (.type, .ty (V.cls .root .keyword [vKw, vResultType])), (.apply, .tmpl (V.cls .root .keyword [vKw, vResultType]))]) := by
  apply Eq.trans (b := _)
  apply body_of
  apply resolve_top
  refine choose_here rfl
  · intro k hk; cases hk
  body_simp

theorem body_keyword_nonempty {vKw vResultType : V} :
    instantiate U h (V.cls (V.cls .root .keyword [vKw, vResultType]) .nonempty []) =
    (get h (V.cls .root .mpl_front [vKw]) .type).bind fun x1 =>
    (get h (V.cls .root .mpl_pop_front [vKw]) .type).bind fun x2 =>
    Out.ok ([(.next_char_parser, .ty (V.cls .root .lit [x1])), (.rest_parser, .ty (V.cls .root .keyword [x2, vResultType])), (.apply_unchecked, .tmpl (V.cls (V.cls .root .keyword [vKw, vResultType]) .nonempty [])), (.apply, .tmpl (V.cls (V.cls .root .keyword [vKw, vResultType]) .nonempty []))]) := by
  apply Eq.trans (b := _)
  apply body_of
  apply resolve_in
  apply resolve_top
  refine choose_here rfl
  refine choose_here rfl
  · intro k hk; cases hk
  body_simp

theorem body_keyword_nonempty_apply_unchecked {vKw vResultType vS vPos : V} :
    instantiate U h (V.cls (V.cls (V.cls .root .keyword [vKw, vResultType]) .nonempty []) .apply_unchecked [vS, vPos]) =
    (get h (V.cls .root .mpl_pop_front [vKw]) .type).bind fun x1 =>
    (owner h (V.cls .root .keyword [x1, vResultType]) .apply).bind fun o2 =>
    (get h (V.cls .root .mpl_front [vKw]) .type).bind fun x3 =>
    (owner h (V.cls .root .lit [x3]) .apply).bind fun o4 =>
    (get h (V.cls .root .get_remaining [(V.cls o4 .apply [vS, vPos])]) .type).bind fun x5 =>
    (get h (V.cls .root .mpl_front [vKw]) .type).bind fun x6 =>
    (owner h (V.cls .root .lit [x6]) .apply).bind fun o7 =>
    (get h (V.cls .root .get_position [(V.cls o7 .apply [vS, vPos])]) .type).bind fun x8 =>
    (h (V.cls o2 .apply [x5, x8])).bind fun b9 =>
    Out.ok b9 := by
  apply Eq.trans (b := _)
  apply body_of
  apply resolve_in
  apply resolve_in
  apply resolve_top
  refine choose_here rfl
  refine choose_here rfl
  refine choose_here rfl
  · intro k hk; cases hk
  body_simp

theorem body_keyword_nonempty_apply {vKw vResultType vS vPos : V} :
    instantiate U h (V.cls (V.cls (V.cls .root .keyword [vKw, vResultType]) .nonempty []) .apply [vS, vPos]) =
    (get h (V.cls .root .mpl_front [vKw]) .type).bind fun x1 =>
    (owner h (V.cls .root .lit [x1]) .apply).bind fun o2 =>
    (get h (V.cls .root .is_error [(V.cls o2 .apply [vS, vPos])]) .type).bind fun x3 =>
    (get h (V.cls .root .mpl_front [vKw]) .type).bind fun x4 =>
    (owner h (V.cls .root .lit [x4]) .apply).bind fun o5 =>
    (h (V.cls .root .mpl_eval_if [x3, (V.cls o5 .apply [vS, vPos]), (V.cls (V.cls (V.cls .root .keyword [vKw, vResultType]) .nonempty []) .apply_unchecked [vS, vPos])])).bind fun b6 =>
    Out.ok b6 := by
  apply Eq.trans (b := _)
  apply body_of
  apply resolve_in
  apply resolve_in
  apply resolve_top
  refine choose_here rfl
  refine choose_here rfl
  refine choose_here rfl
  · intro k hk; cases hk
  body_simp

theorem body_keyword_apply {vKw vResultType vS vPos : V} :
    instantiate U h (V.cls (V.cls .root .keyword [vKw, vResultType]) .apply [vS, vPos]) =
    (get h (V.cls .root .mpl_if_ [(V.cls .root .mpl_empty [vKw]), (V.cls .root .return_ [vResultType]), (V.cls (V.cls .root .keyword [vKw, vResultType]) .nonempty [])]) .type).bind fun x1 =>
    (owner h x1 .apply).bind fun o2 =>
    (h (V.cls o2 .apply [vS, vPos])).bind fun b3 =>
    Out.ok b3 := by
  apply Eq.trans (b := _)
  apply body_of
  apply resolve_in
  apply resolve_top
  refine choose_here rfl
  refine choose_here rfl
  · intro k hk; cases hk
  body_simp

theorem body_range_c {vFrom vTo : V} :
    instantiate U h (V.cls .root .range_c [vFrom, vTo]) =
    (h (V.cls .root .accept_when [(V.cls .root .one_char []), (V.cls .root .util_in_range_c [(V.cls .root .t_char []), vFrom, vTo]), (V.cls .root .error_unexpected_character [])])).bind fun b1 =>
    Out.ok b1 := by
  apply Eq.trans (b := _)
  apply body_of
  apply resolve_top
  refine choose_here rfl
  · intro k hk; cases hk
  body_simp

theorem body_range {vFrom vTo : V} :
    instantiate U h (V.cls .root .range [vFrom, vTo]) =
    (get h vFrom .type).bind fun x1 =>
    (get h x1 .value).bind fun x2 =>
    (get h vTo .type).bind fun x3 =>
    (get h x3 .value).bind fun x4 =>
    (h (V.cls .root .accept_when [(V.cls .root .one_char []), (V.cls .root .util_in_range_c [(V.cls .root .t_char []), x2, x4]), (V.cls .root .error_unexpected_character [])])).bind fun b5 =>
    Out.ok b5 := by
  apply Eq.trans (b := _)
  apply body_of
  apply resolve_top
  refine choose_here rfl
  · intro k hk; cases hk
  body_simp

theorem body_foldl1 {vP vState vForwardOp : V} :
    instantiate U h (V.cls .root .foldl1 [vP, vState, vForwardOp]) =
    Out.ok ([(.type, .ty (V.cls .root .foldl1 [vP, vState, vForwardOp])), (.apply, .tmpl (V.cls .root .foldl1 [vP, vState, vForwardOp]))]) := by
  apply Eq.trans (b := _)
  apply body_of
  apply resolve_top
  refine choose_here rfl
  · intro k hk; cases hk
  body_simp

theorem body_foldl1_apply {vP vState vForwardOp vS vPos : V} :
    instantiate U h (V.cls (V.cls .root .foldl1 [vP, vState, vForwardOp]) .apply [vS, vPos]) =
    (owner h vP .apply).bind fun o1 =>
    (get h (V.cls .root .mpl_if_ [(V.cls .root .is_error [(V.cls o1 .apply [vS, vPos])]), vP, (V.cls .root .foldl [vP, vState, vForwardOp])]) .type).bind fun x2 =>
    (owner h x2 .apply).bind fun o3 =>
    (h (V.cls o3 .apply [vS, vPos])).bind fun b4 =>
    Out.ok b4 := by
  apply Eq.trans (b := _)
  apply body_of
  apply resolve_in
  apply resolve_top
  refine choose_here rfl
  refine choose_here rfl
  · intro k hk; cases hk
  body_simp

theorem body_foldr {vP vState vBackwardOp : V} :
    instantiate U h (V.cls .root .foldr [vP, vState, vBackwardOp]) =
    (h (V.cls .root .foldr_start_with_parser [vP, (V.cls .root .return_ [vState]), vBackwardOp])).bind fun b1 =>
    Out.ok b1 := by
  apply Eq.trans (b := _)
  apply body_of
  apply resolve_top
  refine choose_here rfl
  · intro k hk; cases hk
  body_simp

theorem body_foldr1 {vP vState vBackwardOp : V} :
    instantiate U h (V.cls .root .foldr1 [vP, vState, vBackwardOp]) =
    Out.ok ([(.type, .ty (V.cls .root .foldr1 [vP, vState, vBackwardOp])), (.apply, .tmpl (V.cls .root .foldr1 [vP, vState, vBackwardOp]))]) := by
  apply Eq.trans (b := _)
  apply body_of
  apply resolve_top
  refine choose_here rfl
  · intro k hk; cases hk
  body_simp

theorem body_foldr1_apply {vP vState vBackwardOp vS vPos : V} :
    instantiate U h (V.cls (V.cls .root .foldr1 [vP, vState, vBackwardOp]) .apply [vS, vPos]) =
    (owner h vP .apply).bind fun o1 =>
    (get h (V.cls .root .mpl_if_ [(V.cls .root .is_error [(V.cls o1 .apply [vS, vPos])]), vP, (V.cls .root .foldr [vP, vState, vBackwardOp])]) .type).bind fun x2 =>
    (owner h x2 .apply).bind fun o3 =>
    (h (V.cls o3 .apply [vS, vPos])).bind fun b4 =>
    Out.ok b4 := by
  apply Eq.trans (b := _)
  apply body_of
  apply resolve_in
  apply resolve_top
  refine choose_here rfl
  refine choose_here rfl
  · intro k hk; cases hk
  body_simp

theorem body_foldl_reject_incomplete1 {vP vState vForwardOp : V} :
    instantiate U h (V.cls .root .foldl_reject_incomplete1 [vP, vState, vForwardOp]) =
    Out.ok ([(.type, .ty (V.cls .root .foldl_reject_incomplete1 [vP, vState, vForwardOp])), (.apply, .tmpl (V.cls .root .foldl_reject_incomplete1 [vP, vState, vForwardOp]))]) := by
  apply Eq.trans (b := _)
  apply body_of
  apply resolve_top
  refine choose_here rfl
  · intro k hk; cases hk
  body_simp

theorem body_foldl_reject_incomplete1_apply {vP vState vForwardOp vS vPos : V} :
    instantiate U h (V.cls (V.cls .root .foldl_reject_incomplete1 [vP, vState, vForwardOp]) .apply [vS, vPos]) =
    (owner h vP .apply).bind fun o1 =>
    (get h (V.cls .root .mpl_if_ [(V.cls .root .is_error [(V.cls o1 .apply [vS, vPos])]), vP, (V.cls .root .foldl_reject_incomplete [vP, vState, vForwardOp])]) .type).bind fun x2 =>
    (owner h x2 .apply).bind fun o3 =>
    (h (V.cls o3 .apply [vS, vPos])).bind fun b4 =>
    Out.ok b4 := by
  apply Eq.trans (b := _)
  apply body_of
  apply resolve_in
  apply resolve_top
  refine choose_here rfl
  refine choose_here rfl
  · intro k hk; cases hk
  body_simp

theorem body_foldr_reject_incomplete {vP vState vBackwardOp : V} :
    instantiate U h (V.cls .root .foldr_reject_incomplete [vP, vState, vBackwardOp]) =
    (h (V.cls .root .foldr_start_with_parser [vP, (V.cls .root .first_of (fill .first_of [(V.cls .root .return_ [vState]), (V.cls .root .fail_at_first_char_expected [vP])])), vBackwardOp])).bind fun b1 =>
    Out.ok b1 := by
  apply Eq.trans (b := _)
  apply body_of
  apply resolve_top
  refine choose_here rfl
  · intro k hk; cases hk
  body_simp

theorem body_foldr_reject_incomplete1 {vP vState vBackwardOp : V} :
    instantiate U h (V.cls .root .foldr_reject_incomplete1 [vP, vState, vBackwardOp]) =
    Out.ok ([(.type, .ty (V.cls .root .foldr_reject_incomplete1 [vP, vState, vBackwardOp])), (.apply, .tmpl (V.cls .root .foldr_reject_incomplete1 [vP, vState, vBackwardOp]))]) := by
  apply Eq.trans (b := _)
  apply body_of
  apply resolve_top
  refine choose_here rfl
  · intro k hk; cases hk
  body_simp

theorem body_foldr_reject_incomplete1_apply {vP vState vBackwardOp vS vPos : V} :
    instantiate U h (V.cls (V.cls .root .foldr_reject_incomplete1 [vP, vState, vBackwardOp]) .apply [vS, vPos]) =
    (owner h vP .apply).bind fun o1 =>
    (get h (V.cls .root .mpl_if_ [(V.cls .root .is_error [(V.cls o1 .apply [vS, vPos])]), vP, (V.cls .root .foldr_reject_incomplete [vP, vState, vBackwardOp])]) .type).bind fun x2 =>
    (owner h x2 .apply).bind fun o3 =>
    (h (V.cls o3 .apply [vS, vPos])).bind fun b4 =>
    Out.ok b4 := by
  apply Eq.trans (b := _)
  apply body_of
  apply resolve_in
  apply resolve_top
  refine choose_here rfl
  refine choose_here rfl
  · intro k hk; cases hk
  body_simp

theorem body_repeated {vP : V} :
    instantiate U h (V.cls .root .repeated [vP]) =
    (h (V.cls .root .foldl [vP, (V.cls .root .mpl_vector []), (V.cls .root .impl_back_inserter [])])).bind fun b1 =>
    Out.ok b1 := by
  apply Eq.trans (b := _)
  apply body_of
  apply resolve_top
  refine choose_here rfl
  · intro k hk; cases hk
  body_simp

theorem body_repeated1 {vP : V} :
    instantiate U h (V.cls .root .repeated1 [vP]) =
    (h (V.cls .root .foldl1 [vP, (V.cls .root .mpl_vector []), (V.cls .root .impl_back_inserter [])])).bind fun b1 =>
    Out.ok b1 := by
  apply Eq.trans (b := _)
  apply body_of
  apply resolve_top
  refine choose_here rfl
  · intro k hk; cases hk
  body_simp

theorem body_repeated_reject_incomplete {vP : V} :
    instantiate U h (V.cls .root .repeated_reject_incomplete [vP]) =
    (h (V.cls .root .foldl_reject_incomplete [vP, (V.cls .root .mpl_vector []), (V.cls .root .impl_back_inserter [])])).bind fun b1 =>
    Out.ok b1 := by
  apply Eq.trans (b := _)
  apply body_of
  apply resolve_top
  refine choose_here rfl
  · intro k hk; cases hk
  body_simp

theorem body_repeated_reject_incomplete1 {vP : V} :
    instantiate U h (V.cls .root .repeated_reject_incomplete1 [vP]) =
    (h (V.cls .root .foldl_reject_incomplete1 [vP, (V.cls .root .mpl_vector []), (V.cls .root .impl_back_inserter [])])).bind fun b1 =>
    Out.ok b1 := by
  apply Eq.trans (b := _)
  apply body_of
  apply resolve_top
  refine choose_here rfl
  · intro k hk; cases hk
  body_simp

theorem body_token {vP : V} :
    instantiate U h (V.cls .root .token [vP]) =
    (h (V.cls .root .first_of (fill .first_of [vP, (V.cls .root .repeated [(V.cls .root .accept_when [(V.cls .root .one_char []), (V.cls .root .util_is_whitespace [(V.cls .root .mpl_na [])]), (V.cls .root .error_whitespace_expected [])])])]))).bind fun b1 =>
    Out.ok b1 := by
  apply Eq.trans (b := _)
  apply body_of
  apply resolve_top
  refine choose_here rfl
  · intro k hk; cases hk
  body_simp

theorem body_entire_input_0 {vP : V} :
    instantiate U h (V.cls .root .entire_input [vP, (V.cls .root .error_end_of_input_expected [])]) =
    (h (V.cls .root .first_of (fill .first_of [vP, (V.cls .root .empty [(V.cls .root .t_void [])])]))).bind fun b1 =>
    Out.ok b1 := by
  apply Eq.trans (b := _)
  apply body_of
  apply resolve_top
  refine choose_here rfl
  · intro k hk; cases hk
  body_simp

theorem body_entire_input_1 {vP vMsg : V}
    (hentire_input0 : Pat.fits [.var .P, .cls .error_end_of_input_expected []] [vP, vMsg] [] = none) :
    instantiate U h (V.cls .root .entire_input [vP, vMsg]) =
    (h (V.cls .root .first_of (fill .first_of [vP, (V.cls .root .change_error_message [(V.cls .root .empty [(V.cls .root .t_void [])]), vMsg])]))).bind fun b1 =>
    Out.ok b1 := by
  apply Eq.trans (b := _)
  apply body_of
  apply resolve_top
  apply choose_next
  · exact hentire_input0
  refine choose_here rfl
  · intro k hk; cases hk
  body_simp

theorem body_always_c {vC vResult : V} :
    instantiate U h (V.cls .root .always_c [vC, vResult]) =
    (h (V.cls .root .always [(V.cls .root .lit_c [vC]), vResult])).bind fun b1 =>
    Out.ok b1 := by
  apply Eq.trans (b := _)
  apply body_of
  apply resolve_top
  refine choose_here rfl
  · intro k hk; cases hk
  body_simp

theorem body_swap {vF : V} :
    instantiate U h (V.cls .root .swap [vF]) =
    Out.ok ([(.type, .ty (V.cls .root .swap [vF])), (.apply, .tmpl (V.cls .root .swap [vF]))]) := by
  apply Eq.trans (b := _)
  apply body_of
  apply resolve_top
  refine choose_here rfl
  · intro k hk; cases hk
  body_simp

theorem body_swap_apply {vF vA vB : V} :
    instantiate U h (V.cls (V.cls .root .swap [vF]) .apply [vA, vB]) =
    (owner h vF .apply).bind fun o1 =>
    (h (V.cls o1 .apply [vB, vA])).bind fun b2 =>
    Out.ok b2 := by
  apply Eq.trans (b := _)
  apply body_of
  apply resolve_in
  apply resolve_top
  refine choose_here rfl
  refine choose_here rfl
  · intro k hk; cases hk
  body_simp

theorem body_x__________________PARSING_FAILED__________________x {vLine vCol vMsg : V} :
    instantiate U h (V.cls .root .x__________________PARSING_FAILED__________________x [vLine, vCol, vMsg]) =
    (Op.ev .add vLine (V.num 1)).bind fun x1 =>
    (Op.ev .eq vLine x1).bind fun x2 =>
    if x2 = .num 0 then Out.ill .noType else Out.ok [] := by
  apply Eq.trans (b := _)
  apply body_of
  apply resolve_top
  refine choose_here rfl
  · intro k hk; cases hk
  body_simp

theorem body_parsing_failed {vP vS : V} :
    instantiate U h (V.cls .root .parsing_failed [vP, vS]) =
    (owner h vP .apply).bind fun o1 =>
    (get h (V.cls .root .get_line [(V.cls .root .get_position [(V.cls o1 .apply [vS, (V.cls .root .source_position [(V.cls .root .mpl_int_ [(V.num 1)]), (V.cls .root .mpl_int_ [(V.num 1)]), (V.cls .root .mpl_char_ [(V.num 0)])])])])]) .type).bind fun x2 =>
    (get h x2 .value).bind fun x3 =>
    (owner h vP .apply).bind fun o4 =>
    (get h (V.cls .root .get_col [(V.cls .root .get_position [(V.cls o4 .apply [vS, (V.cls .root .source_position [(V.cls .root .mpl_int_ [(V.num 1)]), (V.cls .root .mpl_int_ [(V.num 1)]), (V.cls .root .mpl_char_ [(V.num 0)])])])])]) .type).bind fun x5 =>
    (get h x5 .value).bind fun x6 =>
    (owner h vP .apply).bind fun o7 =>
    (get h (V.cls .root .get_message [(V.cls o7 .apply [vS, (V.cls .root .source_position [(V.cls .root .mpl_int_ [(V.num 1)]), (V.cls .root .mpl_int_ [(V.num 1)]), (V.cls .root .mpl_char_ [(V.num 0)])])])]) .type).bind fun x8 =>
    (h (V.cls .root .x__________________PARSING_FAILED__________________x [x3, x6, x8])).bind fun b9 =>
    Out.ok b9 := by
  apply Eq.trans (b := _)
  apply body_of
  apply resolve_top
  refine choose_here rfl
  · intro k hk; cases hk
  body_simp

theorem body_build_parser {vP : V} :
    instantiate U h (V.cls .root .build_parser [vP]) =
    Out.ok ([(.type, .ty (V.cls .root .build_parser [vP])), (.apply, .tmpl (V.cls .root .build_parser [vP]))]) := by
  apply Eq.trans (b := _)
  apply body_of
  apply resolve_top
  refine choose_here rfl
  · intro k hk; cases hk
  body_simp

theorem body_build_parser_apply {vP vS : V} :
    instantiate U h (V.cls (V.cls .root .build_parser [vP]) .apply [vS]) =
    (owner h vP .apply).bind fun o1 =>
    (get h (V.cls .root .is_error [(V.cls o1 .apply [vS, (V.cls .root .source_position [(V.cls .root .mpl_int_ [(V.num 1)]), (V.cls .root .mpl_int_ [(V.num 1)]), (V.cls .root .mpl_char_ [(V.num 0)])])])]) .type).bind fun x2 =>
    (owner h vP .apply).bind fun o3 =>
    (h (V.cls .root .mpl_eval_if [x2, (V.cls .root .parsing_failed [vP, vS]), (V.cls .root .get_result [(V.cls o3 .apply [vS, (V.cls .root .source_position [(V.cls .root .mpl_int_ [(V.num 1)]), (V.cls .root .mpl_int_ [(V.num 1)]), (V.cls .root .mpl_char_ [(V.num 0)])])])])])).bind fun b4 =>
    Out.ok b4 := by
  apply Eq.trans (b := _)
  apply body_of
  apply resolve_in
  apply resolve_top
  refine choose_here rfl
  refine choose_here rfl
  · intro k hk; cases hk
  body_simp

theorem body_grammar_util_repeated_apply_impl_0 {vFState : V} :
    instantiate U h (V.cls .root .grammar_util_repeated_apply_impl [(V.num 43), vFState]) =
    Out.ok ([(.type, .ty (V.cls .root .grammar_util_repeated_apply_impl [(V.num 43), vFState])), (.apply, .tmpl (V.cls .root .grammar_util_repeated_apply_impl [(V.num 43), vFState]))]) := by
  apply Eq.trans (b := _)
  apply body_of
  apply resolve_top
  refine choose_here rfl
  · intro k hk; cases hk
  body_simp

theorem body_grammar_util_repeated_apply_impl_0_apply {vFState vG : V} :
    instantiate U h (V.cls (V.cls .root .grammar_util_repeated_apply_impl [(V.num 43), vFState]) .apply [vG]) =
    (owner h vFState .apply).bind fun o1 =>
    (get h (V.cls o1 .apply [vG]) .type).bind fun x2 =>
    (h (V.cls .root .repeated1 [x2])).bind fun b3 =>
    Out.ok b3 := by
  apply Eq.trans (b := _)
  apply body_of
  apply resolve_in
  apply resolve_top
  refine choose_here rfl
  refine choose_here rfl
  · intro k hk; cases hk
  body_simp

theorem body_grammar_util_repeated_apply_impl_1 {vOp vFState : V}
    (hgrammar_util_repeated_apply_impl0 : Pat.fits [.num 43, .var .FState] [vOp, vFState] [] = none) :
    instantiate U h (V.cls .root .grammar_util_repeated_apply_impl [vOp, vFState]) =
    Out.ok ([(.type, .ty (V.cls .root .grammar_util_repeated_apply_impl [vOp, vFState])), (.apply, .tmpl (V.cls .root .grammar_util_repeated_apply_impl [vOp, vFState]))]) := by
  apply Eq.trans (b := _)
  apply body_of
  apply resolve_top
  apply choose_next
  · exact hgrammar_util_repeated_apply_impl0
  refine choose_here rfl
  · intro k hk; cases hk
  body_simp

theorem body_grammar_util_repeated_apply_impl_1_apply {vOp vFState vG : V}
    (hgrammar_util_repeated_apply_impl0 : Pat.fits [.num 43, .var .FState] [vOp, vFState] [] = none) :
    instantiate U h (V.cls (V.cls .root .grammar_util_repeated_apply_impl [vOp, vFState]) .apply [vG]) =
    (owner h vFState .apply).bind fun o1 =>
    (get h (V.cls o1 .apply [vG]) .type).bind fun x2 =>
    (h (V.cls .root .repeated [x2])).bind fun b3 =>
    Out.ok b3 := by
  apply Eq.trans (b := _)
  apply body_of
  apply resolve_in
  apply resolve_top
  apply choose_next
  · exact hgrammar_util_repeated_apply_impl0
  refine choose_here rfl
  refine choose_here rfl
  · intro k hk; cases hk
  body_simp

theorem body_grammar_util_build_repeated :
    instantiate U h (V.cls .root .grammar_util_build_repeated []) =
    Out.ok ([(.type, .ty (V.cls .root .grammar_util_build_repeated [])), (.apply, .tmpl (V.cls .root .grammar_util_build_repeated []))]) := by
  apply Eq.trans (b := _)
  apply body_of
  apply resolve_top
  refine choose_here rfl
  · intro k hk; cases hk
  body_simp

theorem body_grammar_util_build_repeated_apply {vFState vT : V} :
    instantiate U h (V.cls (V.cls .root .grammar_util_build_repeated []) .apply [vFState, vT]) =
    (get h vT .type).bind fun x1 =>
    (get h x1 .value).bind fun x2 =>
    (h (V.cls .root .grammar_util_repeated_apply_impl [x2, vFState])).bind fun b3 =>
    Out.ok b3 := by
  apply Eq.trans (b := _)
  apply body_of
  apply resolve_in
  apply resolve_top
  refine choose_here rfl
  refine choose_here rfl
  · intro k hk; cases hk
  body_simp

theorem body_grammar_util_build_sequence :
    instantiate U h (V.cls .root .grammar_util_build_sequence []) =
    Out.ok ([(.type, .ty (V.cls .root .grammar_util_build_sequence [])), (.apply_impl, .tmpl (V.cls .root .grammar_util_build_sequence [])), (.apply, .tmpl (V.cls .root .grammar_util_build_sequence []))]) := by
  apply Eq.trans (b := _)
  apply body_of
  apply resolve_top
  refine choose_here rfl
  · intro k hk; cases hk
  body_simp

theorem body_grammar_util_build_sequence_apply_impl {vFState vFP : V} :
    instantiate U h (V.cls (V.cls .root .grammar_util_build_sequence []) .apply_impl [vFState, vFP]) =
    Out.ok ([(.type, .ty (V.cls (V.cls .root .grammar_util_build_sequence []) .apply_impl [vFState, vFP])), (.apply, .tmpl (V.cls (V.cls .root .grammar_util_build_sequence []) .apply_impl [vFState, vFP]))]) := by
  apply Eq.trans (b := _)
  apply body_of
  apply resolve_in
  apply resolve_top
  refine choose_here rfl
  refine choose_here rfl
  · intro k hk; cases hk
  body_simp

theorem body_grammar_util_build_sequence_apply_impl_apply {vFState vFP vG : V} :
    instantiate U h (V.cls (V.cls (V.cls .root .grammar_util_build_sequence []) .apply_impl [vFState, vFP]) .apply [vG]) =
    (owner h vFState .apply).bind fun o1 =>
    (get h (V.cls o1 .apply [vG]) .type).bind fun x2 =>
    (owner h vFP .apply).bind fun o3 =>
    (get h (V.cls o3 .apply [vG]) .type).bind fun x4 =>
    (h (V.cls .root .sequence (fill .sequence [x2, x4]))).bind fun b5 =>
    Out.ok b5 := by
  apply Eq.trans (b := _)
  apply body_of
  apply resolve_in
  apply resolve_in
  apply resolve_top
  refine choose_here rfl
  refine choose_here rfl
  refine choose_here rfl
  · intro k hk; cases hk
  body_simp

theorem body_grammar_util_build_sequence_apply {vFState vFP : V} :
    instantiate U h (V.cls (V.cls .root .grammar_util_build_sequence []) .apply [vFState, vFP]) =
    (h (V.cls (V.cls .root .grammar_util_build_sequence []) .apply_impl [vFState, vFP])).bind fun b1 =>
    Out.ok b1 := by
  apply Eq.trans (b := _)
  apply body_of
  apply resolve_in
  apply resolve_top
  refine choose_here rfl
  refine choose_here rfl
  · intro k hk; cases hk
  body_simp

theorem body_grammar_util_build_selection :
    instantiate U h (V.cls .root .grammar_util_build_selection []) =
    Out.ok ([(.type, .ty (V.cls .root .grammar_util_build_selection [])), (.apply_impl, .tmpl (V.cls .root .grammar_util_build_selection [])), (.apply, .tmpl (V.cls .root .grammar_util_build_selection []))]) := by
  apply Eq.trans (b := _)
  apply body_of
  apply resolve_top
  refine choose_here rfl
  · intro k hk; cases hk
  body_simp

theorem body_grammar_util_build_selection_apply_impl {vFState vFP : V} :
    instantiate U h (V.cls (V.cls .root .grammar_util_build_selection []) .apply_impl [vFState, vFP]) =
    Out.ok ([(.type, .ty (V.cls (V.cls .root .grammar_util_build_selection []) .apply_impl [vFState, vFP])), (.apply, .tmpl (V.cls (V.cls .root .grammar_util_build_selection []) .apply_impl [vFState, vFP]))]) := by
  apply Eq.trans (b := _)
  apply body_of
  apply resolve_in
  apply resolve_top
  refine choose_here rfl
  refine choose_here rfl
  · intro k hk; cases hk
  body_simp

theorem body_grammar_util_build_selection_apply_impl_apply {vFState vFP vG : V} :
    instantiate U h (V.cls (V.cls (V.cls .root .grammar_util_build_selection []) .apply_impl [vFState, vFP]) .apply [vG]) =
    (owner h vFState .apply).bind fun o1 =>
    (get h (V.cls o1 .apply [vG]) .type).bind fun x2 =>
    (owner h vFP .apply).bind fun o3 =>
    (get h (V.cls o3 .apply [vG]) .type).bind fun x4 =>
    (h (V.cls .root .one_of (fill .one_of [x2, x4]))).bind fun b5 =>
    Out.ok b5 := by
  apply Eq.trans (b := _)
  apply body_of
  apply resolve_in
  apply resolve_in
  apply resolve_top
  refine choose_here rfl
  refine choose_here rfl
  refine choose_here rfl
  · intro k hk; cases hk
  body_simp

theorem body_grammar_util_build_selection_apply {vFState vFP : V} :
    instantiate U h (V.cls (V.cls .root .grammar_util_build_selection []) .apply [vFState, vFP]) =
    (h (V.cls (V.cls .root .grammar_util_build_selection []) .apply_impl [vFState, vFP])).bind fun b1 =>
    Out.ok b1 := by
  apply Eq.trans (b := _)
  apply body_of
  apply resolve_in
  apply resolve_top
  refine choose_here rfl
  refine choose_here rfl
  · intro k hk; cases hk
  body_simp

theorem body_grammar_util_get_parser {vG vName : V} :
    instantiate U h (V.cls .root .grammar_util_get_parser [vG, vName]) =
    (get h vG .rules).bind fun x1 =>
    (get h (V.cls .root .mpl_at [x1, vName]) .type).bind fun x2 =>
    (owner h x2 .apply).bind fun o3 =>
    (get h vG .actions).bind fun x4 =>
    (get h (V.cls .root .mpl_has_key [x4, vName]) .type).bind fun x5 =>
    (get h vG .actions).bind fun x6 =>
    (get h (V.cls .root .mpl_eval_if [x5, (V.cls (V.cls .root .grammar_util_get_parser [vG, vName]) .impl [(V.cls .root .mpl_at [x6, vName])]), (V.cls o3 .apply [vG])]) .type).bind fun x7 =>
    Out.ok ([(.p, .ty (V.cls o3 .apply [vG])), (.impl, .tmpl (V.cls .root .grammar_util_get_parser [vG, vName])), (.type, .ty x7)]) := by
  apply Eq.trans (b := _)
  apply body_of
  apply resolve_top
  refine choose_here rfl
  · intro k hk; cases hk
  body_simp

theorem body_grammar_util_get_parser_impl {vG vName vActions : V} :
    instantiate U h (V.cls (V.cls .root .grammar_util_get_parser [vG, vName]) .impl [vActions]) =
    (get h vG .rules).bind fun x1 =>
    (get h (V.cls .root .mpl_at [x1, vName]) .type).bind fun x2 =>
    (owner h x2 .apply).bind fun o3 =>
    (get h (V.cls o3 .apply [vG]) .type).bind fun x4 =>
    (get h vActions .type).bind fun x5 =>
    (h (V.cls .root .transform [x4, x5])).bind fun b6 =>
    Out.ok b6 := by
  apply Eq.trans (b := _)
  apply body_of
  apply resolve_in
  apply resolve_top
  refine choose_here rfl
  refine choose_here rfl
  · intro k hk; cases hk
  body_simp

theorem body_grammar_util_build_name :
    instantiate U h (V.cls .root .grammar_util_build_name []) =
    Out.ok ([(.type, .ty (V.cls .root .grammar_util_build_name [])), (.apply_impl, .tmpl (V.cls .root .grammar_util_build_name [])), (.apply, .tmpl (V.cls .root .grammar_util_build_name []))]) := by
  apply Eq.trans (b := _)
  apply body_of
  apply resolve_top
  refine choose_here rfl
  · intro k hk; cases hk
  body_simp

theorem body_grammar_util_build_name_apply_impl {vName : V} :
    instantiate U h (V.cls (V.cls .root .grammar_util_build_name []) .apply_impl [vName]) =
    Out.ok ([(.type, .ty (V.cls (V.cls .root .grammar_util_build_name []) .apply_impl [vName])), (.apply, .tmpl (V.cls (V.cls .root .grammar_util_build_name []) .apply_impl [vName]))]) := by
  apply Eq.trans (b := _)
  apply body_of
  apply resolve_in
  apply resolve_top
  refine choose_here rfl
  refine choose_here rfl
  · intro k hk; cases hk
  body_simp

theorem body_grammar_util_build_name_apply_impl_apply {vName vG : V} :
    instantiate U h (V.cls (V.cls (V.cls .root .grammar_util_build_name []) .apply_impl [vName]) .apply [vG]) =
    (h (V.cls .root .grammar_util_get_parser [vG, vName])).bind fun b1 =>
    Out.ok b1 := by
  apply Eq.trans (b := _)
  apply body_of
  apply resolve_in
  apply resolve_in
  apply resolve_top
  refine choose_here rfl
  refine choose_here rfl
  refine choose_here rfl
  · intro k hk; cases hk
  body_simp

theorem body_grammar_util_build_name_apply {vName : V} :
    instantiate U h (V.cls (V.cls .root .grammar_util_build_name []) .apply [vName]) =
    (h (V.cls (V.cls .root .grammar_util_build_name []) .apply_impl [vName])).bind fun b1 =>
    Out.ok b1 := by
  apply Eq.trans (b := _)
  apply body_of
  apply resolve_in
  apply resolve_top
  refine choose_here rfl
  refine choose_here rfl
  · intro k hk; cases hk
  body_simp

theorem body_grammar_util_build_char :
    instantiate U h (V.cls .root .grammar_util_build_char []) =
    Out.ok ([(.type, .ty (V.cls .root .grammar_util_build_char [])), (.apply_impl, .tmpl (V.cls .root .grammar_util_build_char [])), (.apply, .tmpl (V.cls .root .grammar_util_build_char []))]) := by
  apply Eq.trans (b := _)
  apply body_of
  apply resolve_top
  refine choose_here rfl
  · intro k hk; cases hk
  body_simp

theorem body_grammar_util_build_char_apply_impl {vC : V} :
    instantiate U h (V.cls (V.cls .root .grammar_util_build_char []) .apply_impl [vC]) =
    Out.ok ([(.type, .ty (V.cls (V.cls .root .grammar_util_build_char []) .apply_impl [vC])), (.apply, .tmpl (V.cls (V.cls .root .grammar_util_build_char []) .apply_impl [vC]))]) := by
  apply Eq.trans (b := _)
  apply body_of
  apply resolve_in
  apply resolve_top
  refine choose_here rfl
  refine choose_here rfl
  · intro k hk; cases hk
  body_simp

theorem body_grammar_util_build_char_apply_impl_apply {vC vG : V} :
    instantiate U h (V.cls (V.cls (V.cls .root .grammar_util_build_char []) .apply_impl [vC]) .apply [vG]) =
    (h (V.cls .root .lit [vC])).bind fun b1 =>
    Out.ok b1 := by
  apply Eq.trans (b := _)
  apply body_of
  apply resolve_in
  apply resolve_in
  apply resolve_top
  refine choose_here rfl
  refine choose_here rfl
  refine choose_here rfl
  · intro k hk; cases hk
  body_simp

theorem body_grammar_util_build_char_apply {vC : V} :
    instantiate U h (V.cls (V.cls .root .grammar_util_build_char []) .apply [vC]) =
    (h (V.cls (V.cls .root .grammar_util_build_char []) .apply_impl [vC])).bind fun b1 =>
    Out.ok b1 := by
  apply Eq.trans (b := _)
  apply body_of
  apply resolve_in
  apply resolve_top
  refine choose_here rfl
  refine choose_here rfl
  · intro k hk; cases hk
  body_simp

theorem body_grammar_util_expression :
    instantiate U h (V.cls .root .grammar_util_expression []) =
    (h (V.cls .root .foldl_start_with_parser [(V.cls .root .last_of (fill .last_of [(V.cls .root .token [(V.cls .root .lit_c [(V.num 124)])]), (V.cls .root .foldl_start_with_parser [(V.cls .root .foldl_start_with_parser [(V.cls .root .one_of (fill .one_of [(V.cls .root .token [(V.cls .root .lit_c [(V.num 42)])]), (V.cls .root .token [(V.cls .root .lit_c [(V.num 43)])])])), (V.cls .root .one_of (fill .one_of [(V.cls .root .transform [(V.cls .root .middle_of [(V.cls .root .lit_c [(V.num 39)]), (V.cls .root .one_of (fill .one_of [(V.cls .root .last_of (fill .last_of [(V.cls .root .lit_c [(V.num 92)]), (V.cls .root .one_of (fill .one_of [(V.cls .root .always [(V.cls .root .lit_c [(V.num 110)]), (V.cls .root .mpl_char_ [(V.num 10)])]), (V.cls .root .always [(V.cls .root .lit_c [(V.num 114)]), (V.cls .root .mpl_char_ [(V.num 13)])]), (V.cls .root .always [(V.cls .root .lit_c [(V.num 116)]), (V.cls .root .mpl_char_ [(V.num 9)])]), (V.cls .root .lit_c [(V.num 92)]), (V.cls .root .lit_c [(V.num 39)])]))])), (V.cls .root .one_char_except_c (fill .one_char_except_c [(V.num 39)]))])), (V.cls .root .token [(V.cls .root .lit_c [(V.num 39)])])]), (V.cls .root .grammar_util_build_char [])]), (V.cls .root .transform [(V.cls .root .token [(V.cls .root .foldr1 [(V.cls .root .one_of (fill .one_of [(V.cls .root .one_of (fill .one_of [(V.cls .root .accept_when [(V.cls .root .one_char []), (V.cls .root .util_is_letter [(V.cls .root .mpl_na [])]), (V.cls .root .error_letter_expected [])]), (V.cls .root .accept_when [(V.cls .root .change_error_message [(V.cls .root .one_char []), (V.cls .root .error_digit_expected [])]), (V.cls .root .util_is_digit [(V.cls .root .mpl_na [])]), (V.cls .root .error_digit_expected [])])])), (V.cls .root .lit_c [(V.num 95)])])), (V.cls .root .string (fill .string [])), (V.cls .root .impl_front_inserter [])])]), (V.cls .root .grammar_util_build_name [])]), (V.cls .root .middle_of [(V.cls .root .token [(V.cls .root .lit_c [(V.num 40)])]), (V.cls .root .grammar_util_expression []), (V.cls .root .token [(V.cls .root .lit_c [(V.num 41)])])])])), (V.cls .root .grammar_util_build_repeated [])]), (V.cls .root .foldl_start_with_parser [(V.cls .root .one_of (fill .one_of [(V.cls .root .token [(V.cls .root .lit_c [(V.num 42)])]), (V.cls .root .token [(V.cls .root .lit_c [(V.num 43)])])])), (V.cls .root .one_of (fill .one_of [(V.cls .root .transform [(V.cls .root .middle_of [(V.cls .root .lit_c [(V.num 39)]), (V.cls .root .one_of (fill .one_of [(V.cls .root .last_of (fill .last_of [(V.cls .root .lit_c [(V.num 92)]), (V.cls .root .one_of (fill .one_of [(V.cls .root .always [(V.cls .root .lit_c [(V.num 110)]), (V.cls .root .mpl_char_ [(V.num 10)])]), (V.cls .root .always [(V.cls .root .lit_c [(V.num 114)]), (V.cls .root .mpl_char_ [(V.num 13)])]), (V.cls .root .always [(V.cls .root .lit_c [(V.num 116)]), (V.cls .root .mpl_char_ [(V.num 9)])]), (V.cls .root .lit_c [(V.num 92)]), (V.cls .root .lit_c [(V.num 39)])]))])), (V.cls .root .one_char_except_c (fill .one_char_except_c [(V.num 39)]))])), (V.cls .root .token [(V.cls .root .lit_c [(V.num 39)])])]), (V.cls .root .grammar_util_build_char [])]), (V.cls .root .transform [(V.cls .root .token [(V.cls .root .foldr1 [(V.cls .root .one_of (fill .one_of [(V.cls .root .one_of (fill .one_of [(V.cls .root .accept_when [(V.cls .root .one_char []), (V.cls .root .util_is_letter [(V.cls .root .mpl_na [])]), (V.cls .root .error_letter_expected [])]), (V.cls .root .accept_when [(V.cls .root .change_error_message [(V.cls .root .one_char []), (V.cls .root .error_digit_expected [])]), (V.cls .root .util_is_digit [(V.cls .root .mpl_na [])]), (V.cls .root .error_digit_expected [])])])), (V.cls .root .lit_c [(V.num 95)])])), (V.cls .root .string (fill .string [])), (V.cls .root .impl_front_inserter [])])]), (V.cls .root .grammar_util_build_name [])]), (V.cls .root .middle_of [(V.cls .root .token [(V.cls .root .lit_c [(V.num 40)])]), (V.cls .root .grammar_util_expression []), (V.cls .root .token [(V.cls .root .lit_c [(V.num 41)])])])])), (V.cls .root .grammar_util_build_repeated [])]), (V.cls .root .grammar_util_build_sequence [])])])), (V.cls .root .foldl_start_with_parser [(V.cls .root .foldl_start_with_parser [(V.cls .root .one_of (fill .one_of [(V.cls .root .token [(V.cls .root .lit_c [(V.num 42)])]), (V.cls .root .token [(V.cls .root .lit_c [(V.num 43)])])])), (V.cls .root .one_of (fill .one_of [(V.cls .root .transform [(V.cls .root .middle_of [(V.cls .root .lit_c [(V.num 39)]), (V.cls .root .one_of (fill .one_of [(V.cls .root .last_of (fill .last_of [(V.cls .root .lit_c [(V.num 92)]), (V.cls .root .one_of (fill .one_of [(V.cls .root .always [(V.cls .root .lit_c [(V.num 110)]), (V.cls .root .mpl_char_ [(V.num 10)])]), (V.cls .root .always [(V.cls .root .lit_c [(V.num 114)]), (V.cls .root .mpl_char_ [(V.num 13)])]), (V.cls .root .always [(V.cls .root .lit_c [(V.num 116)]), (V.cls .root .mpl_char_ [(V.num 9)])]), (V.cls .root .lit_c [(V.num 92)]), (V.cls .root .lit_c [(V.num 39)])]))])), (V.cls .root .one_char_except_c (fill .one_char_except_c [(V.num 39)]))])), (V.cls .root .token [(V.cls .root .lit_c [(V.num 39)])])]), (V.cls .root .grammar_util_build_char [])]), (V.cls .root .transform [(V.cls .root .token [(V.cls .root .foldr1 [(V.cls .root .one_of (fill .one_of [(V.cls .root .one_of (fill .one_of [(V.cls .root .accept_when [(V.cls .root .one_char []), (V.cls .root .util_is_letter [(V.cls .root .mpl_na [])]), (V.cls .root .error_letter_expected [])]), (V.cls .root .accept_when [(V.cls .root .change_error_message [(V.cls .root .one_char []), (V.cls .root .error_digit_expected [])]), (V.cls .root .util_is_digit [(V.cls .root .mpl_na [])]), (V.cls .root .error_digit_expected [])])])), (V.cls .root .lit_c [(V.num 95)])])), (V.cls .root .string (fill .string [])), (V.cls .root .impl_front_inserter [])])]), (V.cls .root .grammar_util_build_name [])]), (V.cls .root .middle_of [(V.cls .root .token [(V.cls .root .lit_c [(V.num 40)])]), (V.cls .root .grammar_util_expression []), (V.cls .root .token [(V.cls .root .lit_c [(V.num 41)])])])])), (V.cls .root .grammar_util_build_repeated [])]), (V.cls .root .foldl_start_with_parser [(V.cls .root .one_of (fill .one_of [(V.cls .root .token [(V.cls .root .lit_c [(V.num 42)])]), (V.cls .root .token [(V.cls .root .lit_c [(V.num 43)])])])), (V.cls .root .one_of (fill .one_of [(V.cls .root .transform [(V.cls .root .middle_of [(V.cls .root .lit_c [(V.num 39)]), (V.cls .root .one_of (fill .one_of [(V.cls .root .last_of (fill .last_of [(V.cls .root .lit_c [(V.num 92)]), (V.cls .root .one_of (fill .one_of [(V.cls .root .always [(V.cls .root .lit_c [(V.num 110)]), (V.cls .root .mpl_char_ [(V.num 10)])]), (V.cls .root .always [(V.cls .root .lit_c [(V.num 114)]), (V.cls .root .mpl_char_ [(V.num 13)])]), (V.cls .root .always [(V.cls .root .lit_c [(V.num 116)]), (V.cls .root .mpl_char_ [(V.num 9)])]), (V.cls .root .lit_c [(V.num 92)]), (V.cls .root .lit_c [(V.num 39)])]))])), (V.cls .root .one_char_except_c (fill .one_char_except_c [(V.num 39)]))])), (V.cls .root .token [(V.cls .root .lit_c [(V.num 39)])])]), (V.cls .root .grammar_util_build_char [])]), (V.cls .root .transform [(V.cls .root .token [(V.cls .root .foldr1 [(V.cls .root .one_of (fill .one_of [(V.cls .root .one_of (fill .one_of [(V.cls .root .accept_when [(V.cls .root .one_char []), (V.cls .root .util_is_letter [(V.cls .root .mpl_na [])]), (V.cls .root .error_letter_expected [])]), (V.cls .root .accept_when [(V.cls .root .change_error_message [(V.cls .root .one_char []), (V.cls .root .error_digit_expected [])]), (V.cls .root .util_is_digit [(V.cls .root .mpl_na [])]), (V.cls .root .error_digit_expected [])])])), (V.cls .root .lit_c [(V.num 95)])])), (V.cls .root .string (fill .string [])), (V.cls .root .impl_front_inserter [])])]), (V.cls .root .grammar_util_build_name [])]), (V.cls .root .middle_of [(V.cls .root .token [(V.cls .root .lit_c [(V.num 40)])]), (V.cls .root .grammar_util_expression []), (V.cls .root .token [(V.cls .root .lit_c [(V.num 41)])])])])), (V.cls .root .grammar_util_build_repeated [])]), (V.cls .root .grammar_util_build_sequence [])]), (V.cls .root .grammar_util_build_selection [])])).bind fun b1 =>
    Out.ok b1 := by
  apply Eq.trans (b := _)
  apply body_of
  apply resolve_top
  refine choose_here rfl
  · intro k hk; cases hk
  body_simp

theorem body_grammar_util_build_native_parser {vP : V} :
    instantiate U h (V.cls .root .grammar_util_build_native_parser [vP]) =
    Out.ok ([(.type, .ty (V.cls .root .grammar_util_build_native_parser [vP])), (.apply, .tmpl (V.cls .root .grammar_util_build_native_parser [vP]))]) := by
  apply Eq.trans (b := _)
  apply body_of
  apply resolve_top
  refine choose_here rfl
  · intro k hk; cases hk
  body_simp

theorem body_grammar_util_build_native_parser_apply {vP vG : V} :
    instantiate U h (V.cls (V.cls .root .grammar_util_build_native_parser [vP]) .apply [vG]) =
    Out.ok ([(.type, .ty vP)]) := by
  apply Eq.trans (b := _)
  apply body_of
  apply resolve_in
  apply resolve_top
  refine choose_here rfl
  refine choose_here rfl
  · intro k hk; cases hk
  body_simp

theorem body_grammar_util_build_parsed_parser {vS : V} :
    instantiate U h (V.cls .root .grammar_util_build_parsed_parser [vS]) =
    (owner h (V.cls .root .build_parser [(V.cls .root .entire_input [(V.cls .root .sequence (fill .sequence [(V.cls .root .token [(V.cls .root .foldr1 [(V.cls .root .one_of (fill .one_of [(V.cls .root .one_of (fill .one_of [(V.cls .root .accept_when [(V.cls .root .one_char []), (V.cls .root .util_is_letter [(V.cls .root .mpl_na [])]), (V.cls .root .error_letter_expected [])]), (V.cls .root .accept_when [(V.cls .root .change_error_message [(V.cls .root .one_char []), (V.cls .root .error_digit_expected [])]), (V.cls .root .util_is_digit [(V.cls .root .mpl_na [])]), (V.cls .root .error_digit_expected [])])])), (V.cls .root .lit_c [(V.num 95)])])), (V.cls .root .string (fill .string [])), (V.cls .root .impl_front_inserter [])])]), (V.cls .root .token [(V.cls .root .keyword [(V.cls .root .string (fill .string [(V.num 58), (V.num 58), (V.num 61)])), (V.cls .root .impl_void_ [])])]), (V.cls .root .grammar_util_expression [])])), (V.cls .root .error_end_of_input_expected [])])]) .apply).bind fun o1 =>
    (get h (V.cls o1 .apply [vS]) .type).bind fun x2 =>
    (get h (V.cls .root .mpl_front [x2]) .type).bind fun x3 =>
    (get h (V.cls .root .mpl_back [x2]) .type).bind fun x4 =>
    Out.ok ([(.p, .ty x2), (.name, .ty x3), (.exp, .ty x4), (.the_parser, .tmpl (V.cls .root .grammar_util_build_parsed_parser [vS])), (.type, .ty (V.cls .root .mpl_pair [x3, (V.cls (V.cls .root .grammar_util_build_parsed_parser [vS]) .the_parser [])]))]) := by
  apply Eq.trans (b := _)
  apply body_of
  apply resolve_top
  refine choose_here rfl
  · intro k hk; cases hk
  body_simp

theorem body_grammar_util_build_parsed_parser_the_parser {vS : V} :
    instantiate U h (V.cls (V.cls .root .grammar_util_build_parsed_parser [vS]) .the_parser []) =
    Out.ok ([(.type, .ty (V.cls (V.cls .root .grammar_util_build_parsed_parser [vS]) .the_parser [])), (.apply, .tmpl (V.cls (V.cls .root .grammar_util_build_parsed_parser [vS]) .the_parser []))]) := by
  apply Eq.trans (b := _)
  apply body_of
  apply resolve_in
  apply resolve_top
  refine choose_here rfl
  refine choose_here rfl
  · intro k hk; cases hk
  body_simp

theorem body_grammar_util_build_parsed_parser_the_parser_apply {vS vG : V} :
    instantiate U h (V.cls (V.cls (V.cls .root .grammar_util_build_parsed_parser [vS]) .the_parser []) .apply [vG]) =
    (owner h (V.cls .root .build_parser [(V.cls .root .entire_input [(V.cls .root .sequence (fill .sequence [(V.cls .root .token [(V.cls .root .foldr1 [(V.cls .root .one_of (fill .one_of [(V.cls .root .one_of (fill .one_of [(V.cls .root .accept_when [(V.cls .root .one_char []), (V.cls .root .util_is_letter [(V.cls .root .mpl_na [])]), (V.cls .root .error_letter_expected [])]), (V.cls .root .accept_when [(V.cls .root .change_error_message [(V.cls .root .one_char []), (V.cls .root .error_digit_expected [])]), (V.cls .root .util_is_digit [(V.cls .root .mpl_na [])]), (V.cls .root .error_digit_expected [])])])), (V.cls .root .lit_c [(V.num 95)])])), (V.cls .root .string (fill .string [])), (V.cls .root .impl_front_inserter [])])]), (V.cls .root .token [(V.cls .root .keyword [(V.cls .root .string (fill .string [(V.num 58), (V.num 58), (V.num 61)])), (V.cls .root .impl_void_ [])])]), (V.cls .root .grammar_util_expression [])])), (V.cls .root .error_end_of_input_expected [])])]) .apply).bind fun o1 =>
    (get h (V.cls o1 .apply [vS]) .type).bind fun x2 =>
    (get h (V.cls .root .mpl_back [x2]) .type).bind fun x3 =>
    (owner h x3 .apply).bind fun o4 =>
    (h (V.cls o4 .apply [vG])).bind fun b5 =>
    Out.ok b5 := by
  apply Eq.trans (b := _)
  apply body_of
  apply resolve_in
  apply resolve_in
  apply resolve_top
  refine choose_here rfl
  refine choose_here rfl
  refine choose_here rfl
  · intro k hk; cases hk
  body_simp

theorem body_grammar_util_rebuild {vS : V} :
    instantiate U h (V.cls .root .grammar_util_rebuild [vS]) =
    (owner h (V.cls .root .build_parser [(V.cls .root .token [(V.cls .root .foldr1 [(V.cls .root .one_of (fill .one_of [(V.cls .root .one_of (fill .one_of [(V.cls .root .accept_when [(V.cls .root .one_char []), (V.cls .root .util_is_letter [(V.cls .root .mpl_na [])]), (V.cls .root .error_letter_expected [])]), (V.cls .root .accept_when [(V.cls .root .change_error_message [(V.cls .root .one_char []), (V.cls .root .error_digit_expected [])]), (V.cls .root .util_is_digit [(V.cls .root .mpl_na [])]), (V.cls .root .error_digit_expected [])])])), (V.cls .root .lit_c [(V.num 95)])])), (V.cls .root .string (fill .string [])), (V.cls .root .impl_front_inserter [])])])]) .apply).bind fun o1 =>
    (h (V.cls o1 .apply [vS])).bind fun b2 =>
    Out.ok b2 := by
  apply Eq.trans (b := _)
  apply body_of
  apply resolve_top
  refine choose_here rfl
  · intro k hk; cases hk
  body_simp

theorem body_grammar_util_add_rule_0 {vStart vRules vActions vP : V} :
    instantiate U h (V.cls .root .grammar_util_add_rule [(V.cls .root .grammar_util_grammar_builder [vStart, vRules, vActions]), vP, (V.cls .root .grammar_util_no_action [])]) =
    (get h vP .type).bind fun x1 =>
    (get h (V.cls .root .mpl_insert [vRules, x1]) .type).bind fun x2 =>
    (h (V.cls .root .grammar_util_grammar_builder [vStart, x2, vActions])).bind fun b3 =>
    Out.ok b3 := by
  apply Eq.trans (b := _)
  apply body_of
  apply resolve_top
  refine choose_here rfl
  · intro k hk; cases hk
  body_simp

theorem body_grammar_util_add_rule_1 {vStart vRules vActions vP vF : V}
    (hgrammar_util_add_rule0 : Pat.fits [.cls .grammar_util_grammar_builder [.var .Start, .var .Rules, .var .Actions], .var .P, .cls .grammar_util_no_action []] [(V.cls .root .grammar_util_grammar_builder [vStart, vRules, vActions]), vP, vF] [] = none) :
    instantiate U h (V.cls .root .grammar_util_add_rule [(V.cls .root .grammar_util_grammar_builder [vStart, vRules, vActions]), vP, vF]) =
    (get h vP .type).bind fun x1 =>
    (get h (V.cls .root .mpl_insert [vRules, x1]) .type).bind fun x2 =>
    (get h vP .name).bind fun x3 =>
    (get h (V.cls .root .mpl_lambda [vF]) .type).bind fun x4 =>
    (get h (V.cls .root .mpl_insert [vActions, (V.cls .root .mpl_pair [x3, x4])]) .type).bind fun x5 =>
    (h (V.cls .root .grammar_util_grammar_builder [vStart, x2, x5])).bind fun b6 =>
    Out.ok b6 := by
  apply Eq.trans (b := _)
  apply body_of
  apply resolve_top
  apply choose_next
  · exact hgrammar_util_add_rule0
  refine choose_here rfl
  · intro k hk; cases hk
  body_simp

theorem body_grammar_util_add_import {vStart vRules vActions vName vP : V} :
    instantiate U h (V.cls .root .grammar_util_add_import [(V.cls .root .grammar_util_grammar_builder [vStart, vRules, vActions]), vName, vP]) =
    (get h (V.cls .root .mpl_insert [vRules, (V.cls .root .mpl_pair [vName, (V.cls .root .grammar_util_build_native_parser [vP])])]) .type).bind fun x1 =>
    (h (V.cls .root .grammar_util_grammar_builder [vStart, x1, vActions])).bind fun b2 =>
    Out.ok b2 := by
  apply Eq.trans (b := _)
  apply body_of
  apply resolve_top
  refine choose_here rfl
  · intro k hk; cases hk
  body_simp

theorem body_grammar_util_grammar_builder {vStart vRules vActions : V} :
    instantiate U h (V.cls .root .grammar_util_grammar_builder [vStart, vRules, vActions]) =
    Out.ok ([(.type, .ty (V.cls .root .grammar_util_grammar_builder [vStart, vRules, vActions])), (.rules, .ty vRules), (.actions, .ty vActions), (.apply, .tmpl (V.cls .root .grammar_util_grammar_builder [vStart, vRules, vActions])), (.import_, .tmpl (V.cls .root .grammar_util_grammar_builder [vStart, vRules, vActions])), (.rule, .tmpl (V.cls .root .grammar_util_grammar_builder [vStart, vRules, vActions]))]) := by
  apply Eq.trans (b := _)
  apply body_of
  apply resolve_top
  refine choose_here rfl
  · intro k hk; cases hk
  body_simp

theorem body_grammar_util_grammar_builder_apply {vStart vRules vActions vS vPos : V} :
    instantiate U h (V.cls (V.cls .root .grammar_util_grammar_builder [vStart, vRules, vActions]) .apply [vS, vPos]) =
    (get h (V.cls .root .grammar_util_rebuild [vStart]) .type).bind fun x1 =>
    (get h (V.cls .root .grammar_util_get_parser [(V.cls .root .grammar_util_grammar_builder [vStart, vRules, vActions]), x1]) .type).bind fun x2 =>
    (owner h x2 .apply).bind fun o3 =>
    (h (V.cls o3 .apply [vS, vPos])).bind fun b4 =>
    Out.ok b4 := by
  apply Eq.trans (b := _)
  apply body_of
  apply resolve_in
  apply resolve_top
  refine choose_here rfl
  refine choose_here rfl
  · intro k hk; cases hk
  body_simp

theorem body_grammar_util_grammar_builder_import {vStart vRules vActions vName vP : V} :
    instantiate U h (V.cls (V.cls .root .grammar_util_grammar_builder [vStart, vRules, vActions]) .import_ [vName, vP]) =
    (get h (V.cls .root .grammar_util_rebuild [vName]) .type).bind fun x1 =>
    (h (V.cls .root .grammar_util_add_import [(V.cls .root .grammar_util_grammar_builder [vStart, vRules, vActions]), x1, vP])).bind fun b2 =>
    Out.ok b2 := by
  apply Eq.trans (b := _)
  apply body_of
  apply resolve_in
  apply resolve_top
  refine choose_here rfl
  refine choose_here rfl
  · intro k hk; cases hk
  body_simp

theorem body_grammar_util_grammar_builder_rule {vStart vRules vActions vDef vAction : V} :
    instantiate U h (V.cls (V.cls .root .grammar_util_grammar_builder [vStart, vRules, vActions]) .rule [vDef, vAction]) =
    (h (V.cls .root .grammar_util_add_rule [(V.cls .root .grammar_util_grammar_builder [vStart, vRules, vActions]), (V.cls .root .grammar_util_build_parsed_parser [vDef]), vAction])).bind fun b1 =>
    Out.ok b1 := by
  apply Eq.trans (b := _)
  apply body_of
  apply resolve_in
  apply resolve_top
  refine choose_here rfl
  refine choose_here rfl
  · intro k hk; cases hk
  body_simp

theorem body_grammar {vStart : V} :
    instantiate U h (V.cls .root .grammar [vStart]) =
    (h (V.cls .root .grammar_util_grammar_builder [vStart, (V.cls .root .mpl_map []), (V.cls .root .mpl_map [])])).bind fun b1 =>
    Out.ok b1 := by
  apply Eq.trans (b := _)
  apply body_of
  apply resolve_top
  refine choose_here rfl
  · intro k hk; cases hk
  body_simp

end

/-! ## C++11 -/

section

attribute [local instance] cpp11

theorem body_string {vCs : List V} :
    instantiate U h (V.cls .root .string vCs) =
    Out.ok ([(.type, .ty (V.cls .root .string vCs)), (.tag, .ty (V.cls .root .string_tag []))]) := by
  apply Eq.trans (b := _)
  apply body_of
  apply resolve_top
  refine choose_here rfl
  · intro k hk; cases hk
  body_simp

theorem body_mpl_c_str_0 :
    instantiate U h (V.cls .root .mpl_c_str [(V.cls .root .string [])]) =
    (h (V.cls .root .impl_empty_string [(V.cls .root .t_int [])])).bind fun b1 =>
    Out.ok b1 := by
  apply Eq.trans (b := _)
  apply body_of
  apply resolve_top
  refine choose_here rfl
  · intro k hk; cases hk
  body_simp

theorem body_mpl_c_str_1 {vCs : List V}
    (hmpl_c_str0 : Pat.fits [.cls .string []] [(V.cls .root .string vCs)] [] = none) :
    instantiate U h (V.cls .root .mpl_c_str [(V.cls .root .string vCs)]) =
    Out.ok ([(.type, .ty (V.cls .root .mpl_c_str [(V.cls .root .string vCs)]))]) := by
  apply Eq.trans (b := _)
  apply body_of
  apply resolve_top
  apply choose_next
  · exact hmpl_c_str0
  refine choose_here rfl
  · intro k hk; cases hk
  body_simp

theorem body_impl_at_c_0 {vC : V} {vCs : List V} :
    instantiate U h (V.cls .root .impl_at_c [(V.cls .root .string (vC :: vCs)), (V.num 0)]) =
    (h (V.cls .root .mpl_char_ [vC])).bind fun b1 =>
    Out.ok b1 := by
  apply Eq.trans (b := _)
  apply body_of
  apply resolve_top
  refine choose_here rfl
  · intro k hk; cases hk
  body_simp

theorem body_impl_at_c_1 {vC vN : V} {vCs : List V}
    (himpl_at_c0 : Pat.fits [.cls .string [.var .C, .pack .Cs], .num 0] [(V.cls .root .string (vC :: vCs)), vN] [] = none) :
    instantiate U h (V.cls .root .impl_at_c [(V.cls .root .string (vC :: vCs)), vN]) =
    (Op.ev .sub vN (V.num 1)).bind fun x1 =>
    (h (V.cls .root .impl_at_c [(V.cls .root .string vCs), x1])).bind fun b2 =>
    Out.ok b2 := by
  apply Eq.trans (b := _)
  apply body_of
  apply resolve_top
  apply choose_next
  · exact himpl_at_c0
  refine choose_here rfl
  · intro k hk; cases hk
  body_simp

theorem body_impl_size {vCs : List V} :
    instantiate U h (V.cls .root .impl_size [(V.cls .root .string vCs)]) =
    (h (V.cls .root .mpl_int_ [(V.num (vCs.length : Int))])).bind fun b1 =>
    Out.ok b1 := by
  apply Eq.trans (b := _)
  apply body_of
  apply resolve_top
  refine choose_here rfl
  · intro k hk; cases hk
  body_simp

theorem body_impl_pop_front {vC : V} {vCs : List V} :
    instantiate U h (V.cls .root .impl_pop_front [(V.cls .root .string (vC :: vCs))]) =
    (h (V.cls .root .string vCs)).bind fun b1 =>
    Out.ok b1 := by
  apply Eq.trans (b := _)
  apply body_of
  apply resolve_top
  refine choose_here rfl
  · intro k hk; cases hk
  body_simp

theorem body_impl_push_front_c {vC : V} {vCs : List V} :
    instantiate U h (V.cls .root .impl_push_front_c [(V.cls .root .string vCs), vC]) =
    (h (V.cls .root .string (vC :: vCs))).bind fun b1 =>
    Out.ok b1 := by
  apply Eq.trans (b := _)
  apply body_of
  apply resolve_top
  refine choose_here rfl
  · intro k hk; cases hk
  body_simp

theorem body_impl_push_back_c {vC : V} {vCs : List V} :
    instantiate U h (V.cls .root .impl_push_back_c [(V.cls .root .string vCs), vC]) =
    (h (V.cls .root .string (vCs ++ [vC]))).bind fun b1 =>
    Out.ok b1 := by
  apply Eq.trans (b := _)
  apply body_of
  apply resolve_top
  refine choose_here rfl
  · intro k hk; cases hk
  body_simp

theorem body_impl_concat {vAs vBs : List V} :
    instantiate U h (V.cls .root .impl_concat [(V.cls .root .string vAs), (V.cls .root .string vBs)]) =
    (h (V.cls .root .string (vAs ++ vBs))).bind fun b1 =>
    Out.ok b1 := by
  apply Eq.trans (b := _)
  apply body_of
  apply resolve_top
  refine choose_here rfl
  · intro k hk; cases hk
  body_simp

theorem body_impl_pop_back_0 {vC : V} :
    instantiate U h (V.cls .root .impl_pop_back [(V.cls .root .string [vC])]) =
    (h (V.cls .root .mpl_clear [(V.cls .root .string [vC])])).bind fun b1 =>
    Out.ok b1 := by
  apply Eq.trans (b := _)
  apply body_of
  apply resolve_top
  refine choose_here rfl
  · intro k hk; cases hk
  body_simp

theorem body_impl_pop_back_1 {vC : V} {vCs : List V}
    (himpl_pop_back0 : Pat.fits [.cls .string [.var .C]] [(V.cls .root .string (vC :: vCs))] [] = none) :
    instantiate U h (V.cls .root .impl_pop_back [(V.cls .root .string (vC :: vCs))]) =
    (get h (V.cls .root .impl_pop_back [(V.cls .root .string vCs)]) .type).bind fun x1 =>
    (h (V.cls .root .impl_push_front_c [x1, vC])).bind fun b2 =>
    Out.ok b2 := by
  apply Eq.trans (b := _)
  apply body_of
  apply resolve_top
  apply choose_next
  · exact himpl_pop_back0
  refine choose_here rfl
  · intro k hk; cases hk
  body_simp

theorem body_impl_or_c_0 :
    instantiate U h (V.cls .root .impl_or_c []) =
    (h (V.cls .root .mpl_bool_ [(V.num 0)])).bind fun b1 =>
    Out.ok b1 := by
  apply Eq.trans (b := _)
  apply body_of
  apply resolve_top
  refine choose_here rfl
  · intro k hk; cases hk
  body_simp

theorem body_impl_or_c_1 {vBs : List V} :
    instantiate U h (V.cls .root .impl_or_c ((V.num 1) :: vBs)) =
    (h (V.cls .root .mpl_bool_ [(V.num 1)])).bind fun b1 =>
    Out.ok b1 := by
  apply Eq.trans (b := _)
  apply body_of
  apply resolve_top
  apply choose_next
  · exact rfl
  refine choose_here rfl
  · intro k hk; cases hk
  body_simp

theorem body_impl_or_c_2 {vBs : List V} :
    instantiate U h (V.cls .root .impl_or_c ((V.num 0) :: vBs)) =
    (h (V.cls .root .impl_or_c vBs)).bind fun b1 =>
    Out.ok b1 := by
  apply Eq.trans (b := _)
  apply body_of
  apply resolve_top
  apply choose_next
  · exact rfl
  apply choose_next
  · exact rfl
  refine choose_here rfl
  · intro k hk; cases hk
  body_simp

theorem body_impl_any_of_c {vCs : List V} :
    instantiate U h (V.cls .root .impl_any_of_c vCs) =
    Out.ok ([(.type, .ty (V.cls .root .impl_any_of_c vCs)), (.apply, .tmpl (V.cls .root .impl_any_of_c vCs))]) := by
  apply Eq.trans (b := _)
  apply body_of
  apply resolve_top
  refine choose_here rfl
  · intro k hk; cases hk
  body_simp

theorem body_impl_any_of_c_apply {vChr : V} {vCs : List V} :
    instantiate U h (V.cls (V.cls .root .impl_any_of_c vCs) .apply [vChr]) =
    (mapOut (fun y1 => (get h vChr .type).bind fun x3 =>
    (get h x3 .value).bind fun x4 =>
    (Op.ev .eq x4 y1).bind fun x5 =>
    Out.ok x5) vCs).bind fun xs2 =>
    (h (V.cls .root .impl_or_c xs2)).bind fun b6 =>
    Out.ok b6 := by
  apply Eq.trans (b := _)
  apply body_of
  apply resolve_in
  apply resolve_top
  refine choose_here rfl
  refine choose_here rfl
  · intro k hk; cases hk
  body_simp

theorem body_impl_is_none_c_impl_0 {vD : V} :
    instantiate U h (V.cls .root .impl_is_none_c_impl [vD]) =
    (h (V.cls .root .mpl_bool_ [(V.num 1)])).bind fun b1 =>
    Out.ok b1 := by
  apply Eq.trans (b := _)
  apply body_of
  apply resolve_top
  refine choose_here rfl
  · intro k hk; cases hk
  body_simp

theorem body_impl_is_none_c_impl_1 {vD : V} {vCs : List V} :
    instantiate U h (V.cls .root .impl_is_none_c_impl (vD :: vD :: vCs)) =
    (h (V.cls .root .mpl_bool_ [(V.num 0)])).bind fun b1 =>
    Out.ok b1 := by
  apply Eq.trans (b := _)
  apply body_of
  apply resolve_top
  apply choose_next
  · exact rfl
  refine choose_here fits_dup_impl_is_none_c_impl_1
  · intro k hk; cases hk
  body_simp

theorem body_impl_is_none_c_impl_2 {vD vC : V} {vCs : List V}
    (himpl_is_none_c_impl1 : Pat.fits [.var .D, .var .D, .pack .Cs] (vD :: vC :: vCs) [] = none) :
    instantiate U h (V.cls .root .impl_is_none_c_impl (vD :: vC :: vCs)) =
    (h (V.cls .root .impl_is_none_c_impl (vD :: vCs))).bind fun b1 =>
    Out.ok b1 := by
  apply Eq.trans (b := _)
  apply body_of
  apply resolve_top
  apply choose_next
  · exact rfl
  apply choose_next
  · exact himpl_is_none_c_impl1
  refine choose_here rfl
  · intro k hk; cases hk
  body_simp

theorem body_impl_is_none_c {vCs : List V} :
    instantiate U h (V.cls .root .impl_is_none_c vCs) =
    Out.ok ([(.type, .ty (V.cls .root .impl_is_none_c vCs)), (.apply, .tmpl (V.cls .root .impl_is_none_c vCs))]) := by
  apply Eq.trans (b := _)
  apply body_of
  apply resolve_top
  refine choose_here rfl
  · intro k hk; cases hk
  body_simp

theorem body_impl_is_none_c_apply {vC : V} {vCs : List V} :
    instantiate U h (V.cls (V.cls .root .impl_is_none_c vCs) .apply [vC]) =
    (get h vC .type).bind fun x1 =>
    (get h x1 .value).bind fun x2 =>
    (h (V.cls .root .impl_is_none_c_impl (x2 :: vCs))).bind fun b3 =>
    Out.ok b3 := by
  apply Eq.trans (b := _)
  apply body_of
  apply resolve_in
  apply resolve_top
  refine choose_here rfl
  refine choose_here rfl
  · intro k hk; cases hk
  body_simp

theorem body_impl_push_front_result {vValue : V} :
    instantiate U h (V.cls .root .impl_push_front_result [vValue]) =
    Out.ok ([(.type, .ty (V.cls .root .impl_push_front_result [vValue])), (.apply, .tmpl (V.cls .root .impl_push_front_result [vValue]))]) := by
  apply Eq.trans (b := _)
  apply body_of
  apply resolve_top
  refine choose_here rfl
  · intro k hk; cases hk
  body_simp

theorem body_impl_push_front_result_apply {vValue vSeq : V} :
    instantiate U h (V.cls (V.cls .root .impl_push_front_result [vValue]) .apply [vSeq]) =
    (get h (V.cls .root .get_result [vValue]) .type).bind fun x1 =>
    (h (V.cls .root .mpl_push_front [vSeq, x1])).bind fun b2 =>
    Out.ok b2 := by
  apply Eq.trans (b := _)
  apply body_of
  apply resolve_in
  apply resolve_top
  refine choose_here rfl
  refine choose_here rfl
  · intro k hk; cases hk
  body_simp

theorem body_impl_eval_later_result {vR1 vR2 : V} :
    instantiate U h (V.cls .root .impl_eval_later_result [vR1, vR2]) =
    (get h (V.cls .root .get_position [vR2]) .type).bind fun x1 =>
    (get h (V.cls .root .get_position [vR1]) .type).bind fun x2 =>
    (get h (V.cls .root .mpl_less [x1, x2]) .type).bind fun x3 =>
    (h (V.cls .root .mpl_eval_if [x3, vR1, vR2])).bind fun b4 =>
    Out.ok b4 := by
  apply Eq.trans (b := _)
  apply body_of
  apply resolve_top
  refine choose_here rfl
  · intro k hk; cases hk
  body_simp

theorem body_sequence_0 :
    instantiate U h (V.cls .root .sequence []) =
    (h (V.cls .root .return_ [(V.cls .root .mpl_vector [])])).bind fun b1 =>
    Out.ok b1 := by
  apply Eq.trans (b := _)
  apply body_of
  apply resolve_top
  refine choose_here rfl
  · intro k hk; cases hk
  body_simp

theorem body_sequence_1 {vP : V} {vPs : List V} :
    instantiate U h (V.cls .root .sequence (vP :: vPs)) =
    Out.ok ([(.apply_unchecked, .tmpl (V.cls .root .sequence (vP :: vPs))), (.type, .ty (V.cls .root .sequence (vP :: vPs))), (.apply, .tmpl (V.cls .root .sequence (vP :: vPs)))]) := by
  apply Eq.trans (b := _)
  apply body_of
  apply resolve_top
  apply choose_next
  · exact rfl
  refine choose_here rfl
  · intro k hk; cases hk
  body_simp

theorem body_sequence_1_apply_unchecked {vP vRes : V} {vPs : List V} :
    instantiate U h (V.cls (V.cls .root .sequence (vP :: vPs)) .apply_unchecked [vRes]) =
    (owner h (V.cls .root .transform [(V.cls .root .sequence vPs), (V.cls .root .impl_push_front_result [vRes])]) .apply).bind fun o1 =>
    (get h (V.cls .root .get_remaining [vRes]) .type).bind fun x2 =>
    (get h (V.cls .root .get_position [vRes]) .type).bind fun x3 =>
    (h (V.cls o1 .apply [x2, x3])).bind fun b4 =>
    Out.ok b4 := by
  apply Eq.trans (b := _)
  apply body_of
  apply resolve_in
  apply resolve_top
  apply choose_next
  · exact rfl
  refine choose_here rfl
  refine choose_here rfl
  · intro k hk; cases hk
  body_simp

theorem body_sequence_1_apply {vP vS vPos : V} {vPs : List V} :
    instantiate U h (V.cls (V.cls .root .sequence (vP :: vPs)) .apply [vS, vPos]) =
    (owner h vP .apply).bind fun o1 =>
    (get h (V.cls .root .is_error [(V.cls o1 .apply [vS, vPos])]) .type).bind fun x2 =>
    (owner h vP .apply).bind fun o3 =>
    (owner h vP .apply).bind fun o4 =>
    (h (V.cls .root .mpl_eval_if [x2, (V.cls o3 .apply [vS, vPos]), (V.cls (V.cls .root .sequence (vP :: vPs)) .apply_unchecked [(V.cls o4 .apply [vS, vPos])])])).bind fun b5 =>
    Out.ok b5 := by
  apply Eq.trans (b := _)
  apply body_of
  apply resolve_in
  apply resolve_top
  apply choose_next
  · exact rfl
  refine choose_here rfl
  refine choose_here rfl
  · intro k hk; cases hk
  body_simp

theorem body_one_of_0 {vP : V} {vPs : List V} :
    instantiate U h (V.cls .root .one_of (vP :: vPs)) =
    Out.ok ([(.type, .ty (V.cls .root .one_of (vP :: vPs))), (.apply, .tmpl (V.cls .root .one_of (vP :: vPs)))]) := by
  apply Eq.trans (b := _)
  apply body_of
  apply resolve_top
  refine choose_here rfl
  · intro k hk; cases hk
  body_simp

theorem body_one_of_0_apply {vP vS vPos : V} {vPs : List V} :
    instantiate U h (V.cls (V.cls .root .one_of (vP :: vPs)) .apply [vS, vPos]) =
    (owner h vP .apply).bind fun o1 =>
    (get h (V.cls .root .is_error [(V.cls o1 .apply [vS, vPos])]) .type).bind fun x2 =>
    (owner h (V.cls .root .one_of vPs) .apply).bind fun o3 =>
    (get h (V.cls .root .is_error [(V.cls o3 .apply [vS, vPos])]) .type).bind fun x4 =>
    (owner h vP .apply).bind fun o5 =>
    (owner h (V.cls .root .one_of vPs) .apply).bind fun o6 =>
    (owner h (V.cls .root .one_of vPs) .apply).bind fun o7 =>
    (owner h vP .apply).bind fun o8 =>
    (h (V.cls .root .mpl_eval_if [x2, (V.cls .root .mpl_eval_if [x4, (V.cls .root .impl_eval_later_result [(V.cls o5 .apply [vS, vPos]), (V.cls o6 .apply [vS, vPos])]), (V.cls o7 .apply [vS, vPos])]), (V.cls o8 .apply [vS, vPos])])).bind fun b9 =>
    Out.ok b9 := by
  apply Eq.trans (b := _)
  apply body_of
  apply resolve_in
  apply resolve_top
  refine choose_here rfl
  refine choose_here rfl
  · intro k hk; cases hk
  body_simp

theorem body_one_of_1 :
    instantiate U h (V.cls .root .one_of []) =
    (h (V.cls .root .fail [(V.cls .root .error_none_of_the_expected_cases_found [])])).bind fun b1 =>
    Out.ok b1 := by
  apply Eq.trans (b := _)
  apply body_of
  apply resolve_top
  apply choose_next
  · exact rfl
  refine choose_here rfl
  · intro k hk; cases hk
  body_simp

theorem body_impl_nth_of_c_skip_remaining_0 {vFinalResult vS vPos : V} :
    instantiate U h (V.cls .root .impl_nth_of_c_skip_remaining [vFinalResult, vS, vPos]) =
    (owner h (V.cls .root .return_ [vFinalResult]) .apply).bind fun o1 =>
    (h (V.cls o1 .apply [vS, vPos])).bind fun b2 =>
    Out.ok b2 := by
  apply Eq.trans (b := _)
  apply body_of
  apply resolve_top
  refine choose_here rfl
  · intro k hk; cases hk
  body_simp

theorem body_impl_nth_of_c_skip_remaining_1 {vFinalResult vS vPos vP : V} {vPs : List V} :
    instantiate U h (V.cls .root .impl_nth_of_c_skip_remaining (vFinalResult :: vS :: vPos :: vP :: vPs)) =
    (owner h vP .apply).bind fun o1 =>
    (get h (V.cls .root .is_error [(V.cls o1 .apply [vS, vPos])]) .type).bind fun x2 =>
    (get h x2 .value).bind fun x3 =>
    (owner h vP .apply).bind fun o4 =>
    (owner h vP .apply).bind fun o5 =>
    (get h (V.cls .root .std_conditional [x3, (V.cls o4 .apply [vS, vPos]), (V.cls (V.cls .root .impl_nth_of_c_skip_remaining (vFinalResult :: vS :: vPos :: vP :: vPs)) .apply_unchecked [(V.cls o5 .apply [vS, vPos])])]) .type).bind fun x6 =>
    (get h x6 .type).bind fun x7 =>
    Out.ok ([(.apply_unchecked, .tmpl (V.cls .root .impl_nth_of_c_skip_remaining (vFinalResult :: vS :: vPos :: vP :: vPs))), (.type, .ty x7)]) := by
  apply Eq.trans (b := _)
  apply body_of
  apply resolve_top
  apply choose_next
  · exact rfl
  refine choose_here rfl
  · intro k hk; cases hk
  body_simp

theorem body_impl_nth_of_c_skip_remaining_1_apply_unchecked {vFinalResult vS vPos vP vNextResult : V} {vPs : List V} :
    instantiate U h (V.cls (V.cls .root .impl_nth_of_c_skip_remaining (vFinalResult :: vS :: vPos :: vP :: vPs)) .apply_unchecked [vNextResult]) =
    (get h (V.cls .root .get_remaining [vNextResult]) .type).bind fun x1 =>
    (get h (V.cls .root .get_position [vNextResult]) .type).bind fun x2 =>
    (h (V.cls .root .impl_nth_of_c_skip_remaining (vFinalResult :: x1 :: x2 :: vPs))).bind fun b3 =>
    Out.ok b3 := by
  apply Eq.trans (b := _)
  apply body_of
  apply resolve_in
  apply resolve_top
  apply choose_next
  · exact rfl
  refine choose_here rfl
  refine choose_here rfl
  · intro k hk; cases hk
  body_simp

theorem body_impl_nth_of_c_0 {vS vPos vP : V} {vPs : List V} :
    instantiate U h (V.cls .root .impl_nth_of_c ((V.num 0) :: vS :: vPos :: vP :: vPs)) =
    (owner h vP .apply).bind fun o1 =>
    (get h (V.cls .root .is_error [(V.cls o1 .apply [vS, vPos])]) .type).bind fun x2 =>
    (get h x2 .value).bind fun x3 =>
    (owner h vP .apply).bind fun o4 =>
    (owner h vP .apply).bind fun o5 =>
    (get h (V.cls .root .std_conditional [x3, (V.cls o4 .apply [vS, vPos]), (V.cls (V.cls .root .impl_nth_of_c ((V.num 0) :: vS :: vPos :: vP :: vPs)) .apply_unchecked [(V.cls o5 .apply [vS, vPos])])]) .type).bind fun x6 =>
    (get h x6 .type).bind fun x7 =>
    Out.ok ([(.apply_unchecked, .tmpl (V.cls .root .impl_nth_of_c ((V.num 0) :: vS :: vPos :: vP :: vPs))), (.type, .ty x7)]) := by
  apply Eq.trans (b := _)
  apply body_of
  apply resolve_top
  refine choose_here rfl
  · intro k hk; cases hk
  body_simp

theorem body_impl_nth_of_c_0_apply_unchecked {vS vPos vP vNextResult : V} {vPs : List V} :
    instantiate U h (V.cls (V.cls .root .impl_nth_of_c ((V.num 0) :: vS :: vPos :: vP :: vPs)) .apply_unchecked [vNextResult]) =
    (get h (V.cls .root .get_result [vNextResult]) .type).bind fun x1 =>
    (get h (V.cls .root .get_remaining [vNextResult]) .type).bind fun x2 =>
    (get h (V.cls .root .get_position [vNextResult]) .type).bind fun x3 =>
    (h (V.cls .root .impl_nth_of_c_skip_remaining (x1 :: x2 :: x3 :: vPs))).bind fun b4 =>
    Out.ok b4 := by
  apply Eq.trans (b := _)
  apply body_of
  apply resolve_in
  apply resolve_top
  refine choose_here rfl
  refine choose_here rfl
  · intro k hk; cases hk
  body_simp

theorem body_impl_nth_of_c_1 {vN vS vPos vP : V} {vPs : List V}
    (himpl_nth_of_c0 : Pat.fits [.num 0, .var .S, .var .Pos, .var .P, .pack .Ps] (vN :: vS :: vPos :: vP :: vPs) [] = none) :
    instantiate U h (V.cls .root .impl_nth_of_c (vN :: vS :: vPos :: vP :: vPs)) =
    (owner h vP .apply).bind fun o1 =>
    (get h (V.cls .root .is_error [(V.cls o1 .apply [vS, vPos])]) .type).bind fun x2 =>
    (get h x2 .value).bind fun x3 =>
    (owner h vP .apply).bind fun o4 =>
    (owner h vP .apply).bind fun o5 =>
    (get h (V.cls .root .std_conditional [x3, (V.cls o4 .apply [vS, vPos]), (V.cls (V.cls .root .impl_nth_of_c (vN :: vS :: vPos :: vP :: vPs)) .apply_unchecked [(V.cls o5 .apply [vS, vPos])])]) .type).bind fun x6 =>
    (get h x6 .type).bind fun x7 =>
    Out.ok ([(.apply_unchecked, .tmpl (V.cls .root .impl_nth_of_c (vN :: vS :: vPos :: vP :: vPs))), (.type, .ty x7)]) := by
  apply Eq.trans (b := _)
  apply body_of
  apply resolve_top
  apply choose_next
  · exact himpl_nth_of_c0
  refine choose_here rfl
  · intro k hk; cases hk
  body_simp

theorem body_impl_nth_of_c_1_apply_unchecked {vN vS vPos vP vNextResult : V} {vPs : List V}
    (himpl_nth_of_c0 : Pat.fits [.num 0, .var .S, .var .Pos, .var .P, .pack .Ps] (vN :: vS :: vPos :: vP :: vPs) [] = none) :
    instantiate U h (V.cls (V.cls .root .impl_nth_of_c (vN :: vS :: vPos :: vP :: vPs)) .apply_unchecked [vNextResult]) =
    (Op.ev .sub vN (V.num 1)).bind fun x1 =>
    (get h (V.cls .root .get_remaining [vNextResult]) .type).bind fun x2 =>
    (get h (V.cls .root .get_position [vNextResult]) .type).bind fun x3 =>
    (h (V.cls .root .impl_nth_of_c (x1 :: x2 :: x3 :: vPs))).bind fun b4 =>
    Out.ok b4 := by
  apply Eq.trans (b := _)
  apply body_of
  apply resolve_in
  apply resolve_top
  apply choose_next
  · exact himpl_nth_of_c0
  refine choose_here rfl
  refine choose_here rfl
  · intro k hk; cases hk
  body_simp

theorem body_nth_of_c_0 {vN : V} :
    instantiate U h (V.cls .root .nth_of_c [vN]) =
    (h (V.cls .root .fail [(V.cls .root .error_index_out_of_range [(V.num 0), (V.num (-1)), vN])])).bind fun b1 =>
    Out.ok b1 := by
  apply Eq.trans (b := _)
  apply body_of
  apply resolve_top
  refine choose_here rfl
  · intro k hk; cases hk
  body_simp

theorem body_nth_of_c_1 {vN : V} {vPs : List V}
    (hnth_of_c0 : Pat.fits [.var .N] (vN :: vPs) [] = none) :
    instantiate U h (V.cls .root .nth_of_c (vN :: vPs)) =
    Out.ok ([(.type, .ty (V.cls .root .nth_of_c (vN :: vPs))), (.apply, .tmpl (V.cls .root .nth_of_c (vN :: vPs)))]) := by
  apply Eq.trans (b := _)
  apply body_of
  apply resolve_top
  apply choose_next
  · exact hnth_of_c0
  refine choose_here rfl
  · intro k hk; cases hk
  body_simp

theorem body_nth_of_c_1_apply {vN vS vPos : V} {vPs : List V}
    (hnth_of_c0 : Pat.fits [.var .N] (vN :: vPs) [] = none) :
    instantiate U h (V.cls (V.cls .root .nth_of_c (vN :: vPs)) .apply [vS, vPos]) =
    (Op.ev .le (V.num 0) vN).bind fun x1 =>
    (Op.ev .lt vN (V.num (vPs.length : Int))).bind fun x2 =>
    (Op.ev .and x1 x2).bind fun x3 =>
    (Op.ev .sub (V.num (vPs.length : Int)) (V.num 1)).bind fun x4 =>
    (owner h (V.cls .root .fail [(V.cls .root .error_index_out_of_range [(V.num 0), x4, vN])]) .apply).bind fun o5 =>
    (get h (V.cls .root .std_conditional [x3, (V.cls .root .impl_nth_of_c (vN :: vS :: vPos :: vPs)), (V.cls o5 .apply [vS, vPos])]) .type).bind fun x6 =>
    (h x6).bind fun b7 =>
    Out.ok b7 := by
  apply Eq.trans (b := _)
  apply body_of
  apply resolve_in
  apply resolve_top
  apply choose_next
  · exact hnth_of_c0
  refine choose_here rfl
  refine choose_here rfl
  · intro k hk; cases hk
  body_simp

theorem body_nth_of {vK : V} {vPs : List V} :
    instantiate U h (V.cls .root .nth_of (vK :: vPs)) =
    (get h vK .type).bind fun x1 =>
    (get h x1 .value).bind fun x2 =>
    (h (V.cls .root .nth_of_c (x2 :: vPs))).bind fun b3 =>
    Out.ok b3 := by
  apply Eq.trans (b := _)
  apply body_of
  apply resolve_top
  refine choose_here rfl
  · intro k hk; cases hk
  body_simp

theorem body_first_of_0 :
    instantiate U h (V.cls .root .first_of []) =
    (h (V.cls .root .fail [(V.cls .root .error_index_out_of_range [(V.num 0), (V.num (-1)), (V.num 0)])])).bind fun b1 =>
    Out.ok b1 := by
  apply Eq.trans (b := _)
  apply body_of
  apply resolve_top
  refine choose_here rfl
  · intro k hk; cases hk
  body_simp

theorem body_first_of_1 {vPs : List V}
    (hfirst_of0 : Pat.fits [] vPs [] = none) :
    instantiate U h (V.cls .root .first_of vPs) =
    Out.ok ([(.type, .ty (V.cls .root .first_of vPs)), (.apply, .tmpl (V.cls .root .first_of vPs))]) := by
  apply Eq.trans (b := _)
  apply body_of
  apply resolve_top
  apply choose_next
  · exact hfirst_of0
  refine choose_here rfl
  · intro k hk; cases hk
  body_simp

theorem body_first_of_1_apply {vS vPos : V} {vPs : List V}
    (hfirst_of0 : Pat.fits [] vPs [] = none) :
    instantiate U h (V.cls (V.cls .root .first_of vPs) .apply [vS, vPos]) =
    (h (V.cls .root .impl_nth_of_c ((V.num 0) :: vS :: vPos :: vPs))).bind fun b1 =>
    Out.ok b1 := by
  apply Eq.trans (b := _)
  apply body_of
  apply resolve_in
  apply resolve_top
  apply choose_next
  · exact hfirst_of0
  refine choose_here rfl
  refine choose_here rfl
  · intro k hk; cases hk
  body_simp

theorem body_last_of_0 :
    instantiate U h (V.cls .root .last_of []) =
    (h (V.cls .root .fail [(V.cls .root .error_index_out_of_range [(V.num 0), (V.num (-1)), (V.num 0)])])).bind fun b1 =>
    Out.ok b1 := by
  apply Eq.trans (b := _)
  apply body_of
  apply resolve_top
  refine choose_here rfl
  · intro k hk; cases hk
  body_simp

theorem body_last_of_1 {vPs : List V}
    (hlast_of0 : Pat.fits [] vPs [] = none) :
    instantiate U h (V.cls .root .last_of vPs) =
    Out.ok ([(.type, .ty (V.cls .root .last_of vPs)), (.apply, .tmpl (V.cls .root .last_of vPs))]) := by
  apply Eq.trans (b := _)
  apply body_of
  apply resolve_top
  apply choose_next
  · exact hlast_of0
  refine choose_here rfl
  · intro k hk; cases hk
  body_simp

theorem body_last_of_1_apply {vS vPos : V} {vPs : List V}
    (hlast_of0 : Pat.fits [] vPs [] = none) :
    instantiate U h (V.cls (V.cls .root .last_of vPs) .apply [vS, vPos]) =
    (Op.ev .sub (V.num (vPs.length : Int)) (V.num 1)).bind fun x1 =>
    (h (V.cls .root .impl_nth_of_c (x1 :: vS :: vPos :: vPs))).bind fun b2 =>
    Out.ok b2 := by
  apply Eq.trans (b := _)
  apply body_of
  apply resolve_in
  apply resolve_top
  apply choose_next
  · exact hlast_of0
  refine choose_here rfl
  refine choose_here rfl
  · intro k hk; cases hk
  body_simp

theorem body_one_of_c {vCs : List V} :
    instantiate U h (V.cls .root .one_of_c vCs) =
    (h (V.cls .root .accept_when [(V.cls .root .one_char []), (V.cls .root .impl_any_of_c vCs), (V.cls .root .error_none_of_the_expected_cases_found [])])).bind fun b1 =>
    Out.ok b1 := by
  apply Eq.trans (b := _)
  apply body_of
  apply resolve_top
  refine choose_here rfl
  · intro k hk; cases hk
  body_simp

theorem body_one_char_except_c {vCs : List V} :
    instantiate U h (V.cls .root .one_char_except_c vCs) =
    (h (V.cls .root .accept_when [(V.cls .root .one_char []), (V.cls .root .impl_is_none_c vCs), (V.cls .root .error_unexpected_character [])])).bind fun b1 =>
    Out.ok b1 := by
  apply Eq.trans (b := _)
  apply body_of
  apply resolve_top
  refine choose_here rfl
  · intro k hk; cases hk
  body_simp

theorem body_one_char_except {vCs : List V} :
    instantiate U h (V.cls .root .one_char_except vCs) =
    (mapOut (fun y1 => (get h y1 .type).bind fun x3 =>
    (get h x3 .value).bind fun x4 =>
    Out.ok x4) vCs).bind fun xs2 =>
    (h (V.cls .root .accept_when [(V.cls .root .one_char []), (V.cls .root .impl_is_none_c xs2), (V.cls .root .error_unexpected_character [])])).bind fun b5 =>
    Out.ok b5 := by
  apply Eq.trans (b := _)
  apply body_of
  apply resolve_top
  refine choose_here rfl
  · intro k hk; cases hk
  body_simp

end

/-! ## C++98 -/

theorem body98_impl_push_back_c [L : Lang] {l : Limits} (hL : L.headers = .cpp98 l) {vS vC : V} :
    instantiate U h (V.cls .root .impl_push_back_c [vS, vC]) =
    (get h vS .type).bind fun x1 =>
    (get h vS .type).bind fun x2 =>
    (get h (V.cls .root .impl_size [x2]) .type).bind fun x3 =>
    (get h x3 .value).bind fun x4 =>
    (h (V.cls .root .impl_update_c [x1, x4, vC])).bind fun b5 =>
    Out.ok b5 := by
  obtain ⟨hd⟩ := L
  change hd = _ at hL
  subst hL
  letI := cpp98 l
  apply Eq.trans (b := _)
  apply body_of
  apply resolve_top
  refine choose_here rfl
  · intro k hk; cases hk
  body_simp

theorem body98_impl_pop_back [L : Lang] {l : Limits} (hL : L.headers = .cpp98 l) {vS : V} :
    instantiate U h (V.cls .root .impl_pop_back [vS]) =
    (get h vS .type).bind fun x1 =>
    (get h vS .type).bind fun x2 =>
    (get h (V.cls .root .impl_size [x2]) .type).bind fun x3 =>
    (get h x3 .value).bind fun x4 =>
    (Op.ev .sub x4 (V.num 1)).bind fun x5 =>
    (h (V.cls .root .impl_update_c [x1, x5, (V.num (-1))])).bind fun b6 =>
    Out.ok b6 := by
  obtain ⟨hd⟩ := L
  change hd = _ at hL
  subst hL
  letI := cpp98 l
  apply Eq.trans (b := _)
  apply body_of
  apply resolve_top
  refine choose_here rfl
  · intro k hk; cases hk
  body_simp

theorem body98_impl_apply_parser [L : Lang] {l : Limits} (hL : L.headers = .cpp98 l) :
    instantiate U h (V.cls .root .impl_apply_parser []) =
    Out.ok ([(.do_append, .tmpl (V.cls .root .impl_apply_parser [])), (.apply_unchecked, .tmpl (V.cls .root .impl_apply_parser [])), (.apply, .tmpl (V.cls .root .impl_apply_parser []))]) := by
  obtain ⟨hd⟩ := L
  change hd = _ at hL
  subst hL
  letI := cpp98 l
  apply Eq.trans (b := _)
  apply body_of
  apply resolve_top
  refine choose_here rfl
  · intro k hk; cases hk
  body_simp

theorem body98_impl_apply_parser_do_append [L : Lang] {l : Limits} (hL : L.headers = .cpp98 l) {vListToAppend : V} :
    instantiate U h (V.cls (V.cls .root .impl_apply_parser []) .do_append [vListToAppend]) =
    Out.ok ([(.apply, .tmpl (V.cls (V.cls .root .impl_apply_parser []) .do_append [vListToAppend]))]) := by
  obtain ⟨hd⟩ := L
  change hd = _ at hL
  subst hL
  letI := cpp98 l
  apply Eq.trans (b := _)
  apply body_of
  apply resolve_in
  apply resolve_top
  refine choose_here rfl
  refine choose_here rfl
  · intro k hk; cases hk
  body_simp

theorem body98_impl_apply_parser_do_append_apply [L : Lang] {l : Limits} (hL : L.headers = .cpp98 l) {vListToAppend vItem : V} :
    instantiate U h (V.cls (V.cls (V.cls .root .impl_apply_parser []) .do_append [vListToAppend]) .apply [vItem]) =
    (h (V.cls .root .mpl_push_back [vListToAppend, vItem])).bind fun b1 =>
    Out.ok b1 := by
  obtain ⟨hd⟩ := L
  change hd = _ at hL
  subst hL
  letI := cpp98 l
  apply Eq.trans (b := _)
  apply body_of
  apply resolve_in
  apply resolve_in
  apply resolve_top
  refine choose_here rfl
  refine choose_here rfl
  refine choose_here rfl
  · intro k hk; cases hk
  body_simp

theorem body98_impl_apply_parser_apply_unchecked [L : Lang] {l : Limits} (hL : L.headers = .cpp98 l) {vAccum vS vPos vParser : V} :
    instantiate U h (V.cls (V.cls .root .impl_apply_parser []) .apply_unchecked [vAccum, vS, vPos, vParser]) =
    (get h vAccum .type).bind fun x1 =>
    (owner h (V.cls .root .transform [vParser, (V.cls (V.cls .root .impl_apply_parser []) .do_append [x1])]) .apply).bind fun o2 =>
    (get h vS .type).bind fun x3 =>
    (get h vPos .type).bind fun x4 =>
    (h (V.cls o2 .apply [x3, x4])).bind fun b5 =>
    Out.ok b5 := by
  obtain ⟨hd⟩ := L
  change hd = _ at hL
  subst hL
  letI := cpp98 l
  apply Eq.trans (b := _)
  apply body_of
  apply resolve_in
  apply resolve_top
  refine choose_here rfl
  refine choose_here rfl
  · intro k hk; cases hk
  body_simp

theorem body98_impl_apply_parser_apply [L : Lang] {l : Limits} (hL : L.headers = .cpp98 l) {vState vParser : V} :
    instantiate U h (V.cls (V.cls .root .impl_apply_parser []) .apply [vState, vParser]) =
    (h (V.cls .root .unless_error [vState, (V.cls (V.cls .root .impl_apply_parser []) .apply_unchecked [(V.cls .root .get_result [vState]), (V.cls .root .get_remaining [vState]), (V.cls .root .get_position [vState]), vParser])])).bind fun b1 =>
    Out.ok b1 := by
  obtain ⟨hd⟩ := L
  change hd = _ at hL
  subst hL
  letI := cpp98 l
  apply Eq.trans (b := _)
  apply body_of
  apply resolve_in
  apply resolve_top
  refine choose_here rfl
  refine choose_here rfl
  · intro k hk; cases hk
  body_simp

theorem body98_impl_later_result [L : Lang] {l : Limits} (hL : L.headers = .cpp98 l) {vR1 vR2 : V} :
    instantiate U h (V.cls .root .impl_later_result [vR1, vR2]) =
    (get h (V.cls .root .get_position [vR2]) .type).bind fun x1 =>
    (get h (V.cls .root .get_position [vR1]) .type).bind fun x2 =>
    (get h (V.cls .root .mpl_less [x1, x2]) .type).bind fun x3 =>
    (h (V.cls .root .mpl_if_ [x3, vR1, vR2])).bind fun b4 =>
    Out.ok b4 := by
  obtain ⟨hd⟩ := L
  change hd = _ at hL
  subst hL
  letI := cpp98 l
  apply Eq.trans (b := _)
  apply body_of
  apply resolve_top
  refine choose_here rfl
  · intro k hk; cases hk
  body_simp

theorem body98_impl_skip_seq [L : Lang] {l : Limits} (hL : L.headers = .cpp98 l) :
    instantiate U h (V.cls .root .impl_skip_seq []) =
    Out.ok ([(.change_result, .tmpl (V.cls .root .impl_skip_seq [])), (.apply_unchecked, .tmpl (V.cls .root .impl_skip_seq [])), (.apply, .tmpl (V.cls .root .impl_skip_seq []))]) := by
  obtain ⟨hd⟩ := L
  change hd = _ at hL
  subst hL
  letI := cpp98 l
  apply Eq.trans (b := _)
  apply body_of
  apply resolve_top
  refine choose_here rfl
  · intro k hk; cases hk
  body_simp

theorem body98_impl_skip_seq_change_result [L : Lang] {l : Limits} (hL : L.headers = .cpp98 l) {vParsingResult vNewResultValue : V} :
    instantiate U h (V.cls (V.cls .root .impl_skip_seq []) .change_result [vParsingResult, vNewResultValue]) =
    (get h (V.cls .root .get_remaining [vParsingResult]) .type).bind fun x1 =>
    (get h (V.cls .root .get_position [vParsingResult]) .type).bind fun x2 =>
    (h (V.cls .root .accept [vNewResultValue, x1, x2])).bind fun b3 =>
    Out.ok b3 := by
  obtain ⟨hd⟩ := L
  change hd = _ at hL
  subst hL
  letI := cpp98 l
  apply Eq.trans (b := _)
  apply body_of
  apply resolve_in
  apply resolve_top
  refine choose_here rfl
  refine choose_here rfl
  · intro k hk; cases hk
  body_simp

theorem body98_impl_skip_seq_apply_unchecked [L : Lang] {l : Limits} (hL : L.headers = .cpp98 l) {vResult vP : V} :
    instantiate U h (V.cls (V.cls .root .impl_skip_seq []) .apply_unchecked [vResult, vP]) =
    (owner h vP .apply).bind fun o1 =>
    (get h (V.cls .root .get_remaining [vResult]) .type).bind fun x2 =>
    (get h (V.cls .root .get_position [vResult]) .type).bind fun x3 =>
    (get h (V.cls .root .is_error [(V.cls o1 .apply [x2, x3])]) .type).bind fun x4 =>
    (owner h vP .apply).bind fun o5 =>
    (get h (V.cls .root .get_remaining [vResult]) .type).bind fun x6 =>
    (get h (V.cls .root .get_position [vResult]) .type).bind fun x7 =>
    (owner h vP .apply).bind fun o8 =>
    (get h (V.cls .root .get_remaining [vResult]) .type).bind fun x9 =>
    (get h (V.cls .root .get_position [vResult]) .type).bind fun x10 =>
    (get h (V.cls .root .get_result [vResult]) .type).bind fun x11 =>
    (h (V.cls .root .mpl_eval_if [x4, (V.cls o5 .apply [x6, x7]), (V.cls (V.cls .root .impl_skip_seq []) .change_result [(V.cls o8 .apply [x9, x10]), x11])])).bind fun b12 =>
    Out.ok b12 := by
  obtain ⟨hd⟩ := L
  change hd = _ at hL
  subst hL
  letI := cpp98 l
  apply Eq.trans (b := _)
  apply body_of
  apply resolve_in
  apply resolve_top
  refine choose_here rfl
  refine choose_here rfl
  · intro k hk; cases hk
  body_simp

theorem body98_impl_skip_seq_apply [L : Lang] {l : Limits} (hL : L.headers = .cpp98 l) {vResult vP : V} :
    instantiate U h (V.cls (V.cls .root .impl_skip_seq []) .apply [vResult, vP]) =
    (h (V.cls .root .mpl_eval_if [(V.cls .root .is_error [vResult]), vResult, (V.cls (V.cls .root .impl_skip_seq []) .apply_unchecked [vResult, vP])])).bind fun b1 =>
    Out.ok b1 := by
  obtain ⟨hd⟩ := L
  change hd = _ at hL
  subst hL
  letI := cpp98 l
  apply Eq.trans (b := _)
  apply body_of
  apply resolve_in
  apply resolve_top
  refine choose_here rfl
  refine choose_here rfl
  · intro k hk; cases hk
  body_simp

theorem body98_impl_nth_of_c_impl_0 [L : Lang] {l : Limits} (hL : L.headers = .cpp98 l) {vSeq : V} :
    instantiate U h (V.cls .root .impl_nth_of_c_impl [(V.num 0), vSeq]) =
    Out.ok ([(.type, .ty (V.cls .root .impl_nth_of_c_impl [(V.num 0), vSeq])), (.apply, .tmpl (V.cls .root .impl_nth_of_c_impl [(V.num 0), vSeq]))]) := by
  obtain ⟨hd⟩ := L
  change hd = _ at hL
  subst hL
  letI := cpp98 l
  apply Eq.trans (b := _)
  apply body_of
  apply resolve_top
  refine choose_here rfl
  · intro k hk; cases hk
  body_simp

theorem body98_impl_nth_of_c_impl_0_apply [L : Lang] {l : Limits} (hL : L.headers = .cpp98 l) {vSeq vS vPos : V} :
    instantiate U h (V.cls (V.cls .root .impl_nth_of_c_impl [(V.num 0), vSeq]) .apply [vS, vPos]) =
    (get h (V.cls .root .mpl_pop_front [vSeq]) .type).bind fun x1 =>
    (get h (V.cls .root .mpl_front [vSeq]) .type).bind fun x2 =>
    (owner h x2 .apply).bind fun o3 =>
    (get h (V.cls o3 .apply [vS, vPos]) .type).bind fun x4 =>
    (h (V.cls .root .mpl_fold [x1, x4, (V.cls .root .impl_skip_seq [])])).bind fun b5 =>
    Out.ok b5 := by
  obtain ⟨hd⟩ := L
  change hd = _ at hL
  subst hL
  letI := cpp98 l
  apply Eq.trans (b := _)
  apply body_of
  apply resolve_in
  apply resolve_top
  refine choose_here rfl
  refine choose_here rfl
  · intro k hk; cases hk
  body_simp

theorem body98_impl_nth_of_c_impl_1 [L : Lang] {l : Limits} (hL : L.headers = .cpp98 l) {vN vSeq : V}
    (himpl_nth_of_c_impl0 : Pat.fits [.num 0, .var .Seq] [vN, vSeq] [] = none) :
    instantiate U h (V.cls .root .impl_nth_of_c_impl [vN, vSeq]) =
    Out.ok ([(.apply_unchecked, .tmpl (V.cls .root .impl_nth_of_c_impl [vN, vSeq])), (.type, .ty (V.cls .root .impl_nth_of_c_impl [vN, vSeq])), (.apply, .tmpl (V.cls .root .impl_nth_of_c_impl [vN, vSeq]))]) := by
  obtain ⟨hd⟩ := L
  change hd = _ at hL
  subst hL
  letI := cpp98 l
  apply Eq.trans (b := _)
  apply body_of
  apply resolve_top
  apply choose_next
  · exact himpl_nth_of_c_impl0
  refine choose_here rfl
  · intro k hk; cases hk
  body_simp

theorem body98_impl_nth_of_c_impl_1_apply_unchecked [L : Lang] {l : Limits} (hL : L.headers = .cpp98 l) {vN vSeq vNextResult : V}
    (himpl_nth_of_c_impl0 : Pat.fits [.num 0, .var .Seq] [vN, vSeq] [] = none) :
    instantiate U h (V.cls (V.cls .root .impl_nth_of_c_impl [vN, vSeq]) .apply_unchecked [vNextResult]) =
    (Op.ev .sub vN (V.num 1)).bind fun x1 =>
    (get h (V.cls .root .mpl_pop_front [vSeq]) .type).bind fun x2 =>
    (owner h (V.cls .root .impl_nth_of_c_impl [x1, x2]) .apply).bind fun o3 =>
    (get h (V.cls .root .get_remaining [vNextResult]) .type).bind fun x4 =>
    (get h (V.cls .root .get_position [vNextResult]) .type).bind fun x5 =>
    (h (V.cls o3 .apply [x4, x5])).bind fun b6 =>
    Out.ok b6 := by
  obtain ⟨hd⟩ := L
  change hd = _ at hL
  subst hL
  letI := cpp98 l
  apply Eq.trans (b := _)
  apply body_of
  apply resolve_in
  apply resolve_top
  apply choose_next
  · exact himpl_nth_of_c_impl0
  refine choose_here rfl
  refine choose_here rfl
  · intro k hk; cases hk
  body_simp

theorem body98_impl_nth_of_c_impl_1_apply [L : Lang] {l : Limits} (hL : L.headers = .cpp98 l) {vN vSeq vS vPos : V}
    (himpl_nth_of_c_impl0 : Pat.fits [.num 0, .var .Seq] [vN, vSeq] [] = none) :
    instantiate U h (V.cls (V.cls .root .impl_nth_of_c_impl [vN, vSeq]) .apply [vS, vPos]) =
    (get h (V.cls .root .mpl_front [vSeq]) .type).bind fun x1 =>
    (owner h x1 .apply).bind fun o2 =>
    (get h (V.cls .root .is_error [(V.cls o2 .apply [vS, vPos])]) .type).bind fun x3 =>
    (get h (V.cls .root .mpl_front [vSeq]) .type).bind fun x4 =>
    (owner h x4 .apply).bind fun o5 =>
    (get h (V.cls .root .mpl_front [vSeq]) .type).bind fun x6 =>
    (owner h x6 .apply).bind fun o7 =>
    (h (V.cls .root .mpl_eval_if [x3, (V.cls o5 .apply [vS, vPos]), (V.cls (V.cls .root .impl_nth_of_c_impl [vN, vSeq]) .apply_unchecked [(V.cls o7 .apply [vS, vPos])])])).bind fun b8 =>
    Out.ok b8 := by
  obtain ⟨hd⟩ := L
  change hd = _ at hL
  subst hL
  letI := cpp98 l
  apply Eq.trans (b := _)
  apply body_of
  apply resolve_in
  apply resolve_top
  apply choose_next
  · exact himpl_nth_of_c_impl0
  refine choose_here rfl
  refine choose_here rfl
  · intro k hk; cases hk
  body_simp

theorem body98_impl_one_char_except_not_used [L : Lang] {l : Limits} (hL : L.headers = .cpp98 l) :
    instantiate U h (V.cls .root .impl_one_char_except_not_used []) =
    Out.ok [] := by
  obtain ⟨hd⟩ := L
  change hd = _ at hL
  subst hL
  letI := cpp98 l
  apply Eq.trans (b := _)
  apply body_of
  apply resolve_top
  refine choose_here rfl
  · intro k hk; cases hk
  body_simp

theorem body98_impl_one_of_fwd_op [L : Lang] {l : Limits} (hL : L.headers = .cpp98 l) {vS vPos : V} :
    instantiate U h (V.cls .root .impl_one_of_fwd_op [vS, vPos]) =
    Out.ok ([(.type, .ty (V.cls .root .impl_one_of_fwd_op [vS, vPos])), (.apply, .tmpl (V.cls .root .impl_one_of_fwd_op [vS, vPos]))]) := by
  obtain ⟨hd⟩ := L
  change hd = _ at hL
  subst hL
  letI := cpp98 l
  apply Eq.trans (b := _)
  apply body_of
  apply resolve_top
  refine choose_here rfl
  · intro k hk; cases hk
  body_simp

theorem body98_impl_one_of_fwd_op_apply [L : Lang] {l : Limits} (hL : L.headers = .cpp98 l) {vS vPos vState vP : V} :
    instantiate U h (V.cls (V.cls .root .impl_one_of_fwd_op [vS, vPos]) .apply [vState, vP]) =
    (get h (V.cls .root .is_error [vState]) .type).bind fun x1 =>
    (owner h vP .apply).bind fun o2 =>
    (get h (V.cls .root .is_error [(V.cls o2 .apply [vS, vPos])]) .type).bind fun x3 =>
    (owner h vP .apply).bind fun o4 =>
    (owner h vP .apply).bind fun o5 =>
    (h (V.cls .root .mpl_eval_if [x1, (V.cls .root .mpl_eval_if [x3, (V.cls .root .impl_later_result [vState, (V.cls o4 .apply [vS, vPos])]), (V.cls o5 .apply [vS, vPos])]), vState])).bind fun b6 =>
    Out.ok b6 := by
  obtain ⟨hd⟩ := L
  change hd = _ at hL
  subst hL
  letI := cpp98 l
  apply Eq.trans (b := _)
  apply body_of
  apply resolve_in
  apply resolve_top
  refine choose_here rfl
  refine choose_here rfl
  · intro k hk; cases hk
  body_simp

theorem body98_impl_one_of [L : Lang] {l : Limits} (hL : L.headers = .cpp98 l) {vParsers : V} :
    instantiate U h (V.cls .root .impl_one_of [vParsers]) =
    Out.ok ([(.type, .ty (V.cls .root .impl_one_of [vParsers])), (.apply, .tmpl (V.cls .root .impl_one_of [vParsers]))]) := by
  obtain ⟨hd⟩ := L
  change hd = _ at hL
  subst hL
  letI := cpp98 l
  apply Eq.trans (b := _)
  apply body_of
  apply resolve_top
  refine choose_here rfl
  · intro k hk; cases hk
  body_simp

theorem body98_impl_one_of_apply [L : Lang] {l : Limits} (hL : L.headers = .cpp98 l) {vParsers vS vPos : V} :
    instantiate U h (V.cls (V.cls .root .impl_one_of [vParsers]) .apply [vS, vPos]) =
    (owner h (V.cls .root .fail [(V.cls .root .error_none_of_the_expected_cases_found [])]) .apply).bind fun o1 =>
    (get h (V.cls .root .mpl_fold [vParsers, (V.cls o1 .apply [vS, vPos]), (V.cls .root .impl_one_of_fwd_op [vS, vPos])]) .type).bind fun x2 =>
    (h x2).bind fun b3 =>
    Out.ok b3 := by
  obtain ⟨hd⟩ := L
  change hd = _ at hL
  subst hL
  letI := cpp98 l
  apply Eq.trans (b := _)
  apply body_of
  apply resolve_in
  apply resolve_top
  refine choose_here rfl
  refine choose_here rfl
  · intro k hk; cases hk
  body_simp

theorem body98_impl_sequence_impl [L : Lang] {l : Limits} (hL : L.headers = .cpp98 l) {vPs vS vPos : V} :
    instantiate U h (V.cls .root .impl_sequence_impl [vPs, vS, vPos]) =
    (h (V.cls .root .mpl_fold [vPs, (V.cls .root .accept [(V.cls .root .mpl_vector []), vS, vPos]), (V.cls .root .impl_apply_parser [])])).bind fun b1 =>
    Out.ok b1 := by
  obtain ⟨hd⟩ := L
  change hd = _ at hL
  subst hL
  letI := cpp98 l
  apply Eq.trans (b := _)
  apply body_of
  apply resolve_top
  refine choose_here rfl
  · intro k hk; cases hk
  body_simp

end Metaparse.Tmpl
