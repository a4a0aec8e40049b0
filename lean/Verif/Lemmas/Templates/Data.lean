import Verif.Lemmas.Templates.Bodies
/-!
# Classes of data: constants and positions
-/

set_option linter.unusedVariables false
set_option linter.unusedSimpArgs false

namespace Metaparse.Tmpl

open Metaparse (Val Msg GExp Pos Res P Env)

variable [Lang] {U : User}

theorem get_inst {v : V} {B : Out Members} (hb : instantiate U (inst U) v = B) (x : Id) :
    get (inst U) v x = B.bind fun m => m.ty x := by rw [get, inst_step, hb]

theorem owner_inst {v : V} {B : Out Members} (hb : instantiate U (inst U) v = B) (x : Id) :
    owner (inst U) v x = B.bind fun m => m.tmpl x := by rw [owner, inst_step, hb]

theorem inst_of {v : V} {B : Out Members} (hb : instantiate U (inst U) v = B) : inst U v = B := by
  rw [inst_step, hb]

theorem get_def (h : V → Out Members) (v : V) (x : Id) : (h v).bind (fun m => m.ty x) = get h v x := rfl
theorem owner_def (h : V → Out Members) (v : V) (x : Id) : (h v).bind (fun m => m.tmpl x) = owner h v x := rfl

theorem ty_cons {x y : Id} {m : Member} {l : Members} : Members.ty ((y, m) :: l) x =
    if x = y then (match m with | .ty v => .ok v | .tmpl _ => .ill .noType) else Members.ty l x := by
  by_cases h : x = y
  · cases m <;> simp [Members.ty, find, h]
  · simp [Members.ty, find, h]
theorem tmpl_cons {x y : Id} {m : Member} {l : Members} : Members.tmpl ((y, m) :: l) x =
    if x = y then (match m with | .tmpl v => .ok v | .ty _ => .ill .noType) else Members.tmpl l x := by
  by_cases h : x = y
  · cases m <;> simp [Members.tmpl, find, h]
  · simp [Members.tmpl, find, h]
theorem ty_nil {x : Id} : Members.ty [] x = .ill .noType := rfl
theorem tmpl_nil {x : Id} : Members.tmpl [] x = .ill .noType := rfl

/-- Compute the members of a class, given lemmas about the classes used. -/
macro "dsimp!" "[" ls:Lean.Parser.Tactic.simpLemma,* "]" : tactic =>
  `(tactic| simp only [obind_assoc, obind_ok, Out.bind_ok, ty_cons, tmpl_cons, ty_nil, tmpl_nil, get_def, owner_def, reduceCtorEq, if_true, if_false, $ls,*])

/-- The members of a class that are listed. -/
macro "members" b:term : tactic =>
  `(tactic| (first | rw [get_inst $b] | rw [owner_inst $b]) <;> dsimp! [])

section Constants
variable {a : V}
theorem int_type : get (inst U) (K .mpl_int_ [a]) .type = .ok (K .mpl_int_ [a]) := by members body_mpl_int_
theorem int_value : get (inst U) (K .mpl_int_ [a]) .value = .ok a := by members body_mpl_int_
theorem char_type : get (inst U) (K .mpl_char_ [a]) .type = .ok (K .mpl_char_ [a]) := by members body_mpl_char_
theorem char_value : get (inst U) (K .mpl_char_ [a]) .value = .ok a := by members body_mpl_char_
theorem bool_type : get (inst U) (K .mpl_bool_ [a]) .type = .ok (K .mpl_bool_ [a]) := by members body_mpl_bool_
theorem bool_value : get (inst U) (K .mpl_bool_ [a]) .value = .ok a := by members body_mpl_bool_
end Constants

theorem same_eq {a b : V} : inst U (K .boost_is_same [a, b]) = inst U (K .mpl_bool_ [ofBool (a = b)]) := by
  by_cases h : a = b
  · subst h
    rw [inst_of body_boost_is_same_0]
    simp [obind_ok, ofBool]
  · rw [inst_of (body_boost_is_same_1 (by simp [Pat.fits, Pat.fit, find, h]))]
    simp [obind_ok, ofBool, h]

theorem same_get {a b : V} {x : Id} :
    get (inst U) (K .boost_is_same [a, b]) x = get (inst U) (K .mpl_bool_ [ofBool (a = b)]) x := by
  rw [get, same_eq, get]

/-! ### Positions -/

section Positions
variable {p q : Pos} {a b c : V}

theorem sp_type : get (inst U) (K .source_position [a, b, c]) .type = .ok (K .source_position [a, b, c]) := by
  members body_source_position
theorem sp_tag : get (inst U) (K .source_position [a, b, c]) .tag = .ok (K .source_position_tag []) := by
  members body_source_position
theorem sp_line : get (inst U) (K .source_position [a, b, c]) .line = .ok a := by members body_source_position
theorem sp_col : get (inst U) (K .source_position [a, b, c]) .col = .ok b := by members body_source_position
theorem sp_prev : get (inst U) (K .source_position [a, b, c]) .prev_char = .ok c := by members body_source_position

theorem pos_type : get (inst U) (encPos p) .type = .ok (encPos p) := sp_type
theorem pos_tag : get (inst U) (encPos p) .tag = .ok (K .source_position_tag []) := sp_tag
theorem pos_line : get (inst U) (encPos p) .line = .ok (K .mpl_int_ [.num p.line]) := sp_line
theorem pos_col : get (inst U) (encPos p) .col = .ok (K .mpl_int_ [.num p.col]) := sp_col
theorem pos_prev : get (inst U) (encPos p) .prev_char = .ok (K .mpl_char_ [.num p.prev]) := sp_prev

theorem tag_pos : get (inst U) (K .mpl_tag [encPos p]) .type = .ok (K .source_position_tag []) := by
  rw [get_inst body_mpl_tag]
  dsimp! [pos_tag]

theorem less_inst : inst U (K .mpl_less [encPos p, encPos q]) = inst U (K .mpl_bool_ [ofBool (p.less q)]) := by
  rw [inst_of body_mpl_less]
  dsimp! [tag_pos]
  rw [owner_inst body_mpl_less_impl]
  dsimp! []
  rw [get_inst body_mpl_less_impl_apply]
  dsimp! [pos_type, pos_line, pos_col, pos_prev, int_value, char_value, Op.ev, ofBool, get_def, bool_type]
  congr 3
  simp only [Pos.less]
  rcases Int.lt_trichotomy p.line q.line with h | h | h <;> rcases Int.lt_trichotomy p.col q.col with h' | h' | h' <;>
    by_cases h'' : p.prev < q.prev <;> simp [h, h', h''] <;> grind

theorem equal_inst : inst U (K .mpl_equal_to [encPos p, encPos q]) = inst U (K .mpl_bool_ [ofBool (p.equalTo q)]) := by
  rw [inst_of body_mpl_equal_to]
  dsimp! [tag_pos]
  rw [owner_inst body_mpl_equal_to_impl_0]
  dsimp! []
  rw [get_inst body_mpl_equal_to_impl_0_apply]
  dsimp! [pos_type, pos_line, pos_col, pos_prev, int_value, char_value, Op.ev, ofBool, get_def, bool_type]
  congr 3
  simp only [Pos.equalTo]
  by_cases h : p.line = q.line <;> by_cases h' : p.col = q.col <;> by_cases h'' : p.prev = q.prev <;> simp [h, h', h'']

theorem less_get {x : Id} : get (inst U) (K .mpl_less [encPos p, encPos q]) x =
    get (inst U) (K .mpl_bool_ [ofBool (p.less q)]) x := by rw [get, less_inst, get]
theorem equal_get {x : Id} : get (inst U) (K .mpl_equal_to [encPos p, encPos q]) x =
    get (inst U) (K .mpl_bool_ [ofBool (p.equalTo q)]) x := by rw [get, equal_inst, get]

end Positions

end Metaparse.Tmpl
