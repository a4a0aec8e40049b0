import Verif.Lemmas.Templates.Modes
/-!
# The helper classes of the headers in every mode
-/

set_option linter.unusedVariables false
set_option linter.unusedSimpArgs false
set_option linter.unusedSectionVars false

namespace Metaparse.Tmpl

open Metaparse (Val Msg GExp Pos Res P Env nextPos ch)

variable [Lang] {U : User} {I : Type} [Inputs I] [Lawful U I]

namespace Mode

variable (M : Mode U)

theorem lget {v w : V} {x : Id} (h : get (inst U) v x = .ok w) : M.R (get M.h' v x) (.ok w) :=
  M.trans (M.bind (M.leaf' v) fun m => M.refl _) (M.same (by
    have : (inst U v).bind (fun m => m.ty x) = .ok w := h
    rw [this]; exact Same.rfl' _))

theorem lgetS {v : V} {y : Out V} {x : Id} (h : Same (get (inst U) v x) y) : M.R (get M.h' v x) y :=
  M.trans (M.bind (M.leaf' v) fun m => M.refl _) (M.same h)

theorem lowner {v w : V} {x : Id} (h : owner (inst U) v x = .ok w) : M.R (owner M.h' v x) (.ok w) :=
  M.trans (M.bind (M.leaf' v) fun m => M.refl _) (M.same (by
    have : (inst U v).bind (fun m => m.tmpl x) = .ok w := h
    rw [this]; exact Same.rfl' _))

theorem gstep {v : V} {B : Out Members} {y : Out V} {x : Id} (hb : instantiate U M.h' v = B)
    (H : M.R (B.bind fun m => m.ty x) y) : M.R (get M.h' v x) y :=
  M.trans (M.bind (M.step' v) fun m => M.refl _) (hb ▸ H)

theorem ostep {v : V} {B : Out Members} {y : Out V} {x : Id} (hb : instantiate U M.h' v = B)
    (H : M.R (B.bind fun m => m.tmpl x) y) : M.R (owner M.h' v x) y :=
  M.trans (M.bind (M.step' v) fun m => M.refl _) (hb ▸ H)

theorem istep {v : V} {B : Out Members} {y : Out Members} (hb : instantiate U M.h' v = B)
    (H : M.R B y) : M.R (M.h' v) y := M.trans (M.step' v) (hb ▸ H)

theorem get_of {v w : V} {x : Id} (h : M.R (M.h' v) (M.h' w)) : M.R (get M.h' v x) (get M.h' w x) :=
  M.bind h fun m => M.refl _

theorem owner_of {v w : V} {x : Id} (h : M.R (M.h' v) (M.h' w)) : M.R (owner M.h' v x) (owner M.h' w x) :=
  M.bind h fun m => M.refl _

/-- Continue with another class. -/
theorem via {v w : V} {x : Id} {y : Out V} (h : M.R (M.h' v) (M.h' w)) (H : M.R (get M.h' w x) y) : M.R (get M.h' v x) y :=
  M.trans (M.get_of h) H

theorem viai {v w : V} {x : Id} {y : Out V} (h : M.R (M.h' v) (inst U w)) (H : Same (get (inst U) w x) y) : M.R (get M.h' v x) y :=
  M.trans (M.bind h fun m => M.refl _) (M.same H)

theorem same_inst {v w : V} (h : inst U v = inst U w) : M.R (M.h' v) (inst U w) := h ▸ M.leaf' v

end Mode

open Mode (Bad)

theorem res_cases (x : Out (Res I)) :
    (∃ m p, x = .ok (.rej m p)) ∨ (∃ v s p, x = .ok (.acc v s p)) ∨ ∃ f, x = Bad f := by
  cases x with
  | ok r => cases r with
    | rej m p => exact .inl ⟨m, p, rfl⟩
    | acc v s p => exact .inr (.inl ⟨v, s, p, rfl⟩)
  | ill f => exact .inr (.inr ⟨some f, rfl⟩)
  | deep => exact .inr (.inr ⟨none, rfl⟩)

theorem out_cases {α : Type} (x : Out α) : (∃ a, x = .ok a) ∨ ∃ f, x = Bad f := by
  cases x with
  | ok r => exact .inl ⟨r, rfl⟩
  | ill f => exact .inr ⟨some f, rfl⟩
  | deep => exact .inr ⟨none, rfl⟩

theorem bad_bind {α β : Type} {f : Option Fault} {k : α → Out β} : (Bad f : Out α).bind k = Bad f := by
  cases f <;> rfl

theorem omap_bad {α β : Type} {f : Option Fault} {k : α → β} : omap k (Bad f : Out α) = Bad f := bad_bind

theorem omap_ok {α β : Type} {a : α} {k : α → β} : omap k (.ok a) = .ok (k a) := rfl

theorem apply_fit {o : V} {l : List V} : Pat.fits [.cls .mpl_na []] [.cls o .apply l] [] = none := by
  cases o <;> simp [Pat.fits, Pat.fit]

namespace Mode

variable (M : Mode U) {T o A B x : V} {l : List V} {m : Msg} {p : Pos} {v : Val} {s : I} {f : Option Fault}

theorem tag_of {T t : V} (h : get (inst U) T .tag = .ok t) : M.R (get M.h' (K .mpl_tag [T]) .type) (.ok t) := by
  refine M.gstep body_mpl_tag ?_
  dsimp! []
  exact M.lget h

theorem err_rej' (h : M.R (get M.h' (.cls o .apply l) .type) (.ok (encRes (I := I) (.rej m p)))) :
    M.R (M.h' (K .is_error [.cls o .apply l])) (inst U (K .mpl_bool_ [.num 1])) := by
  refine M.istep (body_is_error_1 apply_fit) ?_
  refine M.bind_ok h (M.bind_ok (M.tag_of rej_tag) ?_)
  refine M.trans (M.bind (M.same_inst same_eq) fun m => M.refl _) ?_
  rw [obind_ok]
  simp [ofBool]
  exact M.refl _

theorem err_acc' (h : M.R (get M.h' (.cls o .apply l) .type) (.ok (encRes (.acc v s p)))) :
    M.R (M.h' (K .is_error [.cls o .apply l])) (inst U (K .mpl_bool_ [.num 0])) := by
  refine M.istep (body_is_error_1 apply_fit) ?_
  refine M.bind_ok h (M.bind_ok (M.tag_of acc_tag) ?_)
  refine M.trans (M.bind (M.same_inst same_eq) fun m => M.refl _) ?_
  rw [obind_ok]
  simp [ofBool]
  exact M.refl _

theorem err_rej (h : M.R (get M.h' (.cls o .apply l) .type) (.ok (encRes (I := I) (.rej m p)))) :
    M.R (get M.h' (K .is_error [.cls o .apply l]) .type) (.ok (K .mpl_bool_ [.num 1])) :=
  M.viai (M.err_rej' h) (by rw [bool_type]; exact Same.rfl' _)
theorem err_acc (h : M.R (get M.h' (.cls o .apply l) .type) (.ok (encRes (.acc v s p)))) :
    M.R (get M.h' (K .is_error [.cls o .apply l]) .type) (.ok (K .mpl_bool_ [.num 0])) :=
  M.viai (M.err_acc' h) (by rw [bool_type]; exact Same.rfl' _)
theorem errv_rej (h : M.R (get M.h' (.cls o .apply l) .type) (.ok (encRes (I := I) (.rej m p)))) :
    M.R (get M.h' (K .is_error [.cls o .apply l]) .value) (.ok (.num 1)) :=
  M.viai (M.err_rej' h) (by rw [bool_value]; exact Same.rfl' _)
theorem errv_acc (h : M.R (get M.h' (.cls o .apply l) .type) (.ok (encRes (.acc v s p)))) :
    M.R (get M.h' (K .is_error [.cls o .apply l]) .value) (.ok (.num 0)) :=
  M.viai (M.err_acc' h) (by rw [bool_value]; exact Same.rfl' _)
theorem err_bad {x : Id} (h : M.R (get M.h' (.cls o .apply l) .type) (Bad f)) :
    M.R (get M.h' (K .is_error [.cls o .apply l]) x) (Bad f) := by
  refine M.gstep (body_is_error_1 apply_fit) ?_
  rw [obind_assoc]
  exact M.bind_bad h

theorem bool_val : M.R (get M.h' (K .mpl_bool_ [x]) .value) (.ok x) := M.lget bool_value

theorem result (h : M.R (get M.h' T .type) (.ok (encRes (.acc v s p)))) :
    M.R (get M.h' (K .get_result [T]) .type) (.ok (encVal v)) := by
  refine M.gstep body_get_result ?_
  dsimp! []
  refine M.bind_ok h (M.bind_ok (M.lget acc_tag) (M.bind_ok (a := K .get_result_impl [K .accept_tag []]) ?_ (M.bind_ok h ?_)))
  · refine M.ostep body_get_result_impl ?_
    exact M.refl _
  · refine M.gstep body_get_result_impl_apply ?_
    dsimp! []
    exact M.lget acc_result

theorem remaining (h : M.R (get M.h' T .type) (.ok (encRes (.acc v s p)))) :
    M.R (get M.h' (K .get_remaining [T]) .type) (.ok (encInp s)) := by
  refine M.gstep body_get_remaining ?_
  dsimp! []
  refine M.bind_ok h (M.bind_ok (M.lget acc_tag) (M.bind_ok (a := K .get_remaining_impl [K .accept_tag []]) ?_ (M.bind_ok h ?_)))
  · refine M.ostep body_get_remaining_impl ?_
    exact M.refl _
  · refine M.gstep body_get_remaining_impl_apply ?_
    dsimp! []
    exact M.bind_ok (M.lget acc_remaining) (M.lget (Lawful.type s))

theorem position (h : M.R (get M.h' T .type) (.ok (encRes (.acc v s p)))) :
    M.R (get M.h' (K .get_position [T]) .type) (.ok (encPos p)) := by
  refine M.gstep body_get_position ?_
  dsimp! []
  refine M.bind_ok h (M.bind_ok (M.lget acc_tag) (M.bind_ok (a := K .get_position_impl [K .accept_tag []]) ?_ (M.bind_ok h ?_)))
  · refine M.ostep body_get_position_impl_0 ?_
    exact M.refl _
  · refine M.gstep body_get_position_impl_0_apply ?_
    dsimp! []
    exact M.bind_ok (M.lget acc_position) (M.lget pos_type)

theorem position_rej (h : M.R (get M.h' T .type) (.ok (encRes (I := I) (.rej m p)))) :
    M.R (get M.h' (K .get_position [T]) .type) (.ok (encPos p)) := by
  refine M.gstep body_get_position ?_
  dsimp! []
  refine M.bind_ok h (M.bind_ok (M.lget rej_tag) (M.bind_ok (a := K .get_position_impl [K .fail_tag []]) ?_ (M.bind_ok h ?_)))
  · refine M.ostep body_get_position_impl_1 ?_
    exact M.refl _
  · refine M.gstep body_get_position_impl_1_apply ?_
    dsimp! []
    exact M.bind_ok (M.lget rej_position) (M.lget pos_type)

theorem message (h : M.R (get M.h' T .type) (.ok (encRes (I := I) (.rej m p)))) :
    M.R (get M.h' (K .get_message [T]) .type) (.ok (encMsg m)) := by
  refine M.gstep body_get_message ?_
  dsimp! []
  refine M.bind_ok h (M.bind_ok (M.lget rej_tag) (M.bind_ok (a := K .get_message_impl [K .fail_tag []]) ?_ (M.bind_ok h ?_)))
  · refine M.ostep body_get_message_impl ?_
    exact M.refl _
  · refine M.gstep body_get_message_impl_apply ?_
    dsimp! []
    exact M.lget rej_message

theorem accept (h1 : M.R (get M.h' A .type) (.ok (encInp s))) (h2 : M.R (get M.h' B .type) (.ok (encPos p))) :
    M.R (get M.h' (K .accept [encVal v, A, B]) .type) (.ok (encRes (.acc v s p))) := by
  refine M.gstep body_accept ?_
  dsimp! []
  exact M.bind_ok h1 (M.bind_ok h2 (M.refl _))

theorem reject (h2 : M.R (get M.h' B .type) (.ok (encPos p))) :
    M.R (get M.h' (K .reject [encMsg m, B]) .type) (.ok (encRes (I := I) (.rej m p))) := by
  refine M.gstep body_reject ?_
  dsimp! []
  exact M.bind_ok h2 (M.refl _)

theorem str : M.R (get M.h' (encInp s) .type) (.ok (encInp s)) := M.lget (Lawful.type s)
theorem posn : M.R (get M.h' (encPos p) .type) (.ok (encPos p)) := M.lget pos_type

theorem if_c_1 : M.R (get M.h' (K .mpl_if_c [.num 1, A, B]) .type) (.ok A) := by
  refine M.gstep (body_mpl_if_c_1 rfl) ?_
  exact M.refl _
theorem if_c_0 : M.R (get M.h' (K .mpl_if_c [.num 0, A, B]) .type) (.ok B) := by
  refine M.gstep body_mpl_if_c_0 ?_
  exact M.refl _

theorem if_1 (h : M.R (get M.h' T .value) (.ok (.num 1))) : M.R (get M.h' (K .mpl_if_ [T, A, B]) .type) (.ok A) := by
  refine M.gstep body_mpl_if_ ?_
  dsimp! []
  exact M.bind_ok h M.if_c_1
theorem if_0 (h : M.R (get M.h' T .value) (.ok (.num 0))) : M.R (get M.h' (K .mpl_if_ [T, A, B]) .type) (.ok B) := by
  refine M.gstep body_mpl_if_ ?_
  dsimp! []
  exact M.bind_ok h M.if_c_0
theorem if_bad (h : M.R (get M.h' T .value) (Bad f)) : M.R (get M.h' (K .mpl_if_ [T, A, B]) .type) (Bad f) := by
  refine M.gstep body_mpl_if_ ?_
  dsimp! []
  exact M.bind_bad h

theorem eval_1 : M.R (M.h' (K .mpl_eval_if [K .mpl_bool_ [.num 1], A, B])) (M.h' A) := by
  refine M.istep body_mpl_eval_if ?_
  refine M.bind_ok (M.if_1 M.bool_val) ?_
  rw [obind_ok]
  exact M.refl _
theorem eval_0 : M.R (M.h' (K .mpl_eval_if [K .mpl_bool_ [.num 0], A, B])) (M.h' B) := by
  refine M.istep body_mpl_eval_if ?_
  refine M.bind_ok (M.if_0 M.bool_val) ?_
  rw [obind_ok]
  exact M.refl _

theorem unless_1 (h : M.R (get M.h' (.cls o .apply l) .type) (.ok (encRes (I := I) (.rej m p)))) :
    M.R (M.h' (K .unless_error [.cls o .apply l, B])) (M.h' (.cls o .apply l)) := by
  refine M.istep body_unless_error ?_
  refine M.bind_ok (M.err_rej h) ?_
  rw [obind_ok]
  exact M.eval_1
theorem unless_0 (h : M.R (get M.h' (.cls o .apply l) .type) (.ok (encRes (.acc v s p)))) :
    M.R (M.h' (K .unless_error [.cls o .apply l, B])) (M.h' B) := by
  refine M.istep body_unless_error ?_
  refine M.bind_ok (M.err_acc h) ?_
  rw [obind_ok]
  exact M.eval_0
theorem unless_bad (h : M.R (get M.h' (.cls o .apply l) .type) (Bad f)) :
    M.R (get M.h' (K .unless_error [.cls o .apply l, B]) .type) (Bad f) := by
  refine M.gstep body_unless_error ?_
  rw [obind_assoc]
  exact M.bind_bad (M.err_bad h)

theorem cond_1 : M.R (get M.h' (K .std_conditional [.num 1, A, B]) .type) (.ok A) := by
  refine M.gstep (body_std_conditional_1 rfl) ?_
  exact M.refl _
theorem cond_0 : M.R (get M.h' (K .std_conditional [.num 0, A, B]) .type) (.ok B) := by
  refine M.gstep body_std_conditional_0 ?_
  exact M.refl _

end Mode

/-- Find a fact about the class that comes next. -/
macro "fact" : tactic => `(tactic| first
  | assumption
  | exact Mode.str _
  | exact Mode.posn _
  | exact Mode.bool_val _
  | exact Mode.err_rej _ (by assumption)
  | exact Mode.err_acc _ (by assumption)
  | exact Mode.result _ (by assumption)
  | exact Mode.remaining _ (by assumption)
  | exact Mode.position _ (by assumption)
  | exact Mode.position_rej _ (by assumption)
  | exact Mode.message _ (by assumption)
  | exact Mode.if_1 _ (Mode.errv_rej _ (by assumption))
  | exact Mode.if_0 _ (Mode.errv_acc _ (by assumption))
  | exact Mode.cond_1 _
  | exact Mode.cond_0 _)

/-- The next class. -/
macro "nx" : tactic => `(tactic| (apply Mode.bind_ok; (· fact)))

/-- The next class is not well-formed or too deep. -/
macro "bad" : tactic => `(tactic| first
  | assumption
  | exact Mode.err_bad _ (by assumption)
  | exact Mode.bind_bad _ (by assumption)
  | exact Mode.bind_bad _ (Mode.err_bad _ (by assumption))
  | exact Mode.if_bad _ (Mode.err_bad _ (by assumption))
  | exact Mode.bind_bad _ (Mode.if_bad _ (Mode.err_bad _ (by assumption)))
  | exact Mode.unless_bad _ (by assumption))

end Metaparse.Tmpl
