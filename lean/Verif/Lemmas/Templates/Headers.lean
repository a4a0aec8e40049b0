import Verif.Lemmas.Templates.Helpers
/-!
# The parsers of the headers, one layer
-/

set_option linter.unusedVariables false
set_option linter.unusedSimpArgs false
set_option linter.unusedSectionVars false

namespace Metaparse.Tmpl

open Metaparse (Val Msg GExp Pos Res P Env nextPos ch Sem Comb.transform Comb.acceptWhen Comb.changeErrorMessage
  Comb.transformErrorMessage Comb.transformError Comb.always Comb.lookAhead Comb.except Comb.optional Comb.if_
  Comb.failAtFirstCharExpected Comb.foldl Comb.foldlRejectIncomplete Comb.foldlStartWithParser Comb.foldrStartWithParser
  Comb.ifAccepts Comb.oneChar Comb.empty Comb.ret Comb.fail listInput)
open Mode (Bad)

variable [Lang] {U : User} {I : Type} [Inputs I] [Lawful U I] (M : Mode U)

/-- The class is a parser that does the same as `q`. -/
def Par (v : V) (q : Sem I) : Prop :=
  ∃ o, M.R (owner M.h' v .apply) (.ok o) ∧
    ∀ s pos, M.R (get M.h' (.cls o .apply [encInp s, encPos pos]) .type) (omap encRes (q s pos))

/-- The class is a metafunction class that does the same as `g`. -/
def MFun1 (f : V) (g : Val → Val) : Prop :=
  ∃ o, M.R (owner M.h' f .apply) (.ok o) ∧
    ∀ x, M.R (get M.h' (.cls o .apply [encVal x]) .type) (omap encVal (g x).force)

/-- The type of a class that is instantiated, with `h'` for the others. -/
def Typ (v : V) : Out V := (instantiate U M.h' v).bind fun m => m.ty .type

/-- The type of the class `o::apply<S, Pos>`. -/
abbrev Call (o : V) (s : I) (pos : Pos) : Out V := Typ M (.cls o .apply [encInp s, encPos pos])

theorem call_def (o : V) (s : I) (pos : Pos) :
    Call M o s pos = (instantiate U M.h' (.cls o .apply [encInp s, encPos pos])).bind fun m => m.ty .type := rfl

theorem Mode.oself {v o : V} {m : Members} {x : Id} (hb : instantiate U M.h' v = .ok m) (h : m.tmpl x = .ok o) :
    M.R (owner M.h' v x) (.ok o) := by
  refine M.ostep hb ?_
  simp only [Out.bind_ok, h]
  exact M.refl _

/-- The class is a metafunction class on messages that does the same as `g`. -/
def MMsgFun (f : V) (g : Msg → Out Msg) : Prop :=
  ∃ o, M.R (owner M.h' f .apply) (.ok o) ∧
    ∀ m, M.R (get M.h' (.cls o .apply [encMsg m]) .type) (omap encMsg (g m))

/-- The class is a metafunction class on rejections that does the same as `g`. -/
def MRejFun (f : V) (g : Msg → Pos → Out (Res I)) : Prop :=
  ∃ o, M.R (owner M.h' f .apply) (.ok o) ∧
    ∀ m pos, M.R (get M.h' (.cls o .apply [encRes (I := I) (.rej m pos)]) .type) (omap encRes (g m pos))

/-- The class is a predicate that does the same as `g`. -/
def MPred (f : V) (g : Val → Out Bool) : Prop :=
  ∃ o, M.R (owner M.h' f .apply) (.ok o) ∧
    ∀ x, M.R (get M.h' (.cls o .apply [encVal x]) .type) (omap (fun b => K .mpl_bool_ [ofBool b]) (g x))

/-- The class is a metafunction class with two arguments that does the same as `g`. -/
def MFun2 (f : V) (g : Val → Val → Val) : Prop :=
  ∃ o, M.R (owner M.h' f .apply) (.ok o) ∧
    ∀ x y, M.R (get M.h' (.cls o .apply [encVal x, encVal y]) .type) (omap encVal (g x y).force)

macro "norm" : tactic => `(tactic| dsimp! [])

variable {M} {v f : V} {q : Sem I} {s : I} {pos : Pos}

theorem transform_R {g : Val → Val} (hp : Par M v q) (hf : MFun1 M f g) (s pos) :
    M.R (Call M (K .transform [v, f]) s pos) (omap encRes (Comb.transform q g s pos)) := by
  obtain ⟨o, ho, hq⟩ := hp
  obtain ⟨o', hof, hf⟩ := hf
  replace hq := hq s pos
  rw [call_def, body_transform_apply]
  norm
  unfold Comb.transform
  nx
  rcases res_cases (q s pos) with ⟨m1, p1, hx⟩ | ⟨w1, t1, p1, hx⟩ | ⟨e1, hx⟩ <;> rw [hx] at hq <;>
    simp only [hx, omap_ok, omap_bad, bad_bind, Out.bind_ok] at hq ⊢
  · exact M.via (M.unless_1 hq) hq
  · refine M.via (M.unless_0 hq) ?_
    refine M.gstep body_transform_no_error ?_
    norm
    nx; nx; nx
    replace hf := hf w1
    rcases out_cases (g w1).force with ⟨y, hy⟩ | ⟨e, hy⟩ <;> rw [hy] at hf <;>
      simp only [hy, omap_ok, omap_bad, bad_bind, Out.bind_ok] at hf ⊢
    · nx; nx; nx
      exact M.accept (by fact) (by fact)
    · bad
  · bad

theorem accept_when_R {g : Val → Out Bool} {m : Msg} (hp : Par M v q) (hf : MPred M f g) (s pos) :
    M.R (Call M (K .accept_when [v, f, encMsg m]) s pos) (omap encRes (Comb.acceptWhen q g m s pos)) := by
  obtain ⟨o, ho, hq⟩ := hp
  obtain ⟨o2, ho2, hg⟩ := hf
  replace hq := hq s pos
  rw [call_def, body_accept_when_apply]
  norm
  unfold Comb.acceptWhen
  nx
  rcases res_cases (q s pos) with ⟨m1, p1, hx⟩ | ⟨w1, t1, p1, hx⟩ | ⟨e1, hx⟩ <;> rw [hx] at hq <;>
    simp only [hx, omap_ok, omap_bad, bad_bind, Out.bind_ok] at hq ⊢
  · nx; nx; exact hq
  · nx
    refine M.bind_ok (M.oself body_accept_when_unchecked rfl) ?_
    refine M.gstep body_accept_when_unchecked_apply ?_
    norm
    nx; nx; nx
    replace hg := hg w1
    rcases out_cases (g w1) with ⟨y, hy⟩ | ⟨e, hy⟩ <;> rw [hy] at hg <;>
      simp only [hy, omap_ok, omap_bad, bad_bind, Out.bind_ok] at hg ⊢
    · nx; nx
      cases y
      · exact M.via M.eval_0 (M.reject (by fact))
      · exact M.via M.eval_1 hq
    · bad
  · bad

theorem change_error_message_R {m : Msg} (hp : Par M v q) (s pos) :
    M.R (Call M (K .change_error_message [v, encMsg m]) s pos) (omap encRes (Comb.changeErrorMessage q m s pos)) := by
  obtain ⟨o, ho, hq⟩ := hp
  replace hq := hq s pos
  rw [call_def, body_change_error_message_apply]
  norm
  unfold Comb.changeErrorMessage
  nx
  rcases res_cases (q s pos) with ⟨m1, p1, hx⟩ | ⟨w1, t1, p1, hx⟩ | ⟨e1, hx⟩ <;> rw [hx] at hq <;>
    simp only [hx, omap_ok, omap_bad, bad_bind, Out.bind_ok] at hq ⊢
  · nx; nx
    exact M.via M.eval_1 (M.reject (by fact))
  · nx; nx
    exact M.via M.eval_0 hq
  · bad

theorem transform_error_message_R {g : Msg → Out Msg} (hp : Par M v q) (hf : MMsgFun M f g) (s pos) :
    M.R (Call M (K .transform_error_message [v, f]) s pos) (omap encRes (Comb.transformErrorMessage q g s pos)) := by
  obtain ⟨o, ho, hq⟩ := hp
  obtain ⟨o2, ho2, hg⟩ := hf
  replace hq := hq s pos
  rw [call_def, body_transform_error_message_apply]
  norm
  unfold Comb.transformErrorMessage
  nx
  rcases res_cases (q s pos) with ⟨m1, p1, hx⟩ | ⟨w1, t1, p1, hx⟩ | ⟨e1, hx⟩ <;> rw [hx] at hq <;>
    simp only [hx, omap_ok, omap_bad, bad_bind, Out.bind_ok] at hq ⊢
  · nx; nx; nx
    refine M.via M.eval_1 ?_
    refine M.gstep body_transform_error_message_rejection ?_
    norm
    nx; nx
    replace hg := hg m1
    rcases out_cases (g m1) with ⟨y, hy⟩ | ⟨e, hy⟩ <;> rw [hy] at hg <;>
      simp only [hy, omap_ok, omap_bad, bad_bind, Out.bind_ok] at hg ⊢
    · nx
      exact M.reject (by fact)
    · bad
  · nx; nx; nx
    exact M.via M.eval_0 hq
  · bad

theorem transform_error_R {g : Msg → Pos → Out (Res I)} (hp : Par M v q) (hf : MRejFun M f g) (s pos) :
    M.R (Call M (K .transform_error [v, f]) s pos) (omap encRes (Comb.transformError q g s pos)) := by
  obtain ⟨o, ho, hq⟩ := hp
  obtain ⟨o2, ho2, hg⟩ := hf
  replace hq := hq s pos
  rw [call_def, body_transform_error_apply]
  norm
  unfold Comb.transformError
  nx
  rcases res_cases (q s pos) with ⟨m1, p1, hx⟩ | ⟨w1, t1, p1, hx⟩ | ⟨e1, hx⟩ <;> rw [hx] at hq <;>
    simp only [hx, omap_ok, omap_bad, bad_bind, Out.bind_ok] at hq ⊢
  · nx; nx; nx; nx; nx
    exact M.via M.eval_1 (hg m1 p1)
  · nx; nx; nx; nx; nx
    exact M.via M.eval_0 hq
  · bad

theorem always_R {x : Val} (hp : Par M v q) (s pos) :
    M.R (Call M (K .always [v, encVal x]) s pos) (omap encRes (Comb.always q x s pos)) := by
  obtain ⟨o, ho, hq⟩ := hp
  replace hq := hq s pos
  rw [call_def, body_always_apply]
  norm
  unfold Comb.always
  nx
  rcases res_cases (q s pos) with ⟨m1, p1, hx⟩ | ⟨w1, t1, p1, hx⟩ | ⟨e1, hx⟩ <;> rw [hx] at hq <;>
    simp only [hx, omap_ok, omap_bad, bad_bind, Out.bind_ok] at hq ⊢
  · nx; nx; nx
    exact M.via M.eval_1 hq
  · nx; nx; nx
    refine M.via M.eval_0 ?_
    refine M.gstep body_always_apply_unchecked ?_
    norm
    nx; nx
    exact M.accept (by fact) (by fact)
  · bad

theorem look_ahead_R (hp : Par M v q) (s pos) :
    M.R (Call M (K .look_ahead [v]) s pos) (omap encRes (Comb.lookAhead q s pos)) := by
  obtain ⟨o, ho, hq⟩ := hp
  replace hq := hq s pos
  rw [call_def, body_look_ahead_apply]
  norm
  unfold Comb.lookAhead
  nx
  rcases res_cases (q s pos) with ⟨m1, p1, hx⟩ | ⟨w1, t1, p1, hx⟩ | ⟨e1, hx⟩ <;> rw [hx] at hq <;>
    simp only [hx, omap_ok, omap_bad, bad_bind, Out.bind_ok] at hq ⊢
  · nx; nx
    exact M.via M.eval_1 hq
  · nx; nx
    refine M.via M.eval_0 ?_
    refine M.gstep body_look_ahead_no_error ?_
    norm
    nx; nx
    exact M.accept (by fact) (by fact)
  · bad

theorem except_R {x : Val} {m : Msg} (hp : Par M v q) (s pos) :
    M.R (Call M (K .except [v, encVal x, encMsg m]) s pos) (omap encRes (Comb.except q x m s pos)) := by
  obtain ⟨o, ho, hq⟩ := hp
  replace hq := hq s pos
  rw [call_def, body_except_apply]
  norm
  unfold Comb.except
  nx
  rcases res_cases (q s pos) with ⟨m1, p1, hx⟩ | ⟨w1, t1, p1, hx⟩ | ⟨e1, hx⟩ <;> rw [hx] at hq <;>
    simp only [hx, omap_ok, omap_bad, bad_bind, Out.bind_ok] at hq ⊢
  · exact M.if_1 (M.errv_rej hq)
  · exact M.if_0 (M.errv_acc hq)
  · bad

theorem optional_R {x : Val} (hp : Par M v q) (s pos) :
    M.R (Call M (K .optional [v, encVal x]) s pos) (omap encRes (Comb.optional q x s pos)) := by
  obtain ⟨o, ho, hq⟩ := hp
  replace hq := hq s pos
  rw [call_def, body_optional_apply]
  norm
  unfold Comb.optional
  nx; nx
  rcases res_cases (q s pos) with ⟨m1, p1, hx⟩ | ⟨w1, t1, p1, hx⟩ | ⟨e1, hx⟩ <;> rw [hx] at hq <;>
    simp only [hx, omap_ok, omap_bad, bad_bind, Out.bind_ok] at hq ⊢
  · nx
    exact M.if_1 (M.errv_rej hq)
  · nx
    exact M.if_0 (M.errv_acc hq)
  · bad

theorem if__R {x y : Val} (hp : Par M v q) (s pos) :
    M.R (Call M (K .if_ [v, encVal x, encVal y]) s pos) (omap encRes (Comb.if_ q x y s pos)) := by
  obtain ⟨o, ho, hq⟩ := hp
  replace hq := hq s pos
  rw [call_def, body_if__apply]
  norm
  unfold Comb.if_
  nx
  rcases res_cases (q s pos) with ⟨m1, p1, hx⟩ | ⟨w1, t1, p1, hx⟩ | ⟨e1, hx⟩ <;> rw [hx] at hq <;>
    simp only [hx, omap_ok, omap_bad, bad_bind, Out.bind_ok] at hq ⊢
  · nx
    exact M.accept (by fact) (by fact)
  · nx
    exact M.accept (by fact) (by fact)
  · bad

theorem fail_at_first_char_expected_R (hp : Par M v q) (s pos) :
    M.R (Call M (K .fail_at_first_char_expected [v]) s pos) (omap encRes (Comb.failAtFirstCharExpected q s pos)) := by
  obtain ⟨o, ho, hq⟩ := hp
  replace hq := hq s pos
  rw [call_def, body_fail_at_first_char_expected_apply]
  norm
  unfold Comb.failAtFirstCharExpected
  nx
  rcases res_cases (q s pos) with ⟨m1, p1, hx⟩ | ⟨w1, t1, p1, hx⟩ | ⟨e1, hx⟩ <;> rw [hx] at hq <;>
    simp only [hx, omap_ok, omap_bad, bad_bind, Out.bind_ok] at hq ⊢
  · nx
    refine M.via M.eval_1 ?_
    refine M.gstep body_fail_at_first_char_expected_apply_err ?_
    norm
    nx; nx
    refine M.bind_ok (M.lget (equal_get.trans bool_type)) ?_
    nx
    cases pos.equalTo p1
    · exact M.via M.eval_0 hq
    · exact M.via M.eval_1 (M.accept (v := .void_) (by fact) (by fact))
  · nx
    exact M.via M.eval_0 (M.reject (m := .expectedToFail) (by fact))
  · bad

end Metaparse.Tmpl
