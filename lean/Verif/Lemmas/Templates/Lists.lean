import Verif.Lemmas.Templates.Folds
/-!
# The parsers of the headers that take any number of parsers, one layer
-/

set_option linter.unusedVariables false
set_option linter.unusedSimpArgs false
set_option linter.unusedSectionVars false

namespace Metaparse.Tmpl

open Metaparse (Val Msg GExp Pos Res P Env nextPos ch Sem Comb.transform Comb.transformErrorMessage Comb.ret Comb.fail
  Comb.pushFront Comb.sequence11 Comb.oneOf11 Comb.skipRemaining Comb.nthGo11 Comb.nthOf11 Comb.lastOf11 Comb.iterate
  Comb.keywordCons listInput)
open Mode (Bad)

variable [Lang] {U : User} {I : Type} [Inputs I] [Lawful U I] {M : Mode U}

/-- The classes are parsers that do the same. -/
inductive Pars (M : Mode U) : List V → List (Sem I) → Prop
  | nil : Pars M [] []
  | cons {v q vs qs} : Par M v q → Pars M vs qs → Pars M (v :: vs) (q :: qs)

variable {v v' f o2 st : V} {q q' : Sem I} {s : I} {pos : Pos} {vs : List V} {qs : List (Sem I)}

theorem Pars.length {vs : List V} {qs : List (Sem I)} (h : Pars M vs qs) : vs.length = qs.length := by
  induction h with
  | nil => rfl
  | cons _ _ ih => simp [ih]

theorem call_get {o : V} {y : Out V} (H : M.R (Call M o s pos) y) :
    M.R (get M.h' (.cls o .apply [encInp s, encPos pos]) .type) y :=
  M.trans (M.bind (M.step' _) fun m => M.refl _) H

theorem call_top {o : V} {y : Out V} (H : M.R (Call M o s pos) y) :
    M.R (get M.h (.cls o .apply [encInp s, encPos pos]) .type) y :=
  M.trans (M.bind (M.step _) fun m => M.refl _) H

theorem Mode.ovia {v o : V} {x : Id} {w : V} (hb : instantiate U M.h' v = (M.h' w).bind fun b => .ok b)
    (h : M.R (owner M.h' w x) (.ok o)) : M.R (owner M.h' v x) (.ok o) := by
  refine M.ostep hb ?_
  rw [obind_ok]
  exact h

theorem ev_le {a b : Int} : Op.ev .le (.num a) (.num b) = .ok (ofBool (decide (a ≤ b))) := rfl
theorem ev_lt {a b : Int} : Op.ev .lt (.num a) (.num b) = .ok (ofBool (decide (a < b))) := rfl
theorem ev_eq {a b : Int} : Op.ev .eq (.num a) (.num b) = .ok (ofBool (a == b)) := rfl
theorem ev_sub {a b : Int} : Op.ev .sub (.num a) (.num b) = .ok (.num (a - b)) := rfl
theorem ev_add {a b : Int} : Op.ev .add (.num a) (.num b) = .ok (.num (a + b)) := rfl
theorem ev_mul {a b : Int} : Op.ev .mul (.num a) (.num b) = .ok (.num (a * b)) := rfl
theorem ev_and {a b : Bool} : Op.ev .and (ofBool a) (ofBool b) = .ok (ofBool (a && b)) := by
  cases a <;> cases b <;> rfl
theorem ev_or {a b : Bool} : Op.ev .or (ofBool a) (ofBool b) = .ok (ofBool (a || b)) := by
  cases a <;> cases b <;> rfl

theorem unpaired_fun {l c : Int} : MMsgFun M (K .error_unpaired [.num l, .num c, K .mpl_na []])
    (fun m => .ok (.unpaired l c m)) := by
  refine ⟨_, M.oself body_error_unpaired_0 rfl, fun m => ?_⟩
  refine M.gstep body_error_unpaired_0_apply ?_
  norm
  exact M.lget (msg_type (.unpaired l c m))

theorem iterate_fit {n : Int} (h : n ≠ 0) {a b : V} :
    Pat.fits [.num 0, .var .P, .var .Accum] [.num n, a, b] [] = none := by
  simp [Pat.fits, Pat.fit, h.symm]

theorem iterate_R {n : Int} (hn : n ≠ 0) {l : List Val} {again : List Val → Sem I} (hp : Par M v q)
    (hag : ∀ r, Par M (K .impl_iterate_impl [.num (n - 1), v, K .mpl_vector (encVals (l ++ [r]))]) (again (l ++ [r]))) (s pos) :
    M.R (Call M (K .impl_iterate_impl [.num n, v, K .mpl_vector (encVals l)]) s pos)
      (omap encRes (Comb.iterate n q l again s pos)) := by
  obtain ⟨o, ho, hq⟩ := hp
  replace hq := hq s pos
  rw [call_def, body_impl_iterate_impl_1_apply (iterate_fit hn)]
  norm
  unfold Comb.iterate
  nx
  rw [if_neg hn]
  rcases res_cases (q s pos) with ⟨m1, p1, hx⟩ | ⟨w1, t1, p1, hx⟩ | ⟨e1, hx⟩ <;> rw [hx] at hq <;>
    simp only [hx, omap_ok, omap_bad, bad_bind, Out.bind_ok] at hq ⊢
  · nx; nx
    exact M.via M.eval_1 hq
  · nx; nx
    refine M.via M.eval_0 ?_
    refine M.gstep body_impl_iterate_impl_unchecked ?_
    dsimp! [Op.ev]
    nx; nx
    refine M.bind_ok (M.lget push_back_vector) ?_
    obtain ⟨o2, ho2, ha⟩ := hag w1
    rw [encVals_append] at ho2
    nx; nx; nx; nx; nx
    exact ha t1 p1
  · bad

theorem keyword_nil_R {x : Val} (hg : GoodStr []) (s : I) (pos) :
    M.R (Call M (K .keyword [encStr [], encVal x]) s pos) (omap encRes (Comb.ret x s pos)) := by
  rw [call_def, body_keyword_apply]
  norm
  have h : M.R (get M.h' (K .mpl_empty [encStr []]) .value) (.ok (ofBool true)) := M.lget ((empty_get hg).trans bool_value)
  refine M.bind_ok (M.if_1 h) ?_
  refine M.bind_ok (M.oself body_return_ rfl) ?_
  exact call_get (return_R s pos)

theorem keyword_cons_R {x : Val} {c : Int} {l : List Int} (hg : GoodStr (c :: l)) (hc : Par M (K .lit [K .mpl_char_ [.num c]]) q)
    (hr : Par M (K .keyword [encStr l, encVal x]) q') (s pos) :
    M.R (Call M (K .keyword [encStr (c :: l), encVal x]) s pos) (omap encRes (Comb.keywordCons q q' s pos)) := by
  obtain ⟨o, ho, hq⟩ := hc
  obtain ⟨o2, ho2, hr⟩ := hr
  replace hq := hq s pos
  rw [call_def, body_keyword_apply]
  norm
  have h : M.R (get M.h' (K .mpl_empty [encStr (c :: l)]) .value) (.ok (ofBool false)) := M.lget ((empty_get hg).trans bool_value)
  refine M.bind_ok (M.if_0 h) ?_
  have hm : M.R (M.h' (.cls (K .keyword [encStr (c :: l), encVal x]) .nonempty []))
      (.ok [(.next_char_parser, .ty (K .lit [K .mpl_char_ [.num c]])), (.rest_parser, .ty (K .keyword [encStr l, encVal x])),
      (.apply_unchecked, .tmpl (.cls (K .keyword [encStr (c :: l), encVal x]) .nonempty [])),
      (.apply, .tmpl (.cls (K .keyword [encStr (c :: l), encVal x]) .nonempty []))]) := by
    refine M.istep body_keyword_nonempty ?_
    exact M.bind_ok (M.lget (front_string hg)) (M.bind_ok (M.lget (pop_front_string hg)) (M.refl _))
  have hf : M.R (get M.h' (K .mpl_front [encStr (c :: l)]) .type) (.ok (K .mpl_char_ [.num c])) := M.lget (front_string hg)
  have hp : M.R (get M.h' (K .mpl_pop_front [encStr (c :: l)]) .type) (.ok (encStr l)) := M.lget (pop_front_string hg)
  have hm3 : M.R (owner M.h' (.cls (K .keyword [encStr (c :: l), encVal x]) .nonempty []) .apply) (.ok (.cls (K .keyword [encStr (c :: l), encVal x]) .nonempty [])) :=
    M.bind_ok hm (M.refl _)
  nx
  refine M.gstep body_keyword_nonempty_apply ?_
  norm
  unfold Comb.keywordCons
  nx; nx
  rcases res_cases (q s pos) with ⟨m1, p1, hx⟩ | ⟨w1, t1, p1, hx⟩ | ⟨e1, hx⟩ <;> rw [hx] at hq <;>
    simp only [hx, omap_ok, omap_bad, bad_bind, Out.bind_ok] at hq ⊢
  · nx; nx; nx
    exact M.via M.eval_1 hq
  · nx; nx; nx
    refine M.via M.eval_0 ?_
    refine M.gstep body_keyword_nonempty_apply_unchecked ?_
    norm
    nx; nx; nx; nx; nx; nx; nx; nx
    exact hr t1 p1
  · bad

end Metaparse.Tmpl
