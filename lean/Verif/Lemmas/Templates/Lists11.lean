import Verif.Lemmas.Templates.Lists
/-!
# The parsers of the C++11 headers that take any number of parsers, one layer
-/

set_option linter.unusedVariables false
set_option linter.unusedSimpArgs false
set_option linter.unusedSectionVars false

namespace Metaparse.Tmpl

open Metaparse (Val Msg GExp Pos Res P Env nextPos ch Sem Comb.transform Comb.transformErrorMessage Comb.ret Comb.fail
  Comb.pushFront Comb.sequence11 Comb.oneOf11 Comb.skipRemaining Comb.nthGo11 Comb.nthOf11 Comb.lastOf11 Comb.iterate
  Comb.keywordCons listInput)
open Mode (Bad)

attribute [local instance] cpp11

variable {U : User} {I : Type} [Inputs I] [Lawful U I] {M : Mode U}

variable {v v' f o2 st : V} {q q' : Sem I} {s : I} {pos : Pos} {vs : List V} {qs : List (Sem I)}

theorem push_front_result_fun {T : V} {w : Val} {t : I} {p : Pos}
    (hT : M.R (get M.h' T .type) (.ok (encRes (.acc w t p)))) :
    MFun1 M (K .impl_push_front_result [T]) (fun l => Comb.pushFront l w) := by
  refine ⟨_, M.oself body_impl_push_front_result rfl, fun x => ?_⟩
  refine M.gstep body_impl_push_front_result_apply ?_
  norm
  nx
  exact M.lgetS (push_front_val x w)

theorem sequence_R (hp : Par M v q) (hs : Par M (K .sequence vs) (Comb.sequence11 qs)) (s pos) :
    M.R (Call M (K .sequence (v :: vs)) s pos) (omap encRes (Comb.sequence11 (q :: qs) s pos)) := by
  obtain ⟨o, ho, hq⟩ := hp
  replace hq := hq s pos
  rw [call_def, body_sequence_1_apply]
  norm
  unfold Comb.sequence11
  nx
  rcases res_cases (q s pos) with ⟨m1, p1, hx⟩ | ⟨w1, t1, p1, hx⟩ | ⟨e1, hx⟩ <;> rw [hx] at hq <;>
    simp only [hx, omap_ok, omap_bad, bad_bind, Out.bind_ok] at hq ⊢
  · nx; nx; nx
    exact M.via M.eval_1 hq
  · nx; nx; nx
    refine M.via M.eval_0 ?_
    refine M.gstep body_sequence_1_apply_unchecked ?_
    norm
    refine M.bind_ok (M.oself body_transform rfl) ?_
    nx; nx
    exact call_get (transform_R hs (push_front_result_fun hq) t1 p1)
  · bad

theorem sequence_par (h : Pars M vs qs) : Par M (K .sequence vs) (Comb.sequence11 qs) := by
  induction h with
  | nil => exact ⟨_, Mode.ovia body_sequence_0 (M.oself body_return_ rfl), fun s pos => call_get (return_R (x := .seq []) s pos)⟩
  | cons hp _ ih => exact ⟨_, M.oself body_sequence_1 rfl, fun s pos => call_get (sequence_R hp ih s pos)⟩

theorem one_of_R (hp : Par M v q) (hs : Par M (K .one_of vs) (Comb.oneOf11 qs)) (s pos) :
    M.R (Call M (K .one_of (v :: vs)) s pos) (omap encRes (Comb.oneOf11 (q :: qs) s pos)) := by
  obtain ⟨o, ho, hq⟩ := hp
  obtain ⟨o2, ho2, hr⟩ := hs
  replace hq := hq s pos
  replace hr := hr s pos
  rw [call_def, body_one_of_0_apply]
  norm
  unfold Comb.oneOf11
  nx
  rcases res_cases (q s pos) with ⟨m1, p1, hx⟩ | ⟨w1, t1, p1, hx⟩ | ⟨e1, hx⟩ <;> rw [hx] at hq <;>
    simp only [hx, omap_ok, omap_bad, bad_bind, Out.bind_ok] at hq ⊢
  · nx; nx
    rcases res_cases (Comb.oneOf11 qs s pos) with ⟨m2, p2, hx⟩ | ⟨w2, t2, p2, hx⟩ | ⟨e2, hx⟩ <;> rw [hx] at hr <;>
      simp only [hx, omap_ok, omap_bad, bad_bind, Out.bind_ok] at hr ⊢
    · nx; nx; nx; nx; nx
      refine M.via M.eval_1 (M.via M.eval_1 ?_)
      refine M.gstep body_impl_eval_later_result ?_
      norm
      nx; nx
      refine M.bind_ok (M.lget (less_get.trans bool_type)) ?_
      cases p2.less p1
      · exact M.via M.eval_0 hr
      · exact M.via M.eval_1 hq
    · nx; nx; nx; nx; nx
      exact M.via M.eval_1 (M.via M.eval_0 hr)
    · bad
  · nx; nx
    rcases res_cases (Comb.oneOf11 qs s pos) with ⟨m2, p2, hx⟩ | ⟨w2, t2, p2, hx⟩ | ⟨e2, hx⟩ <;> rw [hx] at hr <;>
      simp only [hx, omap_ok, omap_bad, bad_bind, Out.bind_ok] at hr ⊢
    · nx; nx; nx; nx; nx
      exact M.via M.eval_0 hq
    · nx; nx; nx; nx; nx
      exact M.via M.eval_0 hq
    · bad
  · bad

theorem one_of_par (h : Pars M vs qs) : Par M (K .one_of vs) (Comb.oneOf11 qs) := by
  induction h with
  | nil => exact ⟨_, Mode.ovia body_one_of_1 (M.oself body_fail rfl), fun s pos =>
      call_get (fail_R (m := .noneOfTheExpectedCasesFound) s pos)⟩
  | cons hp _ ih => exact ⟨_, M.oself body_one_of_0 rfl, fun s pos => call_get (one_of_R hp ih s pos)⟩

theorem skip_R {x : Val} (h : Pars M vs qs) : ∀ s pos,
    M.R (get M.h' (K .impl_nth_of_c_skip_remaining (encVal x :: encInp s :: encPos pos :: vs)) .type)
      (omap encRes (Comb.skipRemaining x qs s pos)) := by
  induction h with
  | nil =>
      intro s pos
      refine M.gstep body_impl_nth_of_c_skip_remaining_0 ?_
      norm
      refine M.bind_ok (M.oself body_return_ rfl) ?_
      exact call_get (return_R s pos)
  | @cons v q vs qs hp hps ih =>
      intro s pos
      obtain ⟨o, ho, hq⟩ := hp
      replace hq := hq s pos
      refine M.gstep body_impl_nth_of_c_skip_remaining_1 ?_
      norm
      unfold Comb.skipRemaining
      nx
      rcases res_cases (q s pos) with ⟨m1, p1, hx⟩ | ⟨w1, t1, p1, hx⟩ | ⟨e1, hx⟩ <;> rw [hx] at hq <;>
        simp only [hx, omap_ok, omap_bad, bad_bind, Out.bind_ok] at hq ⊢
      · nx; nx; nx; nx; nx
        exact hq
      · nx; nx; nx; nx; nx
        refine M.gstep body_impl_nth_of_c_skip_remaining_1_apply_unchecked ?_
        norm
        nx; nx
        exact ih t1 p1
      · bad

theorem nth_fit {n : Int} (h : n ≠ 0) {a b c : V} {l : List V} :
    Pat.fits [.num 0, .var .S, .var .Pos, .var .P, .pack .Ps] (.num n :: a :: b :: c :: l) [] = none := by
  simp [Pat.fits, Pat.fit, h.symm]

theorem nth_R (h : Pars M vs qs) : ∀ n, 0 ≤ n → n < (qs.length : Int) → ∀ s pos,
    M.R (get M.h' (K .impl_nth_of_c (.num n :: encInp s :: encPos pos :: vs)) .type)
      (omap encRes (Comb.nthGo11 n qs s pos)) := by
  induction h with
  | nil =>
      intro n h1 h2
      simp at h2
      omega
  | @cons v q vs qs hp hps ih =>
      intro n h1 h2 s pos
      obtain ⟨o, ho, hq⟩ := hp
      replace hq := hq s pos
      unfold Comb.nthGo11
      by_cases hn : n = 0
      · subst hn
        refine M.gstep body_impl_nth_of_c_0 ?_
        norm
        nx
        rcases res_cases (q s pos) with ⟨m1, p1, hx⟩ | ⟨w1, t1, p1, hx⟩ | ⟨e1, hx⟩ <;> rw [hx] at hq <;>
          simp only [hx, omap_ok, omap_bad, bad_bind, Out.bind_ok] at hq ⊢
        · nx; nx; nx; nx; nx
          exact hq
        · nx; nx; nx; nx; nx
          refine M.gstep body_impl_nth_of_c_0_apply_unchecked ?_
          norm
          nx; nx; nx
          exact skip_R hps t1 p1
        · bad
      · refine M.gstep (body_impl_nth_of_c_1 (nth_fit hn)) ?_
        norm
        nx
        rcases res_cases (q s pos) with ⟨m1, p1, hx⟩ | ⟨w1, t1, p1, hx⟩ | ⟨e1, hx⟩ <;> rw [hx] at hq <;>
          simp only [hx, omap_ok, omap_bad, bad_bind, Out.bind_ok] at hq ⊢
        · nx; nx; nx; nx; nx
          exact hq
        · nx; nx; nx; nx; nx
          refine M.gstep (body_impl_nth_of_c_1_apply_unchecked (nth_fit hn)) ?_
          dsimp! [Op.ev]
          nx; nx
          rw [if_neg hn]
          refine ih (n - 1) (by omega) ?_ t1 p1
          simp at h2
          omega
        · bad

theorem nth_of_c_R {n : Int} (h : Pars M (v :: vs) (q :: qs)) (s pos) :
    M.R (Call M (K .nth_of_c (.num n :: v :: vs)) s pos) (omap encRes (Comb.nthOf11 n (q :: qs) s pos)) := by
  rw [call_def, body_nth_of_c_1_apply rfl]
  have hl : ((v :: vs).length : Int) = ((q :: qs).length : Int) := by rw [h.length]
  dsimp! [ev_le, ev_lt, ev_sub, ev_and, hl]
  refine M.bind_ok (M.oself body_fail rfl) ?_
  unfold Comb.nthOf11
  by_cases hn : 0 ≤ n ∧ n < ((q :: qs).length : Int)
  · simp only [hn, if_true, decide_true, and_self, Bool.and_self]
    refine M.bind_ok M.cond_1 ?_
    exact nth_R h n hn.1 hn.2 s pos
  · have hb : (decide (0 ≤ n) && decide (n < ((q :: qs).length : Int))) = false := by
      rw [Bool.and_eq_false_iff]
      by_cases h1 : 0 ≤ n
      · exact .inr (decide_eq_false fun h2 => hn ⟨h1, h2⟩)
      · exact .inl (decide_eq_false h1)
    simp only [hn, hb, if_false]
    refine M.bind_ok M.cond_0 ?_
    exact call_get (fail_R (m := .indexOutOfRange 0 (((q :: qs).length : Int) - 1) n) s pos)

theorem first_of_R (h : Pars M (v :: vs) (q :: qs)) (s pos) :
    M.R (Call M (K .first_of (v :: vs)) s pos) (omap encRes (Comb.nthOf11 0 (q :: qs) s pos)) := by
  rw [call_def, body_first_of_1_apply rfl]
  norm
  have hl : (0 : Int) < ((q :: qs).length : Int) := by simp
  simp only [Comb.nthOf11, hl, Int.le_refl, and_self, if_true]
  exact nth_R h 0 (Int.le_refl _) hl s pos

theorem last_of_R (h : Pars M (v :: vs) (q :: qs)) (s pos) :
    M.R (Call M (K .last_of (v :: vs)) s pos) (omap encRes (Comb.lastOf11 (q :: qs) s pos)) := by
  rw [call_def, body_last_of_1_apply rfl]
  have hl : ((v :: vs).length : Int) = ((q :: qs).length : Int) := by rw [h.length]
  dsimp! [Op.ev, hl]
  unfold Comb.lastOf11
  exact nth_R h _ (by simp) (by omega) s pos

theorem middle_of_R {v1 v2 v3 : V} {q1 q2 q3 : Sem I} (h1 : Par M v1 q1) (h2 : Par M v2 q2) (h3 : Par M v3 q3) (s pos) :
    M.R (Call M (K .middle_of [v1, v2, v3]) s pos) (omap encRes (Comb.nthOf11 1 [q1, q2,
      Comb.transformErrorMessage q3 fun m => .ok (.unpaired pos.line pos.col m)] s pos)) := by
  rw [call_def, body_middle_of_apply]
  norm
  refine M.bind_ok (M.lget get_line_pos) (M.bind_ok (M.lget int_value) (M.bind_ok (M.lget get_col_pos) (M.bind_ok (M.lget int_value) ?_)))
  refine M.bind_ok (M.oself (body_nth_of_c_1 rfl) rfl) ?_
  refine call_get (nth_of_c_R (.cons h1 (.cons h2 (.cons ?_ .nil))) s pos)
  exact ⟨_, M.oself body_transform_error_message rfl, fun s pos => call_get (transform_error_message_R h3 unpaired_fun s pos)⟩

end Metaparse.Tmpl
