import Verif.Lemmas.Templates.Headers
/-!
# The folds and the simple parsers of the headers, one layer
-/

set_option linter.unusedVariables false
set_option linter.unusedSimpArgs false
set_option linter.unusedSectionVars false

namespace Metaparse.Tmpl

open Metaparse (Val Msg GExp Pos Res P Env nextPos ch Sem Comb.transform Comb.acceptWhen Comb.changeErrorMessage
  Comb.transformErrorMessage Comb.transformError Comb.always Comb.lookAhead Comb.except Comb.optional Comb.if_
  Comb.failAtFirstCharExpected Comb.foldl Comb.foldlRejectIncomplete Comb.foldlStartWithParser Comb.foldrStartWithParser
  Comb.ifAccepts Comb.oneChar Comb.empty Comb.ret Comb.fail listInput)
open Mode (Bad)

variable [Lang] {U : User} {I : Type} [Inputs I] [Lawful U I] {M : Mode U}

variable {v v' f o2 st : V} {q q' : Sem I} {s : I} {pos : Pos}

theorem return_R {x : Val} (s : I) (pos) : M.R (Call M (K .return_ [encVal x]) s pos) (omap encRes (Comb.ret x s pos)) := by
  rw [call_def, body_return__apply]
  norm
  exact M.accept (by fact) (by fact)

theorem fail_R {m : Msg} (s : I) (pos) : M.R (Call M (K .fail [encMsg m]) s pos) (omap encRes (Comb.fail m s pos)) := by
  rw [call_def, body_fail_apply]
  norm
  exact M.reject (I := I) (by fact)

theorem empty_R {x : Val} (s : I) (pos) :
    M.R (Call M (K .empty [encVal x]) s pos) (omap encRes (Comb.empty Inputs.input x s pos)) := by
  rw [call_def, body_empty_apply]
  norm
  obtain ⟨b, hb, _, h2⟩ := Lawful.empty (U := U) s
  have h := M.lget h2
  unfold Comb.empty
  rw [hb]
  cases b with
  | true => exact M.if_1 h
  | false => exact M.if_0 h

theorem one_char_R (s : I) (pos) : M.R (Call M (K .one_char []) s pos) (omap encRes (Comb.oneChar Inputs.input s pos)) := by
  rw [call_def, body_one_char_apply]
  norm
  obtain ⟨b, hb, h1, _⟩ := Lawful.empty (U := U) s
  have h := M.lget h1
  unfold Comb.oneChar
  rw [hb]
  nx
  cases b with
  | true => exact M.via M.eval_1 (M.reject (I := I) (m := .unexpectedEndOfInput) (by fact))
  | false =>
      obtain ⟨c, hc, hf⟩ := Lawful.front (U := U) s hb
      obtain ⟨t, ht, hp⟩ := Lawful.popFront (U := U) s hb
      refine M.via M.eval_0 ?_
      refine M.gstep body_one_char_unchecked ?_
      norm
      refine M.bind_ok (M.lget hf) ?_
      simp only [hc, ht, Out.bind_ok]
      exact M.accept (v := .chr c) (M.lget hp) (M.lget (next_pos_front hf))

/-- The class is a value that is evaluated later. -/
def MLazy (M : Mode U) (v : V) (x : Val) : Prop := M.R (get M.h' v .type) (omap encVal x.force)

theorem foldl_R {op : Val → Val → Val} {again : Val → Sem I} {x : Val} (hp : Par M v q) (hs : MLazy M st x)
    (ho2 : M.R (owner M.h' f .apply) (.ok o2))
    (hag : ∀ y r, x.force = .ok y → Par M (K .foldl [v, .cls o2 .apply [encVal y, encVal r], f]) (again (op y r))) (s pos) :
    M.R (Call M (K .foldl [v, st, f]) s pos) (omap encRes (Comb.foldl q again x op s pos)) := by
  obtain ⟨o, ho, hq⟩ := hp
  replace hq := hq s pos
  unfold MLazy at hs
  rw [call_def, body_foldl_apply]
  norm
  unfold Comb.foldl
  nx
  rcases res_cases (q s pos) with ⟨m1, p1, hx⟩ | ⟨w1, t1, p1, hx⟩ | ⟨e1, hx⟩ <;> rw [hx] at hq <;>
    simp only [hx, omap_ok, omap_bad, bad_bind, Out.bind_ok] at hq ⊢
  · nx; nx
    refine M.via M.eval_1 ?_
    refine M.gstep body_foldl_next_iteration ?_
    norm
    rcases out_cases x.force with ⟨y, hy⟩ | ⟨e, hy⟩ <;> rw [hy] at hs <;>
      simp only [hy, omap_ok, omap_bad, bad_bind, Out.bind_ok] at hs ⊢
    · nx
      exact M.accept (by fact) (by fact)
    · bad
  · nx; nx
    refine M.via M.eval_0 ?_
    refine M.gstep body_foldl_apply_unchecked ?_
    norm
    nx
    rcases out_cases x.force with ⟨y, hy⟩ | ⟨e, hy⟩ <;> rw [hy] at hs <;>
      simp only [hy, omap_ok, omap_bad, bad_bind, Out.bind_ok] at hs ⊢
    · obtain ⟨o3, ho3, ha⟩ := hag y w1 hy
      nx; nx; nx; nx; nx
      exact ha t1 p1
    · bad
  · bad

theorem foldl_reject_incomplete_R {op : Val → Val → Val} {again : Val → Sem I} {x : Val} (hp : Par M v q)
    (hs : MLazy M st x) (ho2 : M.R (owner M.h' f .apply) (.ok o2))
    (hag : ∀ y r, x.force = .ok y → Par M (K .foldl_reject_incomplete [v, .cls o2 .apply [encVal y, encVal r], f]) (again (op y r))) (s pos) :
    M.R (Call M (K .foldl_reject_incomplete [v, st, f]) s pos)
      (omap encRes (Comb.foldlRejectIncomplete q again x op s pos)) := by
  obtain ⟨o, ho, hq⟩ := hp
  replace hq := hq s pos
  unfold MLazy at hs
  rw [call_def, body_foldl_reject_incomplete_apply]
  norm
  unfold Comb.foldlRejectIncomplete
  nx
  rcases res_cases (q s pos) with ⟨m1, p1, hx⟩ | ⟨w1, t1, p1, hx⟩ | ⟨e1, hx⟩ <;> rw [hx] at hq <;>
    simp only [hx, omap_ok, omap_bad, bad_bind, Out.bind_ok] at hq ⊢
  · nx; nx
    refine M.via M.eval_1 ?_
    refine M.gstep body_foldl_reject_incomplete_end_of_folding ?_
    norm
    nx; nx; nx
    refine M.bind_ok (M.lget (equal_get.trans bool_type)) ?_
    nx
    cases pos.equalTo p1
    · exact M.via M.eval_0 hq
    · refine M.via M.eval_1 ?_
      refine M.gstep body_foldl_reject_incomplete_accept_state ?_
      norm
      rcases out_cases x.force with ⟨y, hy⟩ | ⟨e, hy⟩ <;> rw [hy] at hs <;>
        simp only [hy, omap_ok, omap_bad, bad_bind, Out.bind_ok, if_true] at hs ⊢
      · nx
        exact M.accept (by fact) (by fact)
      · bad
  · nx; nx
    refine M.via M.eval_0 ?_
    refine M.gstep body_foldl_reject_incomplete_apply_unchecked ?_
    norm
    nx
    rcases out_cases x.force with ⟨y, hy⟩ | ⟨e, hy⟩ <;> rw [hy] at hs <;>
      simp only [hy, omap_ok, omap_bad, bad_bind, Out.bind_ok] at hs ⊢
    · obtain ⟨o3, ho3, ha⟩ := hag y w1 hy
      nx; nx; nx; nx; nx
      exact ha t1 p1
    · bad
  · bad

theorem foldl_start_with_parser_R {again : Val → Sem I} (hp : Par M v' q)
    (hag : ∀ x, Par M (K .foldl [v, encVal x, f]) (again x)) (s pos) :
    M.R (Call M (K .foldl_start_with_parser [v, v', f]) s pos)
      (omap encRes (Comb.foldlStartWithParser q again s pos)) := by
  obtain ⟨o, ho, hq⟩ := hp
  replace hq := hq s pos
  rw [call_def, body_foldl_start_with_parser_apply]
  norm
  unfold Comb.foldlStartWithParser
  nx
  rcases res_cases (q s pos) with ⟨m1, p1, hx⟩ | ⟨w1, t1, p1, hx⟩ | ⟨e1, hx⟩ <;> rw [hx] at hq <;>
    simp only [hx, omap_ok, omap_bad, bad_bind, Out.bind_ok] at hq ⊢
  · nx; nx; nx
    exact M.via M.eval_1 hq
  · nx; nx; nx
    refine M.via M.eval_0 ?_
    refine M.gstep body_foldl_start_with_parser_apply_unchecked ?_
    norm
    obtain ⟨o3, ho3, ha⟩ := hag w1
    nx; nx; nx; nx
    exact ha t1 p1
  · bad

theorem foldl_reject_incomplete_start_with_parser_R {again : Val → Sem I} (hp : Par M v' q)
    (hag : ∀ x, Par M (K .foldl_reject_incomplete [v, encVal x, f]) (again x)) (s pos) :
    M.R (Call M (K .foldl_reject_incomplete_start_with_parser [v, v', f]) s pos)
      (omap encRes (Comb.foldlStartWithParser q again s pos)) := by
  obtain ⟨o, ho, hq⟩ := hp
  replace hq := hq s pos
  rw [call_def, body_foldl_reject_incomplete_start_with_parser_apply]
  norm
  unfold Comb.foldlStartWithParser
  nx
  rcases res_cases (q s pos) with ⟨m1, p1, hx⟩ | ⟨w1, t1, p1, hx⟩ | ⟨e1, hx⟩ <;> rw [hx] at hq <;>
    simp only [hx, omap_ok, omap_bad, bad_bind, Out.bind_ok] at hq ⊢
  · nx; nx; nx
    exact M.via M.eval_1 hq
  · nx; nx; nx
    refine M.via M.eval_0 ?_
    refine M.gstep body_foldl_reject_incomplete_start_with_parser_apply_unchecked ?_
    norm
    obtain ⟨o3, ho3, ha⟩ := hag w1
    nx; nx; nx; nx
    exact ha t1 p1
  · bad

theorem foldr_start_with_parser_R {self : Sem I} {op : Val → Val → Val} (hp : Par M v q) (hs : Par M v' q')
    (hself : Par M (K .foldr_start_with_parser [v, v', f]) self) (hf : MFun2 M f op) (s pos) :
    M.R (Call M (K .foldr_start_with_parser [v, v', f]) s pos)
      (omap encRes (Comb.foldrStartWithParser q q' self op s pos)) := by
  obtain ⟨o, ho, hq⟩ := hp
  obtain ⟨o2, ho2, hs⟩ := hs
  obtain ⟨o3, ho3, hself⟩ := hself
  obtain ⟨o4, ho4, hf⟩ := hf
  replace hq := hq s pos
  rw [call_def, body_foldr_start_with_parser_apply]
  norm
  unfold Comb.foldrStartWithParser
  nx
  rcases res_cases (q s pos) with ⟨m1, p1, hx⟩ | ⟨w1, t1, p1, hx⟩ | ⟨e1, hx⟩ <;> rw [hx] at hq <;>
    simp only [hx, omap_ok, omap_bad, bad_bind, Out.bind_ok] at hq ⊢
  · nx; nx; nx
    exact M.via M.eval_1 (hs s pos)
  · nx; nx; nx
    refine M.via M.eval_0 ?_
    refine M.gstep body_foldr_start_with_parser_apply_unchecked ?_
    norm
    replace hself := hself t1 p1
    nx; nx; nx
    rcases res_cases (self t1 p1) with ⟨m2, p2, hx⟩ | ⟨w2, t2, p2, hx⟩ | ⟨e2, hx⟩ <;> rw [hx] at hself <;>
      simp only [hx, omap_ok, omap_bad, bad_bind, Out.bind_ok] at hself ⊢
    · nx
      exact M.via M.eval_1 hself
    · nx
      refine M.via M.eval_0 ?_
      refine M.gstep body_foldr_start_with_parser_apply_unchecked1 ?_
      norm
      nx; nx; nx
      replace hf := hf w2 w1
      rcases out_cases (op w2 w1).force with ⟨y, hy⟩ | ⟨e, hy⟩ <;> rw [hy] at hf <;>
        simp only [hy, omap_ok, omap_bad, bad_bind, Out.bind_ok] at hf ⊢
      · nx; nx; nx
        exact M.accept (by fact) (by fact)
      · bad
    · bad
  · bad

theorem foldl1_R (hp : Par M v q) (hr : Par M (K .foldl [v, st, f]) q') (s pos) :
    M.R (Call M (K .foldl1 [v, st, f]) s pos) (omap encRes (Comb.ifAccepts q q' s pos)) := by
  obtain ⟨o, ho, hq⟩ := hp
  obtain ⟨o2, ho2, hr⟩ := hr
  replace hq := hq s pos
  rw [call_def, body_foldl1_apply]
  norm
  unfold Comb.ifAccepts
  nx
  rcases res_cases (q s pos) with ⟨m1, p1, hx⟩ | ⟨w1, t1, p1, hx⟩ | ⟨e1, hx⟩ <;> rw [hx] at hq <;>
    simp only [hx, omap_ok, omap_bad, bad_bind, Out.bind_ok] at hq ⊢
  · nx; nx
    exact hq
  · nx; nx
    exact hr s pos
  · bad

theorem foldl_reject_incomplete1_R (hp : Par M v q) (hr : Par M (K .foldl_reject_incomplete [v, st, f]) q') (s pos) :
    M.R (Call M (K .foldl_reject_incomplete1 [v, st, f]) s pos) (omap encRes (Comb.ifAccepts q q' s pos)) := by
  obtain ⟨o, ho, hq⟩ := hp
  obtain ⟨o2, ho2, hr⟩ := hr
  replace hq := hq s pos
  rw [call_def, body_foldl_reject_incomplete1_apply]
  norm
  unfold Comb.ifAccepts
  nx
  rcases res_cases (q s pos) with ⟨m1, p1, hx⟩ | ⟨w1, t1, p1, hx⟩ | ⟨e1, hx⟩ <;> rw [hx] at hq <;>
    simp only [hx, omap_ok, omap_bad, bad_bind, Out.bind_ok] at hq ⊢
  · nx; nx
    exact hq
  · nx; nx
    exact hr s pos
  · bad

theorem foldr1_R (hp : Par M v q) (hr : Par M (K .foldr [v, st, f]) q') (s pos) :
    M.R (Call M (K .foldr1 [v, st, f]) s pos) (omap encRes (Comb.ifAccepts q q' s pos)) := by
  obtain ⟨o, ho, hq⟩ := hp
  obtain ⟨o2, ho2, hr⟩ := hr
  replace hq := hq s pos
  rw [call_def, body_foldr1_apply]
  norm
  unfold Comb.ifAccepts
  nx
  rcases res_cases (q s pos) with ⟨m1, p1, hx⟩ | ⟨w1, t1, p1, hx⟩ | ⟨e1, hx⟩ <;> rw [hx] at hq <;>
    simp only [hx, omap_ok, omap_bad, bad_bind, Out.bind_ok] at hq ⊢
  · nx; nx
    exact hq
  · nx; nx
    exact hr s pos
  · bad

theorem foldr_reject_incomplete1_R (hp : Par M v q) (hr : Par M (K .foldr_reject_incomplete [v, st, f]) q') (s pos) :
    M.R (Call M (K .foldr_reject_incomplete1 [v, st, f]) s pos) (omap encRes (Comb.ifAccepts q q' s pos)) := by
  obtain ⟨o, ho, hq⟩ := hp
  obtain ⟨o2, ho2, hr⟩ := hr
  replace hq := hq s pos
  rw [call_def, body_foldr_reject_incomplete1_apply]
  norm
  unfold Comb.ifAccepts
  nx
  rcases res_cases (q s pos) with ⟨m1, p1, hx⟩ | ⟨w1, t1, p1, hx⟩ | ⟨e1, hx⟩ <;> rw [hx] at hq <;>
    simp only [hx, omap_ok, omap_bad, bad_bind, Out.bind_ok] at hq ⊢
  · nx; nx
    exact hq
  · nx; nx
    exact hr s pos
  · bad

end Metaparse.Tmpl
