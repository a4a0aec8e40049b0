import Verif.Lemmas.Depth
import Verif.Lemmas.Templates.DenLists
/-!
# The class templates do the same as the model
-/

set_option linter.unusedVariables false
set_option linter.unusedSimpArgs false
set_option linter.unusedSectionVars false

namespace Metaparse.Tmpl

open Metaparse (Val Msg GExp Pos Res P Env nextPos ch Sem isCharC anyOfC11 orC isNoneC11 isNoneCImpl step eval run listInput
  Comb.nthOf Comb.middleOf Comb.iterate run_step Comb.nthOf98 Comb.lastOf98)

variable [L : Lang] {I : Type} [Inputs I] {U : User} [Lawful U I] {C : Nat → V → Prop} {E : Env I}

section Step
variable {M : Mode U} {rec : P → Sem I}

theorem Dens.pars {vs : List V} {ps : List P} (h : Dens U C E vs ps)
    (ih : ∀ o p, Den U C E o p → ∀ s pos,
      M.R (get M.h' (.cls o .apply [encInp s, encPos pos]) .type) (omap encRes (rec p s pos))) :
    Pars M vs (ps.map rec) := by
  match vs, ps, h with
  | _, _, .nil => exact .nil
  | _, _, .cons ha hd hds => exact .cons ⟨_, M.lowner ha, ih _ _ hd⟩ (Dens.pars hds ih)
  termination_by ps.length

theorem Fun1.mode {v : V} {f : Val → Val} (h : Fun1 U v f) : MFun1 M v f := by
  obtain ⟨o, ho, hf⟩ := h
  exact ⟨o, M.lowner ho, fun x => M.lgetS (hf x)⟩
theorem Fun2.mode {v : V} {f : Val → Val → Val} (h : Fun2 U v f) : MFun2 M v f := by
  obtain ⟨o, ho, hf⟩ := h
  exact ⟨o, M.lowner ho, fun x y => M.lgetS (hf x y)⟩
theorem Fun2On.of {v : V} {f : Val → Val → Val} (h : Fun2 U v f) : Fun2On U (fun _ => True) v f := by
  obtain ⟨o, ho, hf⟩ := h
  exact ⟨o, ho, fun x y _ => ⟨hf x y, fun _ _ => trivial⟩⟩
theorem Pred.mode {v : V} {f : Val → Out Bool} (h : Pred U v f) : MPred M v f := by
  obtain ⟨o, ho, hf⟩ := h
  exact ⟨o, M.lowner ho, fun x => M.lgetS (hf x)⟩
theorem MsgFun.mode {v : V} {f : Msg → Out Msg} (h : MsgFun U v f) : MMsgFun M v f := by
  obtain ⟨o, ho, hf⟩ := h
  exact ⟨o, M.lowner ho, fun x => M.lgetS (hf x)⟩
theorem RejFun.mode {v : V} {f : Msg → Pos → Out (Res I)} (h : RejFun U v f) : MRejFun M v f := by
  obtain ⟨o, ho, hf⟩ := h
  exact ⟨o, M.lowner ho, fun m p => M.lgetS (hf m p)⟩
theorem Lazy.mode {v : V} {x : Val} (h : Lazy U v x) : MLazy M v x := M.lgetS h

theorem fits98 {l : Limits} {a : Prop} {b : Limits → Prop} (hL : L.headers = .cpp98 l) (h : L.headers.pick a b) : b l := by
  rw [hL] at h
  exact h

theorem step_R (hE : FitsDen U C E)
    (ih : ∀ o p, Den U C E o p → ∀ s pos,
      M.R (get M.h' (.cls o .apply [encInp s, encPos pos]) .type) (omap encRes (rec p s pos)))
    (hrec : ∀ p s pos, M.R (step E rec p s pos) (rec p s pos))
    {o : V} {p : P} (hd : Den U C E o p) (hn : NoRef p) (s : I) (pos : Pos) :
    M.R (get M.h (.cls o .apply [encInp s, encPos pos]) .type) (omap encRes (step E rec p s pos)) := by
  have par : ∀ {v o p}, HasApply U v o → Den U C E o p → Par M v (rec p) := fun ha hd => ⟨_, M.lowner ha, ih _ _ hd⟩
  have pars : ∀ {v o p vs ps}, HasApply U v o → Den U C E o p → Dens U C E vs ps → Pars M (v :: vs) (rec p :: ps.map rec) :=
    fun ha hd hds => .cons (par ha hd) (hds.pars ih)
  have rr : ∀ {x : Out V} {p : P}, M.R x (omap encRes (step E rec p s pos)) → M.R x (omap encRes (rec p s pos)) :=
    fun h => M.trans h (M.bind (hrec _ _ _) fun r => M.refl _)
  cases hd with
  | oneChar => unfold step; rw [hE.input]; exact call_top (one_char_R s pos)
  | empty x => unfold step; rw [hE.input]; exact call_top (empty_R s pos)
  | fail m => exact call_top (fail_R s pos)
  | ret x => exact call_top (return_R s pos)
  | acceptWhen ha hd hf => exact call_top (accept_when_R (par ha hd) hf.mode s pos)
  | changeErrorMessage ha hd => exact call_top (change_error_message_R (par ha hd) s pos)
  | transformErrorMessage ha hd hf => exact call_top (transform_error_message_R (par ha hd) hf.mode s pos)
  | transformError ha hd hf => exact call_top (transform_error_R (par ha hd) hf.mode s pos)
  | transform ha hd hf => exact call_top (transform_R (par ha hd) hf.mode s pos)
  | always ha hd => exact call_top (always_R (par ha hd) s pos)
  | lookAhead ha hd => exact call_top (look_ahead_R (par ha hd) s pos)
  | except ha hd => exact call_top (except_R (par ha hd) s pos)
  | optional ha hd => exact call_top (optional_R (par ha hd) s pos)
  | if_ ha hd => exact call_top (if__R (par ha hd) s pos)
  | failAtFirstCharExpected ha hd => exact call_top (fail_at_first_char_expected_R (par ha hd) s pos)
  | @foldl v o w f p st op A ha hd hs hA hf =>
      obtain ⟨o2, ho2, hff⟩ := hf
      exact call_top (foldl_R (op := op) (again := fun st' => rec (p.foldl st' op)) (par ha hd) hs.mode (M.lowner ho2)
        (fun x r hx => par ha_foldl (.foldl (A := A) ha hd (hff x r (hA x hx)).1 (hff x r (hA x hx)).2 ⟨o2, ho2, hff⟩)) s pos)
  | @foldlRejectIncomplete v o w f p st op A ha hd hs hA hf =>
      obtain ⟨o2, ho2, hff⟩ := hf
      exact call_top (foldl_reject_incomplete_R (op := op) (again := fun st' => rec (p.foldlRejectIncomplete st' op)) (par ha hd) hs.mode (M.lowner ho2)
        (fun x r hx => par ha_foldl_reject_incomplete (.foldlRejectIncomplete (A := A) ha hd (hff x r (hA x hx)).1 (hff x r (hA x hx)).2 ⟨o2, ho2, hff⟩)) s pos)
  | foldlStartWithParser ha hd ha' hd' hf =>
      exact call_top (foldl_start_with_parser_R (par ha' hd') (fun x => par ha_foldl (.foldl ha hd (val_type x) (fun _ _ => trivial) (.of hf))) s pos)
  | foldlRejectIncompleteStartWithParser ha hd ha' hd' hf =>
      exact call_top (foldl_reject_incomplete_start_with_parser_R (par ha' hd')
        (fun x => par ha_foldl_reject_incomplete (.foldlRejectIncomplete ha hd (val_type x) (fun _ _ => trivial) (.of hf))) s pos)
  | foldrStartWithParser ha hd ha' hd' hf =>
      exact call_top (foldr_start_with_parser_R (par ha hd) (par ha' hd')
        (par ha_foldr_start_with_parser (.foldrStartWithParser ha hd ha' hd' hf)) hf.mode s pos)
  | foldl1 ha hd hs hA hf => exact call_top (foldl1_R (par ha hd) (par ha_foldl (.foldl ha hd hs hA hf)) s pos)
  | foldlRejectIncomplete1 ha hd hs hA hf =>
      exact call_top (foldl_reject_incomplete1_R (par ha hd) (par ha_foldl_reject_incomplete (.foldlRejectIncomplete ha hd hs hA hf)) s pos)
  | foldr1 ha hd hf =>
      exact call_top (foldr1_R (par ha hd) (par ha_foldr (.foldrStartWithParser ha hd ha_return (.ret _) hf)) s pos)
  | foldrRejectIncomplete1 ha hd hf hr =>
      obtain ⟨o1, ho1, hd1⟩ := is_first_of (U := U) (C := C) (E := E) (.cons ha_return (.ret _)
        (.cons ha_fail_at_first_char_expected (.failAtFirstCharExpected ha hd) .nil)) hr
      exact call_top (foldr_reject_incomplete1_R (par ha hd) (par ha_foldr_reject_incomplete
        (.foldrStartWithParser ha hd ho1 hd1 hf)) s pos)
  | sequence hL ha hd hds =>
      obtain ⟨hd'⟩ := L; cases hL; letI := cpp11
      unfold step; rw [show E.std = .cpp11 from hE.std]
      exact call_top (sequence_R (par ha hd) (sequence_par (hds.pars ih)) s pos)
  | oneOf hL ha hd hds =>
      obtain ⟨hd'⟩ := L; cases hL; letI := cpp11
      unfold step; rw [show E.std = .cpp11 from hE.std]
      exact call_top (one_of_R (par ha hd) (one_of_par (hds.pars ih)) s pos)
  | nthOfC hL ha hd hds =>
      obtain ⟨hd'⟩ := L; cases hL; letI := cpp11
      unfold step Comb.nthOf; rw [show E.std = .cpp11 from hE.std]
      exact call_top (nth_of_c_R (pars ha hd hds) s pos)
  | firstOf hL ha hd hds =>
      obtain ⟨hd'⟩ := L; cases hL; letI := cpp11
      unfold step Comb.nthOf; rw [show E.std = .cpp11 from hE.std]
      exact call_top (first_of_R (pars ha hd hds) s pos)
  | lastOf hL ha hd hds =>
      obtain ⟨hd'⟩ := L; cases hL; letI := cpp11
      unfold step; rw [show E.std = .cpp11 from hE.std]
      exact call_top (last_of_R (pars ha hd hds) s pos)
  | middleOf ha hd ha' hd' ha'' hd'' hr =>
      have h1 := par ha hd
      have h2 := par ha' hd'
      have h3 := par ha'' hd''
      obtain ⟨_ | l⟩ := L
      · letI := cpp11
        unfold step Comb.middleOf Comb.nthOf; rw [show E.std = .cpp11 from hE.std]
        exact call_top (middle_of_R h1 h2 h3 s pos)
      · letI : Lang := ⟨.cpp98 l⟩
        have hL : Lang.headers = .cpp98 l := rfl
        obtain ⟨e1, e2, e3, e4⟩ := hE.std
        unfold step Comb.middleOf Comb.nthOf; rw [e1]; dsimp only; rw [e2]
        exact call_top (middle_of98_R hL hr h1 h2 h3 (ha_ne_na ha) (ha_ne_na ha') s pos)
  | @iterate n v o p l hn0 ha hd =>
      refine call_top (iterate_R (l := l) (again := fun l' => rec (.iterate (n - 1) p l')) hn0 (par ha hd) (fun r => ?_) s pos)
      by_cases h1 : n - 1 = 0
      · rw [h1]
        exact par ha_iterate_0 (.iterateZero ha hd)
      · exact par (ha_iterate h1) (.iterate h1 ha hd)
  | @iterateZero v o p l ha hd =>
      rw [show step E rec (.iterate 0 p l) s pos = .ok (.acc (.seq l) s pos) by
        simp [step, Comb.iterate]]
      exact call_top (return_R (x := .seq l) s pos)
  | @keyword l x hg =>
      cases l with
      | nil => exact call_top (keyword_nil_R hg s pos)
      | cons c l => exact call_top (keyword_cons_R hg (par ha_lit (den_lit c)) (par ha_keyword (.keyword (good_tail hg))) s pos)
  | @oneOfC l hL =>
      obtain ⟨hd'⟩ := L; cases hL; letI := cpp11
      unfold step; rw [show E.std = .cpp11 from hE.std]
      exact rr (call_top (accept_when_R (m := .noneOfTheExpectedCasesFound) (par ha_one_char .oneChar) (any_of_c_pred l).mode s pos))
  | @oneCharExceptC l hL =>
      obtain ⟨hd'⟩ := L; cases hL; letI := cpp11
      unfold step; rw [show E.std = .cpp11 from hE.std]
      exact rr (call_top (accept_when_R (m := .unexpectedCharacter) (par ha_one_char .oneChar) (is_none_c_pred l).mode s pos))
  | ref hc ha => exact absurd hn (by simp [NoRef])
  | native h => exact M.trans (M.bind (M.leaf _) fun m => M.refl _) (M.same (h s pos))
  | sequenceNil hL =>
      obtain ⟨hd'⟩ := L; cases hL; letI := cpp11
      unfold step; rw [show E.std = .cpp11 from hE.std]; exact call_top (return_R (x := .seq []) s pos)
  | oneOfNil hL =>
      obtain ⟨hd'⟩ := L; cases hL; letI := cpp11
      unfold step; rw [show E.std = .cpp11 from hE.std]; exact call_top (fail_R (m := .noneOfTheExpectedCasesFound) s pos)
  | @nthOfCNil n hL =>
      obtain ⟨hd'⟩ := L; cases hL; letI := cpp11
      unfold step Comb.nthOf; rw [show E.std = .cpp11 from hE.std]; exact call_top (fail_R (m := .indexOutOfRange 0 (-1) n) s pos)
  | lastOfNil hL =>
      obtain ⟨hd'⟩ := L; cases hL; letI := cpp11
      unfold step; rw [show E.std = .cpp11 from hE.std]; exact call_top (fail_R (m := .indexOutOfRange 0 (-1) 0) s pos)
  | sequence98 hL h1 h2 hds =>
      obtain ⟨e1, e2, e3, e4⟩ := fits98 hL hE.std
      unfold step; rw [e1]; dsimp only; rw [e2]
      exact call_top (sequence98_R hL h1 h2 (hds.pars ih) hds.ne_na s pos)
  | sequence98Nil hL h1 =>
      obtain ⟨e1, e2, e3, e4⟩ := fits98 hL hE.std
      unfold step; rw [e1]; dsimp only; rw [e2]
      exact call_top (sequence98_nil_R hL h1 s pos)
  | oneOf98 hL h1 hds =>
      obtain ⟨e1, e2, e3, e4⟩ := fits98 hL hE.std
      unfold step; rw [e1]; dsimp only; rw [e3, fill_98 hL rfl]
      exact call_top (one_of98_R hL h1 (hds.pars ih) hds.ne_na s pos)
  | nthOf98 hL h1 h2 h3 hds =>
      obtain ⟨e1, e2, e3, e4⟩ := fits98 hL hE.std
      have hl := hds.length
      unfold step Comb.nthOf; rw [e1]; dsimp only; rw [e2]
      unfold Comb.nthOf98
      rw [List.length_map, ← hl, if_pos h3, if_pos ⟨h1, h2⟩]
      exact call_top ((nth98_par hL (hds.pars ih) hds.ne_na _ h1 (by rw [List.length_map, ← hl]; exact h2)).2 s pos)
  | nthOf98Out hL h1 h2 =>
      obtain ⟨e1, e2, e3, e4⟩ := fits98 hL hE.std
      unfold step Comb.nthOf; rw [e1]; dsimp only; rw [e2]
      unfold Comb.nthOf98
      rw [List.length_map, if_pos h2, if_neg h1]
      exact call_top (fail_R s pos)
  | lastOf98 hL h1 h2 hds =>
      obtain ⟨e1, e2, e3, e4⟩ := fits98 hL hE.std
      have hl := hds.length
      unfold step; rw [e1]; dsimp only; rw [e2]
      unfold Comb.lastOf98 Comb.nthOf98
      rw [List.length_map, ← hl, if_pos h2, if_pos ⟨by omega, by omega⟩]
      exact call_top ((nth98_par hL (hds.pars ih) hds.ne_na _ (by omega) (by rw [List.length_map, ← hl]; omega)).2 s pos)
  | lastOf98Nil hL h1 =>
      obtain ⟨e1, e2, e3, e4⟩ := fits98 hL hE.std
      unfold step; rw [e1]; dsimp only; rw [e2]
      unfold Comb.lastOf98 Comb.nthOf98
      rw [if_pos (by simpa using h1), if_neg (by simp)]
      exact call_top (fail_R (m := .indexOutOfRange 0 (-1) (-1)) s pos)
  | @oneOfC98 l cs hL h1 =>
      obtain ⟨e1, e2, e3, e4⟩ := fits98 hL hE.std
      unfold step; rw [e1]; dsimp only; rw [e3, if_pos h1, fill_98 hL rfl]
      refine rr ?_
      unfold step; rw [e1]; dsimp only; rw [e3]
      exact call_top (one_of98_R hL (by simp; omega) ((lits_dens cs).pars ih) (lits_dens (U := U) (C := C) (E := E) cs).ne_na s pos)
  | @oneCharExceptC98 l cs hL h1 =>
      obtain ⟨e1, e2, e3, e4⟩ := fits98 hL hE.std
      unfold step; rw [e1]; dsimp only; rw [e4, if_pos h1]
      exact rr (call_top (accept_when_R (m := .unexpectedCharacter) (par ha_one_char .oneChar) (is_none_pred hL cs h1).mode s pos))

theorem step_all_R (hE : FitsDen U C E)
    (ih : ∀ o p, Den U C E o p → ∀ s pos,
      M.R (get M.h' (.cls o .apply [encInp s, encPos pos]) .type) (omap encRes (rec p s pos)))
    (hrec : ∀ p s pos, M.R (step E rec p s pos) (rec p s pos))
    {o : V} {p : P} (hd : Den U C E o p) (s : I) (pos : Pos) :
    M.R (get M.h (.cls o .apply [encInp s, encPos pos]) .type) (omap encRes (step E rec p s pos)) := by
  by_cases hn : NoRef p
  · exact step_R hE ih hrec hd hn s pos
  · cases hd with
    | @ref i c o hc ha =>
        obtain ⟨hd, hn⟩ := hE.rules i c o hc ha
        exact M.trans (step_R hE ih hrec hd hn s pos) (M.bind (hrec _ _ _) fun r => M.refl _)
    | _ => exact absurd trivial hn

end Step

theorem below_run (hE : FitsDen U C E) (n : Nat) : ∀ {o p}, Den U C E o p → ∀ s pos,
    Below (get (instN U n) (.cls o .apply [encInp s, encPos pos]) .type) (omap encRes (run E p s pos)) := by
  induction n with
  | zero => exact fun _ _ _ => .inl rfl
  | succ n ih =>
      intro o p hd s pos
      have := step_all_R (M := modeBelow U n) (rec := run E) hE (fun o p hd => ih hd)
        (fun p s pos => .inr (by rw [← run_step]; exact Same.rfl' _)) hd s pos
      rw [← run_step] at this
      exact this

theorem above_eval (hE : FitsDen U C E) (n : Nat) : ∀ {o p}, Den U C E o p → ∀ s pos,
    Below (omap encRes (eval E n p s pos)) (get (inst U) (.cls o .apply [encInp s, encPos pos]) .type) := by
  induction n with
  | zero => exact fun _ _ _ => .inl rfl
  | succ n ih =>
      intro o p hd s pos
      refine step_all_R (M := modeAbove U) (rec := eval E n) hE (fun o p hd => ih hd) (fun p s pos => ?_) hd s pos
      by_cases h : eval E n p s pos = .deep
      · exact .inl h
      · refine .inr ?_
        have := Metaparse.eval_mono h (Nat.le_succ n)
        rw [show step E (eval E n) p s pos = eval E (n + 1) p s pos from rfl, this]
        exact Same.rfl' _

/-- The class `o::apply<S, Pos>::type` is what the model says. -/
theorem call_same (hE : FitsDen U C E) {o : V} {p : P} (hd : Den U C E o p) (s : I) (pos : Pos) :
    Same (call U o [encInp s, encPos pos]) (omap encRes (run E p s pos)) := by
  have h1 : Below (call U o [encInp s, encPos pos]) (omap encRes (run E p s pos)) := by
    obtain ⟨n, h⟩ := inst_eventually U (.cls o .apply [encInp s, encPos pos])
    have := below_run hE n hd s pos
    dsimp only at h
    rw [get, h n (Nat.le_refl n)] at this
    exact this
  have h2 : Below (omap encRes (run E p s pos)) (call U o [encInp s, encPos pos]) := by
    by_cases hx : ∃ n, eval E n p s pos ≠ .deep
    · obtain ⟨n, hn⟩ := hx
      have := above_eval hE n hd s pos
      rw [← Metaparse.run_eq_of_eval rfl hn] at this
      exact this
    · left
      unfold run
      rw [dif_neg hx]
      rfl
  rcases h1 with h1 | h1
  · rcases h2 with h2 | h2
    · rw [h1, h2]; trivial
    · exact h2.symm
  · exact h1

end Metaparse.Tmpl
