import Verif.Lemmas.Templates.Lists
/-!
# The parsers of the C++98 headers that take any number of parsers, one layer
-/

set_option linter.unusedVariables false
set_option linter.unusedSimpArgs false
set_option linter.unusedSectionVars false

namespace Metaparse.Tmpl

open Metaparse (Val Msg GExp Pos Res P Env nextPos ch Sem Comb.transform Comb.ret Comb.fail Comb.pushBack
  Comb.sequence98Loop Comb.sequence98 Comb.oneOf98Op Comb.oneOf98Loop Comb.oneOf98 Comb.skipSeq98 Comb.nthGo98 Comb.nthOf98
  Comb.lastOf98 Comb.transformErrorMessage)
open Mode (Bad)

section Vectors
variable [Lang] {U : User} {x : V} {l : List V}

theorem front_vector : get (inst U) (K .mpl_front [K .mpl_vector (x :: l)]) .type = .ok x := by
  rw [get_inst body_mpl_front]; dsimp! [seq_tag_vector]
  rw [owner_inst body_mpl_front_impl_0]; dsimp! []
  rw [get_inst body_mpl_front_impl_0_apply]; dsimp! [vector_type]
  members body_mpl_vector_front

theorem pop_front_vector : get (inst U) (K .mpl_pop_front [K .mpl_vector (x :: l)]) .type = .ok (K .mpl_vector l) := by
  rw [get_inst body_mpl_pop_front]; dsimp! [seq_tag_vector]
  rw [owner_inst body_mpl_pop_front_impl_0]; dsimp! []
  rw [get_inst body_mpl_pop_front_impl_0_apply]; dsimp! [vector_type]
  rw [get_inst body_mpl_vector_pop_front]; dsimp! [vector_type]

end Vectors

theorem na_fit {v : V} {vs : List V} {a b : V} (h : v ≠ K .mpl_na []) :
    Pat.fits [.cls .mpl_vector [.cls .mpl_na [], .pack .Ts], .var .State, .var .Op] [K .mpl_vector (v :: vs), a, b] [] = none := by
  rw [fits_cls, fits_cons (by simp) (by simp), mark_cls.2.2, if_neg h]
  rfl

theorem fit_na {T : V} (h : T ≠ K .mpl_na []) : Pat.fits [.cls .mpl_na []] [T] [] = none := by
  rw [fits_cons (by simp) (by simp), mark_cls.2.2, if_neg h]
  rfl

/-- What a fold of MPL does with results of parsers. -/
def foldRes {I : Type} (φ : Sem I → Res I → Out (Res I)) : List (Sem I) → Res I → Out (Res I)
  | [], r => .ok r
  | q :: qs, r => (φ q r).bind fun r' => foldRes φ qs r'

variable [L : Lang] {l : Limits} {U : User} {I : Type} [Inputs I] [Lawful U I] {M : Mode U}
variable {v W o : V} {q : Sem I} {s : I} {pos : Pos} {vs : List V} {qs : List (Sem I)} {T : V} {m : Msg} {p : Pos} {x : Val}

theorem res_ne (r : Res I) : encRes r ≠ K .mpl_na [] := by cases r <;> simp [encRes]

theorem res_type (r : Res I) : get (inst U) (encRes r) .type = .ok (encRes r) := by
  cases r with
  | acc v s p => exact acc_type
  | rej m p => exact rej_type

theorem fold_R {φ : Sem I → Res I → Out (Res I)} {B : Res I → Prop} {k : Nat} (ho : M.R (owner M.h' W .apply) (.ok o))
    (H : ∀ v q r, Par M v q → B r → M.R (get M.h' (.cls o .apply [encRes r, v]) .type) (omap encRes (φ q r)) ∧
      ∀ r', φ q r = .ok r' → B r')
    (h : Pars M vs qs) (hna : ∀ v ∈ vs, v ≠ K .mpl_na []) : ∀ r : Res I, B r →
    M.R (get M.h' (K .mpl_vector_fold [K .mpl_vector (vs ++ List.replicate k (K .mpl_na [])), encRes r, W]) .type)
      (omap encRes (foldRes φ qs r)) := by
  induction h with
  | nil =>
      intro r hB
      cases k with
      | zero =>
          refine M.gstep body_mpl_vector_fold_0 ?_
          exact M.refl _
      | succ k =>
          refine M.gstep body_mpl_vector_fold_1 ?_
          exact M.refl _
  | @cons v q vs qs hp hps ih =>
      intro r hB
      refine M.gstep (body_mpl_vector_fold_2 (na_fit (hna v (List.mem_cons_self ..)))) ?_
      norm
      obtain ⟨hv, hB'⟩ := H v q r hp hB
      unfold foldRes
      nx
      rcases out_cases (φ q r) with ⟨y, hy⟩ | ⟨e, hy⟩ <;> rw [hy] at hv <;>
        simp only [hy, omap_ok, omap_bad, bad_bind, Out.bind_ok] at hv ⊢
      · nx
        exact ih (fun v hv => hna v (List.mem_cons_of_mem _ hv)) y (hB' y hy)
      · bad

theorem fold_type {X Y : V} {y : Out V} (h : M.R (get M.h' (K .mpl_vector_fold [K .mpl_vector vs, X, Y]) .type) y) :
    M.R (get M.h' (K .mpl_fold [K .mpl_vector vs, X, Y]) .type) y := by
  refine M.gstep body_mpl_fold ?_
  norm
  refine M.bind_ok (M.lget vector_type) (M.bind_ok ?_ h)
  refine M.gstep body_mpl_lambda ?_
  exact M.refl _

/-! ### Errors -/

theorem Mode.err_rejT (hT : T ≠ K .mpl_na []) (h : M.R (get M.h' T .type) (.ok (encRes (I := I) (.rej m p)))) :
    M.R (M.h' (K .is_error [T])) (inst U (K .mpl_bool_ [.num 1])) := by
  refine M.istep (body_is_error_1 (fit_na hT)) ?_
  refine M.bind_ok h (M.bind_ok (M.tag_of rej_tag) ?_)
  refine M.trans (M.bind (M.same_inst same_eq) fun m => M.refl _) ?_
  rw [obind_ok]
  simp [ofBool]
  exact M.refl _

theorem Mode.err_accT (hT : T ≠ K .mpl_na []) (h : M.R (get M.h' T .type) (.ok (encRes (.acc x s p)))) :
    M.R (M.h' (K .is_error [T])) (inst U (K .mpl_bool_ [.num 0])) := by
  refine M.istep (body_is_error_1 (fit_na hT)) ?_
  refine M.bind_ok h (M.bind_ok (M.tag_of acc_tag) ?_)
  refine M.trans (M.bind (M.same_inst same_eq) fun m => M.refl _) ?_
  rw [obind_ok]
  simp [ofBool]
  exact M.refl _

theorem Mode.err_rejt (hT : T ≠ K .mpl_na []) (h : M.R (get M.h' T .type) (.ok (encRes (I := I) (.rej m p)))) :
    M.R (get M.h' (K .is_error [T]) .type) (.ok (K .mpl_bool_ [.num 1])) :=
  M.viai (Mode.err_rejT hT h) (by rw [bool_type]; exact Same.rfl' _)
theorem Mode.err_acct (hT : T ≠ K .mpl_na []) (h : M.R (get M.h' T .type) (.ok (encRes (.acc x s p)))) :
    M.R (get M.h' (K .is_error [T]) .type) (.ok (K .mpl_bool_ [.num 0])) :=
  M.viai (Mode.err_accT hT h) (by rw [bool_type]; exact Same.rfl' _)
theorem Mode.err_rejv (hT : T ≠ K .mpl_na []) (h : M.R (get M.h' T .type) (.ok (encRes (I := I) (.rej m p)))) :
    M.R (get M.h' (K .is_error [T]) .value) (.ok (.num 1)) :=
  M.viai (Mode.err_rejT hT h) (by rw [bool_value]; exact Same.rfl' _)
theorem Mode.err_accv (hT : T ≠ K .mpl_na []) (h : M.R (get M.h' T .type) (.ok (encRes (.acc x s p)))) :
    M.R (get M.h' (K .is_error [T]) .value) (.ok (.num 0)) :=
  M.viai (Mode.err_accT hT h) (by rw [bool_value]; exact Same.rfl' _)

theorem Mode.eval_1v {A B : V} (h : M.R (get M.h' T .value) (.ok (.num 1))) :
    M.R (M.h' (K .mpl_eval_if [T, A, B])) (M.h' A) := by
  refine M.istep body_mpl_eval_if ?_
  refine M.bind_ok (M.if_1 h) ?_
  rw [obind_ok]
  exact M.refl _
theorem Mode.eval_0v {A B : V} (h : M.R (get M.h' T .value) (.ok (.num 0))) :
    M.R (M.h' (K .mpl_eval_if [T, A, B])) (M.h' B) := by
  refine M.istep body_mpl_eval_if ?_
  refine M.bind_ok (M.if_0 h) ?_
  rw [obind_ok]
  exact M.refl _

/-! ### `sequence` -/

/-- One parser of a `sequence`. -/
def seqStep (q : Sem I) : Res I → Out (Res I)
  | .rej m pos => .ok (.rej m pos)
  | .acc accum s pos => accum.force.bind fun l => Comb.transform q (fun x => Comb.pushBack l x) s pos

theorem sequence98_fold : ∀ (qs : List (Sem I)) (r : Res I), Comb.sequence98Loop qs r = foldRes seqStep qs r
  | [], r => rfl
  | q :: qs, .rej m p => by
      unfold Comb.sequence98Loop foldRes seqStep
      exact sequence98_fold qs _
  | q :: qs, .acc a s p => by
      unfold Comb.sequence98Loop foldRes
      show _ = (Out.bind (a.force.bind _) _)
      cases a.force with
      | ok y =>
          simp only [Out.bind_ok]
          cases Comb.transform q (fun x => Comb.pushBack y x) s p with
          | ok r => exact sequence98_fold qs r
          | ill f => rfl
          | deep => rfl
      | ill f => rfl
      | deep => rfl

/-- What has been collected so far is a vector. -/
def SeqState : Res I → Prop
  | .rej _ _ => True
  | .acc a _ _ => ∃ k, a = .seq k

theorem do_append_fun (hL : L.headers = .cpp98 l) (k : List Val) :
    MFun1 M (.cls (K .impl_apply_parser []) .do_append [encVal (.seq k)]) (fun x => Comb.pushBack (.seq k) x) := by
  refine ⟨_, M.oself (body98_impl_apply_parser_do_append hL) rfl, fun x => ?_⟩
  refine M.gstep (body98_impl_apply_parser_do_append_apply hL) ?_
  norm
  exact M.lgetS (push_back_other (.seq k) x (fun k h => nomatch h))

theorem seq_step_R (hL : L.headers = .cpp98 l) (v : V) (q : Sem I) (r : Res I) (hp : Par M v q) (hB : SeqState r) :
    M.R (get M.h' (.cls (K .impl_apply_parser []) .apply [encRes r, v]) .type) (omap encRes (seqStep q r)) ∧
      ∀ r', seqStep q r = .ok r' → SeqState r' := by
  cases r with
  | rej m p =>
      have hr : M.R (get M.h' (encRes (I := I) (.rej m p)) .type) (.ok (encRes (I := I) (.rej m p))) := M.lget (res_type _)
      refine ⟨?_, fun r' h => ?_⟩
      · refine M.gstep (body98_impl_apply_parser_apply hL) ?_
        norm
        refine M.gstep body_unless_error ?_
        norm
        refine M.bind_ok (Mode.err_rejt (res_ne _) hr) ?_
        exact M.via M.eval_1 hr
      · unfold seqStep at h
        cases h
        exact trivial
  | acc a s p =>
      have hr : M.R (get M.h' (encRes (.acc a s p)) .type) (.ok (encRes (.acc a s p))) := M.lget (res_type _)
      obtain ⟨k, rfl⟩ := hB
      refine ⟨?_, fun r' h => ?_⟩
      · refine M.gstep (body98_impl_apply_parser_apply hL) ?_
        norm
        refine M.gstep body_unless_error ?_
        norm
        refine M.bind_ok (Mode.err_acct (res_ne _) hr) ?_
        refine M.via M.eval_0 ?_
        refine M.gstep (body98_impl_apply_parser_apply_unchecked hL) ?_
        norm
        nx
        refine M.bind_ok (M.oself body_transform rfl) ?_
        nx; nx
        unfold seqStep
        exact call_get (transform_R hp (do_append_fun hL k) s p)
      · unfold seqStep at h
        simp only [Val.force, Out.bind_ok, Comb.transform] at h
        rcases res_cases (q s p) with ⟨m1, p1, hx⟩ | ⟨w1, t1, p1, hx⟩ | ⟨e1, hx⟩ <;>
          simp only [hx, bad_bind, Out.bind_ok, Comb.pushBack, Val.force] at h
        · cases h; exact trivial
        · cases h; exact ⟨_, rfl⟩
        · cases e1 <;> cases h

theorem sequence98_R (hL : L.headers = .cpp98 l) (h1 : 1 ≤ vs.length) (hy : vs.length < l.sequence)
    (h : Pars M vs qs) (hna : ∀ v ∈ vs, v ≠ K .mpl_na []) (s : I) (pos : Pos) :
    M.R (Call M (K .impl_sequence_n (.num vs.length :: vs)) s pos) (omap encRes (Comb.sequence98 l.sequence qs s pos)) := by
  rw [call_def, body98_impl_sequence_n_apply hL h1 hy]
  change M.R (get M.h' _ _) _
  refine M.gstep (body98_impl_sequence_impl hL) ?_
  norm
  have h2 : 1 < l.sequence ∧ qs.length < l.sequence := by rw [← h.length]; omega
  unfold Comb.sequence98
  rw [if_pos h2, sequence98_fold]
  have := fold_R (k := 0) (B := SeqState) (W := K .impl_apply_parser []) (M.oself (body98_impl_apply_parser hL) rfl)
    (seq_step_R hL) h hna (.acc (.seq []) s pos) ⟨_, rfl⟩
  rw [List.replicate_zero, List.append_nil] at this
  refine fold_type ?_
  exact this

/-! ### `one_of` -/

theorem fwd_R (hL : L.headers = .cpp98 l) {k : Nat} (s : I) (pos : Pos) (h : Pars M vs qs) (hna : ∀ v ∈ vs, v ≠ K .mpl_na []) :
    ∀ (T : V) (r : Res I), T ≠ K .mpl_na [] → M.R (get M.h' T .type) (.ok (encRes r)) →
    M.R ((get M.h' (K .mpl_vector_fold [K .mpl_vector (vs ++ List.replicate k (K .mpl_na [])), T,
      K .impl_one_of_fwd_op [encInp s, encPos pos]]) .type).bind fun x => get M.h' x .type)
      (omap encRes (Comb.oneOf98Loop s pos qs r)) := by
  induction h with
  | nil =>
      intro T r hT hr
      cases k with
      | zero =>
          refine M.bind_ok (M.gstep body_mpl_vector_fold_0 (M.refl _)) ?_
          exact hr
      | succ k =>
          refine M.bind_ok (M.gstep body_mpl_vector_fold_1 (M.refl _)) ?_
          exact hr
  | @cons v q vs qs hp hps ih =>
      intro T r hT hr
      replace ih := ih (fun v hv => hna v (List.mem_cons_of_mem _ hv))
      obtain ⟨o, ho, hq⟩ := hp
      replace hq := hq s pos
      have hstep : ∀ y, M.R ((get M.h' (.cls (K .impl_one_of_fwd_op [encInp s, encPos pos]) .apply [T, v]) .type).bind fun x =>
          (get M.h' (K .mpl_vector_fold [K .mpl_vector (vs ++ List.replicate k (K .mpl_na [])), x,
            K .impl_one_of_fwd_op [encInp s, encPos pos]]) .type).bind fun x => get M.h' x .type) y →
          M.R ((get M.h' (K .mpl_vector_fold [K .mpl_vector (v :: vs ++ List.replicate k (K .mpl_na [])), T,
            K .impl_one_of_fwd_op [encInp s, encPos pos]]) .type).bind fun x => get M.h' x .type) y := by
        intro y hy
        refine M.trans (M.bind (M.gstep (body_mpl_vector_fold_2 (na_fit (hna v (List.mem_cons_self ..)))) (M.refl _)) fun _ => M.refl _) ?_
        norm
        refine M.bind_ok (M.oself (body98_impl_one_of_fwd_op hL) rfl) ?_
        exact hy
      refine hstep _ ?_
      unfold Comb.oneOf98Loop
      have hbody : ∀ y, _ → M.R (get M.h' (.cls (K .impl_one_of_fwd_op [encInp s, encPos pos]) .apply [T, v]) .type) y :=
        fun y hy => M.gstep (body98_impl_one_of_fwd_op_apply hL) hy
      rcases res_cases (q s pos) with ⟨m1, p1, hx⟩ | ⟨w1, t1, p1, hx⟩ | ⟨e1, hx⟩ <;> rw [hx] at hq <;>
        simp only [hx, omap_ok, omap_bad, bad_bind, Out.bind_ok] at hq ⊢
      · cases r with
        | rej m p =>
            refine M.bind_ok (a := if p1.less p then T else .cls o .apply [encInp s, encPos pos]) ?_ ?_
            · refine hbody _ ?_
              norm
              refine M.bind_ok (Mode.err_rejt hT hr) ?_
              nx; nx; nx; nx
              refine M.via M.eval_1 (M.via M.eval_1 ?_)
              refine M.gstep (body98_impl_later_result hL) ?_
              norm
              nx; nx
              refine M.bind_ok (M.lget (less_get.trans bool_type)) ?_
              cases p1.less p
              · exact M.if_0 M.bool_val
              · exact M.if_1 M.bool_val
            · show M.R _ (omap encRes (Comb.oneOf98Loop s pos qs (if p1.less p then .rej m p else .rej m1 p1)))
              cases p1.less p
              · exact ih (.cls o .apply [encInp s, encPos pos]) (.rej m1 p1) (by simp) hq
              · exact ih T (.rej m p) hT hr
        | acc a t p =>
            refine M.bind_ok (a := encRes (.acc a t p)) ?_ ?_
            · refine hbody _ ?_
              norm
              refine M.bind_ok (Mode.err_acct hT hr) ?_
              nx; nx; nx; nx
              exact M.via M.eval_0 hr
            · exact ih _ _ (res_ne _) (M.lget (res_type _))
      · cases r with
        | rej m p =>
            refine M.bind_ok (a := encRes (.acc w1 t1 p1)) ?_ ?_
            · refine hbody _ ?_
              norm
              refine M.bind_ok (Mode.err_rejt hT hr) ?_
              nx; nx; nx; nx
              exact M.via M.eval_1 (M.via M.eval_0 hq)
            · exact ih _ _ (res_ne _) (M.lget (res_type _))
        | acc a t p =>
            refine M.bind_ok (a := encRes (.acc a t p)) ?_ ?_
            · refine hbody _ ?_
              norm
              refine M.bind_ok (Mode.err_acct hT hr) ?_
              nx; nx; nx; nx
              exact M.via M.eval_0 hr
            · exact ih _ _ (res_ne _) (M.lget (res_type _))
      · refine M.bind_bad ?_
        refine hbody _ ?_
        norm
        cases r with
        | rej m p =>
            refine M.bind_ok (Mode.err_rejt hT hr) ?_
            nx
            bad
        | acc a t p =>
            refine M.bind_ok (Mode.err_acct hT hr) ?_
            nx
            bad

theorem one_of98_R (hL : L.headers = .cpp98 l) {k : Nat} (hy : vs.length ≤ l.oneOf)
    (h : Pars M vs qs) (hna : ∀ v ∈ vs, v ≠ K .mpl_na []) (s : I) (pos : Pos) :
    M.R (Call M (K .impl_one_of [K .mpl_vector (vs ++ List.replicate k (K .mpl_na []))]) s pos)
      (omap encRes (Comb.oneOf98 l.oneOf qs s pos)) := by
  rw [call_def, body98_impl_one_of_apply hL]
  norm
  refine M.bind_ok (M.oself body_fail rfl) ?_
  unfold Comb.oneOf98
  rw [if_pos (by rw [← h.length]; exact hy)]
  refine M.trans (M.bind (fold_type (M.refl _)) fun _ => M.refl _) ?_
  refine fwd_R hL s pos h hna _ _ (by simp) ?_
  exact call_get (fail_R (m := .noneOfTheExpectedCasesFound) s pos)

/-! ### `nth_of_c` -/

/-- One of the parsers after the one whose result is wanted. -/
def skipStep (q : Sem I) : Res I → Out (Res I)
  | .rej m pos => .ok (.rej m pos)
  | .acc v s pos => (q s pos).bind fun
      | .rej m pos' => .ok (.rej m pos')
      | .acc _ s' pos' => .ok (.acc v s' pos')

theorem skip98_fold : ∀ (qs : List (Sem I)) (r : Res I), Comb.skipSeq98 qs r = foldRes skipStep qs r
  | [], r => rfl
  | q :: qs, .rej m p => by
      unfold Comb.skipSeq98 foldRes
      exact skip98_fold qs _
  | q :: qs, .acc a s p => by
      unfold Comb.skipSeq98 foldRes
      show _ = (Out.bind ((q s p).bind _) _)
      rcases res_cases (q s p) with ⟨m1, p1, hx⟩ | ⟨w1, t1, p1, hx⟩ | ⟨e1, hx⟩ <;>
        simp only [hx, bad_bind, Out.bind_ok]
      · exact skip98_fold qs _
      · exact skip98_fold qs _

theorem skip_step_R (hL : L.headers = .cpp98 l) (v : V) (q : Sem I) (r : Res I) (hp : Par M v q) :
    M.R (get M.h' (.cls (K .impl_skip_seq []) .apply [encRes r, v]) .type) (omap encRes (skipStep q r)) := by
  cases r with
  | rej m p =>
      have hr : M.R (get M.h' (encRes (I := I) (.rej m p)) .type) (.ok (encRes (I := I) (.rej m p))) := M.lget (res_type _)
      refine M.gstep (body98_impl_skip_seq_apply hL) ?_
      norm
      exact M.via (Mode.eval_1v (Mode.err_rejv (res_ne _) hr)) hr
  | acc a s p =>
      have hr : M.R (get M.h' (encRes (.acc a s p)) .type) (.ok (encRes (.acc a s p))) := M.lget (res_type _)
      obtain ⟨o, ho, hq⟩ := hp
      replace hq := hq s p
      refine M.gstep (body98_impl_skip_seq_apply hL) ?_
      norm
      refine M.via (Mode.eval_0v (Mode.err_accv (res_ne _) hr)) ?_
      refine M.gstep (body98_impl_skip_seq_apply_unchecked hL) ?_
      norm
      unfold skipStep
      nx; nx; nx
      rcases res_cases (q s p) with ⟨m1, p1, hx⟩ | ⟨w1, t1, p1, hx⟩ | ⟨e1, hx⟩ <;> rw [hx] at hq <;>
        simp only [hx, omap_ok, omap_bad, bad_bind, Out.bind_ok] at hq ⊢
      · nx; nx; nx; nx; nx; nx; nx; nx
        exact M.via M.eval_1 hq
      · nx; nx; nx; nx; nx; nx; nx; nx
        refine M.via M.eval_0 ?_
        refine M.gstep (body98_impl_skip_seq_change_result hL) ?_
        norm
        nx; nx
        exact M.accept (by fact) (by fact)
      · bad

theorem nth98_fit {n : Int} (h : n ≠ 0) {a : V} : Pat.fits [.num 0, .var .Seq] [.num n, a] [] = none := by
  exact fits_num_ne h.symm

theorem nth98_par (hL : L.headers = .cpp98 l) (h : Pars M vs qs) (hna : ∀ v ∈ vs, v ≠ K .mpl_na []) :
    ∀ n, 0 ≤ n → n < (qs.length : Int) →
    M.R (owner M.h' (K .impl_nth_of_c_impl [.num n, K .mpl_vector vs]) .apply) (.ok (K .impl_nth_of_c_impl [.num n, K .mpl_vector vs])) ∧
    ∀ s pos, M.R (Call M (K .impl_nth_of_c_impl [.num n, K .mpl_vector vs]) s pos) (omap encRes (Comb.nthGo98 n qs s pos)) := by
  induction h with
  | nil =>
      intro n h1 h2
      simp at h2
      omega
  | @cons v q vs qs hp hps ih =>
      intro n h1 h2
      replace ih := ih (fun v hv => hna v (List.mem_cons_of_mem _ hv))
      by_cases hn : n = 0
      · subst hn
        refine ⟨M.oself (body98_impl_nth_of_c_impl_0 hL) rfl, fun s pos => ?_⟩
        obtain ⟨o, ho, hq⟩ := hp
        replace hq := hq s pos
        rw [call_def, body98_impl_nth_of_c_impl_0_apply hL]
        norm
        refine M.bind_ok (M.lget pop_front_vector) (M.bind_ok (M.lget front_vector) ?_)
        unfold Comb.nthGo98
        rw [if_pos rfl]
        nx
        rcases out_cases (q s pos) with ⟨r, hx⟩ | ⟨e1, hx⟩ <;> rw [hx] at hq <;>
          simp only [hx, omap_ok, omap_bad, bad_bind, Out.bind_ok] at hq ⊢
        · nx
          rw [skip98_fold]
          have := fold_R (k := 0) (B := fun _ => True) (W := K .impl_skip_seq []) (M.oself (body98_impl_skip_seq hL) rfl)
            (fun v q r hp _ => ⟨skip_step_R hL v q r hp, fun _ _ => trivial⟩) hps
            (fun v hv => hna v (List.mem_cons_of_mem _ hv)) r trivial
          rw [List.replicate_zero, List.append_nil] at this
          exact fold_type this
        · bad
      · refine ⟨M.oself (body98_impl_nth_of_c_impl_1 hL (nth98_fit hn)) rfl, fun s pos => ?_⟩
        obtain ⟨o, ho, hq⟩ := hp
        replace hq := hq s pos
        rw [call_def, body98_impl_nth_of_c_impl_1_apply hL (nth98_fit hn)]
        norm
        refine M.bind_ok (M.lget front_vector) ?_
        unfold Comb.nthGo98
        rw [if_neg hn]
        nx
        rcases res_cases (q s pos) with ⟨m1, p1, hx⟩ | ⟨w1, t1, p1, hx⟩ | ⟨e1, hx⟩ <;> rw [hx] at hq <;>
          simp only [hx, omap_ok, omap_bad, bad_bind, Out.bind_ok] at hq ⊢
        · nx
          refine M.bind_ok (M.lget front_vector) ?_
          nx
          refine M.bind_ok (M.lget front_vector) ?_
          nx
          exact M.via M.eval_1 hq
        · nx
          refine M.bind_ok (M.lget front_vector) ?_
          nx
          refine M.bind_ok (M.lget front_vector) ?_
          nx
          refine M.via M.eval_0 ?_
          refine M.gstep (body98_impl_nth_of_c_impl_1_apply_unchecked hL (nth98_fit hn)) ?_
          norm
          rw [op_sub, Out.bind_ok]
          refine M.bind_ok (M.lget pop_front_vector) ?_
          have hl : n - 1 < (qs.length : Int) := by
            simp at h2
            omega
          obtain ⟨ho', hc⟩ := ih (n - 1) (by omega) hl
          refine M.bind_ok ho' ?_
          nx; nx
          exact call_get (hc t1 p1)
        · bad

theorem sequence98_nil_R (hL : L.headers = .cpp98 l) (h1 : 1 < l.sequence) (s : I) (pos : Pos) :
    M.R (Call M (K .impl_sequence_n [.num 1, K .mpl_na []]) s pos) (omap encRes (Comb.sequence98 l.sequence [] s pos)) := by
  have hb := body98_impl_sequence_n_apply (U := U) (h := M.h') hL (ys := [K .mpl_na []]) (s := encInp s) (pos := encPos pos)
    (by simp) (by simpa using h1)
  rw [call_def]
  refine M.trans (M.bind (by rw [show K .impl_sequence_n [.num 1, K .mpl_na []] = K .impl_sequence_n (.num [K .mpl_na []].length :: [K .mpl_na []]) from rfl, hb]; exact M.refl _) fun _ => M.refl _) ?_
  change M.R (get M.h' _ _) _
  refine M.gstep (body98_impl_sequence_impl hL) ?_
  norm
  unfold Comb.sequence98
  rw [if_pos ⟨h1, by simp; omega⟩, sequence98_fold]
  have := fold_R (k := 1) (B := SeqState) (W := K .impl_apply_parser []) (M.oself (body98_impl_apply_parser hL) rfl)
    (seq_step_R hL) Pars.nil (fun v hv => nomatch hv) (.acc (.seq []) s pos) ⟨_, rfl⟩
  refine fold_type ?_
  exact this

theorem nth_of_c98_par (hL : L.headers = .cpp98 l) {n : Int} (h1 : vs.length < l.sequence) (h : Pars M vs qs)
    (hna : ∀ v ∈ vs, v ≠ K .mpl_na []) :
    Par M (K .nth_of_c (fill .nth_of_c (.num n :: vs))) (Comb.nthOf98 l.sequence n qs) := by
  have hb := body98_nth_of_c (U := U) (h := M.h') hL (K' := .num n) h1 (fun hw => hna _ (List.mem_of_getLast? hw) rfl)
  have hf : fill .nth_of_c (.num n :: vs) = .num n :: (vs ++ List.replicate (l.sequence - vs.length) (K .mpl_na [])) := by
    rw [fill_98 hL rfl]
    simp
  rw [hf]
  have hi := body98_impl_nth_of_c_n (U := U) (h := M.h') hL (k := n) h1
  unfold Comb.nthOf98
  have hl := h.length
  rw [if_pos (by rw [← hl]; exact h1)]
  by_cases hn : 0 ≤ n ∧ n < (vs.length : Int)
  · obtain ⟨ho, hc⟩ := nth98_par hL h hna n hn.1 (by rw [← hl]; exact hn.2)
    rw [if_pos (by rw [← hl]; exact hn)]
    refine ⟨_, ?_, fun s pos => call_get (hc s pos)⟩
    refine M.ostep hb ?_
    change M.R (owner M.h' _ _) _
    refine M.ostep hi ?_
    rw [obind_assoc, decide_eq_true hn]
    exact M.bind_ok (M.if_1 M.bool_val) ho
  · rw [if_neg (by rw [← hl]; exact hn)]
    refine ⟨K .fail [encMsg (.indexOutOfRange 0 ((qs.length : Int) - 1) n)], ?_, fun s pos => call_get (fail_R s pos)⟩
    refine M.ostep hb ?_
    change M.R (owner M.h' _ _) _
    refine M.ostep hi ?_
    rw [obind_assoc, decide_eq_false hn]
    refine M.bind_ok (M.if_0 M.bool_val) ?_
    rw [← hl]
    exact M.oself body_fail rfl

theorem middle_of98_R (hL : L.headers = .cpp98 l) (h : 3 < l.sequence) {v1 v2 v3 : V} {q1 q2 q3 : Sem I} (h1 : Par M v1 q1)
    (h2 : Par M v2 q2) (h3 : Par M v3 q3) (n1 : v1 ≠ K .mpl_na []) (n2 : v2 ≠ K .mpl_na []) (s pos) :
    M.R (Call M (K .middle_of [v1, v2, v3]) s pos) (omap encRes (Comb.nthOf98 l.sequence 1 [q1, q2,
      Comb.transformErrorMessage q3 fun m => .ok (.unpaired pos.line pos.col m)] s pos)) := by
  rw [call_def, body_middle_of_apply]
  norm
  refine M.bind_ok (M.lget get_line_pos) (M.bind_ok (M.lget int_value) (M.bind_ok (M.lget get_col_pos) (M.bind_ok (M.lget int_value) ?_)))
  have h4 : Par M (K .transform_error_message [v3, K .error_unpaired [.num pos.line, .num pos.col, K .mpl_na []]])
      (Comb.transformErrorMessage q3 fun m => .ok (.unpaired pos.line pos.col m)) :=
    ⟨_, M.oself body_transform_error_message rfl, fun s pos => call_get (transform_error_message_R h3 unpaired_fun s pos)⟩
  obtain ⟨o, ho, hc⟩ := nth_of_c98_par (n := 1) hL (vs := [v1, v2, _]) h (.cons h1 (.cons h2 (.cons h4 .nil))) (by
    intro v hv
    simp only [List.mem_cons, List.not_mem_nil, or_false] at hv
    rcases hv with rfl | rfl | rfl
    · exact n1
    · exact n2
    · simp)
  refine M.bind_ok ho ?_
  exact hc s pos

end Metaparse.Tmpl
