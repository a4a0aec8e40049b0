import Verif.Lemmas.Templates.Params
/-!
# The definitions that the macros of C++98 repeat
-/

set_option linter.unusedVariables false
set_option linter.unusedSimpArgs false
set_option linter.unusedSectionVars false

namespace Metaparse.Tmpl

variable {U : User} {h : V → Out Members} [L : Lang] {l : Limits} (hL : L.headers = .cpp98 l)
include hL

section Strings
variable {vs ys : List V} {n : Nat}

theorem body98_string (hv : vs.length = l.string) : instantiate U h (K .string vs) =
    .ok [(.type, .ty (K .string vs)), (.tag, .ty (K .string_tag []))] := by
  obtain ⟨hd⟩ := L; change hd = _ at hL; subst hL; letI := cpp98 l
  refine Eq.trans (body_of (resolve_top (choose_here (fits_all hv rfl))) (by intro k hk; cases hk)) ?_
  body_simp

theorem body98_impl_at_c (hv : vs.length = l.string) (hn : n < l.string) :
    instantiate U h (K .impl_at_c [K .string vs, .num n]) = h (K .mpl_char_ [vs[n]?.getD .root]) := by
  obtain ⟨hd⟩ := L; change hd = _ at hL; subst hL; letI := cpp98 l
  refine Eq.trans (body_of (resolve_top (choose_upto (n := n) (b := [(.C, .many vs)]) hn ?_ ?_)) (by intro k hk; cases hk)) ?_
  · intro m hm
    have : ¬ (m : Int) = n := by omega
    show Pat.fits [.cls .string [.params .C l.string], .num m] _ _ = _
    rw [fits_cls, fits_all hv (by rfl), Option.bind_some, fits_num_ne this]
  · show Pat.fits [.cls .string [.params .C l.string], .num n] _ _ = _
    rw [fits_cls, fits_all hv (by rfl), Option.bind_some, fits_num, Pat.fits]
  · body_simp
    rw [show vs[n]? = some (vs[n]?.getD .root) by simp [show n < vs.length by omega]]
    simp [Out.bind_ok, obind_ok]

theorem body98_impl_size (hy : ys.length < l.string) (hl : ys.getLast? ≠ some (.num (-1))) :
    instantiate U h (K .impl_size [K .string (ys ++ List.replicate (l.string - ys.length) (.num (-1)))]) =
      h (K .mpl_int_ [.num ys.length]) := by
  obtain ⟨hd⟩ := L; change hd = _ at hL; subst hL; letI := cpp98 l
  refine Eq.trans (body_of (resolve_top (choose_upto (n := ys.length) (b := [(.C, .many ys)]) hy ?_ ?_)) (by intro k hk; cases hk)) ?_
  · intro m hm
    have := upto_before (x := .C) (b := []) (mark_num (n := -1)) rfl hl hm (Nat.le_of_lt hy)
    show Pat.fits [.cls .string _] _ _ = _
    rw [fits_cls]
    exact (congrArg (Option.bind · _) this).trans rfl
  · have := upto_here (x := .C) (b := []) (ys := ys) (k := l.string) (mark_num (n := -1)) rfl
    show Pat.fits [.cls .string _] _ _ = _
    rw [fits_cls]
    exact (congrArg (Option.bind · _) this).trans rfl
  · body_simp

theorem body98_impl_pop_front {c : V} (hv : (c :: vs).length = l.string) :
    instantiate U h (K .impl_pop_front [K .string (c :: vs)]) = h (K .string (vs ++ [.num (-1)])) := by
  have hf : fill .string (vs ++ [.num (-1)]) = vs ++ [.num (-1)] := fill_full hL rfl (by simpa using hv)
  obtain ⟨hd⟩ := L; change hd = _ at hL; subst hL; letI := cpp98 l
  have hp : Pat.fits [.cls .string [.params .C l.string]] [K .string (c :: vs)] [] = some [(.C, .many (c :: vs))] := by
    rw [fits_cons (by simp) (by simp), Pat.fit, if_pos rfl, fits_all hv rfl]
    rfl
  refine Eq.trans (body_of (resolve_top (choose_here hp)) (by intro k hk; cases hk)) ?_
  simp only [Spec.bases, Spec.decls, evBases, evDecls, Tm.ev, evs_append]
  rw [evs_nths (vs := c :: vs) rfl (by rw [hv]; simp at hv; omega)]
  body_simp
  have : ((c :: vs).drop 1).take (l.string - 1) = vs := by
    rw [← hv]; simp
  rw [this, hf]

end Strings

section Parsers
variable {ys ps : List V} {n : Nat}

theorem body98_sequence_at (h1 : 1 ≤ ys.length) (hy : ys.length < l.sequence)
    (hl : 1 < ys.length → ys.getLast? ≠ some (K .mpl_na [])) :
    instantiate U h (K .sequence (ys ++ List.replicate (l.sequence - ys.length) (K .mpl_na []))) =
      h (K .impl_sequence_n (.num ys.length :: ys)) := by
  obtain ⟨hd⟩ := L; change hd = _ at hL; subst hL; letI := cpp98 l
  refine Eq.trans (body_of (resolve_top (choose_range (n := ys.length) (b := [(.P, .many ys)]) h1 (by omega) ?_ ?_)) (by intro k hk; cases hk)) ?_
  · intro m hm hm'
    exact upto_before (x := .P) (b := []) mark_cls rfl (hl (by omega)) hm' (Nat.le_of_lt hy)
  · exact upto_here mark_cls rfl
  · simp only [Spec.bases, Spec.decls, evBases, evDecls, Tm.ev, evs_append]
    rw [evs_all (vs := ys) rfl]
    body_simp

theorem body98_impl_sequence_n (h1 : 1 ≤ ys.length) (hy : ys.length < l.sequence) :
    instantiate U h (K .impl_sequence_n (.num ys.length :: ys)) =
      .ok [(.type, .ty (K .impl_sequence_n (.num ys.length :: ys))), (.apply, .tmpl (K .impl_sequence_n (.num ys.length :: ys)))] := by
  obtain ⟨hd⟩ := L; change hd = _ at hL; subst hL; letI := cpp98 l
  refine Eq.trans (body_of (resolve_top (choose_range (n := ys.length) (b := [(.P, .many ys)]) h1 (by omega) ?_ ?_)) (by intro k hk; cases hk)) ?_
  · intro m hm hm'
    have : ¬ (m : Int) = ys.length := by omega
    exact fits_num_ne this
  · show Pat.fits [.num ys.length, .params .P ys.length] _ _ = _
    rw [fits_num]
    exact fits_all rfl (by rfl)
  · body_simp

theorem body98_impl_sequence_n_apply {s pos : V} (h1 : 1 ≤ ys.length) (hy : ys.length < l.sequence) :
    instantiate U h (.cls (K .impl_sequence_n (.num ys.length :: ys)) .apply [s, pos]) =
      h (K .impl_sequence_impl [K .mpl_vector ys, s, pos]) := by
  obtain ⟨hd⟩ := L; change hd = _ at hL; subst hL; letI := cpp98 l
  have hr : resolve (K .impl_sequence_n (.num ys.length :: ys)) = _ :=
    resolve_top (choose_range (n := ys.length) (b := [(.P, .many ys)]) h1 (by omega) (by
      intro m hm hm'
      have : ¬ (m : Int) = ys.length := by omega
      exact fits_num_ne this) (by
      show Pat.fits [.num ys.length, .params .P ys.length] _ _ = _
      rw [fits_num]
      exact fits_all rfl (by rfl)))
  refine Eq.trans (body_of (resolve_in hr (choose_here rfl)) (by intro k hk; cases hk)) ?_
  simp only [Spec.bases, Spec.decls, evBases, evDecls, Tm.ev]
  rw [evs_cons (by simp) (by simp)]
  simp only [Tm.ev]
  rw [evs_all (vs := ys) rfl]
  body_simp

theorem body98_one_of (hy : ys.length = l.oneOf) :
    instantiate U h (K .one_of ys) = h (K .impl_one_of [K .mpl_vector ys]) := by
  obtain ⟨hd⟩ := L; change hd = _ at hL; subst hL; letI := cpp98 l
  refine Eq.trans (body_of (resolve_top (choose_here (fits_all hy rfl))) (by intro k hk; cases hk)) ?_
  simp only [Spec.bases, Spec.decls, evBases, evDecls, Tm.ev]
  rw [evs_cons (by simp) (by simp)]
  simp only [Tm.ev]
  rw [← hy, evs_all (vs := ys) rfl]
  body_simp

theorem body98_repeated_one_of (hy : ys.length = l.oneOf) :
    instantiate U h (K .repeated_one_of ys) = h (K .repeated [K .impl_one_of [K .mpl_vector ys]]) := by
  obtain ⟨hd⟩ := L; change hd = _ at hL; subst hL; letI := cpp98 l
  refine Eq.trans (body_of (resolve_top (choose_here (fits_all hy rfl))) (by intro k hk; cases hk)) ?_
  simp only [Spec.bases, Spec.decls, evBases, evDecls, Tm.ev]
  rw [evs_cons (by simp) (by simp)]
  simp only [Tm.ev]
  rw [evs_cons (by simp) (by simp)]
  simp only [Tm.ev]
  rw [← hy, evs_all (vs := ys) rfl]
  body_simp

theorem body98_repeated_one_of1 (hy : ys.length = l.oneOf) :
    instantiate U h (K .repeated_one_of1 ys) = h (K .repeated1 [K .impl_one_of [K .mpl_vector ys]]) := by
  obtain ⟨hd⟩ := L; change hd = _ at hL; subst hL; letI := cpp98 l
  refine Eq.trans (body_of (resolve_top (choose_here (fits_all hy rfl))) (by intro k hk; cases hk)) ?_
  simp only [Spec.bases, Spec.decls, evBases, evDecls, Tm.ev]
  rw [evs_cons (by simp) (by simp)]
  simp only [Tm.ev]
  rw [evs_cons (by simp) (by simp)]
  simp only [Tm.ev]
  rw [← hy, evs_all (vs := ys) rfl]
  body_simp

theorem body98_nth_of_c {K' : V} (hy : ys.length < l.sequence) (hl : ys.getLast? ≠ some (K .mpl_na [])) :
    instantiate U h (K .nth_of_c (K' :: (ys ++ List.replicate (l.sequence - ys.length) (K .mpl_na [])))) =
      h (K .impl_nth_of_c_n (.num ys.length :: K' :: ys)) := by
  obtain ⟨hd⟩ := L; change hd = _ at hL; subst hL; letI := cpp98 l
  refine Eq.trans (body_of (resolve_top (choose_upto (n := ys.length) (b := [(.P, .many ys), (.K, .one K')]) hy ?_ ?_)) (by intro k hk; cases hk)) ?_
  · intro m hm
    have := upto_before (x := .P) (b := [(.K, .one K')]) mark_cls rfl hl hm (Nat.le_of_lt hy)
    simp only [Spec.pats, List.cons_append, List.nil_append]
    rw [fits_cons (by simp) (by simp)]
    exact this
  · have := upto_here (x := .P) (b := [(.K, .one K')]) (ys := ys) (k := l.sequence) (mark_cls (n := .mpl_na)) rfl
    simp only [Spec.pats, List.cons_append, List.nil_append]
    rw [fits_cons (by simp) (by simp)]
    exact this
  · simp only [Spec.bases, Spec.decls, evBases, evDecls, Tm.ev, evs_append]
    rw [evs_all (vs := ys) rfl]
    body_simp

omit hL in
theorem op_le {a b : Int} : Op.ev .le (.num a) (.num b) = .ok (ofBool (decide (a ≤ b))) := rfl
omit hL in
theorem op_lt {a b : Int} : Op.ev .lt (.num a) (.num b) = .ok (ofBool (decide (a < b))) := rfl
omit hL in
theorem op_sub {a b : Int} : Op.ev .sub (.num a) (.num b) = .ok (.num (a - b)) := rfl
omit hL in
theorem op_and {a b : Bool} : Op.ev .and (ofBool a) (ofBool b) = .ok (ofBool (a && b)) := by
  cases a <;> cases b <;> rfl

theorem body98_impl_nth_of_c_n {k : Int} (hy : ys.length < l.sequence) :
    instantiate U h (K .impl_nth_of_c_n (.num ys.length :: .num k :: ys)) =
      ((get h (K .mpl_if_ [K .mpl_bool_ [ofBool (decide (0 ≤ k ∧ k < ys.length))], K .impl_nth_of_c_impl [.num k, K .mpl_vector ys],
        K .fail [K .error_index_out_of_range [.num 0, .num (ys.length - 1), .num k]]]) .type).bind fun v => h v) := by
  obtain ⟨hd⟩ := L; change hd = _ at hL; subst hL; letI := cpp98 l
  refine Eq.trans (body_of (resolve_top (choose_upto (n := ys.length) (b := [(.P, .many ys), (.K, .one (.num k))]) hy ?_ ?_)) (by intro k hk; cases hk)) ?_
  · intro m hm
    have : ¬ (m : Int) = ys.length := by omega
    exact fits_num_ne this
  · have := fits_all (x := .P) (b := [(.K, .one (.num k))]) (vs := ys) rfl rfl
    simp only [Spec.pats]
    rw [fits_cons (by simp) (by simp)]
    simp only [Pat.fit, if_true, Option.bind_some]
    rw [fits_cons (by simp) (by simp)]
    exact this
  · simp only [Spec.bases, Spec.decls, evBases, evDecls, Tm.ev, evs_cons, reduceCtorEq, not_false_eq_true, implies_true, ne_eq]
    rw [evs_all (vs := ys) rfl]
    body_simp
    simp only [op_le, op_lt, op_and, op_sub, Out.bind_ok]
    congr 6
    rw [Bool.decide_and]

theorem body98_nth_of {K' : V} (hy : ys.length = l.sequence) :
    instantiate U h (K .nth_of (K' :: ys)) = (get h K' .type).bind fun x => (get h x .value).bind fun n =>
      h (K .nth_of_c (n :: ys)) := by
  have hf (n : V) : fill .nth_of_c (n :: ys) = n :: ys := fill_full hL rfl (by simp [hy])
  obtain ⟨hd⟩ := L; change hd = _ at hL; subst hL; letI := cpp98 l
  have hp : Pat.fits [.var .K, .params .P l.sequence] (K' :: ys) [] = some [(.P, .many ys), (.K, .one K')] := by
    rw [fits_var (by rfl)]
    exact fits_all hy (by rfl)
  refine Eq.trans (body_of (resolve_top (choose_here hp)) (by intro k hk; cases hk)) ?_
  simp only [Spec.bases, Spec.decls, evBases, evDecls, Tm.ev, evs_append]
  rw [← hy, evs_all (vs := ys) rfl]
  body_simp
  simp only [hf]

theorem body98_first_of (hy : ys.length = l.sequence) :
    instantiate U h (K .first_of ys) = h (K .nth_of_c (.num 0 :: ys)) := by
  have hf (n : V) : fill .nth_of_c (n :: ys) = n :: ys := fill_full hL rfl (by simp [hy])
  obtain ⟨hd⟩ := L; change hd = _ at hL; subst hL; letI := cpp98 l
  refine Eq.trans (body_of (resolve_top (choose_here (fits_all hy rfl))) (by intro k hk; cases hk)) ?_
  simp only [Spec.bases, Spec.decls, evBases, evDecls, Tm.ev, evs_append]
  rw [← hy, evs_all (vs := ys) rfl]
  body_simp
  simp only [hf]

theorem body98_last_of (hy : ys.length < l.sequence) (hl : ys.getLast? ≠ some (K .mpl_na [])) :
    instantiate U h (K .last_of (ys ++ List.replicate (l.sequence - ys.length) (K .mpl_na []))) =
      h (K .impl_nth_of_c_n (.num ys.length :: .num (ys.length - 1) :: ys)) := by
  obtain ⟨hd⟩ := L; change hd = _ at hL; subst hL; letI := cpp98 l
  refine Eq.trans (body_of (resolve_top (choose_upto (n := ys.length) (b := [(.P, .many ys)]) hy ?_ ?_)) (by intro k hk; cases hk)) ?_
  · intro m hm
    exact upto_before (x := .P) (b := []) mark_cls rfl hl hm (Nat.le_of_lt hy)
  · exact upto_here mark_cls rfl
  · simp only [Spec.bases, Spec.decls, evBases, evDecls, Tm.ev, evs_append]
    rw [evs_all (vs := ys) rfl]
    body_simp
    simp only [Op.ev, Out.bind_ok, obind_ok]

theorem body98_one_of_c (hy : ys.length < l.oneOf) (hl : ys.getLast? ≠ some (.num 9223372036854775807)) :
    instantiate U h (K .one_of_c (ys ++ List.replicate (l.oneOf - ys.length) (.num 9223372036854775807))) =
      h (K .one_of (fill .one_of (ys.map fun v => K .lit_c [v]))) := by
  obtain ⟨hd⟩ := L; change hd = _ at hL; subst hL; letI := cpp98 l
  refine Eq.trans (body_of (resolve_top (choose_upto (n := ys.length) (b := [(.C, .many ys)]) hy ?_ ?_)) (by intro k hk; cases hk)) ?_
  · intro m hm
    exact upto_before (x := .C) (b := []) mark_num rfl hl hm (Nat.le_of_lt hy)
  · exact upto_here mark_num rfl
  · simp only [Spec.bases, Spec.decls, evBases, evDecls, Tm.ev]
    rw [evs_wrap (vs := ys) rfl]
    body_simp

omit hL in
theorem marks_fit {p : Pat} {k n : Nat} (hn : n < k) :
    List.replicate ((k - 1) - n) p ++ List.replicate (k - (n + ((k - 1) - n))) p = List.replicate (k - n) p := by
  rw [List.replicate_append_replicate]
  congr 1
  omega

theorem body98_one_char_except_c (hy : ys.length < l.oneCharExcept) (hl : ys.getLast? ≠ some (.num 1024)) :
    instantiate U h (K .one_char_except_c (ys ++ List.replicate (l.oneCharExcept - ys.length) (.num 1024))) =
      h (K .accept_when [K .one_char [], K .impl_is_none_n (fill .impl_is_none_n (.num ys.length :: ys.map fun v => K .mpl_char_ [v])),
        K .error_unexpected_character []]) := by
  obtain ⟨hd⟩ := L; change hd = _ at hL; subst hL; letI := cpp98 l
  refine Eq.trans (body_of (resolve_top (choose_upto (n := ys.length) (b := [(.C, .many ys)]) hy ?_ ?_)) (by intro k hk; cases hk)) ?_
  · intro m hm
    have := upto_before (x := .C) (b := []) mark_num rfl hl hm (Nat.le_of_lt hy)
    simp only [Spec.pats, List.cons_append, List.nil_append, marks_fit (show m < l.oneCharExcept by omega)]
    exact this
  · simp only [Spec.pats, List.cons_append, List.nil_append, marks_fit hy]
    exact upto_here mark_num (by rfl)
  · simp only [Spec.bases, Spec.decls, evBases, evDecls, Tm.ev, evs_cons, evs_append, reduceCtorEq, not_false_eq_true, implies_true, ne_eq]
    rw [evs_wrap (vs := ys) rfl]
    body_simp

theorem body98_one_char_except (hy : ys.length < l.oneCharExcept)
    (hl : ys.getLast? ≠ some (K .impl_one_char_except_not_used [])) :
    instantiate U h (K .one_char_except (ys ++ List.replicate (l.oneCharExcept - ys.length) (K .impl_one_char_except_not_used []))) =
      h (K .accept_when [K .one_char [], K .impl_is_none_n (fill .impl_is_none_n (.num ys.length :: ys)),
        K .error_unexpected_character []]) := by
  obtain ⟨hd⟩ := L; change hd = _ at hL; subst hL; letI := cpp98 l
  refine Eq.trans (body_of (resolve_top (choose_upto (n := ys.length) (b := [(.T, .many ys)]) hy ?_ ?_)) (by intro k hk; cases hk)) ?_
  · intro m hm
    have := upto_before (x := .T) (b := []) mark_cls rfl hl hm (Nat.le_of_lt hy)
    simp only [Spec.pats, List.cons_append, List.nil_append, marks_fit (show m < l.oneCharExcept by omega)]
    exact this
  · simp only [Spec.pats, List.cons_append, List.nil_append, marks_fit hy]
    exact upto_here mark_cls (by rfl)
  · simp only [Spec.bases, Spec.decls, evBases, evDecls, Tm.ev, evs_cons, evs_append, reduceCtorEq, not_false_eq_true, implies_true, ne_eq]
    rw [evs_all (vs := ys) rfl]
    body_simp

/-! `is_none0`, `is_none1`, … -/

theorem body98_is_none_0 : instantiate U h (K .impl_is_none_n (fill .impl_is_none_n [.num 0])) =
    .ok [(.apply, .tmpl (K .impl_is_none_n (fill .impl_is_none_n [.num 0])))] := by
  rw [fill_98 hL rfl]
  obtain ⟨hd⟩ := L; change hd = _ at hL; subst hL; letI := cpp98 l
  refine Eq.trans (body_of (resolve_top (choose_here rfl)) (by intro k hk; cases hk)) ?_
  body_simp

theorem body98_is_none_0_apply {c : V} :
    instantiate U h (.cls (K .impl_is_none_n (fill .impl_is_none_n [.num 0])) .apply [c]) = h (K .mpl_bool_ [.num 1]) := by
  rw [fill_98 hL rfl]
  obtain ⟨hd⟩ := L; change hd = _ at hL; subst hL; letI := cpp98 l
  refine Eq.trans (body_of (resolve_in (resolve_top (choose_here rfl)) (choose_here rfl)) (by intro k hk; cases hk)) ?_
  body_simp

end Parsers

section None
variable {ys : List V} {y : V}

theorem fill_is_none {vs : List V} (hv : 1 ≤ vs.length) {n : Int} :
    fill .impl_is_none_n (.num n :: vs) = .num n :: vs := by
  rw [fill_98 hL rfl]
  have : 2 - (V.num n :: vs).length = 0 := by simp; omega
  rw [this]; simp

theorem body98_is_none (hy : ys.length + 1 < l.oneCharExcept) :
    instantiate U h (K .impl_is_none_n (.num ((ys.length + 1 : Nat) : Int) :: (ys ++ [y]))) =
      .ok [(.apply, .tmpl (K .impl_is_none_n (.num ((ys.length + 1 : Nat) : Int) :: (ys ++ [y]))))] := by
  obtain ⟨hd⟩ := L; change hd = _ at hL; subst hL; letI := cpp98 l
  refine Eq.trans (body_of (resolve_top (choose_next ?_ (choose_range (n := ys.length + 1) (b := [(.T, .many (ys ++ [y]))])
    (by omega) (by omega) ?_ ?_))) (by intro k hk; cases hk)) ?_
  · have : ¬ (0 : Int) = (ys.length + 1 : Nat) := by omega
    exact fits_num_ne this
  · intro m hm hm'
    have : ¬ (m : Int) = (ys.length + 1 : Nat) := by omega
    exact fits_num_ne this
  · show Pat.fits [.num (ys.length + 1 : Nat), .params .T (ys.length + 1)] _ _ = _
    rw [fits_num]
    exact fits_all (by simp) (by rfl)
  · body_simp

theorem body98_is_none_apply {c : V} (hy : ys.length + 1 < l.oneCharExcept) :
    instantiate U h (.cls (K .impl_is_none_n (.num ((ys.length + 1 : Nat) : Int) :: (ys ++ [y]))) .apply [c]) =
      ((get h c .type).bind fun x1 => (get h x1 .value).bind fun x2 => (get h y .type).bind fun x3 =>
        (get h x3 .value).bind fun x4 => (Op.ev .eq x2 x4).bind fun x5 =>
        (owner h (K .impl_is_none_n (fill .impl_is_none_n (.num ys.length :: ys))) .apply).bind fun o6 =>
        h (K .mpl_eval_if [K .mpl_bool_ [x5], K .mpl_bool_ [.num 0], .cls o6 .apply [c]])) := by
  obtain ⟨hd⟩ := L; change hd = _ at hL; subst hL; letI := cpp98 l
  have hr : resolve (K .impl_is_none_n (.num ((ys.length + 1 : Nat) : Int) :: (ys ++ [y]))) = _ :=
    resolve_top (choose_next (by
        have : ¬ (0 : Int) = (ys.length + 1 : Nat) := by omega
        exact fits_num_ne this) (choose_range (n := ys.length + 1) (b := [(.T, .many (ys ++ [y]))])
      (by omega) (by omega) (by
        intro m hm hm'
        have : ¬ (m : Int) = (ys.length + 1 : Nat) := by omega
        exact fits_num_ne this) (by
        show Pat.fits [.num (ys.length + 1 : Nat), .params .T (ys.length + 1)] _ _ = _
        rw [fits_num]
        exact fits_all (by simp) (by rfl))))
  refine Eq.trans (body_of (resolve_in hr (choose_here rfl)) (by intro k hk; cases hk)) ?_
  simp only [Spec.bases, Spec.decls, evBases, evDecls, Tm.ev, evs_cons, evs_append, reduceCtorEq, not_false_eq_true, implies_true, ne_eq]
  rw [List.range_eq_range', evs_nths (vs := ys ++ [y]) rfl (by simp)]
  body_simp
  have h1 : (ys ++ [y])[ys.length + 1 - 1]? = some y := by simp
  have h2 : ((ys ++ [y]).drop 0).take (ys.length + 1 - 1) = ys := by simp
  have h3 : (((ys.length + 1 : Nat) : Int) - 1) = ys.length := by omega
  rw [h1, h2, h3]
  simp only [obind_assoc, Out.bind_ok]

end None

end Metaparse.Tmpl
