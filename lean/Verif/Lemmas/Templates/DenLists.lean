import Verif.Lemmas.Templates.Functions11
import Verif.Lemmas.Templates.Functions98
import Verif.Lemmas.Templates.Lists11
import Verif.Lemmas.Templates.Lists98
/-!
# Which class an `apply` is a member of
-/

set_option linter.unusedVariables false
set_option linter.unusedSimpArgs false
set_option linter.unusedSectionVars false

namespace Metaparse.Tmpl

open Metaparse (Val Msg GExp Pos Res P Env nextPos ch Sem)

variable [L : Lang] {I : Type} [Inputs I] {U : User} {C : Nat → V → Prop} {E : Env I}

theorem via_inst {v w o : V} {x : Id} (hb : instantiate U (inst U) v = (inst U w).bind fun b => .ok b)
    (h : owner (inst U) w x = .ok o) : owner (inst U) v x = .ok o := by
  rw [owner_inst hb, obind_ok]
  exact h

theorem ha_one_char : HasApply U (K .one_char []) (K .one_char []) := oself_inst body_one_char rfl
theorem ha_return {x : V} : HasApply U (K .return_ [x]) (K .return_ [x]) := oself_inst body_return_ rfl
theorem ha_fail {x : V} : HasApply U (K .fail [x]) (K .fail [x]) := oself_inst body_fail rfl
theorem ha_empty {x : V} : HasApply U (K .empty [x]) (K .empty [x]) := oself_inst body_empty rfl
theorem ha_accept_when {a b c : V} : HasApply U (K .accept_when [a, b, c]) (K .accept_when [a, b, c]) :=
  oself_inst body_accept_when rfl
theorem ha_change_error_message {a b : V} : HasApply U (K .change_error_message [a, b]) (K .change_error_message [a, b]) :=
  oself_inst body_change_error_message rfl
theorem ha_foldl {a b c : V} : HasApply U (K .foldl [a, b, c]) (K .foldl [a, b, c]) := oself_inst body_foldl rfl
theorem ha_foldl_reject_incomplete {a b c : V} :
    HasApply U (K .foldl_reject_incomplete [a, b, c]) (K .foldl_reject_incomplete [a, b, c]) :=
  oself_inst body_foldl_reject_incomplete rfl
theorem ha_foldr_start_with_parser {a b c : V} :
    HasApply U (K .foldr_start_with_parser [a, b, c]) (K .foldr_start_with_parser [a, b, c]) :=
  oself_inst body_foldr_start_with_parser rfl
theorem ha_fail_at_first_char_expected {a : V} :
    HasApply U (K .fail_at_first_char_expected [a]) (K .fail_at_first_char_expected [a]) :=
  oself_inst body_fail_at_first_char_expected rfl
theorem ha_foldr {a b c : V} :
    HasApply U (K .foldr [a, b, c]) (K .foldr_start_with_parser [a, K .return_ [b], c]) :=
  via_inst body_foldr ha_foldr_start_with_parser
theorem ha_foldr_reject_incomplete {a b c : V} : HasApply U (K .foldr_reject_incomplete [a, b, c])
    (K .foldr_start_with_parser [a, K .first_of (fill .first_of [K .return_ [b], K .fail_at_first_char_expected [a]]), c]) :=
  via_inst body_foldr_reject_incomplete ha_foldr_start_with_parser
theorem ha_keyword {a b : V} : HasApply U (K .keyword [a, b]) (K .keyword [a, b]) := oself_inst body_keyword rfl
theorem ha_iterate {n : Int} (h : n ≠ 0) {a b : V} :
    HasApply U (K .impl_iterate_impl [.num n, a, b]) (K .impl_iterate_impl [.num n, a, b]) :=
  oself_inst (body_impl_iterate_impl_1 (iterate_fit h)) rfl
theorem ha_iterate_0 {a b : V} : HasApply U (K .impl_iterate_impl [.num 0, a, b]) (K .return_ [b]) :=
  via_inst body_impl_iterate_impl_0 ha_return
theorem ha_lit_c {c : V} : HasApply U (K .lit_c [c]) (K .accept_when [K .change_error_message [K .one_char [],
    K .error_literal_expected [c]], K .impl_is_char_c [c], K .error_literal_expected [c]]) :=
  via_inst body_lit_c ha_accept_when
theorem ha_lit {c : V} : HasApply U (K .lit [K .mpl_char_ [c]]) (K .accept_when [K .change_error_message [K .one_char [],
    K .error_literal_expected [c]], K .impl_is_char_c [c], K .error_literal_expected [c]]) := by
  unfold HasApply
  rw [owner_inst body_lit]
  dsimp! [char_type, char_value]
  exact ha_lit_c

theorem den_lit (c : Int) : Den U C E (K .accept_when [K .change_error_message [K .one_char [],
    K .error_literal_expected [.num c]], K .impl_is_char_c [.num c], K .error_literal_expected [.num c]]) (P.litC c) :=
  .acceptWhen (m := .literalExpected c) ha_change_error_message
    (.changeErrorMessage (m := .literalExpected c) ha_one_char .oneChar) (is_char_c_pred c)


/-! ### The parsers that take any number of parsers -/

theorem inst_via {v w o : V} {x : Id} (hb : instantiate U (inst U) v = inst U w)
    (h : owner (inst U) w x = .ok o) : owner (inst U) v x = .ok o := by
  rw [owner_inst hb]
  exact h

theorem ha_ne_na {v o : V} (h : HasApply U v o) : v ≠ K .mpl_na [] := by
  intro hv
  subst hv
  unfold HasApply at h
  rw [owner_inst body_mpl_na] at h
  cases h

theorem Dens.ne_na {vs : List V} {ps : List P} (h : Dens U C E vs ps) : ∀ v ∈ vs, v ≠ K .mpl_na [] := by
  match vs, ps, h with
  | _, _, .nil => exact fun v hv => nomatch hv
  | _, _, .cons ha hd hds =>
      intro v hv
      rcases List.mem_cons.1 hv with rfl | hv
      · exact ha_ne_na ha
      · exact hds.ne_na v hv
  termination_by ps.length

theorem Dens.length {vs : List V} {ps : List P} (h : Dens U C E vs ps) : vs.length = ps.length := by
  match vs, ps, h with
  | _, _, .nil => rfl
  | _, _, .cons ha hd hds => rw [List.length_cons, List.length_cons, hds.length]
  termination_by ps.length

theorem last_ne {vs : List V} {w : V} (h : ∀ v ∈ vs, v ≠ w) : vs.getLast? ≠ some w :=
  fun hw => h w (List.mem_of_getLast? hw) rfl

theorem get_if {b : Bool} {A B : V} :
    get (inst U) (K .mpl_if_ [K .mpl_bool_ [ofBool b], A, B]) .type = .ok (if b then A else B) := by
  rw [get_inst body_mpl_if_]
  dsimp! [bool_value]
  cases b
  · show get (inst U) (K .mpl_if_c [.num 0, A, B]) .type = _
    members body_mpl_if_c_0
  · show get (inst U) (K .mpl_if_c [.num 1, A, B]) .type = _
    members (body_mpl_if_c_1 rfl)

theorem is_sequence {vs : List V} {ps : List P} (h : Dens U C E vs ps) (h1 : Room Limits.sequence 1)
    (h2 : Room Limits.sequence vs.length) : IsParser U C E (K .sequence (fill .sequence vs)) (.sequence ps) := by
  obtain ⟨_ | l⟩ := L
  · letI := cpp11
    match vs, ps, h with
    | _, _, .nil => exact ⟨_, via_inst body_sequence_0 ha_return, .sequenceNil rfl⟩
    | _, _, .cons ha hd hds => exact ⟨_, oself_inst body_sequence_1 rfl, .sequence rfl ha hd hds⟩
  · letI : Lang := ⟨.cpp98 l⟩
    have hL : Lang.headers = .cpp98 l := rfl
    change 1 < l.sequence at h1
    change vs.length < l.sequence at h2
    by_cases hv : vs = []
    · subst hv
      cases h
      refine ⟨_, ?_, .sequence98Nil hL h1⟩
      have hf : fill .sequence [] = [K .mpl_na []] ++ List.replicate (l.sequence - [K .mpl_na []].length) (K .mpl_na []) := by
        rw [fill_98 hL rfl]
        simp only [List.nil_append, List.length_nil, List.length_singleton, Nat.sub_zero]
        obtain ⟨n, hn⟩ : ∃ n, l.sequence = n + 1 := ⟨l.sequence - 1, by omega⟩
        rw [hn]
        rfl
      rw [hf]
      refine inst_via (body98_sequence_at hL (ys := [K .mpl_na []]) (by simp) (by simpa using h1) (by simp)) ?_
      exact oself_inst (body98_impl_sequence_n hL (ys := [K .mpl_na []]) (by simp) (by simpa using h1)) rfl
    · have h3 : 1 ≤ vs.length := by
        cases vs with
        | nil => exact absurd rfl hv
        | cons => simp
      refine ⟨_, ?_, .sequence98 hL h3 h2 h⟩
      rw [fill_98 hL rfl]
      refine inst_via (body98_sequence_at hL h3 h2 fun _ => last_ne h.ne_na) ?_
      exact oself_inst (body98_impl_sequence_n hL h3 h2) rfl

theorem is_one_of {vs : List V} {ps : List P} (h : Dens U C E vs ps) (h1 : Room (fun l => l.oneOf + 1) vs.length) :
    IsParser U C E (K .one_of (fill .one_of vs)) (.oneOf ps) := by
  obtain ⟨_ | l⟩ := L
  · letI := cpp11
    match vs, ps, h with
    | _, _, .nil => exact ⟨_, via_inst body_one_of_1 ha_fail, .oneOfNil rfl⟩
    | _, _, .cons ha hd hds => exact ⟨_, oself_inst body_one_of_0 rfl, .oneOf rfl ha hd hds⟩
  · letI : Lang := ⟨.cpp98 l⟩
    have hL : Lang.headers = .cpp98 l := rfl
    change vs.length < l.oneOf + 1 at h1
    refine ⟨_, ?_, .oneOf98 hL (by omega) h⟩
    refine inst_via (body98_one_of hL (fill_length hL rfl (by omega))) ?_
    exact oself_inst (body98_impl_one_of hL) rfl

theorem is_impl_one_of {l : Limits} (hL : L.headers = .cpp98 l) {vs : List V} {ps : List P} (h : Dens U C E vs ps)
    (h1 : vs.length < l.oneOf + 1) : IsParser U C E (K .impl_one_of [K .mpl_vector (fill .one_of vs)]) (.oneOf ps) :=
  ⟨_, oself_inst (body98_impl_one_of hL) rfl, .oneOf98 hL (by omega) h⟩

theorem ha_nth98 {l : Limits} (hL : L.headers = .cpp98 l) {n : Int} {vs : List V} (h1 : vs.length < l.sequence)
    (hn : 0 ≤ n ∧ n < (vs.length : Int)) : HasApply U (K .impl_nth_of_c_n (.num vs.length :: .num n :: vs))
      (K .impl_nth_of_c_impl [.num n, K .mpl_vector vs]) := by
  unfold HasApply
  rw [owner_inst (body98_impl_nth_of_c_n hL h1)]
  simp only [decide_eq_true hn, get_if, if_true, Out.bind_ok]
  by_cases h0 : n = 0
  · subst h0
    exact oself_inst (body98_impl_nth_of_c_impl_0 hL) rfl
  · exact oself_inst (body98_impl_nth_of_c_impl_1 hL (nth98_fit h0)) rfl

theorem ha_nth98_out {l : Limits} (hL : L.headers = .cpp98 l) {n : Int} {vs : List V} (h1 : vs.length < l.sequence)
    (hn : ¬ (0 ≤ n ∧ n < (vs.length : Int))) : HasApply U (K .impl_nth_of_c_n (.num vs.length :: .num n :: vs))
      (K .fail [encMsg (.indexOutOfRange 0 ((vs.length : Int) - 1) n)]) := by
  unfold HasApply
  rw [owner_inst (body98_impl_nth_of_c_n hL h1)]
  simp only [decide_eq_false hn, get_if, if_false, Out.bind_ok, Bool.false_eq_true]
  exact ha_fail

theorem is_nth98 {l : Limits} (hL : L.headers = .cpp98 l) {n : Int} {vs : List V} {ps : List P} (h : Dens U C E vs ps)
    (h1 : vs.length < l.sequence) :
    IsParser U C E (K .impl_nth_of_c_n (.num vs.length :: .num n :: vs)) (.nthOfC n ps) := by
  by_cases hn : 0 ≤ n ∧ n < (vs.length : Int)
  · exact ⟨_, ha_nth98 hL h1 hn, .nthOf98 hL hn.1 hn.2 h1 h⟩
  · refine ⟨_, ha_nth98_out hL h1 hn, ?_⟩
    rw [h.length] at hn h1 ⊢
    exact .nthOf98Out hL hn h1

theorem is_nth_of_c {n : Int} {vs : List V} {ps : List P} (h : Dens U C E vs ps) (h1 : Room Limits.sequence vs.length) :
    IsParser U C E (K .nth_of_c (fill .nth_of_c (.num n :: vs))) (.nthOfC n ps) := by
  obtain ⟨_ | l⟩ := L
  · letI := cpp11
    match vs, ps, h with
    | _, _, .nil => exact ⟨_, via_inst body_nth_of_c_0 ha_fail, .nthOfCNil rfl⟩
    | _, _, .cons ha hd hds => exact ⟨_, oself_inst (body_nth_of_c_1 rfl) rfl, .nthOfC rfl ha hd hds⟩
  · letI : Lang := ⟨.cpp98 l⟩
    have hL : Lang.headers = .cpp98 l := rfl
    change vs.length < l.sequence at h1
    obtain ⟨o, ho, hd⟩ := is_nth98 hL (n := n) h h1
    refine ⟨o, ?_, hd⟩
    rw [fill_98 hL rfl]
    have := body98_nth_of_c (U := U) (h := inst U) hL (K' := .num n) h1 (last_ne h.ne_na)
    refine inst_via ?_ ho
    rw [← this]
    simp

theorem is_first_of {vs : List V} {ps : List P} (h : Dens U C E vs ps) (h1 : Room Limits.sequence vs.length) :
    IsParser U C E (K .first_of (fill .first_of vs)) (P.firstOf ps) := by
  obtain ⟨_ | l⟩ := L
  · letI := cpp11
    match vs, ps, h with
    | _, _, .nil => exact ⟨_, via_inst body_first_of_0 ha_fail, .nthOfCNil rfl⟩
    | _, _, .cons ha hd hds => exact ⟨_, oself_inst (body_first_of_1 rfl) rfl, .firstOf rfl ha hd hds⟩
  · letI : Lang := ⟨.cpp98 l⟩
    have hL : Lang.headers = .cpp98 l := rfl
    obtain ⟨o, ho, hd⟩ := is_nth_of_c (L := ⟨.cpp98 l⟩) (n := 0) h h1
    change vs.length < l.sequence at h1
    refine ⟨o, ?_, hd⟩
    refine inst_via (body98_first_of hL (fill_length hL rfl (by omega))) ?_
    rw [fill_98 hL rfl] at ho ⊢
    unfold HasApply at ho
    simpa using ho

theorem is_last_of {vs : List V} {ps : List P} (h : Dens U C E vs ps) (h1 : Room Limits.sequence vs.length) :
    IsParser U C E (K .last_of (fill .last_of vs)) (.lastOf ps) := by
  obtain ⟨_ | l⟩ := L
  · letI := cpp11
    match vs, ps, h with
    | _, _, .nil => exact ⟨_, via_inst body_last_of_0 ha_fail, .lastOfNil rfl⟩
    | _, _, .cons ha hd hds => exact ⟨_, oself_inst (body_last_of_1 rfl) rfl, .lastOf rfl ha hd hds⟩
  · letI : Lang := ⟨.cpp98 l⟩
    have hL : Lang.headers = .cpp98 l := rfl
    change vs.length < l.sequence at h1
    have hw : ∀ {o}, HasApply U (K .impl_nth_of_c_n (.num vs.length :: .num (vs.length - 1) :: vs)) o →
        HasApply U (K .last_of (fill .last_of vs)) o := fun ho => by
      rw [fill_98 hL rfl]
      exact inst_via (body98_last_of hL h1 (last_ne h.ne_na)) ho
    by_cases hv : vs = []
    · subst hv
      cases h
      exact ⟨_, hw (ha_nth98_out hL h1 (by simp)), .lastOf98Nil hL (by simpa using h1)⟩
    · have h3 : 1 ≤ vs.length := by
        cases vs with
        | nil => exact absurd rfl hv
        | cons => simp
      exact ⟨_, hw (ha_nth98 hL h1 ⟨by omega, by omega⟩), .lastOf98 hL h3 h1 h⟩

theorem lits_dens : ∀ cs : List Int, Dens U C E (cs.map fun c => K .lit_c [.num c]) (cs.map P.litC)
  | [] => .nil
  | c :: cs => .cons ha_lit_c (den_lit c) (lits_dens cs)

theorem is_one_of_c {cs : List Int} (h1 : Room Limits.oneOf cs.length) (h2 : NoMark 9223372036854775807 cs) :
    IsParser U C E (K .one_of_c (fill .one_of_c (cs.map .num))) (.oneOfC cs) := by
  obtain ⟨_ | l⟩ := L
  · letI := cpp11
    exact ⟨_, via_inst body_one_of_c ha_accept_when, .oneOfC rfl⟩
  · letI : Lang := ⟨.cpp98 l⟩
    have hL : Lang.headers = .cpp98 l := rfl
    change cs.length < l.oneOf at h1
    change cs.getLast? ≠ some 9223372036854775807 at h2
    refine ⟨_, ?_, .oneOfC98 hL h1⟩
    rw [fill_98 hL rfl]
    have hb := body98_one_of_c (U := U) (h := inst U) hL (ys := cs.map .num) (by simpa using h1) (by
      rw [List.getLast?_map]
      cases hc : cs.getLast? with
      | none => simp
      | some c => rw [hc] at h2; simpa using h2)
    refine inst_via hb ?_
    refine inst_via (body98_one_of hL (fill_length hL rfl (by simp; omega))) ?_
    rw [List.map_map]
    exact oself_inst (body98_impl_one_of hL) rfl

theorem is_one_char_except_c {cs : List Int} (h1 : Room Limits.oneCharExcept cs.length) (h2 : NoMark 1024 cs) :
    IsParser U C E (K .one_char_except_c (fill .one_char_except_c (cs.map .num))) (.oneCharExceptC cs) := by
  obtain ⟨_ | l⟩ := L
  · letI := cpp11
    exact ⟨_, via_inst body_one_char_except_c ha_accept_when, .oneCharExceptC rfl⟩
  · letI : Lang := ⟨.cpp98 l⟩
    have hL : Lang.headers = .cpp98 l := rfl
    change cs.length < l.oneCharExcept at h1
    change cs.getLast? ≠ some 1024 at h2
    refine ⟨_, ?_, .oneCharExceptC98 hL h1⟩
    rw [fill_98 hL rfl]
    have hb := body98_one_char_except_c (U := U) (h := inst U) hL (ys := cs.map .num) (by simpa using h1) (by
      rw [List.getLast?_map]
      cases hc : cs.getLast? with
      | none => simp
      | some c => rw [hc] at h2; simpa using h2)
    refine inst_via hb ?_
    rw [List.map_map, List.length_map]
    exact ha_accept_when

end Metaparse.Tmpl
