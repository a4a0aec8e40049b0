import Verif.Lemmas.Templates.Util
import Verif.Lemmas.Templates.Step
/-!
# Classes that are written as parsers are
-/

set_option linter.unusedVariables false
set_option linter.unusedSimpArgs false
set_option linter.unusedSectionVars false

namespace Metaparse.Tmpl

open Metaparse (Val Msg GExp Pos Res P Env nextPos ch Sem start run buildParser)

variable [L : Lang] {I : Type} [Inputs I] {U : User} {C : Nat → V → Prop} {E : Env I}

section Apply
variable {a b c : V} {l : List V}

theorem ha_self {v : V} {m : Members} (hb : instantiate U (inst U) v = .ok ((.type, .ty v) :: (.apply, .tmpl v) :: m)) :
    HasApply U v v := oself_inst hb rfl

theorem ha_transform_error_message : HasApply U (K .transform_error_message [a, b]) (K .transform_error_message [a, b]) :=
  oself_inst body_transform_error_message rfl
theorem ha_transform_error : HasApply U (K .transform_error [a, b]) (K .transform_error [a, b]) :=
  oself_inst body_transform_error rfl
theorem ha_transform : HasApply U (K .transform [a, b]) (K .transform [a, b]) := oself_inst body_transform rfl
theorem ha_always : HasApply U (K .always [a, b]) (K .always [a, b]) := oself_inst body_always rfl
theorem ha_look_ahead : HasApply U (K .look_ahead [a]) (K .look_ahead [a]) := oself_inst body_look_ahead rfl
theorem ha_except : HasApply U (K .except [a, b, c]) (K .except [a, b, c]) := oself_inst body_except rfl
theorem ha_optional : HasApply U (K .optional [a, b]) (K .optional [a, b]) := oself_inst body_optional rfl
theorem ha_if_ : HasApply U (K .if_ [a, b, c]) (K .if_ [a, b, c]) := oself_inst body_if_ rfl
theorem ha_foldl1 : HasApply U (K .foldl1 [a, b, c]) (K .foldl1 [a, b, c]) := oself_inst body_foldl1 rfl
theorem ha_foldl_reject_incomplete1 :
    HasApply U (K .foldl_reject_incomplete1 [a, b, c]) (K .foldl_reject_incomplete1 [a, b, c]) :=
  oself_inst body_foldl_reject_incomplete1 rfl
theorem ha_foldr1 : HasApply U (K .foldr1 [a, b, c]) (K .foldr1 [a, b, c]) := oself_inst body_foldr1 rfl
theorem ha_foldr_reject_incomplete1 :
    HasApply U (K .foldr_reject_incomplete1 [a, b, c]) (K .foldr_reject_incomplete1 [a, b, c]) :=
  oself_inst body_foldr_reject_incomplete1 rfl
theorem ha_foldl_start_with_parser :
    HasApply U (K .foldl_start_with_parser [a, b, c]) (K .foldl_start_with_parser [a, b, c]) :=
  oself_inst body_foldl_start_with_parser rfl
theorem ha_foldl_reject_incomplete_start_with_parser :
    HasApply U (K .foldl_reject_incomplete_start_with_parser [a, b, c])
      (K .foldl_reject_incomplete_start_with_parser [a, b, c]) :=
  oself_inst body_foldl_reject_incomplete_start_with_parser rfl
theorem ha_repeated :
    HasApply U (K .repeated [a]) (K .foldl [a, K .mpl_vector [], K .impl_back_inserter []]) := via_inst body_repeated ha_foldl
theorem ha_repeated1 :
    HasApply U (K .repeated1 [a]) (K .foldl1 [a, K .mpl_vector [], K .impl_back_inserter []]) :=
  via_inst body_repeated1 ha_foldl1
theorem ha_repeated_reject_incomplete : HasApply U (K .repeated_reject_incomplete [a])
    (K .foldl_reject_incomplete [a, K .mpl_vector [], K .impl_back_inserter []]) :=
  via_inst body_repeated_reject_incomplete ha_foldl_reject_incomplete
theorem ha_repeated_reject_incomplete1 : HasApply U (K .repeated_reject_incomplete1 [a])
    (K .foldl_reject_incomplete1 [a, K .mpl_vector [], K .impl_back_inserter []]) :=
  via_inst body_repeated_reject_incomplete1 ha_foldl_reject_incomplete1
theorem ha_nth_of {n : Int} {o : V} (h1 : Room Limits.sequence l.length)
    (h : HasApply U (K .nth_of_c (fill .nth_of_c (.num n :: l))) o) :
    HasApply U (K .nth_of (fill .nth_of (K .mpl_int_ [.num n] :: l))) o := by
  obtain ⟨_ | lim⟩ := L
  · letI := cpp11
    change HasApply U (K .nth_of_c (.num n :: l)) o at h
    change HasApply U (K .nth_of (K .mpl_int_ [.num n] :: l)) o
    unfold HasApply
    rw [owner_inst body_nth_of]
    dsimp! [int_type, int_value]
    exact h
  · letI : Lang := ⟨.cpp98 lim⟩
    have hL : Lang.headers = .cpp98 lim := rfl
    change l.length < lim.sequence at h1
    rw [fill_98 hL rfl] at h ⊢
    unfold HasApply at h ⊢
    rw [List.cons_append] at h ⊢
    rw [owner_inst (body98_nth_of hL (by simp; omega))]
    dsimp! [int_type, int_value]
    exact h
theorem ha_middle_of : HasApply U (K .middle_of [a, b, c]) (K .middle_of [a, b, c]) := oself_inst body_middle_of rfl
theorem ha_iterate_c {n : Int} (h : n ≠ 0) :
    HasApply U (K .iterate_c [a, .num n]) (K .impl_iterate_impl [.num n, a, K .mpl_vector []]) :=
  via_inst body_iterate_c (ha_iterate h)
theorem ha_iterate_c_0 : HasApply U (K .iterate_c [a, .num 0]) (K .return_ [K .mpl_vector []]) :=
  via_inst body_iterate_c ha_iterate_0
theorem ha_iterate' {n : Int} {o : V} (h : HasApply U (K .iterate_c [a, .num n]) o) :
    HasApply U (K .iterate [a, K .mpl_int_ [.num n]]) o := by
  unfold HasApply
  rw [owner_inst body_iterate]
  dsimp! [int_type, int_value]
  exact h
theorem ha_range_c : HasApply U (K .range_c [a, b]) (K .accept_when [K .one_char [], K .util_in_range_c [K .t_char [], a, b],
    K .error_unexpected_character []]) := via_inst body_range_c ha_accept_when
theorem ha_range : HasApply U (K .range [K .mpl_char_ [a], K .mpl_char_ [b]])
    (K .accept_when [K .one_char [], K .util_in_range_c [K .t_char [], a, b], K .error_unexpected_character []]) := by
  unfold HasApply
  rw [owner_inst body_range]
  dsimp! [char_type, char_value]
  exact ha_accept_when
theorem ha_token {o : V} (h : HasApply U (K .first_of (fill .first_of [a, K .repeated [K .accept_when [K .one_char [],
    K .util_is_whitespace [K .mpl_na []], K .error_whitespace_expected []]]])) o) : HasApply U (K .token [a]) o :=
  via_inst body_token h
theorem ha_entire_input_0 {o : V} (h : HasApply U (K .first_of (fill .first_of [a, K .empty [K .t_void []]])) o) :
    HasApply U (K .entire_input [a, K .error_end_of_input_expected []]) o := via_inst body_entire_input_0 h
theorem ha_entire_input {m : Msg} {o : V} (hm : m ≠ .endOfInputExpected)
    (h : HasApply U (K .first_of (fill .first_of [a, K .change_error_message [K .empty [K .t_void []], encMsg m]])) o) :
    HasApply U (K .entire_input [a, encMsg m]) o := by
  refine via_inst (body_entire_input_1 ?_) h
  cases m <;> first | rfl | exact absurd rfl hm
theorem ha_always_c : HasApply U (K .always_c [a, b]) (K .always [K .lit_c [a], b]) := via_inst body_always_c ha_always
theorem ha_derived {c w o : V} (hc : Derived U c w) (h : HasApply U w o) : HasApply U c o := by
  unfold HasApply owner
  rw [hc]
  exact h
end Apply

/-! ### Parsers that take any number of arguments have an `apply` whatever the arguments are -/

/-- Without the arguments at the end that stand for ones that are left out. -/
theorem strip (w : V) : ∀ vs : List V, ∃ ys k, vs = ys ++ List.replicate k w ∧ ys.getLast? ≠ some w := by
  intro vs
  induction vs with
  | nil => exact ⟨[], 0, rfl, by simp⟩
  | cons v vs ih =>
      obtain ⟨ys, k, rfl, hy⟩ := ih
      match ys with
      | [] =>
          by_cases hv : v = w
          · exact ⟨[], k + 1, by rw [hv]; rfl, by simp⟩
          · exact ⟨[v], k, rfl, by simpa using hv⟩
      | y :: ys => exact ⟨v :: y :: ys, k, rfl, by rw [List.getLast?_cons_cons]; exact hy⟩

theorem strip_fill (w : V) {vs : List V} {n : Nat} (h : vs.length < n) :
    ∃ ys, ys.length < n ∧ ys.getLast? ≠ some w ∧
      vs ++ List.replicate (n - vs.length) w = ys ++ List.replicate (n - ys.length) w := by
  obtain ⟨ys, k, rfl, hy⟩ := strip w vs
  refine ⟨ys, by simp at h; omega, hy, ?_⟩
  rw [List.append_assoc, List.replicate_append_replicate]
  congr 2
  simp at h ⊢
  omega

section Any
variable {vs : List V}

theorem any_nth98 {l : Limits} (hL : L.headers = .cpp98 l) {n : Int} (h1 : vs.length < l.sequence) :
    ∃ o, HasApply U (K .impl_nth_of_c_n (.num vs.length :: .num n :: vs)) o := by
  by_cases hn : 0 ≤ n ∧ n < (vs.length : Int)
  · exact ⟨_, ha_nth98 hL h1 hn⟩
  · exact ⟨_, ha_nth98_out hL h1 hn⟩

theorem any_sequence (h1 : Room Limits.sequence 1) (h2 : Room Limits.sequence vs.length) :
    ∃ o, HasApply U (K .sequence (fill .sequence vs)) o := by
  obtain ⟨_ | l⟩ := L
  · letI := cpp11
    match vs with
    | [] => exact ⟨_, via_inst body_sequence_0 ha_return⟩
    | _ :: _ => exact ⟨_, oself_inst body_sequence_1 rfl⟩
  · letI : Lang := ⟨.cpp98 l⟩
    have hL : Lang.headers = .cpp98 l := rfl
    change 1 < l.sequence at h1
    change vs.length < l.sequence at h2
    rw [fill_98 hL rfl]
    obtain ⟨ys, hy, hw, he⟩ := strip_fill (K .mpl_na []) h2
    rw [he]
    match ys with
    | [] =>
        have hf : [] ++ List.replicate (l.sequence - ([] : List V).length) (K .mpl_na []) =
            [K .mpl_na []] ++ List.replicate (l.sequence - [K .mpl_na []].length) (K .mpl_na []) := by
          simp only [List.nil_append, List.length_nil, List.length_singleton, Nat.sub_zero]
          obtain ⟨n, hn⟩ : ∃ n, l.sequence = n + 1 := ⟨l.sequence - 1, by omega⟩
          rw [hn]
          rfl
        rw [hf]
        exact ⟨_, inst_via (body98_sequence_at hL (ys := [K .mpl_na []]) (by simp) (by simpa using h1) (by simp))
          (oself_inst (body98_impl_sequence_n hL (ys := [K .mpl_na []]) (by simp) (by simpa using h1)) rfl)⟩
    | y :: ys =>
        have h3 : 1 ≤ (y :: ys).length := by simp
        exact ⟨_, inst_via (body98_sequence_at hL h3 hy fun _ => hw) (oself_inst (body98_impl_sequence_n hL h3 hy) rfl)⟩

theorem any_one_of (h1 : Room (fun l => l.oneOf + 1) vs.length) : ∃ o, HasApply U (K .one_of (fill .one_of vs)) o := by
  obtain ⟨_ | l⟩ := L
  · letI := cpp11
    match vs with
    | [] => exact ⟨_, via_inst body_one_of_1 ha_fail⟩
    | _ :: _ => exact ⟨_, oself_inst body_one_of_0 rfl⟩
  · letI : Lang := ⟨.cpp98 l⟩
    have hL : Lang.headers = .cpp98 l := rfl
    change vs.length < l.oneOf + 1 at h1
    exact ⟨_, inst_via (body98_one_of hL (fill_length hL rfl (by omega))) (oself_inst (body98_impl_one_of hL) rfl)⟩

theorem any_nth_of_c {n : Int} (h1 : Room Limits.sequence vs.length) :
    ∃ o, HasApply U (K .nth_of_c (fill .nth_of_c (.num n :: vs))) o := by
  obtain ⟨_ | l⟩ := L
  · letI := cpp11
    match vs with
    | [] => exact ⟨_, via_inst body_nth_of_c_0 ha_fail⟩
    | _ :: _ => exact ⟨_, oself_inst (body_nth_of_c_1 rfl) rfl⟩
  · letI : Lang := ⟨.cpp98 l⟩
    have hL : Lang.headers = .cpp98 l := rfl
    change vs.length < l.sequence at h1
    rw [fill_98 hL rfl]
    have hk : l.sequence + 1 - (V.num n :: vs).length = l.sequence - vs.length := by simp
    rw [hk, List.cons_append]
    obtain ⟨ys, hy, hw, he⟩ := strip_fill (K .mpl_na []) h1
    rw [he]
    obtain ⟨o, ho⟩ := any_nth98 (U := U) hL (n := n) hy
    exact ⟨o, inst_via (body98_nth_of_c hL hy hw) ho⟩

theorem any_first_of (h1 : Room Limits.sequence vs.length) : ∃ o, HasApply U (K .first_of (fill .first_of vs)) o := by
  obtain ⟨_ | l⟩ := L
  · letI := cpp11
    match vs with
    | [] => exact ⟨_, via_inst body_first_of_0 ha_fail⟩
    | _ :: _ => exact ⟨_, oself_inst (body_first_of_1 rfl) rfl⟩
  · letI : Lang := ⟨.cpp98 l⟩
    have hL : Lang.headers = .cpp98 l := rfl
    obtain ⟨o, ho⟩ := any_nth_of_c (L := ⟨.cpp98 l⟩) (U := U) (n := 0) h1
    change vs.length < l.sequence at h1
    refine ⟨o, inst_via (body98_first_of hL (fill_length hL rfl (by omega))) ?_⟩
    rw [fill_98 hL rfl] at ho ⊢
    unfold HasApply at ho
    simpa using ho

theorem any_last_of (h1 : Room Limits.sequence vs.length) : ∃ o, HasApply U (K .last_of (fill .last_of vs)) o := by
  obtain ⟨_ | l⟩ := L
  · letI := cpp11
    match vs with
    | [] => exact ⟨_, via_inst body_last_of_0 ha_fail⟩
    | _ :: _ => exact ⟨_, oself_inst (body_last_of_1 rfl) rfl⟩
  · letI : Lang := ⟨.cpp98 l⟩
    have hL : Lang.headers = .cpp98 l := rfl
    change vs.length < l.sequence at h1
    rw [fill_98 hL rfl]
    obtain ⟨ys, hy, hw, he⟩ := strip_fill (K .mpl_na []) h1
    rw [he]
    obtain ⟨o, ho⟩ := any_nth98 (U := U) hL (n := (ys.length : Int) - 1) hy
    exact ⟨o, inst_via (body98_last_of hL hy hw) ho⟩
end Any

theorem is_one_char_except {cs : List Int} (h1 : Room Limits.oneCharExcept cs.length) :
    IsParser U C E (K .one_char_except (fill .one_char_except (chars cs))) (.oneCharExceptC cs) := by
  obtain ⟨_ | l⟩ := L
  · letI := cpp11
    refine ⟨_, ?_, .oneCharExceptC rfl⟩
    change HasApply U (K .one_char_except (cs.map fun c => K .mpl_char_ [.num c])) _
    unfold HasApply
    rw [owner_inst body_one_char_except, mapOut_ok (g := fun v => match v with | .cls _ _ [a] => a | _ => .root)]
    · dsimp! []
      rw [List.map_map]
      exact ha_accept_when
    · intro v hv
      obtain ⟨c, _, rfl⟩ := List.mem_map.1 hv
      dsimp! [char_type, char_value]
  · letI : Lang := ⟨.cpp98 l⟩
    have hL : Lang.headers = .cpp98 l := rfl
    change cs.length < l.oneCharExcept at h1
    refine ⟨_, ?_, .oneCharExceptC98 hL h1⟩
    rw [fill_98 hL rfl]
    have hb := body98_one_char_except (U := U) (h := inst U) hL (ys := chars cs) (by simpa [chars] using h1)
      (last_ne fun v hv => by
        obtain ⟨c, _, rfl⟩ := List.mem_map.1 hv
        simp)
    refine inst_via hb ?_
    rw [show (chars cs).length = cs.length by simp [chars]]
    exact ha_accept_when

/-! ### Which parsers the classes are -/

theorem is_space : IsParser U C E (K .accept_when [K .one_char [], K .util_is_whitespace [K .mpl_na []],
    K .error_whitespace_expected []]) P.space :=
  ⟨_, ha_accept_when, .acceptWhen (m := .whitespaceExpected) ha_one_char .oneChar is_whitespace_pred⟩

theorem is_letter : IsParser U C E (K .accept_when [K .one_char [], K .util_is_letter [K .mpl_na []],
    K .error_letter_expected []]) P.letter :=
  ⟨_, ha_accept_when, .acceptWhen (m := .letterExpected) ha_one_char .oneChar is_letter_pred⟩

theorem is_digit : IsParser U C E (K .accept_when [K .change_error_message [K .one_char [], K .error_digit_expected []],
    K .util_is_digit [K .mpl_na []], K .error_digit_expected []]) P.digit :=
  ⟨_, ha_accept_when, .acceptWhen (m := .digitExpected) ha_change_error_message
    (.changeErrorMessage (m := .digitExpected) ha_one_char .oneChar) is_digit_pred⟩

theorem is_digit_val : IsParser U C E (K .transform [K .accept_when [K .change_error_message [K .one_char [],
    K .error_digit_expected []], K .util_is_digit [K .mpl_na []], K .error_digit_expected []],
    K .util_digit_to_int [K .mpl_na []]]) P.digitVal := by
  obtain ⟨o, ho, hd⟩ := is_digit (U := U) (E := E)
  exact ⟨_, ha_transform, .transform ho hd digit_to_int_fun⟩

theorem is_repeated {v : V} {p : P} (h : IsParser U C E v p) : IsParser U C E (K .repeated [v]) (P.repeated p) := by
  obtain ⟨o, ho, hd⟩ := h
  exact ⟨_, ha_repeated, .foldl ho hd (val_type (.seq [])) seq_on back_inserter_on⟩

theorem is_repeated1 {v : V} {p : P} (h : IsParser U C E v p) : IsParser U C E (K .repeated1 [v]) (P.repeated1 p) := by
  obtain ⟨o, ho, hd⟩ := h
  exact ⟨_, ha_repeated1, .foldl1 ho hd (val_type (.seq [])) seq_on back_inserter_on⟩

theorem is_repeated_one_of {vs : List V} {ps : List P} (h : Dens U C E vs ps) (h1 : Room (fun l => l.oneOf + 1) vs.length) :
    IsParser U C E (repeatedOneOfV vs) (P.repeatedOneOf ps) := by
  obtain ⟨_ | l⟩ := L
  · letI := cpp11
    exact is_repeated (is_one_of (L := cpp11) h h1)
  · letI : Lang := ⟨.cpp98 l⟩
    have hL : Lang.headers = .cpp98 l := rfl
    obtain ⟨_, ho, hd⟩ := is_repeated (is_impl_one_of hL h h1)
    refine ⟨_, ?_, hd⟩
    change vs.length < l.oneOf + 1 at h1
    exact inst_via (body98_repeated_one_of hL (fill_length hL rfl (by omega))) ho

theorem any_repeated_one_of {vs : List V} (h1 : Room (fun l => l.oneOf + 1) vs.length) : ∃ o, HasApply U (repeatedOneOfV vs) o := by
  obtain ⟨_ | l⟩ := L
  · letI := cpp11
    exact ⟨_, ha_repeated⟩
  · letI : Lang := ⟨.cpp98 l⟩
    have hL : Lang.headers = .cpp98 l := rfl
    change vs.length < l.oneOf + 1 at h1
    exact ⟨_, inst_via (body98_repeated_one_of hL (fill_length hL rfl (by omega))) ha_repeated⟩

theorem is_repeated_one_of1 {vs : List V} {ps : List P} (h : Dens U C E vs ps) (h1 : Room (fun l => l.oneOf + 1) vs.length) :
    IsParser U C E (repeatedOneOf1V vs) (P.repeatedOneOf1 ps) := by
  obtain ⟨_ | l⟩ := L
  · letI := cpp11
    exact is_repeated1 (is_one_of (L := cpp11) h h1)
  · letI : Lang := ⟨.cpp98 l⟩
    have hL : Lang.headers = .cpp98 l := rfl
    obtain ⟨_, ho, hd⟩ := is_repeated1 (is_impl_one_of hL h h1)
    refine ⟨_, ?_, hd⟩
    change vs.length < l.oneOf + 1 at h1
    exact inst_via (body98_repeated_one_of1 hL (fill_length hL rfl (by omega))) ho

theorem any_repeated_one_of1 {vs : List V} (h1 : Room (fun l => l.oneOf + 1) vs.length) : ∃ o, HasApply U (repeatedOneOf1V vs) o := by
  obtain ⟨_ | l⟩ := L
  · letI := cpp11
    exact ⟨_, ha_repeated1⟩
  · letI : Lang := ⟨.cpp98 l⟩
    have hL : Lang.headers = .cpp98 l := rfl
    change vs.length < l.oneOf + 1 at h1
    exact ⟨_, inst_via (body98_repeated_one_of1 hL (fill_length hL rfl (by omega))) ha_repeated1⟩

theorem is_iterate_c {v : V} {p : P} {n : Int} (h : IsParser U C E v p) :
    IsParser U C E (K .iterate_c [v, .num n]) (P.iterateC p n) := by
  obtain ⟨o, ho, hd⟩ := h
  by_cases hn : n = 0
  · subst hn
    exact ⟨_, ha_iterate_c_0, .iterateZero (l := []) ho hd⟩
  · exact ⟨_, ha_iterate_c hn, .iterate (l := []) hn ho hd⟩

theorem spells_native {v o : V} {i : Nat} (ho : HasApply U v o)
    (h : ∀ s pos, Same (call U o [encInp s, encPos pos]) (omap encRes (E.native i s pos))) : IsParser U C E v (.native i) :=
  ⟨o, ho, .native h⟩

mutual
theorem Spells.isParser (hr : ∀ i c, C i c → ∃ o, HasApply U c o) {v : V} {p : P} : Spells U C E v p → IsParser U C E v p
  | .one_char => ⟨_, ha_one_char, .oneChar⟩
  | .empty x => ⟨_, ha_empty, .empty x⟩
  | .fail m => ⟨_, ha_fail, .fail m⟩
  | .return_ x => ⟨_, ha_return, .ret x⟩
  | .accept_when h hf => have ⟨_, ho, hd⟩ := h.isParser hr; ⟨_, ha_accept_when, .acceptWhen ho hd hf⟩
  | .change_error_message h => have ⟨_, ho, hd⟩ := h.isParser hr; ⟨_, ha_change_error_message, .changeErrorMessage ho hd⟩
  | .transform_error_message h hf =>
      have ⟨_, ho, hd⟩ := h.isParser hr; ⟨_, ha_transform_error_message, .transformErrorMessage ho hd hf⟩
  | .transform_error h hf => have ⟨_, ho, hd⟩ := h.isParser hr; ⟨_, ha_transform_error, .transformError ho hd hf⟩
  | .transform h hf => have ⟨_, ho, hd⟩ := h.isParser hr; ⟨_, ha_transform, .transform ho hd hf⟩
  | .always h => have ⟨_, ho, hd⟩ := h.isParser hr; ⟨_, ha_always, .always ho hd⟩
  | .always_c => ⟨_, ha_always_c, .always ha_lit_c (den_lit _)⟩
  | .look_ahead h => have ⟨_, ho, hd⟩ := h.isParser hr; ⟨_, ha_look_ahead, .lookAhead ho hd⟩
  | .except h => have ⟨_, ho, hd⟩ := h.isParser hr; ⟨_, ha_except, .except ho hd⟩
  | .optional h => have ⟨_, ho, hd⟩ := h.isParser hr; ⟨_, ha_optional, .optional ho hd⟩
  | .if_ h => have ⟨_, ho, hd⟩ := h.isParser hr; ⟨_, ha_if_, .if_ ho hd⟩
  | .fail_at_first_char_expected h =>
      have ⟨_, ho, hd⟩ := h.isParser hr; ⟨_, ha_fail_at_first_char_expected, .failAtFirstCharExpected ho hd⟩
  | .foldl h hs hf => have ⟨_, ho, hd⟩ := h.isParser hr; ⟨_, ha_foldl, .foldl ho hd hs (fun _ _ => trivial) (.of hf)⟩
  | .foldl1 h hs hf => have ⟨_, ho, hd⟩ := h.isParser hr; ⟨_, ha_foldl1, .foldl1 ho hd hs (fun _ _ => trivial) (.of hf)⟩
  | .foldl_reject_incomplete h hs hf =>
      have ⟨_, ho, hd⟩ := h.isParser hr; ⟨_, ha_foldl_reject_incomplete, .foldlRejectIncomplete ho hd hs (fun _ _ => trivial) (.of hf)⟩
  | .foldl_reject_incomplete1 h hs hf =>
      have ⟨_, ho, hd⟩ := h.isParser hr; ⟨_, ha_foldl_reject_incomplete1, .foldlRejectIncomplete1 ho hd hs (fun _ _ => trivial) (.of hf)⟩
  | .foldl_start_with_parser h h' hf =>
      have ⟨_, ho, hd⟩ := h.isParser hr
      have ⟨_, ho', hd'⟩ := h'.isParser hr
      ⟨_, ha_foldl_start_with_parser, .foldlStartWithParser ho hd ho' hd' hf⟩
  | .foldl_reject_incomplete_start_with_parser h h' hf =>
      have ⟨_, ho, hd⟩ := h.isParser hr
      have ⟨_, ho', hd'⟩ := h'.isParser hr
      ⟨_, ha_foldl_reject_incomplete_start_with_parser, .foldlRejectIncompleteStartWithParser ho hd ho' hd' hf⟩
  | .foldr h hf =>
      have ⟨_, ho, hd⟩ := h.isParser hr; ⟨_, ha_foldr, .foldrStartWithParser ho hd ha_return (.ret _) hf⟩
  | .foldr1 h hf => have ⟨_, ho, hd⟩ := h.isParser hr; ⟨_, ha_foldr1, .foldr1 ho hd hf⟩
  | .foldr_reject_incomplete h hf h1 =>
      have ⟨_, ho, hd⟩ := h.isParser hr
      have ⟨_, ho', hd'⟩ := is_first_of (.cons ha_return (.ret _)
          (.cons ha_fail_at_first_char_expected (.failAtFirstCharExpected ho hd) .nil)) h1
      ⟨_, ha_foldr_reject_incomplete, .foldrStartWithParser ho hd ho' hd' hf⟩
  | .foldr_reject_incomplete1 h hf h1 =>
      have ⟨_, ho, hd⟩ := h.isParser hr; ⟨_, ha_foldr_reject_incomplete1, .foldrRejectIncomplete1 ho hd hf h1⟩
  | .foldr_start_with_parser h h' hf =>
      have ⟨_, ho, hd⟩ := h.isParser hr
      have ⟨_, ho', hd'⟩ := h'.isParser hr
      ⟨_, ha_foldr_start_with_parser, .foldrStartWithParser ho hd ho' hd' hf⟩
  | .repeated h => is_repeated (h.isParser hr)
  | .repeated1 h => is_repeated1 (h.isParser hr)
  | .repeated_reject_incomplete h =>
      have ⟨_, ho, hd⟩ := h.isParser hr
      ⟨_, ha_repeated_reject_incomplete, .foldlRejectIncomplete ho hd (val_type (.seq [])) seq_on back_inserter_on⟩
  | .repeated_reject_incomplete1 h =>
      have ⟨_, ho, hd⟩ := h.isParser hr
      ⟨_, ha_repeated_reject_incomplete1, .foldlRejectIncomplete1 ho hd (val_type (.seq [])) seq_on back_inserter_on⟩
  | .repeated_one_of hs h1 => is_repeated_one_of (hs.dens hr) h1
  | .repeated_one_of1 hs h1 => is_repeated_one_of1 (hs.dens hr) h1
  | .sequence hs h1 h2 => is_sequence (hs.dens hr) h1 h2
  | .one_of hs h1 => is_one_of (hs.dens hr) h1
  | .nth_of_c hs h1 => is_nth_of_c (hs.dens hr) h1
  | .nth_of hs h1 => have ⟨_, ho, hd⟩ := is_nth_of_c (hs.dens hr) h1; ⟨_, ha_nth_of h1 ho, hd⟩
  | .first_of hs h1 => is_first_of (hs.dens hr) h1
  | .last_of hs h1 => is_last_of (hs.dens hr) h1
  | .middle_of h h' h'' h1 =>
      have ⟨_, ho, hd⟩ := h.isParser hr
      have ⟨_, ho', hd'⟩ := h'.isParser hr
      have ⟨_, ho'', hd''⟩ := h''.isParser hr
      ⟨_, ha_middle_of, .middleOf ho hd ho' hd' ho'' hd'' h1⟩
  | .iterate_c h => is_iterate_c (h.isParser hr)
  | .iterate h => have ⟨_, ho, hd⟩ := is_iterate_c (h.isParser hr); ⟨_, ha_iterate' ho, hd⟩
  | .keyword hg => ⟨_, ha_keyword, .keyword hg⟩
  | .lit_c => ⟨_, ha_lit_c, den_lit _⟩
  | .lit => ⟨_, ha_lit, den_lit _⟩
  | .one_of_c h1 h2 => is_one_of_c h1 h2
  | .one_char_except_c h1 h2 => is_one_char_except_c h1 h2
  | .one_char_except h1 => is_one_char_except h1
  | .range_c => ⟨_, ha_range_c, .acceptWhen (m := .unexpectedCharacter) ha_one_char .oneChar (in_range_c_pred _ _ _)⟩
  | .range => ⟨_, ha_range, .acceptWhen (m := .unexpectedCharacter) ha_one_char .oneChar (in_range_c_pred _ _ _)⟩
  | .digit h => by cases h; exact is_digit
  | .digit_val h => by cases h; exact is_digit_val
  | .letter h => by cases h; exact is_letter
  | .alphanum h h1 => by
      cases h
      obtain ⟨_, ho, hd⟩ := is_letter (U := U) (C := C) (E := E)
      obtain ⟨_, ho', hd'⟩ := is_digit (U := U) (C := C) (E := E)
      exact is_one_of (.cons ho hd (.cons ho' hd' .nil)) h1
  | .space h => by cases h; exact is_space
  | .spaces h => by cases h; exact is_repeated1 is_space
  | .int_ h => by
      cases h
      obtain ⟨_, ho, hd⟩ := is_digit_val (U := U) (E := E)
      exact ⟨_, ha_foldl1, .foldl1 ho hd (val_type (.int 0)) (fun _ _ => trivial) (.of next_digit_fun)⟩
  | .token h h1 =>
      have ⟨_, ho, hd⟩ := h.isParser hr
      have ⟨_, ho', hd'⟩ := is_repeated (is_space (U := U) (C := C) (E := E))
      have ⟨_, ho'', hd''⟩ := is_first_of (.cons ho hd (.cons ho' hd' .nil)) h1
      ⟨_, ha_token ho'', hd''⟩
  | .entire_input (m := m) h h1 => by
      obtain ⟨_, ho, hd⟩ := h.isParser hr
      unfold P.entireInput
      by_cases hm : m = .endOfInputExpected
      · rw [if_pos hm]
        subst hm
        obtain ⟨_, ho', hd'⟩ := is_first_of (.cons ho hd (.cons ha_empty (.empty .cvoid) .nil)) h1
        exact ⟨_, ha_entire_input_0 ho', hd'⟩
      · rw [if_neg hm]
        obtain ⟨_, ho', hd'⟩ := is_first_of (.cons ho hd
          (.cons ha_change_error_message (.changeErrorMessage (m := m) ha_empty (.empty .cvoid)) .nil)) h1
        exact ⟨_, ha_entire_input hm ho', hd'⟩
  | .rule (i := i) (c := c) hc => have ⟨o, ho⟩ := hr i c hc; ⟨o, ho, .ref hc ho⟩
  | .native ho h => ⟨_, ho, .native h⟩
theorem SpellsAll.dens (hr : ∀ i c, C i c → ∃ o, HasApply U c o) {vs : List V} {ps : List P} :
    SpellsAll U C E vs ps → Dens U C E vs ps
  | .nil => .nil
  | .cons h hs => have ⟨_, ho, hd⟩ := h.isParser hr; .cons ho hd (hs.dens hr)
end

/-- A class that is written as a parser and is no rule has a member `apply`, whatever its arguments are. -/
theorem Spells.hasApply {v : V} {p : P} (h : Spells U C E v p) (hn : NoRef p) : ∃ o, HasApply U v o := by
  cases h with
  | one_char => exact ⟨_, ha_one_char⟩
  | empty x => exact ⟨_, ha_empty⟩
  | fail m => exact ⟨_, ha_fail⟩
  | return_ x => exact ⟨_, ha_return⟩
  | accept_when h hf => exact ⟨_, ha_accept_when⟩
  | change_error_message h => exact ⟨_, ha_change_error_message⟩
  | transform_error_message h hf => exact ⟨_, ha_transform_error_message⟩
  | transform_error h hf => exact ⟨_, ha_transform_error⟩
  | transform h hf => exact ⟨_, ha_transform⟩
  | always h => exact ⟨_, ha_always⟩
  | always_c => exact ⟨_, ha_always_c⟩
  | look_ahead h => exact ⟨_, ha_look_ahead⟩
  | except h => exact ⟨_, ha_except⟩
  | optional h => exact ⟨_, ha_optional⟩
  | if_ h => exact ⟨_, ha_if_⟩
  | fail_at_first_char_expected h => exact ⟨_, ha_fail_at_first_char_expected⟩
  | foldl h hs hf => exact ⟨_, ha_foldl⟩
  | foldl1 h hs hf => exact ⟨_, ha_foldl1⟩
  | foldl_reject_incomplete h hs hf => exact ⟨_, ha_foldl_reject_incomplete⟩
  | foldl_reject_incomplete1 h hs hf => exact ⟨_, ha_foldl_reject_incomplete1⟩
  | foldl_start_with_parser h h' hf => exact ⟨_, ha_foldl_start_with_parser⟩
  | foldl_reject_incomplete_start_with_parser h h' hf => exact ⟨_, ha_foldl_reject_incomplete_start_with_parser⟩
  | foldr h hf => exact ⟨_, ha_foldr⟩
  | foldr1 h hf => exact ⟨_, ha_foldr1⟩
  | foldr_reject_incomplete h hf => exact ⟨_, ha_foldr_reject_incomplete⟩
  | foldr_reject_incomplete1 h hf => exact ⟨_, ha_foldr_reject_incomplete1⟩
  | foldr_start_with_parser h h' hf => exact ⟨_, ha_foldr_start_with_parser⟩
  | repeated h => exact ⟨_, ha_repeated⟩
  | repeated1 h => exact ⟨_, ha_repeated1⟩
  | repeated_reject_incomplete h => exact ⟨_, ha_repeated_reject_incomplete⟩
  | repeated_reject_incomplete1 h => exact ⟨_, ha_repeated_reject_incomplete1⟩
  | repeated_one_of h h1 => exact any_repeated_one_of h1
  | repeated_one_of1 h h1 => exact any_repeated_one_of1 h1
  | sequence h h1 h2 => exact any_sequence h1 h2
  | one_of h h1 => exact any_one_of h1
  | nth_of_c h h1 => exact any_nth_of_c h1
  | @nth_of n vs ps h h1 => obtain ⟨_, ho⟩ := any_nth_of_c (U := U) (n := n) h1; exact ⟨_, ha_nth_of h1 ho⟩
  | first_of h h1 => exact any_first_of h1
  | last_of h h1 => exact any_last_of h1
  | middle_of h h' h'' => exact ⟨_, ha_middle_of⟩
  | @iterate_c v p n h =>
      by_cases hn : n = 0
      · subst hn; exact ⟨_, ha_iterate_c_0⟩
      · exact ⟨_, ha_iterate_c hn⟩
  | @iterate v p n h =>
      by_cases hn : n = 0
      · subst hn; exact ⟨_, ha_iterate' ha_iterate_c_0⟩
      · exact ⟨_, ha_iterate' (ha_iterate_c hn)⟩
  | keyword => exact ⟨_, ha_keyword⟩
  | lit_c => exact ⟨_, ha_lit_c⟩
  | lit => exact ⟨_, ha_lit⟩
  | one_of_c h1 h2 => obtain ⟨_, ho, _⟩ := is_one_of_c (U := U) (C := C) (E := E) h1 h2; exact ⟨_, ho⟩
  | one_char_except_c h1 h2 => obtain ⟨_, ho, _⟩ := is_one_char_except_c (U := U) (C := C) (E := E) h1 h2; exact ⟨_, ho⟩
  | one_char_except h1 => obtain ⟨_, ho, _⟩ := is_one_char_except (U := U) (C := C) (E := E) h1; exact ⟨_, ho⟩
  | range_c => exact ⟨_, ha_range_c⟩
  | range => exact ⟨_, ha_range⟩
  | digit h => cases h; exact ⟨_, ha_accept_when⟩
  | digit_val h => cases h; exact ⟨_, ha_transform⟩
  | letter h => cases h; exact ⟨_, ha_accept_when⟩
  | alphanum h h1 => cases h; exact any_one_of h1
  | space h => cases h; exact ⟨_, ha_accept_when⟩
  | spaces h => cases h; exact ⟨_, ha_repeated1⟩
  | int_ h => cases h; exact ⟨_, ha_foldl1⟩
  | @token v p h h1 => obtain ⟨_, ho⟩ := any_first_of (U := U) (vs := [v, _]) h1; exact ⟨_, ha_token ho⟩
  | @entire_input v p m h h1 =>
      by_cases hm : m = .endOfInputExpected
      · subst hm; obtain ⟨_, ho⟩ := any_first_of (U := U) (vs := [v, _]) h1; exact ⟨_, ha_entire_input_0 ho⟩
      · obtain ⟨_, ho⟩ := any_first_of (U := U) (vs := [v, _]) h1; exact ⟨_, ha_entire_input hm ho⟩
  | rule hc => exact absurd hn (by simp [NoRef])
  | native ho h => exact ⟨_, ho⟩

theorem Fits.apply (hE : Fits U C E) (i : Nat) (c : V) (hc : C i c) : ∃ o, HasApply U c o := by
  obtain ⟨w, hw, h, hn⟩ := hE.rules i c hc
  obtain ⟨o, ho⟩ := h.hasApply hn
  exact ⟨o, ha_derived hw ho⟩

theorem Fits.den (hE : Fits U C E) : FitsDen U C E where
  input := hE.input
  std := hE.std
  rules := by
    intro i c o hc ho
    obtain ⟨w, hw, h, hn⟩ := hE.rules i c hc
    obtain ⟨o', ho', hd⟩ := h.isParser hE.apply
    have := ha_derived hw ho'
    rw [HasApply] at ho this
    rw [ho] at this
    cases this
    exact ⟨hd, hn⟩

theorem derived_rule {i : Nat} : Derived U (.rule i) (U.rules i) := by
  unfold Derived
  rw [inst_step]
  rfl

theorem spells_same [Lawful U I] (hE : Fits U C E) {v : V} {p : P} (h : Spells U C E v p) :
    ∃ o, HasApply U v o ∧ ∀ s pos, Same (call U o [encInp s, encPos pos]) (omap encRes (run E p s pos)) := by
  obtain ⟨o, ho, hd⟩ := h.isParser hE.apply
  exact ⟨o, ho, fun s pos => call_same hE.den hd s pos⟩

end Metaparse.Tmpl
