import Verif.Lemmas.Templates.Step
import Verif.Model.Derived
/-!
# The metafunction classes of `util/` and `impl/`
-/

set_option linter.unusedVariables false
set_option linter.unusedSimpArgs false
set_option linter.unusedSectionVars false

namespace Metaparse.Tmpl

open Metaparse (Val Msg GExp Pos Res P Env nextPos ch Sem inRangeC isDigit isLcaseLetter isUcaseLetter isLetter isWhitespaceC
  isWhitespace digitToIntC digitToInt backInserter frontInserter swapOp nextDigit)

section Generic
variable [Lang] {U : User}

theorem value_cases (x : Val) :
    (∃ c y, x.value = .ok c ∧ get (inst U) (encVal x) .type = .ok y ∧ get (inst U) y .value = .ok (.num c)) ∨
    ((∃ f, x.value = .ill f) ∧ ((∃ g, get (inst U) (encVal x) .type = .ill g) ∨
      ∃ y g, get (inst U) (encVal x) .type = .ok y ∧ get (inst U) y .value = .ill g)) := by
  have h := val_type_value (U := U) x
  cases hv : x.value with
  | deep => exact absurd hv (value_not_deep x)
  | ok c =>
      rw [hv] at h
      left
      cases ht : get (inst U) (encVal x) .type with
      | deep => rw [ht] at h; exact absurd h (by simp [omap, Same])
      | ill g => rw [ht] at h; exact absurd h (by simp [omap, Same])
      | ok y =>
          rw [ht] at h
          exact ⟨c, y, rfl, rfl, Same.ok h⟩
  | ill f =>
      rw [hv] at h
      refine .inr ⟨⟨f, rfl⟩, ?_⟩
      cases ht : get (inst U) (encVal x) .type with
      | deep => rw [ht] at h; exact absurd h (by simp [omap, Same])
      | ill g => exact .inl ⟨g, rfl⟩
      | ok y =>
          rw [ht] at h
          simp only [Out.bind_ok] at h
          cases hy : get (inst U) y .value with
          | deep => rw [hy] at h; exact absurd h (by simp [omap, Same])
          | ok c => rw [hy] at h; exact absurd h (by simp [omap, Same])
          | ill g => exact .inr ⟨y, g, rfl, hy⟩

theorem in_range_c_pred (t : V) (lo hi : Int) : Pred U (K .util_in_range_c [t, .num lo, .num hi]) (inRangeC lo hi) := by
  refine ⟨_, oself_inst body_util_in_range_c rfl, fun x => ?_⟩
  rw [call, get_inst body_util_in_range_c_apply]
  norm
  unfold inRangeC
  rcases value_cases (U := U) x with ⟨c, y, hx, h1, h2⟩ | ⟨⟨f, hx⟩, ⟨g, h1⟩ | ⟨y, g, h1, h2⟩⟩
  · simp only [hx, h1, h2, Out.bind_ok, ev_le, ev_and, bool_type, omap]
    exact Same.rfl' _
  · simp only [hx, h1, Out.bind_ill, omap]; trivial
  · simp only [hx, h1, h2, Out.bind_ok, Out.bind_ill, omap]; trivial

theorem ha_in_range_c {t a b : V} : HasApply U (K .util_in_range_c [t, a, b]) (K .util_in_range_c [t, a, b]) :=
  oself_inst body_util_in_range_c rfl

theorem Pred.at {v o : V} {f : Val → Out Bool} (h : Pred U v f) (ho : HasApply U v o) (x : Val) :
    Same (call U o [encVal x]) (omap (fun b => K .mpl_bool_ [ofBool b]) (f x)) := by
  obtain ⟨o', ho', hf⟩ := h
  rw [HasApply] at ho ho'
  rw [ho] at ho'
  cases ho'
  exact hf x

theorem is_digit_pred : Pred U (K .util_is_digit [K .mpl_na []]) isDigit := by
  refine ⟨_, oself_inst body_util_is_digit_0 rfl, fun x => ?_⟩
  rw [call, get_inst body_util_is_digit_0_apply]
  norm
  rw [get_inst (body_util_is_digit_1 (val_fit x)), ha_in_range_c]
  norm
  exact (in_range_c_pred _ 48 57).at ha_in_range_c x

theorem is_lcase_letter_same (x : Val) : Same (get (inst U) (K .util_is_lcase_letter [encVal x]) .type)
    (omap (fun b => K .mpl_bool_ [ofBool b]) (isLcaseLetter x)) := by
  rw [get_inst (body_util_is_lcase_letter_1 (val_fit x)), ha_in_range_c]
  norm
  exact (in_range_c_pred _ 97 122).at ha_in_range_c x

theorem is_ucase_letter_same (x : Val) : Same (get (inst U) (K .util_is_ucase_letter [encVal x]) .type)
    (omap (fun b => K .mpl_bool_ [ofBool b]) (isUcaseLetter x)) := by
  rw [get_inst (body_util_is_ucase_letter_1 (val_fit x)), ha_in_range_c]
  norm
  exact (in_range_c_pred _ 65 90).at ha_in_range_c x

theorem is_lcase_letter_pred : Pred U (K .util_is_lcase_letter [K .mpl_na []]) isLcaseLetter := by
  refine ⟨_, oself_inst body_util_is_lcase_letter_0 rfl, fun x => ?_⟩
  rw [call, get_inst body_util_is_lcase_letter_0_apply]
  norm
  exact is_lcase_letter_same x

theorem is_ucase_letter_pred : Pred U (K .util_is_ucase_letter [K .mpl_na []]) isUcaseLetter := by
  refine ⟨_, oself_inst body_util_is_ucase_letter_0 rfl, fun x => ?_⟩
  rw [call, get_inst body_util_is_ucase_letter_0_apply]
  norm
  exact is_ucase_letter_same x

theorem is_letter_pred : Pred U (K .util_is_letter [K .mpl_na []]) isLetter := by
  refine ⟨_, oself_inst body_util_is_letter_0 rfl, fun x => ?_⟩
  rw [call, get_inst body_util_is_letter_0_apply]
  norm
  rw [get_inst (body_util_is_letter_1 (val_fit x))]
  norm
  unfold isLetter
  rw [omap, obind_assoc]
  refine ((is_lcase_letter_same x).bindl _).trans ?_
  rw [omap, obind_assoc]
  refine Same.bind (Same.rfl' _) fun a => ?_
  simp only [Out.bind_ok, bool_value]
  rw [obind_assoc]
  refine ((is_ucase_letter_same x).bindl _).trans ?_
  rw [omap, obind_assoc]
  refine Same.bind (Same.rfl' _) fun b => ?_
  simp only [Out.bind_ok, bool_value, ev_or, bool_type]
  exact Same.rfl' _

theorem is_whitespace_c_type (c : Int) :
    get (inst U) (K .util_is_whitespace_c [.num c]) .type = .ok (K .mpl_bool_ [ofBool (isWhitespaceC c)]) := by
  by_cases h0 : c = 32
  · subst h0; rw [get_inst body_util_is_whitespace_c_0]; dsimp! [bool_type]; rfl
  by_cases h1 : c = 13
  · subst h1; rw [get_inst body_util_is_whitespace_c_1]; dsimp! [bool_type]; rfl
  by_cases h2 : c = 10
  · subst h2; rw [get_inst body_util_is_whitespace_c_2]; dsimp! [bool_type]; rfl
  by_cases h3 : c = 9
  · subst h3; rw [get_inst body_util_is_whitespace_c_3]; dsimp! [bool_type]; rfl
  have e : ∀ n : Int, c ≠ n → Pat.fits [.num n] [V.num c] [] = none := by
    intro n hn
    simp [Pat.fits, Pat.fit, Ne.symm hn]
  rw [get_inst (body_util_is_whitespace_c_4 (e _ h0) (e _ h1) (e _ h2) (e _ h3))]
  dsimp! [bool_type]
  unfold isWhitespaceC
  rw [show ch ' ' = 32 from rfl, show ch '\r' = 13 from rfl, show ch '\n' = 10 from rfl, show ch '\t' = 9 from rfl,
    if_neg h0, if_neg h1, if_neg h2, if_neg h3]
  rfl

theorem is_whitespace_pred : Pred U (K .util_is_whitespace [K .mpl_na []]) isWhitespace := by
  refine ⟨_, oself_inst body_util_is_whitespace_0 rfl, fun x => ?_⟩
  rw [call, get_inst body_util_is_whitespace_0_apply]
  norm
  rw [get_inst (body_util_is_whitespace_1 (val_fit x))]
  norm
  unfold isWhitespace omap
  rw [obind_assoc]
  refine value_bind fun c => ?_
  rw [is_whitespace_c_type]
  exact Same.rfl' _

theorem digit_to_int_c_type (c : Int) :
    Same (get (inst U) (K .util_digit_to_int_c [.num c]) .type) (.ok (encVal (digitToIntC c))) := by
  by_cases h0 : c = 48
  · subst h0; rw [get_inst body_util_digit_to_int_c_0]; dsimp! [int_type]; rfl
  by_cases h1 : c = 49
  · subst h1; rw [get_inst body_util_digit_to_int_c_1]; dsimp! [int_type]; rfl
  by_cases h2 : c = 50
  · subst h2; rw [get_inst body_util_digit_to_int_c_2]; dsimp! [int_type]; rfl
  by_cases h3 : c = 51
  · subst h3; rw [get_inst body_util_digit_to_int_c_3]; dsimp! [int_type]; rfl
  by_cases h4 : c = 52
  · subst h4; rw [get_inst body_util_digit_to_int_c_4]; dsimp! [int_type]; rfl
  by_cases h5 : c = 53
  · subst h5; rw [get_inst body_util_digit_to_int_c_5]; dsimp! [int_type]; rfl
  by_cases h6 : c = 54
  · subst h6; rw [get_inst body_util_digit_to_int_c_6]; dsimp! [int_type]; rfl
  by_cases h7 : c = 55
  · subst h7; rw [get_inst body_util_digit_to_int_c_7]; dsimp! [int_type]; rfl
  by_cases h8 : c = 56
  · subst h8; rw [get_inst body_util_digit_to_int_c_8]; dsimp! [int_type]; rfl
  by_cases h9 : c = 57
  · subst h9; rw [get_inst body_util_digit_to_int_c_9]; dsimp! [int_type]; rfl
  have e : ∀ n : Int, c ≠ n → Pat.fits [.num n] [V.num c] [] = none := by
    intro n hn
    simp [Pat.fits, Pat.fit, Ne.symm hn]
  rw [get_inst (body_util_digit_to_int_c_10 (e _ h0) (e _ h1) (e _ h2) (e _ h3) (e _ h4) (e _ h5) (e _ h6) (e _ h7)
    (e _ h8) (e _ h9))]
  norm
  unfold digitToIntC
  rw [show ch '0' = 48 from rfl, show ch '1' = 49 from rfl, show ch '2' = 50 from rfl, show ch '3' = 51 from rfl,
    show ch '4' = 52 from rfl, show ch '5' = 53 from rfl, show ch '6' = 54 from rfl, show ch '7' = 55 from rfl,
    show ch '8' = 56 from rfl, show ch '9' = 57 from rfl,
    if_neg h0, if_neg h1, if_neg h2, if_neg h3, if_neg h4, if_neg h5, if_neg h6, if_neg h7, if_neg h8, if_neg h9]
  exact msg_type .digitExpected ▸ Same.rfl' _

theorem digitToIntC_force (c : Int) : (digitToIntC c).force = .ok (digitToIntC c) := by
  unfold digitToIntC
  repeat' split
  all_goals rfl

theorem digit_to_int_fun : Fun1 U (K .util_digit_to_int [K .mpl_na []]) digitToInt := by
  refine ⟨_, oself_inst body_util_digit_to_int_0 rfl, fun x => ?_⟩
  rw [call, get_inst body_util_digit_to_int_0_apply]
  norm
  rw [get_inst (body_util_digit_to_int_1 (val_fit x))]
  norm
  have e : omap encVal (digitToInt x).force = x.value.bind fun c => .ok (encVal (digitToIntC c)) := by
    unfold digitToInt
    cases hx : x.value with
    | deep => exact absurd hx (value_not_deep x)
    | ill f => simp [Metaparse.Val.ofOut, Val.force, omap]
    | ok c => simp [Metaparse.Val.ofOut, omap, digitToIntC_force]
  rw [e]
  exact value_bind fun c => digit_to_int_c_type c

/-- Vectors. -/
def IsSeq (x : Val) : Prop := ∃ k, x = .seq k

theorem back_inserter_on : Fun2On U IsSeq (K .impl_back_inserter []) backInserter := by
  refine ⟨_, oself_inst body_impl_back_inserter rfl, fun x y hx => ⟨?_, fun z hz => ?_⟩⟩
  · rw [call, get_inst body_impl_back_inserter_apply]
    norm
    obtain ⟨k, rfl⟩ := hx
    exact push_back_other _ y (fun k h => nomatch h)
  · obtain ⟨k, rfl⟩ := hx
    simp only [backInserter, Metaparse.Comb.pushBack, Val.force] at hz
    cases hz
    exact ⟨_, rfl⟩

theorem seq_on {l : List Val} : ∀ y, (Val.seq l).force = .ok y → IsSeq y := by
  intro y hy
  cases hy
  exact ⟨_, rfl⟩

theorem swap_fun {v : V} {f : Val → Val → Val} (h : Fun2 U v f) : Fun2 U (K .swap [v]) (swapOp f) := by
  obtain ⟨o, ho, hf⟩ := h
  refine ⟨_, oself_inst body_swap rfl, fun x y => ?_⟩
  rw [call, get_inst body_swap_apply, ho]
  norm
  exact hf y x

theorem next_digit_fun : Fun2 U (K .impl_next_digit []) nextDigitZ := by
  refine ⟨_, oself_inst body_impl_next_digit rfl, fun a b => ?_⟩
  rw [call, get_inst body_impl_next_digit_apply]
  norm
  unfold nextDigitZ
  rcases value_cases (U := U) a with ⟨c, y, hx, h1, h2⟩ | ⟨⟨f, hx⟩, ⟨g, h1⟩ | ⟨y, g, h1, h2⟩⟩
  · simp only [hx, h1, h2, Out.bind_ok, ev_mul]
    rcases value_cases (U := U) b with ⟨c', y', hx', h1', h2'⟩ | ⟨⟨f, hx'⟩, ⟨g, h1'⟩ | ⟨y', g, h1', h2'⟩⟩
    · simp only [hx', h1', h2', Out.bind_ok, ev_add, int_type, Metaparse.Val.ofOut, Val.force, omap]
      exact Same.rfl' _
    · simp only [hx', h1', Out.bind_ill, Metaparse.Val.ofOut, Val.force, omap]; trivial
    · simp only [hx', h1', h2', Out.bind_ok, Out.bind_ill, Metaparse.Val.ofOut, Val.force, omap]; trivial
  · simp only [hx, h1, Out.bind_ill, Metaparse.Val.ofOut, Val.force, omap]; trivial
  · simp only [hx, h1, h2, Out.bind_ok, Out.bind_ill, Metaparse.Val.ofOut, Val.force, omap]; trivial

end Generic

section Inserters11
attribute [local instance] cpp11
variable {U : User}

theorem back_inserter_fun : Fun2 U (K .impl_back_inserter []) backInserter := by
  refine ⟨_, oself_inst body_impl_back_inserter rfl, fun x y => ?_⟩
  rw [call, get_inst body_impl_back_inserter_apply]
  norm
  exact push_back_val x y

theorem front_inserter_fun : Fun2 U (K .impl_front_inserter []) frontInserter := by
  refine ⟨_, oself_inst body_impl_front_inserter rfl, fun x y => ?_⟩
  rw [call, get_inst body_impl_front_inserter_apply]
  norm
  exact push_front_val x y

end Inserters11

end Metaparse.Tmpl
