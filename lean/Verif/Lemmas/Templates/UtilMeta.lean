import Verif.Lemmas.Templates.StringMpl
import Verif.Lemmas.Templates.Util
/-!
# The metafunctions of `util/` for every class with a value
-/

set_option linter.unusedVariables false
set_option linter.unusedSimpArgs false
set_option linter.unusedSectionVars false

namespace Metaparse.Tmpl

open Metaparse (Val Msg ch isWhitespaceC digitToIntC intToDigitC)

variable {U : User} [L : Lang] {v w x : V} {c m n : Int}

omit L in
theorem pat_na_none (hv : v ≠ K .mpl_na []) {b : List (Id × Bind)} : Pat.fit (.cls .mpl_na []) v b = none := by
  match v with
  | .num k => rfl
  | .root => rfl
  | .fn k => rfl
  | .rule k => rfl
  | .cls (.num _) i l => rfl
  | .cls (.cls _ _ _) i l => rfl
  | .cls (.fn _) i l => rfl
  | .cls (.rule _) i l => rfl
  | .cls .root i (a :: l) =>
      by_cases h : i = .mpl_na
      · subst h; rfl
      · simp [Pat.fit, Ne.symm h]
  | .cls .root i [] =>
      have : i ≠ .mpl_na := by rintro rfl; exact hv rfl
      simp [Pat.fit, Ne.symm this]

theorem HasValue.not_na (h : HasValue U v c) : Pat.fits [.cls .mpl_na []] [v] [] = none := by
  have hv : v ≠ K .mpl_na [] := by
    rintro rfl
    obtain ⟨t, h1, h2⟩ := h
    have e : get (inst U) (K .mpl_na []) .type = .ok (K .mpl_na []) := by members body_mpl_na
    rw [e] at h1
    cases h1
    have e2 : get (inst U) (K .mpl_na []) .value ≠ .ok (.num c) := by
      rw [get_inst body_mpl_na]; dsimp! []; intro h; cases h
    exact e2 h2
  simp [Pat.fits, pat_na_none hv]

theorem in_range_c_value {t : V} (h : HasValue U v c) :
    get (inst U) (.cls (K .util_in_range_c [t, .num m, .num n]) .apply [v]) .type = .ok (boolV (decide (m ≤ c) && decide (c ≤ n))) := by
  obtain ⟨y, h1, h2⟩ := h
  rw [get_inst body_util_in_range_c_apply]
  simp only [h1, h2, Out.bind_ok, ev_le, ev_and, bool_type, obind_ok]
  exact bool_type

theorem is_digit_value (h : HasValue U v c) :
    get (inst U) (K .util_is_digit [v]) .type = .ok (boolV (decide (48 ≤ c) && decide (c ≤ 57))) := by
  rw [get_inst (body_util_is_digit_1 h.not_na), ha_in_range_c]
  norm
  exact in_range_c_value h

theorem is_digit_apply : get (inst U) (.cls (K .util_is_digit [K .mpl_na []]) .apply [v]) .type = get (inst U) (K .util_is_digit [v]) .type := by
  rw [get_inst body_util_is_digit_0_apply]
  norm

theorem is_lcase_letter_value (h : HasValue U v c) :
    get (inst U) (K .util_is_lcase_letter [v]) .type = .ok (boolV (decide (97 ≤ c) && decide (c ≤ 122))) := by
  rw [get_inst (body_util_is_lcase_letter_1 h.not_na), ha_in_range_c]
  norm
  exact in_range_c_value h

theorem is_lcase_letter_apply : get (inst U) (.cls (K .util_is_lcase_letter [K .mpl_na []]) .apply [v]) .type = get (inst U) (K .util_is_lcase_letter [v]) .type := by
  rw [get_inst body_util_is_lcase_letter_0_apply]
  norm

theorem is_ucase_letter_value (h : HasValue U v c) :
    get (inst U) (K .util_is_ucase_letter [v]) .type = .ok (boolV (decide (65 ≤ c) && decide (c ≤ 90))) := by
  rw [get_inst (body_util_is_ucase_letter_1 h.not_na), ha_in_range_c]
  norm
  exact in_range_c_value h

theorem is_ucase_letter_apply : get (inst U) (.cls (K .util_is_ucase_letter [K .mpl_na []]) .apply [v]) .type = get (inst U) (K .util_is_ucase_letter [v]) .type := by
  rw [get_inst body_util_is_ucase_letter_0_apply]
  norm

theorem is_letter_value (h : HasValue U v c) : get (inst U) (K .util_is_letter [v]) .type =
    .ok (boolV ((decide (97 ≤ c) && decide (c ≤ 122)) || (decide (65 ≤ c) && decide (c ≤ 90)))) := by
  rw [get_inst (body_util_is_letter_1 h.not_na)]
  norm
  simp only [is_lcase_letter_value h, is_ucase_letter_value h, boolV, Out.bind_ok, bool_value, ev_or, bool_type]

theorem is_letter_apply : get (inst U) (.cls (K .util_is_letter [K .mpl_na []]) .apply [v]) .type = get (inst U) (K .util_is_letter [v]) .type := by
  rw [get_inst body_util_is_letter_0_apply]
  norm

theorem is_whitespace_value (h : HasValue U v c) : get (inst U) (K .util_is_whitespace [v]) .type = .ok (boolV (isWhitespaceC c)) := by
  have hn := h.not_na
  obtain ⟨y, h1, h2⟩ := h
  rw [get_inst (body_util_is_whitespace_1 hn)]
  norm
  simp only [h1, h2, Out.bind_ok]
  exact is_whitespace_c_type c

theorem is_whitespace_apply :
    get (inst U) (.cls (K .util_is_whitespace [K .mpl_na []]) .apply [v]) .type = get (inst U) (K .util_is_whitespace [v]) .type := by
  rw [get_inst body_util_is_whitespace_0_apply]
  norm

theorem digit_to_int_value (h : HasValue U v c) : get (inst U) (K .util_digit_to_int [v]) .type = .ok (encVal (digitToIntC c)) := by
  have hn := h.not_na
  obtain ⟨y, h1, h2⟩ := h
  rw [get_inst (body_util_digit_to_int_1 hn)]
  norm
  simp only [h1, h2, Out.bind_ok]
  exact same_okL (digit_to_int_c_type c)

theorem digit_to_int_apply :
    get (inst U) (.cls (K .util_digit_to_int [K .mpl_na []]) .apply [v]) .type = get (inst U) (K .util_digit_to_int [v]) .type := by
  rw [get_inst body_util_digit_to_int_0_apply]
  norm

theorem int_to_digit_c_some {n : Int} (h0 : 0 ≤ n) (h9 : n ≤ 9) :
    get (inst U) (K .util_int_to_digit_c [.num n]) .type = .ok (charV (n + 48)) := by
  have : n = 0 ∨ n = 1 ∨ n = 2 ∨ n = 3 ∨ n = 4 ∨ n = 5 ∨ n = 6 ∨ n = 7 ∨ n = 8 ∨ n = 9 := by omega
  rcases this with rfl | rfl | rfl | rfl | rfl | rfl | rfl | rfl | rfl | rfl
  · rw [get_inst body_util_int_to_digit_c_0]; dsimp! [char_type]; rfl
  · rw [get_inst body_util_int_to_digit_c_1]; dsimp! [char_type]; rfl
  · rw [get_inst body_util_int_to_digit_c_2]; dsimp! [char_type]; rfl
  · rw [get_inst body_util_int_to_digit_c_3]; dsimp! [char_type]; rfl
  · rw [get_inst body_util_int_to_digit_c_4]; dsimp! [char_type]; rfl
  · rw [get_inst body_util_int_to_digit_c_5]; dsimp! [char_type]; rfl
  · rw [get_inst body_util_int_to_digit_c_6]; dsimp! [char_type]; rfl
  · rw [get_inst body_util_int_to_digit_c_7]; dsimp! [char_type]; rfl
  · rw [get_inst body_util_int_to_digit_c_8]; dsimp! [char_type]; rfl
  · rw [get_inst body_util_int_to_digit_c_9]; dsimp! [char_type]; rfl

theorem int_to_digit_c_none {n : Int} (h : ¬ (0 ≤ n ∧ n ≤ 9)) : ∃ f, get (inst U) (K .util_int_to_digit_c [.num n]) .type = .ill f := by
  have e : ∀ k : Int, 0 ≤ k → k ≤ 9 → Pat.fits [.num k] [V.num n] [] = none := by
    intro k h0 h9
    have : ¬ k = n := by omega
    simp [Pat.fits, Pat.fit, this]
  have hi : inst U (K .util_int_to_digit_c [.num n]) = .ill .noSpecialisation := by
    exact inst_of (no_body (resolve_top (choose_next (e 0 (by decide) (by decide)) (choose_next (e 1 (by decide) (by decide)) (choose_next (e 2 (by decide) (by decide)) (choose_next (e 3 (by decide) (by decide)) (choose_next (e 4 (by decide) (by decide)) (choose_next (e 5 (by decide) (by decide)) (choose_next (e 6 (by decide) (by decide)) (choose_next (e 7 (by decide) (by decide)) (choose_next (e 8 (by decide) (by decide)) (choose_next (e 9 (by decide) (by decide)) rfl))))))))))) (by intro k hk; cases hk))
  exact ⟨.noSpecialisation, by rw [get, hi]; rfl⟩

theorem int_to_digit_value (h : HasValue U v n) :
    get (inst U) (K .util_int_to_digit [v]) .type = get (inst U) (K .util_int_to_digit_c [.num n]) .type := by
  have hn := h.not_na
  obtain ⟨y, h1, h2⟩ := h
  rw [get_inst (body_util_int_to_digit_1 hn)]
  norm
  simp only [h1, h2, Out.bind_ok]

theorem int_to_digit_apply :
    get (inst U) (.cls (K .util_int_to_digit [K .mpl_na []]) .apply [v]) .type = get (inst U) (K .util_int_to_digit [v]) .type := by
  rw [get_inst body_util_int_to_digit_0_apply]
  norm

/-! ### `in_range` -/

theorem IsNum.ne_na (h : IsNum U v n) : v ≠ K .mpl_na [] := by
  rintro rfl
  have e2 : get (inst U) (K .mpl_na []) .value ≠ .ok (.num n) := by
    rw [get_inst body_mpl_na]; dsimp! []; intro h; cases h
  exact e2 h.2

theorem less_equal_num (hv : IsNum U v m) (hw : IsNum U w n) :
    get (inst U) (K .mpl_less_equal [v, w]) .type = .ok (boolV (decide (m ≤ n))) := by
  have h1 : get (inst U) (K .mpl_tag [v]) .type = .ok (K .mpl_integral_c_tag []) := by
    rw [get_inst body_mpl_tag]; dsimp! [hv.1]
  have h2 : get (inst U) (K .mpl_tag [w]) .type = .ok (K .mpl_integral_c_tag []) := by
    rw [get_inst body_mpl_tag]; dsimp! [hw.1]
  rw [get_inst body_mpl_less_equal]
  dsimp! [h1, h2]
  rw [owner_inst body_mpl_less_equal_impl_0]
  dsimp! []
  rw [get_inst body_mpl_less_equal_impl_0_apply]
  simp only [hv.2, hw.2, Out.bind_ok, ev_le, obind_ok]
  dsimp! [bool_type, get_def]
  rfl

omit L in
theorem fits_na0 (hv : v ≠ K .mpl_na []) :
    Pat.fits [.cls .mpl_na [], .cls .mpl_na [], .cls .mpl_na []] [v, w, x] [] = none := by
  show (Pat.fit (.cls .mpl_na []) v []).bind _ = none
  rw [pat_na_none hv]; rfl

omit L in
theorem fits_na1 (hw : w ≠ K .mpl_na []) :
    Pat.fits [.var .LowerBound, .cls .mpl_na [], .cls .mpl_na []] [v, w, x] [] = none := by
  show (Pat.fit (.cls .mpl_na []) w [(.LowerBound, .one v)]).bind _ = none
  rw [pat_na_none hw]; rfl

omit L in
theorem fits_na2 (hx : x ≠ K .mpl_na []) :
    Pat.fits [.var .LowerBound, .var .UpperBound, .cls .mpl_na []] [v, w, x] [] = none := by
  show (Pat.fit (.cls .mpl_na []) x [(.UpperBound, .one w), (.LowerBound, .one v)]).bind _ = none
  rw [pat_na_none hx]; rfl

theorem in_range_num (hv : IsNum U v m) (hw : IsNum U w n) (hx : IsNum U x c) :
    get (inst U) (K .util_in_range [v, w, x]) .type = .ok (boolV (decide (m ≤ c) && decide (c ≤ n))) := by
  rw [get_inst (body_util_in_range_3 (fits_na0 hv.ne_na) (fits_na1 hw.ne_na) (fits_na2 hx.ne_na))]
  simp only [less_equal_num hv hx, less_equal_num hx hw, boolV, Out.bind_ok, bool_value, ev_and, obind_ok]
  exact bool_type

theorem in_range_0 : HasApply U (K .util_in_range [K .mpl_na [], K .mpl_na [], K .mpl_na []])
    (K .util_in_range [K .mpl_na [], K .mpl_na [], K .mpl_na []]) ∧
    get (inst U) (.cls (K .util_in_range [K .mpl_na [], K .mpl_na [], K .mpl_na []]) .apply [v, w, x]) .type =
      get (inst U) (K .util_in_range [v, w, x]) .type := by
  refine ⟨oself_inst body_util_in_range_0 rfl, ?_⟩
  rw [get_inst body_util_in_range_0_apply]
  norm

theorem in_range_1 (hv : v ≠ K .mpl_na []) :
    HasApply U (K .util_in_range [v, K .mpl_na [], K .mpl_na []]) (K .util_in_range [v, K .mpl_na [], K .mpl_na []]) ∧
    get (inst U) (.cls (K .util_in_range [v, K .mpl_na [], K .mpl_na []]) .apply [w, x]) .type =
      get (inst U) (K .util_in_range [v, w, x]) .type := by
  have h : Pat.fits [.cls .mpl_na [], .cls .mpl_na [], .cls .mpl_na []] [v, K .mpl_na [], K .mpl_na []] [] = none := by
    exact fits_na0 hv
  refine ⟨oself_inst (body_util_in_range_1 h) rfl, ?_⟩
  rw [get_inst (body_util_in_range_1_apply h)]
  norm

theorem in_range_2 (hv : v ≠ K .mpl_na []) (hw : w ≠ K .mpl_na []) :
    HasApply U (K .util_in_range [v, w, K .mpl_na []]) (K .util_in_range [v, w, K .mpl_na []]) ∧
    get (inst U) (.cls (K .util_in_range [v, w, K .mpl_na []]) .apply [x]) .type =
      get (inst U) (K .util_in_range [v, w, x]) .type := by
  have h : Pat.fits [.cls .mpl_na [], .cls .mpl_na [], .cls .mpl_na []] [v, w, K .mpl_na []] [] = none := by
    exact fits_na0 hv
  have h' : Pat.fits [.var .LowerBound, .cls .mpl_na [], .cls .mpl_na []] [v, w, K .mpl_na []] [] = none := by
    exact fits_na1 hw
  refine ⟨oself_inst (body_util_in_range_2 h h') rfl, ?_⟩
  rw [get_inst (body_util_in_range_2_apply h h')]
  norm

end Metaparse.Tmpl
