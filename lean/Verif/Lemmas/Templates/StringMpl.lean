import Verif.Lemmas.Templates.StringOps
/-!
# The metafunctions of Boost.MPL on strings
-/

set_option linter.unusedVariables false
set_option linter.unusedSimpArgs false
set_option linter.unusedSectionVars false

namespace Metaparse.Tmpl

open Metaparse (StrImpl StrIter str11 str98)

variable {U : User} [L : Lang] {a b : List Int} {c n : Int}

theorem tag_seq (ha : IsStr a) : get (inst U) (K .mpl_sequence_tag [strV a]) .type = .ok (K .string_tag []) := by
  rw [get_inst body_mpl_sequence_tag]; dsimp! [strV_tag ha]

/-! ### The types of what is derived from -/

theorem str_out {x : Out Members} {y : Out (List Int)} (h : Like U x (omap strV y)) (hy : ∀ b, y = .ok b → IsStr b) :
    Same (x.bind fun m => m.ty .type) (omap strV y) :=
  like_get h fun v hv => by
    cases y with
    | ok b => cases hv; exact strV_type (hy b rfl)
    | _ => cases hv

theorem char_out {x : Out Members} {y : Out Int} (h : Like U x (omap charV y)) : Same (x.bind fun m => m.ty .type) (omap charV y) :=
  like_get h fun v hv => by
    cases y with
    | ok b => cases hv; exact char_type
    | _ => cases hv

theorem int_out {x : Out Members} {y : Out Int} (h : Like U x (omap intV y)) : Same (x.bind fun m => m.ty .type) (omap intV y) :=
  like_get h fun v hv => by
    cases y with
    | ok b => cases hv; exact int_type
    | _ => cases hv

/-! ### Changing strings -/

theorem push_back_mpl (ha : IsStr a) {v : V} (hv : HasValue U v c) :
    Same (get (inst U) (K .mpl_push_back [strV a, v]) .type) (omap strV (strImpl.pushBackC a c)) := by
  obtain ⟨t, h1, h2⟩ := hv
  rw [get_inst body_mpl_push_back]
  dsimp! [tag_seq ha]
  rw [owner_inst body_mpl_push_back_impl_1]
  dsimp! []
  rw [get_inst body_mpl_push_back_impl_1_apply]
  dsimp! [strV_type ha, h1, h2]
  exact str_out (push_back_like ha) fun b hb => push_back_isStr ha hb

theorem push_front_mpl (ha : IsStr a) {v : V} (hv : HasValue U v c) :
    Same (get (inst U) (K .mpl_push_front [strV a, v]) .type) (omap strV (strImpl.pushFrontC a c)) := by
  obtain ⟨t, h1, h2⟩ := hv
  rw [get_inst body_mpl_push_front]
  dsimp! [tag_seq ha]
  rw [owner_inst body_mpl_push_front_impl_1]
  dsimp! []
  rw [get_inst body_mpl_push_front_impl_1_apply]
  dsimp! [strV_type ha, h1, h2]
  exact str_out (push_front_like ha) fun b hb => push_front_isStr ha hb

theorem pop_back_mpl (ha : IsStr a) : Same (get (inst U) (K .mpl_pop_back [strV a]) .type) (omap strV (strImpl.popBack a)) := by
  rw [get_inst body_mpl_pop_back]
  dsimp! [tag_seq ha]
  rw [owner_inst body_mpl_pop_back_impl]
  dsimp! []
  rw [get_inst body_mpl_pop_back_impl_apply]
  simp only [obind_ok]
  exact str_out (pop_back_like ha) fun b hb => pop_back_isStr ha hb

theorem pop_front_mpl (ha : IsStr a) : Same (get (inst U) (K .mpl_pop_front [strV a]) .type) (omap strV (strImpl.popFront a)) := by
  rw [get_inst body_mpl_pop_front]
  dsimp! [tag_seq ha]
  rw [owner_inst body_mpl_pop_front_impl_1]
  dsimp! []
  rw [get_inst body_mpl_pop_front_impl_1_apply]
  simp only [obind_ok]
  exact str_out (pop_front_like ha) fun b hb => pop_front_isStr ha hb

theorem clear_mpl (ha : IsStr a) : get (inst U) (K .mpl_clear [strV a]) .type = .ok (strV strImpl.clear) := by
  rw [get_inst body_mpl_clear]
  dsimp! [tag_seq ha]
  rw [owner_inst body_mpl_clear_impl]
  dsimp! []
  rw [get_inst body_mpl_clear_impl_apply]
  simp only [obind_ok]
  have h : K .string (fill .string []) = strV strImpl.clear := by
    obtain ⟨_ | l⟩ := L
    · rfl
    · exact strV_mk (L := ⟨.cpp98 l⟩) (cs := []) rfl
  rw [h]
  exact strV_type (clear_isStr ha)

/-! ### Iterators -/

variable {i j : StrIter (List Int)}

theorem iterV_type : get (inst U) (iterV i) .type = .ok (iterV i) := iter_type

theorem iterV_tag : get (inst U) (iterV i) .tag = .ok (K .impl_string_iterator_tag []) := by
  rw [iterV]
  members body_impl_string_iterator

theorem iterV_tag' : get (inst U) (K .mpl_tag [iterV i]) .type = .ok (K .impl_string_iterator_tag []) := by
  rw [get_inst body_mpl_tag]; dsimp! [iterV_tag]

theorem begin_mpl (ha : IsStr a) : get (inst U) (K .mpl_begin [strV a]) .type = .ok (iterV (StrImpl.begin_ a)) := by
  rw [get_inst body_mpl_begin]
  dsimp! [tag_seq ha]
  rw [owner_inst body_mpl_begin_impl]
  dsimp! []
  rw [get_inst body_mpl_begin_impl_apply]
  dsimp! [strV_type ha, get_def, iter_type]
  rfl

theorem end_mpl (ha : IsStr a) : Same (get (inst U) (K .mpl_end [strV a]) .type) (omap iterV (strImpl.end_ a)) := by
  rw [get_inst body_mpl_end]
  dsimp! [tag_seq ha]
  rw [owner_inst body_mpl_end_impl]
  dsimp! []
  rw [get_inst body_mpl_end_impl_apply]
  dsimp! [strV_type ha]
  have hs := int_out (size_like (U := U) ha)
  change Same (get (inst U) (K .impl_size [strV a]) .type) _ at hs
  rw [StrImpl.end_]
  cases h : strImpl.size a with
  | ok m =>
      rw [h] at hs
      rw [same_okL hs]
      dsimp! [intV, int_value, get_def, iter_type]
      rfl
  | ill f =>
      rw [h] at hs
      obtain ⟨g, hg⟩ := same_illL hs
      rw [hg]
      exact trivial
  | deep =>
      rw [h] at hs
      rw [same_deepL hs]
      exact trivial

theorem next_mpl : get (inst U) (K .mpl_next [iterV i]) .type = .ok (iterV i.next) := by
  rw [iterV, get_inst body_mpl_next]
  dsimp! [Op.ev, get_def, iter_type]
  rfl

theorem prior_mpl : get (inst U) (K .mpl_prior [iterV i]) .type = .ok (iterV i.prior) := by
  rw [iterV, get_inst body_mpl_prior]
  dsimp! [Op.ev, get_def, iter_type]
  rfl

theorem deref_mpl (hi : IsStr i.str) : Same (get (inst U) (K .mpl_deref [iterV i]) .type) (omap charV (i.deref strImpl)) := by
  rw [iterV, get_inst body_mpl_deref]
  simp only [obind_ok]
  exact char_out (at_like hi)

theorem advance_mpl {v : V} (hv : HasValue U v n) :
    get (inst U) (K .mpl_advance [iterV i, v]) .type = .ok (iterV (i.advance n)) := by
  obtain ⟨t, h1, h2⟩ := hv
  rw [get_inst body_mpl_advance]
  dsimp! [iterV_tag']
  rw [owner_inst body_mpl_advance_impl]
  dsimp! []
  rw [get_inst body_mpl_advance_impl_apply]
  dsimp! [iterV_type, h1, h2]
  rw [iterV, get_inst body_impl_advance_c]
  dsimp! [Op.ev, get_def, iter_type]
  rfl

theorem strV_inj (h : strV a = strV b) : a = b := by
  simp only [strV, V.cls.injEq, true_and] at h
  exact List.map_inj_right (fun x y e => by cases e; rfl) |>.1 h

theorem iterV_inj (h : iterV i = iterV j) : i = j := by
  obtain ⟨s, m⟩ := i
  obtain ⟨t, k⟩ := j
  simp only [iterV, V.cls.injEq, true_and, List.cons.injEq, and_true, V.num.injEq] at h
  obtain ⟨h1, rfl⟩ := h
  rw [strV_inj h1]

theorem distance_mpl : Same (get (inst U) (K .mpl_distance [iterV i, iterV j]) .type) (omap intV (i.distance j)) := by
  rw [get_inst body_mpl_distance]
  dsimp! [iterV_tag']
  rw [owner_inst body_mpl_distance_impl]
  dsimp! []
  rw [get_inst body_mpl_distance_impl_apply]
  dsimp! [iterV_type]
  rw [StrIter.distance]
  by_cases h : i.str = j.str
  · rw [if_pos h]
    simp only [iterV, h]
    rw [get_inst body_impl_distance]
    dsimp! [Op.ev, get_def, int_type]
    rfl
  · rw [if_neg h]
    have hr : resolve (K .impl_distance [iterV i, iterV j]) = none := by
      refine resolve_top (choose_next ?_ rfl)
      have hne : ¬ strV i.str = strV j.str := fun e => h (strV_inj e)
      simp [Spec.pats, iterV, Pat.fits, Pat.fit, find, hne]
    rw [get_inst (no_body hr (by intro k hk; cases hk))]
    exact trivial

theorem equal_iter : get (inst U) (K .mpl_equal_to [iterV i, iterV j]) .type = .ok (boolV (i.equalTo j)) := by
  rw [get_inst body_mpl_equal_to]
  dsimp! [iterV_tag']
  rw [owner_inst body_mpl_equal_to_impl_1]
  dsimp! []
  rw [get_inst body_mpl_equal_to_impl_1_apply]
  dsimp! [iterV_type]
  have hd : decide (iterV i = iterV j) = i.equalTo j := by
    rw [StrIter.equalTo, decide_eq_decide]
    exact ⟨iterV_inj, fun e => e ▸ rfl⟩
  rw [same_get, bool_type, Out.bind_ok, bool_type, hd]
  rfl

theorem equal_str (ha : IsStr a) (hb : IsStr b) :
    get (inst U) (K .mpl_equal_to [strV a, strV b]) .type = .ok (boolV (StrImpl.equalTo a b)) := by
  have ht {a : List Int} (ha : IsStr a) : get (inst U) (K .mpl_tag [strV a]) .type = .ok (K .string_tag []) := by
    rw [get_inst body_mpl_tag]; dsimp! [strV_tag ha]
  rw [get_inst body_mpl_equal_to]
  dsimp! [ht ha, ht hb]
  rw [owner_inst body_mpl_equal_to_impl_4]
  dsimp! []
  rw [get_inst body_mpl_equal_to_impl_4_apply]
  dsimp! [strV_type ha, strV_type hb]
  have hd : decide (strV a = strV b) = StrImpl.equalTo a b := by
    rw [StrImpl.equalTo, decide_eq_decide]
    exact ⟨strV_inj, fun e => e ▸ rfl⟩
  rw [same_get, bool_type, Out.bind_ok, bool_type, hd]
  rfl

theorem tag_str (ha : IsStr a) : get (inst U) (K .mpl_tag [strV a]) .type = .ok (K .string_tag []) := by
  rw [get_inst body_mpl_tag]; dsimp! [strV_tag ha]

section
variable {v : V} {t : Id} (ha : IsStr a) (ht : get (inst U) v .tag = .ok (K t [])) (h1 : t ≠ .string_tag)
  (h2 : t ≠ .impl_string_iterator_tag)
include ha ht h1 h2

theorem equal_other : get (inst U) (K .mpl_equal_to [strV a, v]) .type = .ok (boolV false) := by
  have hv : get (inst U) (K .mpl_tag [v]) .type = .ok (K t []) := by
    rw [get_inst body_mpl_tag]; dsimp! [ht]
  have e1 : Pat.fits [.var .T, .cls .impl_string_iterator_tag []] [K .string_tag [], K t []] [] = none := by
    simp [Pat.fits, Pat.fit, find, Ne.symm h2]
  have e2 : Pat.fits [.cls .string_tag [], .cls .string_tag []] [K .string_tag [], K t []] [] = none := by
    simp [Pat.fits, Pat.fit, find, Ne.symm h1]
  rw [get_inst body_mpl_equal_to]
  dsimp! [tag_str ha, hv]
  rw [owner_inst (body_mpl_equal_to_impl_5 e1 e2)]
  dsimp! []
  rw [get_inst (body_mpl_equal_to_impl_5_apply e1 e2)]
  dsimp! [get_def, bool_type]
  rfl

theorem equal_other' : get (inst U) (K .mpl_equal_to [v, strV a]) .type = .ok (boolV false) := by
  have hv : get (inst U) (K .mpl_tag [v]) .type = .ok (K t []) := by
    rw [get_inst body_mpl_tag]; dsimp! [ht]
  have e1 : Pat.fits [.var .T, .cls .impl_string_iterator_tag []] [K .string_tag [], K t []] [] = none := by
    simp [Pat.fits, Pat.fit, find, Ne.symm h2]
  have e2 : Pat.fits [.cls .string_tag [], .cls .string_tag []] [K .string_tag [], K t []] [] = none := by
    simp [Pat.fits, Pat.fit, find, Ne.symm h1]
  rw [get_inst body_mpl_equal_to]
  dsimp! [tag_str ha, hv]
  rw [owner_inst (body_mpl_equal_to_impl_6 (by simp [Pat.fits, Pat.fit, find]) (by simp [Pat.fits, Pat.fit, find])
    (by simp [Pat.fits, Pat.fit, find, Ne.symm h2]) (by simp [Pat.fits, Pat.fit, find, Ne.symm h1])
    (by simp [Pat.fits, Pat.fit, find, Ne.symm h1]))]
  simp only [obind_ok]
  rw [inst_of (body_mpl_equal_to_impl_5 e1 e2)]
  dsimp! []
  rw [get_inst (body_mpl_equal_to_impl_5_apply e1 e2)]
  dsimp! [get_def, bool_type]
  rfl
end

section
variable {v : V} {t : Id} (ht : get (inst U) v .tag = .ok (K t [])) (h2 : t ≠ .impl_string_iterator_tag)
include ht h2

theorem iter_equal_other : get (inst U) (K .mpl_equal_to [iterV i, v]) .type = .ok (boolV false) := by
  have hv : get (inst U) (K .mpl_tag [v]) .type = .ok (K t []) := by
    rw [get_inst body_mpl_tag]; dsimp! [ht]
  have e1 : Pat.fits [.cls .impl_string_iterator_tag [], .cls .impl_string_iterator_tag []]
      [K .impl_string_iterator_tag [], K t []] [] = none := by
    simp [Pat.fits, Pat.fit, Ne.symm h2]
  rw [get_inst body_mpl_equal_to]
  dsimp! [iterV_tag', hv]
  rw [owner_inst (body_mpl_equal_to_impl_2 e1)]
  dsimp! []
  rw [get_inst (body_mpl_equal_to_impl_2_apply e1)]
  dsimp! [get_def, bool_type]
  rfl

theorem iter_equal_other' : get (inst U) (K .mpl_equal_to [v, iterV i]) .type = .ok (boolV false) := by
  have hv : get (inst U) (K .mpl_tag [v]) .type = .ok (K t []) := by
    rw [get_inst body_mpl_tag]; dsimp! [ht]
  have e1 : Pat.fits [.cls .impl_string_iterator_tag [], .cls .impl_string_iterator_tag []]
      [K .impl_string_iterator_tag [], K t []] [] = none := by
    simp [Pat.fits, Pat.fit, Ne.symm h2]
  rw [get_inst body_mpl_equal_to]
  dsimp! [iterV_tag', hv]
  rw [owner_inst (body_mpl_equal_to_impl_3 (by simp [Pat.fits, Pat.fit])
    (by simp [Pat.fits, Pat.fit, Ne.symm h2]) (by simp [Pat.fits, Pat.fit, Ne.symm h2]))]
  simp only [obind_ok]
  rw [inst_of (body_mpl_equal_to_impl_2 e1)]
  dsimp! []
  rw [get_inst (body_mpl_equal_to_impl_2_apply e1)]
  dsimp! [get_def, bool_type]
  rfl
end

/-! ### Looking at strings -/

theorem size_mpl (ha : IsStr a) : Same (get (inst U) (K .mpl_size [strV a]) .type) (omap intV (strImpl.mplSize a)) := by
  rw [get_inst body_mpl_size]
  dsimp! [tag_seq ha]
  rw [owner_inst body_mpl_size_impl]
  dsimp! []
  rw [get_inst body_mpl_size_impl_apply]
  dsimp! [begin_mpl ha]
  have hs := end_mpl (U := U) ha
  rw [StrImpl.mplSize]
  cases h : strImpl.end_ a with
  | ok m =>
      rw [h] at hs
      rw [same_okL hs]
      simp only [Out.bind_ok, obind_ok]
      exact distance_mpl
  | ill f =>
      rw [h] at hs
      obtain ⟨g, hg⟩ := same_illL hs
      rw [hg]
      exact trivial
  | deep =>
      rw [h] at hs
      rw [same_deepL hs]
      exact trivial

theorem empty_mpl (ha : IsStr a) : Same (get (inst U) (K .mpl_empty [strV a]) .type) (omap boolV (strImpl.empty a)) := by
  rw [get_inst body_mpl_empty]
  dsimp! [tag_seq ha]
  rw [owner_inst body_mpl_empty_impl]
  dsimp! []
  rw [get_inst body_mpl_empty_impl_apply]
  dsimp! [begin_mpl ha]
  have hs := end_mpl (U := U) ha
  rw [StrImpl.empty]
  cases h : strImpl.end_ a with
  | ok m =>
      rw [h] at hs
      rw [same_okL hs]
      simp only [Out.bind_ok, obind_ok, same_eq]
      rw [same_get, bool_type]
      have hd : decide (iterV (StrImpl.begin_ a) = iterV m) = decide (StrImpl.begin_ a = m) := by
        rw [decide_eq_decide]
        exact ⟨iterV_inj, fun e => e ▸ rfl⟩
      rw [hd]
      rfl
  | ill f =>
      rw [h] at hs
      obtain ⟨g, hg⟩ := same_illL hs
      rw [hg]
      exact trivial
  | deep =>
      rw [h] at hs
      rw [same_deepL hs]
      exact trivial

theorem front_mpl (ha : IsStr a) : Same (get (inst U) (K .mpl_front [strV a]) .type) (omap charV (strImpl.front a)) := by
  rw [get_inst body_mpl_front]
  dsimp! [tag_seq ha]
  rw [owner_inst (body_mpl_front_impl_1 rfl)]
  dsimp! [get_def]
  rw [get_inst (body_mpl_front_impl_1_apply rfl)]
  dsimp! [begin_mpl ha]
  have := deref_mpl (U := U) (i := StrImpl.begin_ a) ha
  generalize get (inst U) (K .mpl_deref [iterV (StrImpl.begin_ a)]) .type = x at this ⊢
  rw [StrImpl.front]
  cases x <;> exact this

theorem at_mpl (ha : IsStr a) {v : V} (hv : HasValue U v n) :
    Same (get (inst U) (K .mpl_at [strV a, v]) .type) (omap charV (strImpl.at_ a n)) := by
  rw [get_inst body_mpl_at]
  dsimp! [tag_seq ha]
  rw [owner_inst (body_mpl_at_impl_2 rfl rfl)]
  dsimp! [get_def]
  rw [get_inst (body_mpl_at_impl_2_apply rfl rfl)]
  dsimp! [begin_mpl ha, advance_mpl hv]
  have := deref_mpl (U := U) (i := (StrImpl.begin_ a).advance n) ha
  generalize get (inst U) (K .mpl_deref [iterV ((StrImpl.begin_ a).advance n)]) .type = x at this ⊢
  rw [StrImpl.at_]
  cases x <;> exact this

theorem back_mpl (ha : IsStr a) : Same (get (inst U) (K .mpl_back [strV a]) .type) (omap charV (strImpl.back a)) := by
  rw [get_inst body_mpl_back]
  dsimp! [tag_seq ha]
  rw [owner_inst (body_mpl_back_impl_1 rfl)]
  dsimp! [get_def]
  rw [get_inst (body_mpl_back_impl_1_apply rfl)]
  have hs := end_mpl (U := U) ha
  rw [StrImpl.back]
  cases h : strImpl.end_ a with
  | ok m =>
      have hm : m.str = a := by
        rw [StrImpl.end_] at h
        obtain ⟨k, _, hk⟩ := Out.bind_eq_ok.1 h
        cases hk
        rfl
      rw [h] at hs
      rw [same_okL hs]
      dsimp! [prior_mpl]
      have := deref_mpl (U := U) (i := m.prior) (by rw [show m.prior.str = m.str from rfl, hm]; exact ha)
      generalize get (inst U) (K .mpl_deref [iterV m.prior]) .type = x at this ⊢
      cases x <;> exact this
  | ill f =>
      rw [h] at hs
      obtain ⟨g, hg⟩ := same_illL hs
      rw [hg]
      exact trivial
  | deep =>
      rw [h] at hs
      rw [same_deepL hs]
      exact trivial

end Metaparse.Tmpl
