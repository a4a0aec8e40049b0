import Verif.Lemmas.Templates.Repeated
/-!
# Classes of data: strings
-/

set_option linter.unusedVariables false
set_option linter.unusedSimpArgs false
set_option linter.unusedSectionVars false

namespace Metaparse.Tmpl

variable {U : User}

/-! ### The parts that depend on the headers -/

theorem last_num {n : Int} {l : List Int} (h : l.getLast? ≠ some n) : (l.map V.num).getLast? ≠ some (.num n) := by
  rw [List.getLast?_map]
  intro e
  cases hl : l.getLast? with
  | none => rw [hl] at e; cases e
  | some m =>
      rw [hl] at e
      simp at e
      subst e
      exact h hl

section
variable [L : Lang] {s : List Int} {c : Int} {h : V → Out Members}

theorem short_of_good (hs : GoodStr s) : shortStr s = true := by
  obtain ⟨_ | l⟩ := L
  · rfl
  · simp only [shortStr, Headers.pick, decide_eq_true_eq]
    exact Nat.le_of_lt hs.1

theorem encStr_short (hs : shortStr s = true) : encStr s = K .string (fill .string (s.map .num)) := by
  rw [encStr, if_pos hs]

theorem good_tail (hs : GoodStr (c :: s)) : GoodStr s := by
  obtain ⟨_ | l⟩ := L
  · trivial
  · obtain ⟨h1, h2⟩ := hs
    refine ⟨?_, ?_⟩
    · simp at h1; omega
    · intro e
      apply h2
      cases s with
      | nil => cases e
      | cons d s => rw [List.getLast?_cons_cons]; exact e

theorem str_body (hs : shortStr s = true) : instantiate U h (encStr s) =
    .ok [(.type, .ty (encStr s)), (.tag, .ty (K .string_tag []))] := by
  rw [encStr_short hs]
  obtain ⟨_ | l⟩ := L
  · letI := cpp11
    exact body_string
  · refine body98_string (L := ⟨.cpp98 l⟩) rfl (fill_length (L := ⟨.cpp98 l⟩) rfl rfl ?_)
    simpa [shortStr, Headers.pick] using hs

theorem size_body (hs : GoodStr s) : instantiate U h (K .impl_size [encStr s]) = h (K .mpl_int_ [.num s.length]) := by
  rw [encStr_short (short_of_good hs)]
  obtain ⟨_ | l⟩ := L
  · letI := cpp11
    have := body_impl_size (U := U) (h := h) (vCs := s.map .num)
    rw [obind_ok, List.length_map] at this
    exact this
  · rw [fill_98 (L := ⟨.cpp98 l⟩) rfl rfl]
    have := body98_impl_size (L := ⟨.cpp98 l⟩) (U := U) (h := h) rfl (ys := s.map .num) (by simpa using hs.1) (last_num hs.2)
    rwa [List.length_map] at this ⊢

theorem at_body (hs : GoodStr (c :: s)) :
    instantiate U h (K .impl_at_c [encStr (c :: s), .num 0]) = h (K .mpl_char_ [.num c]) := by
  rw [encStr_short (short_of_good hs)]
  obtain ⟨_ | l⟩ := L
  · letI := cpp11
    have := body_impl_at_c_0 (U := U) (h := h) (vC := .num c) (vCs := s.map .num)
    rw [obind_ok] at this
    exact this
  · letI : Lang := ⟨.cpp98 l⟩
    have h1 : (c :: s).length < l.string := hs.1
    have := body98_impl_at_c (L := ⟨.cpp98 l⟩) (U := U) (h := h) rfl (n := 0) (vs := fill .string ((c :: s).map .num))
      (fill_length rfl rfl (by simp at h1 ⊢; omega)) (by simp at h1; omega)
    refine this.trans ?_
    rw [fill_98 (L := ⟨.cpp98 l⟩) rfl rfl]
    rfl

theorem pop_body (hs : GoodStr (c :: s)) : instantiate U h (K .impl_pop_front [encStr (c :: s)]) = h (encStr s) := by
  rw [encStr_short (short_of_good hs), encStr_short (short_of_good (good_tail hs))]
  obtain ⟨_ | l⟩ := L
  · letI := cpp11
    have := body_impl_pop_front (U := U) (h := h) (vC := .num c) (vCs := s.map .num)
    rw [obind_ok] at this
    exact this
  · have h1 : (c :: s).length < l.string := hs.1
    have h2 : s.length + 1 < l.string := h1
    rw [fill_98 (L := ⟨.cpp98 l⟩) rfl rfl, fill_98 (L := ⟨.cpp98 l⟩) rfl rfl]
    have := body98_impl_pop_front (L := ⟨.cpp98 l⟩) (U := U) (h := h) rfl (c := .num c)
      (vs := s.map .num ++ List.replicate (l.string - (s.length + 1)) (.num (-1))) (by simp; omega)
    simp only [List.map_cons, List.length_cons, List.length_map, List.cons_append]
    refine this.trans ?_
    rw [List.append_assoc, ← List.replicate_succ', show l.string - (s.length + 1) + 1 = l.string - s.length by omega]

end

/-! ### The rest -/

section
variable [Lang] {s : List Int} {c : Int}

theorem str_type : get (inst U) (encStr s) .type = .ok (encStr s) := by
  cases hs : shortStr s with
  | true => members (str_body hs)
  | false =>
      rw [encStr, if_neg (by rw [hs]; simp)]
      members body_user_long_string

theorem str_value : get (inst U) (encStr s) .value = .ill .noType := by
  cases hs : shortStr s with
  | true => members (str_body hs)
  | false =>
      rw [encStr, if_neg (by rw [hs]; simp)]
      members body_user_long_string

theorem str_tag (hs : GoodStr s) : get (inst U) (encStr s) .tag = .ok (K .string_tag []) := by
  members (str_body (short_of_good hs))

theorem seq_tag_string (hs : GoodStr s) : get (inst U) (K .mpl_sequence_tag [encStr s]) .type = .ok (K .string_tag []) := by
  rw [get_inst body_mpl_sequence_tag]; dsimp! [str_tag hs]

theorem iter_type {a b : V} : get (inst U) (K .impl_string_iterator [a, b]) .type = .ok (K .impl_string_iterator [a, b]) := by
  members body_impl_string_iterator

theorem begin_string (hs : GoodStr s) : get (inst U) (K .mpl_begin [encStr s]) .type =
    .ok (K .impl_string_iterator [encStr s, .num 0]) := by
  rw [get_inst body_mpl_begin]
  dsimp! [seq_tag_string hs]
  rw [owner_inst body_mpl_begin_impl]
  dsimp! []
  rw [get_inst body_mpl_begin_impl_apply]
  dsimp! [str_type, get_def, iter_type]

theorem size_string (hs : GoodStr s) : get (inst U) (K .impl_size [encStr s]) .type = .ok (K .mpl_int_ [.num s.length]) := by
  rw [get_inst (size_body hs)]
  dsimp! [get_def, int_type]

theorem end_string (hs : GoodStr s) : get (inst U) (K .mpl_end [encStr s]) .type =
    .ok (K .impl_string_iterator [encStr s, .num s.length]) := by
  rw [get_inst body_mpl_end]
  dsimp! [seq_tag_string hs]
  rw [owner_inst body_mpl_end_impl]
  dsimp! []
  rw [get_inst body_mpl_end_impl_apply]
  dsimp! [str_type, size_string hs, get_def, iter_type, int_value]

theorem empty_inst (hs : GoodStr s) : inst U (K .mpl_empty [encStr s]) = inst U (K .mpl_bool_ [ofBool s.isEmpty]) := by
  rw [inst_of body_mpl_empty]
  dsimp! [seq_tag_string hs]
  rw [owner_inst body_mpl_empty_impl]
  dsimp! []
  rw [inst_of body_mpl_empty_impl_apply]
  dsimp! [begin_string hs, end_string hs, same_eq]
  cases s with
  | nil => simp
  | cons c s =>
      have h : ¬ (0 : Int) = (s.length : Int) + 1 := by omega
      simp [h]

theorem empty_get (hs : GoodStr s) {x : Id} :
    get (inst U) (K .mpl_empty [encStr s]) x = get (inst U) (K .mpl_bool_ [ofBool s.isEmpty]) x := by
  rw [get, empty_inst hs, get]

theorem front_string (hs : GoodStr (c :: s)) :
    get (inst U) (K .mpl_front [encStr (c :: s)]) .type = .ok (K .mpl_char_ [.num c]) := by
  rw [get_inst body_mpl_front]
  dsimp! [seq_tag_string hs]
  rw [owner_inst (body_mpl_front_impl_1 rfl)]
  dsimp! [get_def]
  rw [get_inst (body_mpl_front_impl_1_apply rfl)]
  dsimp! [begin_string hs]
  rw [get_inst body_mpl_deref]
  dsimp! [get_def]
  rw [get_inst (at_body hs)]
  dsimp! [get_def, char_type]

theorem pop_front_string (hs : GoodStr (c :: s)) : get (inst U) (K .mpl_pop_front [encStr (c :: s)]) .type = .ok (encStr s) := by
  rw [get_inst body_mpl_pop_front]
  dsimp! [seq_tag_string hs]
  rw [owner_inst body_mpl_pop_front_impl_1]
  dsimp! [get_def]
  rw [get_inst body_mpl_pop_front_impl_1_apply]
  dsimp! [get_def]
  rw [get_inst (pop_body hs)]
  dsimp! [get_def, str_type]

end

end Metaparse.Tmpl
