import Verif.Lemmas.Templates.StringMpl
import Verif.Props.Strings
import Verif.Props.Templates98
/-!
# The class templates of strings do what the model says

C96. The text of `string.hpp` of C++11 and of C++98, of `string_iterator.hpp` and of what they include, translated by
`/verif/translate/translate.py`. For every value of the limit of C++98 and for every class `string<…>`, also for those of
which `C41` says that they do not do what is expected.
-/

namespace Metaparse

open Tmpl

section
variable {U : User} [L : Lang] {a b : List Int} {c n : Int} {v : V} {i j : StrIter (List Int)}

/-- C96: `mpl::push_back<S, T>::type` -/
theorem C96_push_back (ha : IsStr a) (hv : HasValue U v c) :
    Same (get (inst U) (K .mpl_push_back [strV a, v]) .type) (omap strV (strImpl.pushBackC a c)) := push_back_mpl ha hv

/-- C96: `mpl::push_front<S, T>::type` -/
theorem C96_push_front (ha : IsStr a) (hv : HasValue U v c) :
    Same (get (inst U) (K .mpl_push_front [strV a, v]) .type) (omap strV (strImpl.pushFrontC a c)) := push_front_mpl ha hv

/-- C96: `mpl::pop_back<S>::type` -/
theorem C96_pop_back (ha : IsStr a) : Same (get (inst U) (K .mpl_pop_back [strV a]) .type) (omap strV (strImpl.popBack a)) :=
  pop_back_mpl ha

/-- C96: `mpl::pop_front<S>::type` -/
theorem C96_pop_front (ha : IsStr a) : Same (get (inst U) (K .mpl_pop_front [strV a]) .type) (omap strV (strImpl.popFront a)) :=
  pop_front_mpl ha

/-- C96: `mpl::clear<S>::type` -/
theorem C96_clear (ha : IsStr a) : get (inst U) (K .mpl_clear [strV a]) .type = .ok (strV strImpl.clear) := clear_mpl ha

/-- C96: `mpl::size<S>::type`, `mpl::empty<S>::type` -/
theorem C96_size (ha : IsStr a) : Same (get (inst U) (K .mpl_size [strV a]) .type) (omap intV (strImpl.mplSize a)) ∧
    Same (get (inst U) (K .mpl_empty [strV a]) .type) (omap boolV (strImpl.empty a)) := ⟨size_mpl ha, empty_mpl ha⟩

/-- C96: `mpl::front<S>::type`, `mpl::back<S>::type`, `mpl::at<S, N>::type` -/
theorem C96_elements (ha : IsStr a) : Same (get (inst U) (K .mpl_front [strV a]) .type) (omap charV (strImpl.front a)) ∧
    Same (get (inst U) (K .mpl_back [strV a]) .type) (omap charV (strImpl.back a)) ∧
    (HasValue U v n → Same (get (inst U) (K .mpl_at [strV a, v]) .type) (omap charV (strImpl.at_ a n))) :=
  ⟨front_mpl ha, back_mpl ha, at_mpl ha⟩

/-- C96: `mpl::begin<S>::type`, `mpl::end<S>::type` -/
theorem C96_ends (ha : IsStr a) : get (inst U) (K .mpl_begin [strV a]) .type = .ok (iterV (StrImpl.begin_ a)) ∧
    Same (get (inst U) (K .mpl_end [strV a]) .type) (omap iterV (strImpl.end_ a)) := ⟨begin_mpl ha, end_mpl ha⟩

/-- C96: `mpl::next`, `mpl::prior`, `mpl::advance`, `mpl::distance` and `mpl::deref` of iterators -/
theorem C96_iterators (hi : IsStr i.str) : get (inst U) (K .mpl_next [iterV i]) .type = .ok (iterV i.next) ∧
    get (inst U) (K .mpl_prior [iterV i]) .type = .ok (iterV i.prior) ∧
    (HasValue U v n → get (inst U) (K .mpl_advance [iterV i, v]) .type = .ok (iterV (i.advance n))) ∧
    Same (get (inst U) (K .mpl_distance [iterV i, iterV j]) .type) (omap intV (i.distance j)) ∧
    Same (get (inst U) (K .mpl_deref [iterV i]) .type) (omap charV (i.deref strImpl)) :=
  ⟨next_mpl, prior_mpl, advance_mpl, distance_mpl, deref_mpl hi⟩

/-- C96: `mpl::equal_to<A, B>::type` of two strings and of two iterators -/
theorem C96_equal_to (ha : IsStr a) (hb : IsStr b) :
    get (inst U) (K .mpl_equal_to [strV a, strV b]) .type = .ok (boolV (StrImpl.equalTo a b)) ∧
    get (inst U) (K .mpl_equal_to [iterV i, iterV j]) .type = .ok (boolV (i.equalTo j)) := ⟨equal_str ha hb, equal_iter⟩

/-- C96: neither a string nor an iterator of strings equals anything that is no string and no iterator of strings.  (For a
string and an iterator there are two specialisations and none is better.) -/
theorem C96_equal_to_other (ha : IsStr a) {t : Id} (ht : get (inst U) v .tag = .ok (K t []))
    (h1 : t ≠ .string_tag) (h2 : t ≠ .impl_string_iterator_tag) :
    get (inst U) (K .mpl_equal_to [strV a, v]) .type = .ok (boolV false) ∧
    get (inst U) (K .mpl_equal_to [v, strV a]) .type = .ok (boolV false) ∧
    ∀ i : StrIter (List Int), get (inst U) (K .mpl_equal_to [iterV i, v]) .type = .ok (boolV false) ∧
      get (inst U) (K .mpl_equal_to [v, iterV i]) .type = .ok (boolV false) :=
  ⟨equal_other ha ht h1 h2, equal_other' ha ht h1 h2, fun _ => ⟨iter_equal_other ht h2, iter_equal_other' ht h2⟩⟩
end

section
variable {U : User} [L : Lang] {s t : List Int} {c : Int} {v : V} {i : Nat}

theorem string_laws : ∃ enc : List Int → List Int, StringLaws strImpl enc Written ∧
    ∀ s, Written s → encStr s = strV (enc s) ∧ IsStr (enc s) := by
  obtain ⟨_ | l⟩ := L
  · exact ⟨id, C40_list_laws, fun s _ => ⟨rfl, trivial⟩⟩
  · refine ⟨Str98.mk l.string, ?_, fun s h => ?_⟩
    · have h := C41_list_laws l.string
      exact ⟨fun s c hs => h.pushBack s c hs.1, fun s c hs => h.pushFront s c hs.1, fun s c hs => h.popBack s c hs.1,
        fun s c hs => h.popFront s c hs.1, h.clear, fun s c hs => h.front s c hs.1, fun s c hs => h.back s c hs.1,
        fun s i c hs => h.at_ s i c hs.1, fun s hs => h.size s hs.1, fun s hs => h.empty s hs.1,
        fun s t hs ht => h.equalTo s t hs.1 ht.1, fun s hs => h.elements s hs.1, fun s hs => h.cStr s hs.1⟩
    · have hl : s.length ≤ l.string := Nat.le_of_lt h.1.1
      have hs : shortStr (L := ⟨.cpp98 l⟩) s = true := by
        simp only [shortStr, Headers.pick, decide_eq_true_eq]
        exact hl
      refine ⟨?_, ?_, h.2⟩
      · rw [encStr_short (L := ⟨.cpp98 l⟩) hs]
        exact strV_mk (L := ⟨.cpp98 l⟩) rfl
      · simp [Str98.mk]
        omega

theorem written_left (h : Written (s ++ t)) : Written s := by
  obtain ⟨_ | l⟩ := L
  · trivial
  · obtain ⟨⟨h1, h2⟩, h3⟩ := h
    refine ⟨⟨?_, fun c hc => h2 c (List.mem_append_left _ hc)⟩, h3⟩
    simp only [List.length_append] at h1
    omega

theorem written_right (h : Written (s ++ t)) : Written t := by
  obtain ⟨_ | l⟩ := L
  · trivial
  · obtain ⟨⟨h1, h2⟩, h3⟩ := h
    refine ⟨⟨?_, fun c hc => h2 c (List.mem_append_right _ hc)⟩, h3⟩
    simp only [List.length_append] at h1
    omega

/-- C96: what is pushed to a string is there: the string of `s` with `c` pushed to its end is the string of `s ++ [c]`. -/
theorem C96_pushed (hv : HasValue U v c) :
    (Written (s ++ [c]) → get (inst U) (K .mpl_push_back [encStr s, v]) .type = .ok (encStr (s ++ [c]))) ∧
    (Written (c :: s) → get (inst U) (K .mpl_push_front [encStr s, v]) .type = .ok (encStr (c :: s))) := by
  obtain ⟨enc, laws, h⟩ := string_laws
  constructor <;> intro hw
  · have hs := h s (written_left hw)
    have := C96_push_back (U := U) hs.2 hv
    rw [laws.pushBack s c hw] at this
    rw [hs.1, (h _ hw).1]
    exact same_okL this
  · have hs := h s (written_right (s := [c]) hw)
    have := C96_push_front (U := U) hs.2 hv
    rw [laws.pushFront s c hw] at this
    rw [hs.1, (h _ hw).1]
    exact same_okL this

/-- C96: and it can be removed again. -/
theorem C96_popped :
    (Written (s ++ [c]) → get (inst U) (K .mpl_pop_back [encStr (s ++ [c])]) .type = .ok (encStr s)) ∧
    (Written (c :: s) → get (inst U) (K .mpl_pop_front [encStr (c :: s)]) .type = .ok (encStr s)) := by
  obtain ⟨enc, laws, h⟩ := string_laws
  constructor <;> intro hw
  · have := C96_pop_back (U := U) (h _ hw).2
    rw [laws.popBack s c hw] at this
    rw [(h _ hw).1, (h s (written_left hw)).1]
    exact same_okL this
  · have := C96_pop_front (U := U) (h _ hw).2
    rw [laws.popFront s c hw] at this
    rw [(h _ hw).1, (h s (written_right (s := [c]) hw)).1]
    exact same_okL this

/-- C96: what can be asked about a string is answered by its characters. -/
theorem C96_asked (hw : Written s) :
    get (inst U) (K .mpl_size [encStr s]) .type = .ok (intV s.length) ∧
    get (inst U) (K .mpl_empty [encStr s]) .type = .ok (boolV s.isEmpty) ∧
    (s.head? = some c → get (inst U) (K .mpl_front [encStr s]) .type = .ok (charV c)) ∧
    (s.getLast? = some c → get (inst U) (K .mpl_back [encStr s]) .type = .ok (charV c)) ∧
    (HasValue U v i → s[i]? = some c → get (inst U) (K .mpl_at [encStr s, v]) .type = .ok (charV c)) := by
  obtain ⟨enc, laws, h⟩ := string_laws
  have hs := (h s hw).2
  rw [(h s hw).1]
  have h1 := C96_size (U := U) hs
  rw [laws.size s hw, laws.empty s hw] at h1
  refine ⟨same_okL h1.1, same_okL h1.2, fun hc => ?_, fun hc => ?_, fun hv hc => ?_⟩
  · obtain ⟨t, rfl⟩ := List.head?_eq_some_iff.mp hc
    have := (C96_elements (U := U) (v := v) (n := i) hs).1
    rw [laws.front _ _ hw] at this
    exact same_okL this
  · obtain ⟨t, rfl⟩ := List.getLast?_eq_some_iff.mp hc
    have := (C96_elements (U := U) (v := v) (n := i) hs).2.1
    rw [laws.back _ _ hw] at this
    exact same_okL this
  · have := (C96_elements (U := U) hs).2.2 hv
    rw [laws.at_ _ _ _ hw hc] at this
    exact same_okL this

/-- C96: two strings are equal if their characters are. -/
theorem C96_equal (hs : Written s) (ht : Written t) :
    get (inst U) (K .mpl_equal_to [encStr s, encStr t]) .type = .ok (boolV (decide (s = t))) := by
  obtain ⟨enc, laws, h⟩ := string_laws
  rw [(h s hs).1, (h t ht).1, (C96_equal_to (i := ⟨[], 0⟩) (j := ⟨[], 0⟩) (h s hs).2 (h t ht).2).1]
  congr 2
  rw [Bool.eq_iff_iff, laws.equalTo s t hs ht]
  simp

/-- C96: in C++98, where a string is as long as the limit nothing but its first characters can be asked for. -/
theorem C96_full {l : Limits} (hL : L.headers = .cpp98 l) (hl : 1 < l.string) (hs : s.length = l.string)
    (hc : ∀ c ∈ s, c ≠ -1) (hv : HasValue U v c) :
    (∃ f, get (inst U) (K .mpl_size [encStr s]) .type = .ill f) ∧ (∃ f, get (inst U) (K .mpl_end [encStr s]) .type = .ill f) ∧
    (∃ f, get (inst U) (K .mpl_empty [encStr s]) .type = .ill f) ∧ (∃ f, get (inst U) (K .mpl_back [encStr s]) .type = .ill f) ∧
    (∃ f, get (inst U) (K .mpl_push_back [encStr s, v]) .type = .ill f) ∧
    (∃ f, get (inst U) (K .mpl_pop_back [encStr s]) .type = .ill f) := by
  obtain ⟨_⟩ := L
  dsimp only at hL
  subst hL
  obtain ⟨h1, h2, h3, h4, h5, h6, -⟩ := C41_full_string_fails hs hc
  have hm : Str98.mk l.string s = s := by simp [Str98.mk, hs]
  rw [hm] at h1 h2 h3 h4 h5 h6
  have he : encStr (L := ⟨.cpp98 l⟩) s = strV s := by
    rw [encStr_short (L := ⟨.cpp98 l⟩) (by simp [shortStr, Headers.pick, hs])]
    exact (strV_mk (L := ⟨.cpp98 l⟩) rfl).trans (by rw [hm])
  have ha : IsStr (L := ⟨.cpp98 l⟩) s := ⟨hs, hl⟩
  have key : ∀ {x : Out V} {α : Type} {g : α → V} {y : Out α}, Tmpl.Same x (omap g y) → y.Fails → ∃ f, x = .ill f := by
    rintro x α g y h ⟨f, rfl⟩
    exact same_illL h
  rw [he]
  refine ⟨key (C96_size (L := ⟨.cpp98 l⟩) ha).1 ?_, key (C96_ends (L := ⟨.cpp98 l⟩) ha).2 h2, key (C96_size (L := ⟨.cpp98 l⟩) ha).2 h3,
    key (C96_elements (L := ⟨.cpp98 l⟩) (v := v) (n := c) ha).2.1 h4, key (C96_push_back (L := ⟨.cpp98 l⟩) ha hv) (h5 c),
    key (C96_pop_back (L := ⟨.cpp98 l⟩) ha) h6⟩
  obtain ⟨f, hf⟩ := h2
  exact ⟨f, by change ((str98 l.string).end_ s).bind _ = _; rw [hf]; rfl⟩
end

theorem hasValue_char [Lang] {U : User} {c : Int} : HasValue U (charV c) c := ⟨charV c, char_type, char_value⟩

theorem hasValue_int [Lang] {U : User} {c : Int} : HasValue U (intV c) c := ⟨intV c, by unfold intV; members body_mpl_int_, int_value⟩

section
attribute [local instance] cpp11

/-- `push_back<string<'a', 'b'>, char_<'c'>>::type` is `string<'a', 'b', 'c'>`. -/
example {U : User} : get (inst U) (K .mpl_push_back [K .string [.num 97, .num 98], K .mpl_char_ [.num 99]]) .type =
    .ok (K .string [.num 97, .num 98, .num 99]) := (C96_pushed (s := [97, 98]) hasValue_char).1 trivial

/-- `at_c<string<'a', 'b', 'c'>, 1>::type` is `char_<'b'>`. -/
example {U : User} : get (inst U) (K .mpl_at [encStr (txt "abc"), intV 1]) .type = .ok (charV (ch 'b')) :=
  (C96_asked (L := cpp11) (s := txt "abc") (i := 1) trivial).2.2.2.2 hasValue_int rfl

/-- The empty string has no last character: the model and the class are both ill-formed. -/
example {U : User} : ∃ f, get (inst U) (K .mpl_pop_back [K .string []]) .type = .ill f :=
  same_illL (C96_pop_back (a := []) trivial)
end

section
attribute [local instance] headers98

theorem written98 {s : List Int} (h : s.length < 32 := by decide) (h' : ∀ c ∈ s, c ≠ -1 := by decide) : Written s :=
  ⟨⟨h, h'⟩, by decide⟩

/-- The same in C++98, where the class has 32 arguments. -/
example {U : User} : get (inst U) (K .mpl_push_back [encStr (txt "ab"), charV (ch 'c')]) .type = .ok (encStr (txt "abc")) :=
  (C96_pushed hasValue_char).1 written98

example {U : User} : get (inst U) (K .mpl_pop_back [encStr (txt "abc")]) .type = .ok (encStr (txt "ab")) :=
  C96_popped.1 (written98 (s := txt "ab" ++ [ch 'c']))

example {U : User} : get (inst U) (K .mpl_equal_to [encStr (txt "abc"), encStr (txt "abd")]) .type = .ok (boolV false) :=
  C96_equal written98 written98

/-- A string with 32 characters has no size. -/
example {U : User} : ∃ f, get (inst U) (K .mpl_size [encStr (List.replicate 32 97)]) .type = .ill f :=
  (C96_full (U := U) rfl (by decide) rfl (by decide) (hasValue_char (c := 0))).1

/-- A class of the user with a tag. -/
example {U : User} : get (inst U) (K .mpl_equal_to [encStr (txt "abc"), encPos start]) .type = .ok (boolV false) := by
  obtain ⟨enc, -, h⟩ := string_laws
  rw [(h _ written98).1]
  exact (C96_equal_to_other (h _ written98).2 (t := .source_position_tag) (by unfold encPos; members body_source_position) (by decide) (by decide)).1
end

section
attribute [local instance] cpp11

/-- The operations on `string<'a', 'b'>` in C++11. -/
example {U : User} : get (inst U) (K .mpl_push_back [strV [97, 98], charV 99]) .type = .ok (strV [97, 98, 99]) :=
  same_okL (C96_push_back (a := [97, 98]) trivial hasValue_char)

example {U : User} : get (inst U) (K .mpl_push_front [strV [97, 98], charV 99]) .type = .ok (strV [99, 97, 98]) :=
  same_okL (C96_push_front (a := [97, 98]) trivial hasValue_char)

example {U : User} : get (inst U) (K .mpl_pop_front [strV [97, 98]]) .type = .ok (strV [98]) :=
  same_okL (C96_pop_front (a := [97, 98]) trivial)

example {U : User} : get (inst U) (K .mpl_clear [strV [97, 98]]) .type = .ok (strV []) := C96_clear (a := [97, 98]) trivial

example {U : User} : get (inst U) (K .mpl_size [strV [97, 98]]) .type = .ok (intV 2) ∧
    get (inst U) (K .mpl_empty [strV [97, 98]]) .type = .ok (boolV false) :=
  ⟨same_okL (C96_size (L := cpp11) (a := [97, 98]) trivial).1, same_okL (C96_size (L := cpp11) (a := [97, 98]) trivial).2⟩

example {U : User} : get (inst U) (K .mpl_front [strV [97, 98]]) .type = .ok (charV 97) ∧
    get (inst U) (K .mpl_back [strV [97, 98]]) .type = .ok (charV 98) ∧
    get (inst U) (K .mpl_at [strV [97, 98], intV 1]) .type = .ok (charV 98) ∧
    ∃ f, get (inst U) (K .mpl_at [strV [97, 98], intV 2]) .type = .ill f :=
  have h {n : Int} := C96_elements (U := U) (a := [97, 98]) (v := intV n) (n := n) trivial
  ⟨same_okL (h (n := 0)).1, same_okL (h (n := 0)).2.1, same_okL ((h (n := 1)).2.2 hasValue_int),
    same_illL ((h (n := 2)).2.2 hasValue_int)⟩

example {U : User} : get (inst U) (K .mpl_begin [strV [97, 98]]) .type = .ok (iterV ⟨[97, 98], 0⟩) ∧
    get (inst U) (K .mpl_end [strV [97, 98]]) .type = .ok (iterV ⟨[97, 98], 2⟩) :=
  ⟨(C96_ends (L := cpp11) (a := [97, 98]) trivial).1, same_okL (C96_ends (L := cpp11) (a := [97, 98]) trivial).2⟩

example {U : User} : get (inst U) (K .mpl_next [iterV ⟨[97, 98], 0⟩]) .type = .ok (iterV ⟨[97, 98], 1⟩) ∧
    get (inst U) (K .mpl_distance [iterV ⟨[97, 98], 0⟩, iterV ⟨[97, 98], 2⟩]) .type = .ok (intV 2) ∧
    get (inst U) (K .mpl_deref [iterV ⟨[97, 98], 0⟩]) .type = .ok (charV 97) :=
  have h := C96_iterators (U := U) (i := ⟨[97, 98], 0⟩) (j := ⟨[97, 98], 2⟩) (v := intV 0) (n := 0) trivial
  ⟨h.1, same_okL h.2.2.2.1, same_okL h.2.2.2.2⟩

example {U : User} : get (inst U) (K .mpl_equal_to [strV [97, 98], strV [97, 99]]) .type = .ok (boolV false) :=
  (C96_equal_to (L := cpp11) (a := [97, 98]) (b := [97, 99]) (i := ⟨[], 0⟩) (j := ⟨[], 0⟩) trivial trivial).1
end

end Metaparse
