import Verif.Lemmas.Templates.ChoiceLibrary
/-!
# C101: no use of a class template is ambiguous
-/

namespace Metaparse

open Tmpl

/-- C101: whatever the arguments are, when a definition of a class template fits them, one of those that fit is more
specialised than all the others, and it is the one with which classes are instantiated (`resolve`).  This is so for the
templates of the library and for their member templates, with both kinds of headers and all limits; the only exception is
`mpl::equal_to_impl` for a string and an iterator of strings. -/
theorem C101_unambiguous [L : Lang] {o : V} {n : Id} {args : List V} {defs : List Spec} (hd : Defs (.cls o n args) defs)
    (ha : ¬ Ambiguous (.cls o n args)) :
    ((∃ sp ∈ defs, Matches sp args) → ∃ sp, Takes defs args sp) ∧
    ∀ sp, Takes defs args sp ↔ ∃ c, resolve (.cls o n args) = some (c, sp) := by
  refine ⟨fun h => ?_, takes_resolve hd ha⟩
  obtain ⟨sp, c, e⟩ := exists_first ⟨[], []⟩ .root h
  exact ⟨sp, (takes_iff (defs_ordered hd ha).1 _ _ _).mpr ⟨c, e⟩⟩

/-- `boost::is_same<accept_tag, accept_tag>`: both definitions fit, and `is_same<T, T>` is taken. -/
example [L : Lang] : ∃ sp, (library .boost_is_same)[0]? = some sp ∧ sp.pats = [.var .T, .var .T] ∧
    Takes (library .boost_is_same) [.cls .root .accept_tag [], .cls .root .accept_tag []] sp ∧
    ∃ sp', (library .boost_is_same)[1]? = some sp' ∧ Matches sp' [.cls .root .accept_tag [], .cls .root .accept_tag []] := by
  refine ⟨_, rfl, rfl, ?_, _, rfl, matches_of (by decide +kernel)⟩
  exact ((C101_unambiguous (.top .boost_is_same _) (by simp [Ambiguous])).2 _).mpr ⟨_, rfl⟩

/-- `size` of an empty string with a limit of three: all three definitions fit, and the first one is taken. -/
example : (@library (cpp98 ⟨2, 2, 2, 3⟩) .impl_size).length = 3 ∧
    (∀ sp ∈ @library (cpp98 ⟨2, 2, 2, 3⟩) .impl_size, Matches sp [.cls .root .string [.num (-1), .num (-1), .num (-1)]]) ∧
    ∃ sp, (@library (cpp98 ⟨2, 2, 2, 3⟩) .impl_size)[0]? = some sp ∧
      Takes (@library (cpp98 ⟨2, 2, 2, 3⟩) .impl_size) [.cls .root .string [.num (-1), .num (-1), .num (-1)]] sp := by
  refine ⟨rfl, fun sp h => ?_, _, rfl, ?_⟩
  · have : ((@library (cpp98 ⟨2, 2, 2, 3⟩) .impl_size).all fun sp =>
        (Pat.fits sp.pats [.cls .root .string [.num (-1), .num (-1), .num (-1)]] []).isSome) = true := by decide +kernel
    exact matches_of (List.all_eq_true.mp this sp h)
  · exact ((@C101_unambiguous (cpp98 ⟨2, 2, 2, 3⟩) _ _ _ _ (@Defs.top (cpp98 ⟨2, 2, 2, 3⟩) .impl_size _)
      (by simp [Ambiguous])).2 _).mpr ⟨_, rfl⟩

/-- A member template: the definition of `apply` in `one_char`. -/
example [L : Lang] (args : List V) : ∃ defs, Defs (.cls (.cls .root .one_char []) .apply args) defs ∧ defs.length = 1 := by
  have h := ((C101_unambiguous (.top .one_char []) (by simp [Ambiguous])).2 _).mpr ⟨_, rfl⟩
  exact ⟨_, .member .apply args (.top .one_char []) h, rfl⟩

/-- C101: not more than one is taken. -/
theorem C101_one {defs : List Spec} {args : List V} {sp sp' : Spec} (h : Takes defs args sp) (h' : Takes defs args sp') :
    sp = sp' := by
  obtain ⟨i, h1, h2, h3⟩ := h
  obtain ⟨j, k1, k2, k3⟩ := h'
  by_cases e : j = i
  · subst e
    rw [h1] at k1
    exact Option.some.inj k1
  · exact ((h3 j sp' e k1 k2).asymm (k3 i sp (Ne.symm e) h1 h2)).elim

/-- C101: `mpl::equal_to` of a string and an iterator of strings is ambiguous: there are definitions that fit, and none of
them is taken. -/
theorem C101_ambiguous [L : Lang] {args : List V} (h : Ambiguous (.cls .root .mpl_equal_to_impl args)) :
    (∃ sp ∈ library .mpl_equal_to_impl, Matches sp args) ∧ ∀ sp, ¬ Takes (library .mpl_equal_to_impl) args sp := by
  have e : library .mpl_equal_to_impl = Hdr.mpl_equal_to_impl := rfl
  rw [e]
  unfold Ambiguous at h
  split at h
  · rename_i a b hab
    cases hab
    rcases h with ⟨rfl, rfl⟩ | ⟨rfl, rfl⟩
    · exact ⟨⟨_, List.mem_of_getElem? (i := 3) rfl, matches_of (by decide +kernel)⟩,
        none_taken (i := 3) (j := 5) (a := [.num 0, .cls .root .impl_string_iterator_tag []])
          (b := [.cls .root .string_tag [], .num 0]) (by decide) rfl rfl (matches_of (by decide +kernel))
          (matches_of (by decide +kernel)) (by decide +kernel) (matches_of (by decide +kernel))
          (not_matches (by decide +kernel)) (matches_of (by decide +kernel)) (not_matches (by decide +kernel))⟩
    · exact ⟨⟨_, List.mem_of_getElem? (i := 2) rfl, matches_of (by decide +kernel)⟩,
        none_taken (i := 2) (j := 6) (a := [.cls .root .impl_string_iterator_tag [], .num 0])
          (b := [.num 0, .cls .root .string_tag []]) (by decide) rfl rfl (matches_of (by decide +kernel))
          (matches_of (by decide +kernel)) (by decide +kernel) (matches_of (by decide +kernel))
          (not_matches (by decide +kernel)) (matches_of (by decide +kernel)) (not_matches (by decide +kernel))⟩
  · rename_i hn hab
    cases hab
    cases h
  · cases h

/-- `mpl::equal_to` of a string and an iterator. -/
example : Ambiguous (.cls .root .mpl_equal_to_impl [.cls .root .string_tag [], .cls .root .impl_string_iterator_tag []]) :=
  .inl ⟨rfl, rfl⟩

/-- Nothing else is taken for `is_same<accept_tag, accept_tag>`. -/
example [L : Lang] {sp sp' : Spec} (h0 : (library .boost_is_same)[0]? = some sp)
    (h : Takes (library .boost_is_same) [.cls .root .accept_tag [], .cls .root .accept_tag []] sp') : sp' = sp := by
  refine C101_one h ?_
  obtain rfl := Option.some.inj h0
  exact ((C101_unambiguous (.top .boost_is_same _) (by simp [Ambiguous])).2 _).mpr ⟨_, rfl⟩

end Metaparse
