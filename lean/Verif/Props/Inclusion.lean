import Verif.Lemmas.InclusionTitles
/-!
# C100: including the headers of the library
-/

namespace Metaparse

open Inclusion

/-- Every list of headers for the user can be included, in any order and any number of times: the preprocessor does
not stop, every name is declared before it is mentioned, and nothing is defined twice. -/
theorem C100_accepted {env : Env} {s : State} (rd : Before env s) {l : List Nat} (hl : AllPublic l) :
    ∃ s', includeAll headers env l s = .ok s' ∧ Accepted s'.seen := by
  obtain ⟨s', h1, h2, _, _⟩ := run_public rd hl
  exact ⟨s', h1, h2.accepted⟩

/-- `boost/metaparse/string.hpp`, `boost/metaparse.hpp` and again `boost/metaparse/string.hpp`. -/
example : AllPublic [286, 309, 286] := by
  have h1 : headers[286]? = some h286 := rfl
  have h2 : headers[309]? = some h309 := rfl
  intro h hm
  simp only [List.mem_cons, List.not_mem_nil, or_false] at hm
  rcases hm with rfl | rfl | rfl
  · exact ⟨_, h1, by decide +kernel⟩
  · exact ⟨_, h2, by decide +kernel⟩
  · exact ⟨_, h1, by decide +kernel⟩

example : Before plain empty ∧ Before literal empty ∧ Before plain old := ⟨before_plain, before_literal, before_old⟩

/-- Something is read: more than a thousand declarations, definitions and mentions of names. -/
example : (match includeAll headers plain [309] empty with
    | .ok s => decide (1000 < s.seen.length)
    | .error _ => false) = true := by decide +kernel

/-- The condition on the order is not vacuous: what is not for the user cannot always be included.  This is
`v1/cpp11/impl/string.hpp`. -/
example : ∃ t, includeAll headers plain [213] empty = .error t := by
  have h : (match includeAll headers plain [213] empty with
    | .ok _ => false
    | .error _ => true) = true := by decide +kernel
  cases e : includeAll headers plain [213] empty with
  | ok s => rw [e] at h; cases h
  | error t => exact ⟨t, rfl⟩

/-- A header declares the name that it is called after, or defines the macro that it is there for. -/
theorem C100_offered {env : Env} {s s' : State} (rd : Before env s) {l : List Nat} (hl : AllPublic l)
    (hr : includeAll headers env l s = .ok s') {h : Nat} (hm : h ∈ l) {hd : Header} (hh : headers[h]? = some hd) :
    (hd.path ∉ unnamed → ∃ n x, nameNames[n]? = some x ∧ CalledAfter hd.path x ∧ Declared s'.seen n) ∧
    (∀ x, (hd.path, x) ∈ offers → ∃ m, macroNames[m]? = some x ∧ (s'.mac m).isSome) ∧
    (∀ x, (hd.path, x) ∈ offers11 → 2011 ≤ stdOf env s → ∃ m, macroNames[m]? = some x ∧ (s'.mac m).isSome) := by
  obtain ⟨s1, h1, h2, _, h4⟩ := run_public rd hl
  rw [hr] at h1
  cases h1
  refine ⟨fun hu => ?_, fun x ho => ?_, fun x ho h11 => ?_⟩
  · obtain ⟨hd', e, hp⟩ := hl h hm
    rw [hh] at e
    cases e
    obtain ⟨n, x, t, e1, e2⟩ := titled hh hp hu
    obtain ⟨w, e3, e4⟩ := good_title modeOf_proper t
    exact ⟨n, x, e1, e2, (h4.decl n).mpr (.inr ⟨h, hm, w, e3, e4⟩)⟩
  · obtain ⟨m, t, e1⟩ := offered hh ho
    obtain ⟨w, e3, e4⟩ := good_offer modeOf_proper t
    exact ⟨m, e1, (h4.on m).mpr (.inr ⟨h, hm, w, e3, e4⟩)⟩
  · obtain ⟨m, t, e1⟩ := offered11 hh ho
    obtain ⟨w, e3, e4⟩ := good_offer11 modeOf_proper (by rw [modeOf_is11]; exact decide_eq_true h11) t
    exact ⟨m, e1, (h4.on m).mpr (.inr ⟨h, hm, w, e3, e4⟩)⟩

/-- `boost/metaparse/v1/one_of.hpp` is called after a name. -/
example : CalledAfter ["boost", "metaparse", "v1", "one_of.hpp"] "boost::metaparse::v1::one_of" :=
  ⟨"boost::metaparse::v1::one_of", by decide +kernel, .inl rfl⟩

/-- 226 of the 237 headers for the user are. -/
example : (headers.filter isPublic).length = 237 ∧ unnamed.length = 11 := ⟨by decide +kernel, rfl⟩

/-- `boost/metaparse.hpp` declares what all the other headers are called after and defines what they are there for,
but for `boost/metaparse/v1/swap.hpp` and the macro of `boost/metaparse/string_value.hpp`. -/
theorem C100_whole {env : Env} {s s' : State} (rd : Before env s) {l : List Nat} (hl : AllPublic l)
    (hr : includeAll headers env l s = .ok s') {w : Nat} (hw : w ∈ l) {whole : Header} (hwh : headers[w]? = some whole)
    (hwp : whole.path = ["boost", "metaparse.hpp"]) {h : Nat} {hd : Header} (hh : headers[h]? = some hd)
    (hp : isPublic hd = true) :
    (hd.path ∉ unnamed → hd.path ≠ ["boost", "metaparse", "v1", "swap.hpp"] →
      ∃ n x, nameNames[n]? = some x ∧ CalledAfter hd.path x ∧ Declared s'.seen n) ∧
    (∀ x, (hd.path, x) ∈ offers → x ≠ "BOOST_METAPARSE_STRING_VALUE" →
      ∃ m, macroNames[m]? = some x ∧ (s'.mac m).isSome) := by
  have hw' : w = 309 := by
    have k : (headers.zipIdx.all fun p => !decide (p.1.path = ["boost", "metaparse.hpp"]) || decide (p.2 = 309)) = true := by
      decide +kernel
    have z := List.all_eq_true.mp k _ (mem_zipIdx hwh)
    dsimp only at z
    rw [hwp, decide_eq_true rfl] at z
    exact of_decide_eq_true z
  subst hw'
  obtain ⟨s1, h1, h2, _, h4⟩ := run_public rd hl
  rw [hr] at h1
  cases h1
  obtain ⟨k, k1, k2, k3, _⟩ := good_whole (md := modeOf env s) modeOf_proper
  refine ⟨fun hu hs => ?_, fun x ho hx => ?_⟩
  · obtain ⟨n, x, t, e1, e2⟩ := titled hh hp hu
    have hn : h ≠ 316 := fun z => by
      subst z
      have f : headers[316]? = some h316 := rfl
      rw [f] at hh
      cases hh
      exact hs rfl
    exact ⟨n, x, e1, e2, (h4.decl n).mpr (.inr ⟨309, hw, k, k1, k2 h n t hn⟩)⟩
  · obtain ⟨m, t, e1⟩ := offered hh ho
    have hn : h ≠ 311 := fun z => by
      subst z
      have f : headers[311]? = some h311 := rfl
      rw [f] at hh
      cases hh
      have g : (offers.all fun o => !decide (o.1 = h311.path) || decide (o.2 = "BOOST_METAPARSE_STRING_VALUE")) = true := by
        decide +kernel
      have z := List.all_eq_true.mp g _ ho
      dsimp only at z
      rw [decide_eq_true rfl] at z
      exact hx (of_decide_eq_true z)
    exact ⟨m, e1, (h4.on m).mpr (.inr ⟨309, hw, k, k1, k3 h m t hn⟩)⟩

/-- `boost/metaparse.hpp` alone declares what `boost/metaparse/string.hpp` is called after. -/
example {s' : State} (hr : includeAll headers plain [309] empty = .ok s') :
    ∃ n x, nameNames[n]? = some x ∧ CalledAfter h286.path x ∧ Declared s'.seen n := by
  have h1 : headers[286]? = some h286 := rfl
  have h2 : headers[309]? = some h309 := rfl
  refine (C100_whole before_plain (l := [309]) ?_ hr (w := 309) (by simp) h2 (by decide +kernel) h1
    (by decide +kernel)).1 (by decide +kernel) (by decide +kernel)
  intro h hm
  cases List.mem_singleton.1 hm
  exact ⟨_, h2, by decide +kernel⟩

/-- It does not define `BOOST_METAPARSE_STRING_VALUE`, although `boost/metaparse/string_value.hpp` is a header for
the user. -/
theorem C100_whole_not_all {env : Env} {s s' : State} (rd : Before env s) {w : Nat} {whole : Header}
    (hwh : headers[w]? = some whole) (hwp : whole.path = ["boost", "metaparse.hpp"])
    (hr : includeAll headers env [w] s = .ok s') {m : Nat}
    (hm : macroNames[m]? = some "BOOST_METAPARSE_STRING_VALUE") : s'.mac m = none := by
  have hw' : w = 309 := by
    have k : (headers.zipIdx.all fun p => !decide (p.1.path = ["boost", "metaparse.hpp"]) || decide (p.2 = 309)) = true := by
      decide +kernel
    have z := List.all_eq_true.mp k _ (mem_zipIdx hwh)
    dsimp only at z
    rw [hwp, decide_eq_true rfl] at z
    exact of_decide_eq_true z
  have hm' : m = 362 ∧ isUser m = false := by
    have k : (macroNames.zipIdx.all fun p => !decide (p.1 = "BOOST_METAPARSE_STRING_VALUE") ||
        decide (p.2 = 362 ∧ isUser p.2 = false)) = true := by
      decide +kernel
    have z := List.all_eq_true.mp k ("BOOST_METAPARSE_STRING_VALUE", m) (by
      rw [List.mem_iff_getElem?]
      exact ⟨m, by rw [List.getElem?_zipIdx, hm]; simp⟩)
    dsimp only at z
    rw [decide_eq_true rfl] at z
    exact of_decide_eq_true z
  subst hw'
  have hl : AllPublic [309] := by
    intro h hm
    rw [List.mem_singleton] at hm
    subst hm
    exact ⟨h309, rfl, by decide +kernel⟩
  obtain ⟨s1, h1, h2, _, h4⟩ := run_public rd hl
  rw [hr] at h1
  cases h1
  obtain ⟨k, k1, _, _, k4⟩ := good_whole (md := modeOf env s) modeOf_proper
  cases e : s'.mac m with
  | none => rfl
  | some d =>
    have on : On s' m := by unfold On; rw [e]; rfl
    rcases (h4.on m).mp on with z | ⟨h, z1, v, z2, z3⟩
    · cases e' : s.mac m with
      | none => unfold On at z; rw [e'] at z; cases z
      | some d' =>
        obtain ⟨⟨x, hx, hx'⟩, _⟩ := rd.unset m d' e'
        have := user_of_settable hx' hx
        rw [hm'.2] at this
        cases this
    · rw [List.mem_singleton] at z1
      subst z1
      rw [k1] at z2
      cases z2
      rw [hm'.1, k4] at z3
      cases z3

/-- The macro is one that is named in the headers, and `boost/metaparse.hpp` can be included. -/
example : (∃ m : Nat, macroNames[m]? = some "BOOST_METAPARSE_STRING_VALUE") ∧
    (match includeAll headers plain [309] empty with
      | .ok _ => true
      | .error _ => false) = true := by
  refine ⟨?_, by decide +kernel⟩
  exact List.mem_iff_getElem?.1 (by decide +kernel)

/-- What is mentioned is not only declared: when any header for the user defines it, a header that mentions it defines
it.  There are two exceptions, `build_parser` in `debug_parsing_error.hpp` and `source_position` in
`source_position_tag.hpp`. -/
theorem C100_defined {env : Env} {s s1 s2 : State} (rd : Before env s) {l1 l2 : List Nat} (hl1 : AllPublic l1)
    (hl2 : AllPublic l2) (h1 : includeAll headers env l1 s = .ok s1) (h2 : includeAll headers env l2 s = .ok s2)
    {n : Nat} (hu : Ev.use n ∈ s1.seen) (hd : Ev.defn n ∈ s2.seen) :
    Ev.defn n ∈ s1.seen ∨
      ∃ h ∈ l1, ∃ hd x, headers[h]? = some hd ∧ nameNames[n]? = some x ∧ (hd.path, x) ∈ leftUndefined := by
  obtain ⟨t1, e1, _, _, p1⟩ := run_public rd hl1
  obtain ⟨t2, e2, _, _, p2⟩ := run_public rd hl2
  rw [h1] at e1
  rw [h2] at e2
  cases e1
  cases e2
  rcases (p1.used n).mp hu with q | ⟨h, hm, w, e, q⟩
  · rw [rd.unseen] at q; cases q
  rcases (p2.defn n).mp hd with q' | ⟨h', hm', w', e', q'⟩
  · rw [rd.unseen] at q'; cases q'
  obtain ⟨_, a, b⟩ := hl1 h hm
  obtain ⟨_, a', b'⟩ := hl2 h' hm'
  rcases good_defined modeOf_proper (mem_public a b) (mem_public a' b') e e' q q' with z | z
  · exact .inl ((p1.defn n).mpr (.inr ⟨h, hm, w, e, z⟩))
  · right
    refine ⟨h, hm, ?_⟩
    have k : (leftList.all fun t => match headers[t.1]?, nameNames[t.2]? with
        | some hd, some x => decide ((hd.path, x) ∈ leftUndefined)
        | _, _ => false) = true := by decide +kernel
    have y := List.all_eq_true.mp k _ z
    dsimp only at y
    split at y
    · rename_i hd x f1 f2
      exact ⟨hd, x, f1, f2, of_decide_eq_true y⟩
    · cases y

/-- The exceptions are ones: `boost/metaparse/v1/source_position_tag.hpp` mentions `source_position`, number 80, and
does not define it; `boost/metaparse/v1/source_position.hpp` does. -/
example : (match includeAll headers plain [90] empty, includeAll headers plain [91] empty with
    | .ok s1, .ok s2 => s1.seen.contains (.use 80) && !s1.seen.contains (.defn 80) && s2.seen.contains (.defn 80)
    | _, _ => false) = true := by decide +kernel

/-- The order in which headers are included, and how often, does not matter: the same names are declared, the same
are defined, the same macros are there. -/
theorem C100_order {env : Env} {s s1 s2 : State} (rd : Before env s) {l1 l2 : List Nat} (hl1 : AllPublic l1)
    (hl : ∀ h, h ∈ l1 ↔ h ∈ l2) (h1 : includeAll headers env l1 s = .ok s1)
    (h2 : includeAll headers env l2 s = .ok s2) :
    (∀ n, Declared s1.seen n ↔ Declared s2.seen n) ∧ (∀ n, Ev.defn n ∈ s1.seen ↔ Ev.defn n ∈ s2.seen) ∧
    (∀ m, (s1.mac m).isSome = (s2.mac m).isSome) := by
  have hl2 : AllPublic l2 := fun h hm => hl1 h ((hl h).mpr hm)
  obtain ⟨t1, e1, _, _, p1⟩ := run_public rd hl1
  obtain ⟨t2, e2, _, _, p2⟩ := run_public rd hl2
  rw [h1] at e1
  rw [h2] at e2
  cases e1
  cases e2
  refine ⟨fun n => ?_, fun n => ?_, fun m => ?_⟩
  · rw [p1.decl, p2.decl]
    simp only [hl]
  · rw [p1.defn, p2.defn]
    simp only [hl]
  · have : On s1 m ↔ On s2 m := by
      rw [p1.on, p2.on]
      simp only [hl]
    unfold On at this
    rw [Bool.eq_iff_iff]
    exact this

example : ∀ h, h ∈ [286, 309] ↔ h ∈ [309, 286, 309] := by
  intro h
  simp only [List.mem_cons, List.not_mem_nil, or_false]
  constructor
  · rintro (h | h)
    · exact .inr (.inl h)
    · exact .inl h
  · rintro (h | h | h)
    · exact .inr h
    · exact .inl h
    · exact .inr h

/-- `BOOST_METAPARSE_STD`, where it is there, is what the user has set, or what the compiler has.  Macros of the
user are not changed. -/
theorem C100_standard {env : Env} {s s' : State} (rd : Before env s) {l : List Nat} (hl : AllPublic l)
    (hr : includeAll headers env l s = .ok s') :
    (∀ m d, macroNames[m]? = some "BOOST_METAPARSE_STD" → s'.mac m = some d → d.value = some (stdOf env s)) ∧
    (∀ m d, s.mac m = some d → s'.mac m = some d) := by
  obtain ⟨s1, h1, h2, _, h4⟩ := run_public rd hl
  rw [hr] at h1
  cases h1
  refine ⟨fun m d hm hd => ?_, fun m d hd => ?_⟩
  · have hm' : m = 2 := by
      have k : (macroNames.zipIdx.all fun p => !decide (p.1 = "BOOST_METAPARSE_STD") || decide (p.2 = 2)) = true := by
        decide +kernel
      have z := List.all_eq_true.mp k ("BOOST_METAPARSE_STD", m) (by
        rw [List.mem_iff_getElem?]
        exact ⟨m, by rw [List.getElem?_zipIdx, hm]; simp⟩)
      dsimp only at z
      rw [decide_eq_true rfl] at z
      exact of_decide_eq_true z
    subst hm'
    obtain ⟨v, e1, _, _, e2⟩ := h2.std d hd
    rw [e1, e2]
    rfl
  · rw [h4.same m (by unfold On; rw [hd]; rfl), hd]

/-- The standards of a plain compiler, and of a user that asks for C++98. -/
example : stdOf plain empty = 2014 ∧ stdOf plain old = 1998 := ⟨by decide +kernel, by decide +kernel⟩

/-- The text of the headers for one standard is not read when the standard is another one. -/
theorem C100_variants {env : Env} {s s' : State} (rd : Before env s) {l : List Nat} (hl : AllPublic l)
    (hr : includeAll headers env l s = .ok s') {h : Nat} {hd : Header} (hh : headers[h]? = some hd) {n : Nat}
    (hn : n ∈ pieces hd.pre ++ pieces hd.body) (hs : Ev.defn n ∈ s'.seen) :
    ("cpp98" ∈ hd.path → stdOf env s < 2011) ∧ ("cpp11" ∈ hd.path → 2011 ≤ stdOf env s) ∧
    ("cpp14" ∈ hd.path → 2014 ≤ stdOf env s) := by
  obtain ⟨s1, h1, h2, _, h4⟩ := run_public rd hl
  rw [hr] at h1
  cases h1
  obtain ⟨f, hf, _⟩ := h2.names n hs
  have hm : hd ∈ headers := List.mem_of_getElem? hh
  have i11 := modeOf_is11 (env := env) (s := s)
  have i14 := modeOf_is14 (env := env) (s := s)
  have a98 := List.all_eq_true.mp apart98 _ hm
  have a11 := List.all_eq_true.mp apart11 _ hm
  have a14 := List.all_eq_true.mp apart14 _ hm
  generalize modeOf env s = md at hf i11 i14
  unfold Mode.nameOwner at hf
  refine ⟨fun hc => ?_, fun hc => ?_, fun hc => ?_⟩
  · rw [List.contains_iff_mem.mpr hc] at a98
    have z := List.all_eq_true.mp a98 n hn
    rw [Bool.and_eq_true] at z
    refine Nat.lt_of_not_le fun h11 => ?_
    cases e : md.std with
    | cpp98 =>
      unfold Mode.is11 at i11
      rw [e] at i11
      exact absurd h11 (of_decide_eq_false (i11.symm.trans (by decide)))
    | cpp11 => rw [e] at hf; dsimp only at hf; rw [hf] at z; cases z.1
    | cpp14 => rw [e] at hf; dsimp only at hf; rw [hf] at z; cases z.2
  · rw [List.contains_iff_mem.mpr hc] at a11
    have z := List.all_eq_true.mp a11 n hn
    cases e : md.std with
    | cpp98 => rw [e] at hf; dsimp only at hf; rw [hf] at z; cases z
    | cpp11 =>
      unfold Mode.is11 at i11
      rw [e] at i11
      exact of_decide_eq_true (i11.symm.trans (by decide))
    | cpp14 =>
      unfold Mode.is11 at i11
      rw [e] at i11
      exact of_decide_eq_true (i11.symm.trans (by decide))
  · rw [List.contains_iff_mem.mpr hc, Bool.or_true] at a11
    rw [List.contains_iff_mem.mpr hc] at a14
    have z := List.all_eq_true.mp a11 n hn
    have z' := List.all_eq_true.mp a14 n hn
    cases e : md.std with
    | cpp98 => rw [e] at hf; dsimp only at hf; rw [hf] at z; cases z
    | cpp11 => rw [e] at hf; dsimp only at hf; rw [hf] at z'; cases z'
    | cpp14 =>
      unfold Mode.is14 at i14
      rw [e] at i14
      exact of_decide_eq_true (i14.symm.trans (by decide))

/-- Text of one standard is read when the standard is that one. -/
example : (match includeAll headers plain [309] empty with
    | .ok s => headers.any fun hd => hd.path.contains "cpp14" && (pieces hd.body).any fun n => s.seen.contains (.defn n)
    | .error _ => false) = true := by decide +kernel

/-- All that is in the replacement of a macro is there, for every macro, but for `BOOST_METAPARSE_STRING` and
`BOOST_METAPARSE_STRING_VALUE` in C++98, and for `BOOST_METAPARSE_V1_STRING` when the compiler has templates for string
literals. -/
theorem C100_macros {env : Env} {s s' : State} (rd : Before env s) {l : List Nat} (hl : AllPublic l)
    (hr : includeAll headers env l s = .ok s') {m : Nat} {d : Macro} (hd : s'.mac m = some d) :
    Complete s' d ∨
    (stdOf env s < 2011 ∧
      (macroNames[m]? = some "BOOST_METAPARSE_STRING" ∨ macroNames[m]? = some "BOOST_METAPARSE_STRING_VALUE")) ∨
    (2011 ≤ stdOf env s ∧ hasLiterals env ∧ macroNames[m]? = some "BOOST_METAPARSE_V1_STRING") := by
  obtain ⟨s1, h1, h2, h3, h4⟩ := run_public rd hl
  rw [hr] at h1
  cases h1
  have on : On s' m := by unfold On; rw [hd]; rfl
  rcases h2.usable m d hd with a | a | ⟨f, a, b⟩ | a
  · exact (h3 m a on).elim
  · unfold Mode.excused at a
    by_cases h11 : 2011 ≤ theStd env s
    · rw [modeOf_is11, if_pos (decide_eq_true h11)] at a
      by_cases hc : ((modeOf env s).clang && (modeOf env s).literals) = true
      · rw [if_pos hc, List.mem_singleton] at a
        subst a
        rw [Bool.and_eq_true] at hc
        have c1 : (decide (2011 ≤ theStd env s) && (number compilerMacros env.compiler "__clang__" != 0)) = true := hc.1
        have c2 : ((modeOf env s).clang && env.feature 0) = true := hc.2
        rw [Bool.and_eq_true] at c1 c2
        refine .inr (.inr ⟨h11, ⟨?_, c2.2⟩, rfl⟩)
        intro z
        rw [z] at c1
        exact nomatch c1.2
      · rw [if_neg hc] at a; cases a
    · rw [modeOf_is11, if_neg (fun z => h11 (of_decide_eq_true z))] at a
      have i1 : macroNames.idxOf "BOOST_METAPARSE_STRING" = 335 := by decide +kernel
      have i2 : macroNames.idxOf "BOOST_METAPARSE_STRING_VALUE" = 362 := by decide +kernel
      rw [i1, i2] at a
      refine .inr (.inl ⟨Nat.lt_of_not_le h11, ?_⟩)
      simp only [List.mem_cons, List.not_mem_nil, or_false] at a
      rcases a with rfl | rfl
      · exact .inl rfl
      · exact .inr rfl
  · exfalso
    unfold Mode.macroOwner at a
    split at a
    · cases a
    · split at a
      · cases a; omega
      · exact absurd (entry_lt a) (by omega)
  · exact .inl ⟨fun x hx => (a.1 x hx).1, a.2⟩

/-- There are macros with something in their replacement. -/
example : (match includeAll headers plain [309] empty with
    | .ok s => (List.range macroNames.length).any fun m => (s.mac m).any fun d => !d.macros.isEmpty && !d.names.isEmpty
    | .error _ => false) = true := by decide +kernel

/-- The macros that a header undefines are not there in the end. -/
theorem C100_clean {env : Env} {s s' : State} (rd : Before env s) {l : List Nat} (hl : AllPublic l)
    (hr : includeAll headers env l s = .ok s') {h : Nat} {hd : Header} (hh : headers[h]? = some hd) {m : Nat}
    (hm : m ∈ undefs hd.pre ++ undefs hd.body) : s'.mac m = none := by
  obtain ⟨s1, h1, _, h3, _⟩ := run_public rd hl
  rw [hr] at h1
  cases h1
  have k := List.all_eq_true.mp (List.all_eq_true.mp undefs_helper hd (List.mem_of_getElem? hh)) m hm
  cases e : s'.mac m with
  | none => rfl
  | some d => exact (h3 m k (by unfold On; rw [e]; rfl)).elim

example : (headers.any fun hd => !(undefs hd.body).isEmpty) = true := by decide +kernel

/-- The exception for string literals is one: with `boost/metaparse/v1/string.hpp` alone,
`BOOST_METAPARSE_V1_STRING` mentions `boost::metaparse::string`, which only `boost/metaparse/string.hpp` declares. -/
theorem C100_literals : ∃ (env : Env) (s : State) (h : Nat) (hd : Header) (s' : State) (d : Macro) (m n : Nat),
    Before env s ∧ headers[h]? = some hd ∧ hd.path = ["boost", "metaparse", "v1", "string.hpp"] ∧
    includeAll headers env [h] s = .ok s' ∧ macroNames[m]? = some "BOOST_METAPARSE_V1_STRING" ∧
    s'.mac m = some d ∧ nameNames[n]? = some "boost::metaparse::string" ∧ n ∈ d.names ∧ ¬ Declared s'.seen n := by
  have k : (match includeAll headers literal [223] empty with
    | .error _ => false
    | .ok s => match s.mac 12 with
      | none => false
      | some d => d.names.any fun n => decide (nameNames[n]? = some "boost::metaparse::string") &&
          !s.seen.contains (.declare n) && !s.seen.contains (.defn n)) = true := by decide +kernel
  cases e : includeAll headers literal [223] empty with
  | error t => rw [e] at k; cases k
  | ok s' =>
    rw [e] at k
    dsimp only at k
    cases e2 : s'.mac 12 with
    | none => rw [e2] at k; cases k
    | some d =>
      rw [e2] at k
      obtain ⟨n, hn, hk⟩ := List.any_eq_true.mp k
      rw [Bool.and_eq_true, Bool.and_eq_true] at hk
      refine ⟨literal, empty, 223, h223, s', d, 12, n, before_literal, rfl, rfl, e, rfl, e2, of_decide_eq_true hk.1.1, hn, ?_⟩
      rintro (z | z)
      · rw [List.contains_iff_mem.mpr z] at hk; exact nomatch hk.1.2
      · rw [List.contains_iff_mem.mpr z] at hk; exact nomatch hk.2

end Metaparse
