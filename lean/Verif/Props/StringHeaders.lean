import Verif.Lemmas.HeaderEval
import Verif.Props.StringLiterals
/-!
# C99: the text that `tools/string_headers.py` writes

`generateString limits` is the text of `cpp11/impl/string.hpp`. `textString n sun text limit s` takes such a text as tokens,
runs the preprocessor over it with `BOOST_METAPARSE_LIMIT_STRING_SIZE` defined as `limit`, reads the declarations that are left,
expands `BOOST_METAPARSE_STRING("…")` with the macros that are defined then, and evaluates the outcome, all in at most `n` steps.
Nothing below depends on the shape of the text: the properties are about the characters of the literal and the characters of
`string<…>`.
-/

namespace Metaparse

open StrHdr
open Gen (Str lit number)

/-- Enough steps have this outcome. -/
def GivesString (sun : Bool) (text : Str) (limit : Nat) (s : List Chr) (v : Out Vl) : Prop :=
  ∃ N, ∀ n, N ≤ n → textString n sun text limit s = some v

/-- The outcome does not depend on the number of steps. -/
theorem C99_unique {sun : Bool} {text : Str} {limit : Nat} {s : List Chr} {v w : Out Vl} (hv : GivesString sun text limit s v)
    (hw : GivesString sun text limit s w) : v = w := by
  obtain ⟨N, hv⟩ := hv
  obtain ⟨M, hw⟩ := hw
  have h1 := hv (max N M) (by omega)
  have h2 := hw (max N M) (by omega)
  rw [h1] at h2
  exact Option.some.inj h2

theorem generateString_some {limits : List Nat} (h : limits ≠ []) :
    ∃ t m, generateString limits = some t ∧ StrLit.maximum limits = some m := by
  obtain ⟨l, ls, rfl⟩ := List.exists_cons_of_ne_nil h
  exact ⟨_, _, generateString_eq rfl, rfl⟩

variable {limits : List Nat} {m limit : Nat} {t : Str}

/-- A literal that is not longer than the limit gives the string of its characters. -/
theorem C99_string (hp : limits.Pairwise (· < ·)) (h0 : ∀ l ∈ limits, 0 < l) (ht : generateString limits = some t)
    {x : Nat} (hx : x ∈ limits) (hl : limit ≤ x) {s : List Chr} (hs : s.length ≤ limit) :
    GivesString false t limit s (.ok (.string s)) := by
  obtain ⟨_, m, _, hm⟩ := generateString_some (List.ne_nil_of_mem hx)
  obtain ⟨l, hl', h1, h2⟩ := StrLit.indexMacroOf_covers hx hl
  exact textString_of hp h0 hm ht (Nat.le_trans hl (StrLit.le_maximum hm hx)) h2 hl' (ev_string hs h1 (.inl rfl))

/-- A literal that is longer than the limit is rejected. -/
theorem C99_too_long (hp : limits.Pairwise (· < ·)) (h0 : ∀ l ∈ limits, 0 < l) (ht : generateString limits = some t)
    {x : Nat} (hx : x ∈ limits) (hl : limit ≤ x) {s : List Chr} (hs : limit < s.length) (sun : Bool) :
    GivesString sun t limit s (.ill .staticAssert) := by
  obtain ⟨_, m, _, hm⟩ := generateString_some (List.ne_nil_of_mem hx)
  obtain ⟨l, hl', _, h2⟩ := StrLit.indexMacroOf_covers hx hl
  exact textString_of hp h0 hm ht (Nat.le_trans hl (StrLit.le_maximum hm hx)) h2 hl' (ev_string_long hs (h0 l hl'))

/-- A limit larger than every length limit stops the preprocessor. -/
theorem C99_limit_too_large (ht : generateString limits = some t) (h : ∀ x ∈ limits, x < limit) (sun : Bool) (n : Nat)
    (s : List Chr) : textString n sun t limit s = none := by
  have hne : limits ≠ [] := by
    rintro rfl
    cases ht
  obtain ⟨_, m, _, hm⟩ := generateString_some hne
  rw [textString, preprocess_tooLarge hm sun ht (h m (StrLit.maximum_mem hm))]
  rfl

/-- There is a header, unless there are no length limits. -/
theorem C99_header : (∃ t, generateString limits = some t) ↔ limits ≠ [] := by
  constructor
  · rintro ⟨t, ht⟩ rfl
    cases ht
  · intro h
    obtain ⟨t, _, ht, _⟩ := generateString_some h
    exact ⟨t, ht⟩

/-- On Sun's compiler literals of less than 128 characters give their strings. -/
theorem C99_sun_short (hp : limits.Pairwise (· < ·)) (h0 : ∀ l ∈ limits, 0 < l) (ht : generateString limits = some t)
    {x : Nat} (hx : x ∈ limits) (hl : limit ≤ x) {s : List Chr} (hs : s.length ≤ limit) (h128 : s.length < 128) :
    GivesString true t limit s (.ok (.string s)) := by
  obtain ⟨_, m, _, hm⟩ := generateString_some (List.ne_nil_of_mem hx)
  obtain ⟨l, hl', h1, h2⟩ := StrLit.indexMacroOf_covers hx hl
  exact textString_of hp h0 hm ht (Nat.le_trans hl (StrLit.le_maximum hm hx)) h2 hl' (ev_string hs h1 (.inr h128))

/-- On Sun's compiler no longer literal is accepted, whatever the limit. -/
theorem C99_sun_long (hp : limits.Pairwise (· < ·)) (h0 : ∀ l ∈ limits, 0 < l) (ht : generateString limits = some t)
    {x : Nat} (hx : x ∈ limits) (hl : limit ≤ x) {s : List Chr} (hs : s.length ≤ limit) (h128 : 128 ≤ s.length) :
    GivesString true t limit s (.ill .noSpecialisation) := by
  obtain ⟨_, m, _, hm⟩ := generateString_some (List.ne_nil_of_mem hx)
  obtain ⟨l, hl', _, h2⟩ := StrLit.indexMacroOf_covers hx hl
  exact textString_of hp h0 hm ht (Nat.le_trans hl (StrLit.le_maximum hm hx)) h2 hl' (ev_string_sun hs h128)

/-- The limits of the command line are in order and positive. -/
theorem C99_limits {max step : Nat} (hs : 0 < step) :
    (StrLit.lengthLimits max step).Pairwise (· < ·) ∧ ∀ l ∈ StrLit.lengthLimits max step, 0 < l :=
  ⟨StrLit.xrange_pairwise hs, fun l hl => Nat.lt_of_lt_of_le hs ((C43_limits hs max l).mp hl).2.1⟩

/-- The header that is written with `--max_length_limit max --length_limit_step step`: every multiple of the step that is
below `max + step - 1` is a limit that can be used, and all smaller ones can, too. -/
theorem C99_generated {max step k : Nat} (hs : 0 < step) (hk : 0 < k) (hm : k * step < max + step - 1) :
    ∃ t, generateString (StrLit.lengthLimits max step) = some t ∧
      ∀ limit, limit ≤ k * step → ∀ s : List Chr,
        (s.length ≤ limit → GivesString false t limit s (.ok (.string s))) ∧
        (limit < s.length → GivesString false t limit s (.ill .staticAssert)) := by
  have hx : k * step ∈ StrLit.lengthLimits max step :=
    (C43_limits hs max _).mpr ⟨Nat.dvd_mul_left step k, Nat.le_mul_of_pos_left step hk, hm⟩
  obtain ⟨hp, h0⟩ := C99_limits (max := max) hs
  obtain ⟨t, ht⟩ := C99_header.2 (List.ne_nil_of_mem hx)
  exact ⟨t, ht, fun limit hl s => ⟨C99_string hp h0 ht hx hl, fun h => C99_too_long hp h0 ht hx hl h false⟩⟩

/-- The header of the repository, which is written without arguments: every limit up to 2048. -/
theorem C99_shipped : ∃ t, generateString (StrLit.lengthLimits 2048 128) = some t ∧
      (∀ limit, limit ≤ 2048 → ∀ s : List Chr,
        (s.length ≤ limit → GivesString false t limit s (.ok (.string s))) ∧
        (limit < s.length → GivesString false t limit s (.ill .staticAssert))) ∧
      ∀ limit, 2048 < limit → ∀ n s, textString n false t limit s = none := by
  obtain ⟨t, ht, h⟩ := C99_generated (max := 2048) (step := 128) (k := 16) (by decide) (by decide) (by decide)
  refine ⟨t, ht, h, fun limit hl n s => C99_limit_too_large ht (fun x hx => ?_) false n s⟩
  have := ((C43_limits (by decide) 2048 x).mp hx)
  obtain ⟨⟨k, rfl⟩, _, h3⟩ := this
  omega

/-- What the text does is what C42 and C43 say about the macro. -/
theorem C99_agrees (hp : limits.Pairwise (· < ·)) (h0 : ∀ l ∈ limits, 0 < l) (ht : generateString limits = some t)
    {x : Nat} (hx : x ∈ limits) (hl : limit ≤ x) {s r : List Chr} :
    GivesString false t limit s (.ok (.string r)) ↔ StrLit.metaparseString limits limit s = .ok r := by
  have hc := C42_macro_of_limits hp h0 hx hl s
  rcases Nat.lt_or_ge limit s.length with h | h
  · obtain ⟨f, hf⟩ := hc.2 h
    rw [hf]
    exact ⟨fun g => absurd (C99_unique g (C99_too_long hp h0 ht hx hl h false)) (by simp), fun g => absurd g (by simp)⟩
  · rw [hc.1 h]
    constructor
    · intro g
      have := C99_unique g (C99_string hp h0 ht hx hl h)
      simp only [Out.ok.injEq, Vl.string.injEq] at this
      rw [this]
    · intro g
      simp only [Out.ok.injEq] at g
      rw [← g]
      exact C99_string hp h0 ht hx hl h

/-! A header with two limits, and literals for it. -/

example : ∃ t, generateString [3, 200] = some t ∧ GivesString false t 150 (List.replicate 130 65) (.ok (.string (List.replicate 130 65))) ∧
    GivesString true t 150 (List.replicate 130 65) (.ill .noSpecialisation) ∧ GivesString true t 3 [65] (.ok (.string [65])) ∧
    GivesString false t 3 [65, 66, 67, 68] (.ill .staticAssert) ∧ ∀ n, textString n false t 201 [] = none := by
  obtain ⟨t, ht⟩ := (C99_header (limits := [3, 200])).2 (by simp)
  have hp : [3, 200].Pairwise (· < ·) := by decide
  have h0 : ∀ l ∈ [3, 200], 0 < l := by decide
  exact ⟨t, ht, C99_string hp h0 ht (x := 200) (by simp) (by decide) (by simp),
    C99_sun_long hp h0 ht (x := 200) (by simp) (by decide) (by simp) (by simp),
    C99_sun_short hp h0 ht (x := 3) (by simp) (by decide) (by simp) (by simp),
    C99_too_long hp h0 ht (x := 3) (by simp) (by decide) (by simp) false,
    fun n => C99_limit_too_large ht (by simp) false n []⟩

/-- The headers that `string_headers.py` makes when asked for 1000 characters in steps of 128, with a limit of 1024. -/
example : ∃ t, generateString (StrLit.lengthLimits 1000 128) = some t ∧
    GivesString false t 1024 (List.replicate 1000 65) (.ok (.string (List.replicate 1000 65))) := by
  obtain ⟨t, h, h'⟩ := C99_generated (max := 1000) (step := 128) (k := 8) (by decide) (by decide) (by decide)
  exact ⟨t, h, (h' 1024 (by decide) _).1 (by rw [List.length_replicate]; decide)⟩

/-- There is nothing else the macro gives. -/
example : ∃ t, generateString [3, 200] = some t ∧ ∀ v, GivesString false t 3 [65] v → v = .ok (.string [65]) := by
  obtain ⟨t, ht⟩ := (C99_header (limits := [3, 200])).2 (by simp)
  have hp : [3, 200].Pairwise (· < ·) := by decide
  have h0 : ∀ l ∈ [3, 200], 0 < l := by decide
  exact ⟨t, ht, fun v h => C99_unique h (C99_string hp h0 ht (x := 3) (by simp) (by decide) (by simp))⟩

example : (StrLit.lengthLimits 1000 128).Pairwise (· < ·) := (C99_limits (by decide)).1

end Metaparse
