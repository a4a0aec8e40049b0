import Verif.Lemmas.StrLit
import Verif.Spec.Str
import Verif.Spec.Text
/-!
# C42, C43: `BOOST_METAPARSE_STRING` and the generator of its header
-/

namespace Metaparse

open StrLit

/-- The header gives, for the limit `limit`, a working `BOOST_METAPARSE_STRING`: every literal of at
most `limit` characters gives the string with exactly its characters, and longer ones do not
compile. -/
def Covers (limits : List Nat) (limit : Nat) : Prop :=
  ∀ lit : List Chr,
    (lit.length ≤ limit → metaparseString limits limit lit = .ok lit) ∧
    (limit < lit.length → (metaparseString limits limit lit).Fails)

/-- The header refuses the limit `limit`: no literal compiles. -/
def Refuses (limits : List Nat) (limit : Nat) : Prop :=
  ∀ lit : List Chr, (metaparseString limits limit lit).Fails

/-- For every increasing list of positive length limits: the limits up to the largest one are
covered. -/
theorem C42_macro_of_limits {limits : List Nat} (hp : limits.Pairwise (· < ·))
    (h0 : ∀ l ∈ limits, 0 < l) {limit x : Nat} (hx : x ∈ limits) (h : limit ≤ x) :
    Covers limits limit := by
  intro lit
  obtain ⟨l, hl, hle, e⟩ := metaparseString_covered hp hx h lit
  rw [e]
  constructor
  · intro hlit
    rw [charsAt_ok _ _ hlit, Out.bind_ok, makeString_take _ _ (by simp; omega),
      chars_range _ _ (by omega)]
  · intro hlit
    have := h0 l hl
    obtain ⟨k, rfl⟩ : ∃ k, l = k + 1 := ⟨l - 1, by omega⟩
    rw [List.range_succ_eq_map, charsAt_long _ _ hlit]
    exact ⟨_, rfl⟩

/-- The header in the repository: for every limit up to 2048 and every literal, which may contain NUL
characters. -/
theorem C42_string_literal {limit : Nat} (h : limit ≤ 2048) (lit : List Chr) :
    (lit.length ≤ limit → metaparseString shipped limit lit = .ok lit) ∧
    (limit < lit.length → (metaparseString shipped limit lit).Fails) :=
  C42_macro_of_limits (by decide) (by decide) (x := 2048) (by decide) h lit

/-- A larger limit is refused. -/
theorem C42_larger_limit {limit : Nat} (h : 2048 < limit) : Refuses shipped limit := by
  intro lit
  refine ⟨.staticAssert, ?_⟩
  have : maximum shipped = some 2048 := by decide
  simp [metaparseString, this, h]

example : metaparseString shipped 256 (txt "he\x00llo" ++ [0, 0]) = .ok (txt "he\x00llo" ++ [0, 0]) :=
  (C42_string_literal (by decide) _).1 (by decide)

/-- The number of characters of a string literal is always known, so the string is determined: two
literals give the same string only if they are the same. -/
theorem C42_injective {limit : Nat} (h : limit ≤ 2048) (a b : List Chr) {s : List Chr}
    (ha : metaparseString shipped limit a = .ok s) (hb : metaparseString shipped limit b = .ok s) :
    a = b := by
  have key : ∀ a : List Chr, metaparseString shipped limit a = .ok s → a = s := by
    intro a ha
    rcases Nat.lt_or_ge limit a.length with hl | hl
    · obtain ⟨f, hf⟩ := (C42_string_literal h a).2 hl
      rw [hf] at ha; cases ha
    · rw [(C42_string_literal h a).1 hl] at ha
      cases ha; rfl
  rw [key a ha, key b hb]

/-! ## C43: the generator -/

/-- The length limits the generator writes, for positive arguments. -/
theorem C43_limits {step : Nat} (hs : 0 < step) (max l : Nat) :
    l ∈ lengthLimits max step ↔ step ∣ l ∧ step ≤ l ∧ l < max + step - 1 := by
  rw [lengthLimits, mem_xrange hs]
  constructor
  · rintro ⟨h1, h2, h3⟩
    refine ⟨?_, h1, h2⟩
    have := Nat.dvd_add h3 (Nat.dvd_refl step)
    rwa [Nat.sub_add_cancel h1] at this
  · rintro ⟨h1, h2, h3⟩
    exact ⟨h2, h3, Nat.dvd_sub h1 (Nat.dvd_refl step)⟩

/-- The header in the repository is the one the generator writes without arguments. -/
theorem C43_shipped : lengthLimits 2048 128 = shipped := by decide

/-- A generated header covers exactly the limits up to the largest multiple of the step below
`max + step - 1`, and refuses all others. -/
theorem C43_covered {step : Nat} (hs : 0 < step) (max limit : Nat) :
    ((∃ l, step ∣ l ∧ step ≤ l ∧ l < max + step - 1 ∧ limit ≤ l) →
      Covers (lengthLimits max step) limit) ∧
    ((¬∃ l, step ∣ l ∧ step ≤ l ∧ l < max + step - 1 ∧ limit ≤ l) →
      Refuses (lengthLimits max step) limit) := by
  constructor
  · rintro ⟨l, h1, h2, h3, h4⟩
    refine C42_macro_of_limits (xrange_pairwise hs) ?_ ((C43_limits hs max l).2 ⟨h1, h2, h3⟩) h4
    intro k hk
    have := ((C43_limits hs max k).1 hk).2.1
    omega
  · intro hn lit
    refine ⟨.staticAssert, ?_⟩
    simp only [metaparseString]
    cases e : maximum (lengthLimits max step) with
    | none => rfl
    | some m =>
      obtain ⟨h1, h2, h3⟩ := (C43_limits hs max m).1 (maximum_mem e)
      dsimp only
      rw [if_pos]
      rcases Nat.lt_or_ge m limit with h | h
      · exact h
      · exact absurd ⟨m, h1, h2, h3, h⟩ hn

theorem covers_not_refuses {limits : List Nat} {limit : Nat} (h : Covers limits limit)
    (h' : Refuses limits limit) : False := by
  obtain ⟨f, hf⟩ := h' []
  rw [(h []).1 (Nat.zero_le _)] at hf
  cases hf

/-- The requested limit is covered exactly if the step does not divide its predecessor. -/
theorem C43_requested_limit {step max : Nat} (hs : 0 < step) (hm : 0 < max) :
    Covers (lengthLimits max step) max ↔ ¬step ∣ max - 1 := by
  obtain ⟨hc, hr⟩ := C43_covered hs max max
  have key : (∃ l, step ∣ l ∧ step ≤ l ∧ l < max + step - 1 ∧ max ≤ l) ↔ ¬step ∣ max - 1 := by
    constructor
    · rintro ⟨l, ⟨k, rfl⟩, h2, h3, h4⟩ ⟨j, hj⟩
      have h5 : max = step * j + 1 := by omega
      have h6 : step * j < step * k := by omega
      have h7 : step * k < step * (j + 1) := by rw [Nat.mul_succ]; omega
      have := Nat.lt_of_mul_lt_mul_left h6
      have := Nat.lt_of_mul_lt_mul_left h7
      omega
    · intro hn
      have hmod := Nat.div_add_mod (max - 1) step
      have hlt := Nat.mod_lt (max - 1) hs
      have hne : (max - 1) % step ≠ 0 := fun h => hn (Nat.dvd_of_mod_eq_zero h)
      refine ⟨step * ((max - 1) / step + 1), Nat.dvd_mul_right .., ?_, ?_, ?_⟩
      · rw [Nat.mul_succ]; omega
      · rw [Nat.mul_succ]; omega
      · rw [Nat.mul_succ]; omega
  constructor
  · intro h
    rw [← key]
    apply Classical.byContradiction
    intro hn
    exact covers_not_refuses h (hr hn)
  · intro h
    exact hc (key.2 h)

/-- So the generator does not do what it is asked for when the maximum is one more than a multiple of
the step: with `--max_length_limit 129 --length_limit_step 128` the limit 129 is refused … -/
theorem C43_not_covered : Refuses (lengthLimits 129 128) 129 := by
  refine (C43_covered (by decide) 129 129).2 ?_
  rintro ⟨l, ⟨k, rfl⟩, h2, h3, h4⟩
  omega

/-- … and with the step 1 the requested limit is never covered. -/
theorem C43_step_one {max : Nat} (h : 0 < max) : ¬Covers (lengthLimits max 1) max := by
  rw [C43_requested_limit (by decide) h]
  simp

/-- All smaller limits are always covered. -/
theorem C43_smaller_limits {step max limit : Nat} (hs : 0 < step) (h : limit < max)
    (h0 : 1 < max) : Covers (lengthLimits max step) limit := by
  refine (C43_covered hs max limit).1 ?_
  have hmod := Nat.div_add_mod (max - 1 + step - 1) step
  have hlt := Nat.mod_lt (max - 1 + step - 1) hs
  have h1 : 1 ≤ (max - 1 + step - 1) / step := (Nat.le_div_iff_mul_le hs).2 (by omega)
  have h2 := Nat.mul_le_mul_left step h1
  refine ⟨step * ((max - 1 + step - 1) / step), Nat.dvd_mul_right .., by omega, by omega, by omega⟩

example : Covers (lengthLimits 1000 128) 1000 := (C43_requested_limit (by decide) (by decide)).2 (by decide)

example : Covers [3, 200] 150 := C42_macro_of_limits (by decide) (by decide) (x := 200) (by decide) (by decide)

example : 256 ∈ lengthLimits 1000 128 ∧ 300 ∉ lengthLimits 1000 128 :=
  ⟨(C43_limits (by decide) _ _).2 (by decide), fun h => absurd ((C43_limits (by decide) _ _).1 h) (by decide)⟩

example : Covers (lengthLimits 1000 128) 1024 ∧ Refuses (lengthLimits 1000 128) 1025 := by
  refine ⟨(C43_covered (by decide) _ _).1 ⟨1024, by decide⟩, (C43_covered (by decide) _ _).2 ?_⟩
  rintro ⟨l, ⟨k, rfl⟩, h⟩
  omega

example : ¬ Covers (lengthLimits 5 1) 5 := C43_step_one (by decide)

example (b : List Chr) (h : metaparseString shipped 256 b = .ok (txt "ab")) : txt "ab" = b :=
  C42_injective (by decide) _ b ((C42_string_literal (by decide) _).1 (by decide)) h

end Metaparse
