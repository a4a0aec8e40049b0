/-
The check of the headers for every standard and every compiler.
-/
import Verif.Lemmas.InclusionHeaders

namespace Metaparse.Inclusion

/-- All names that some header for the user defines. -/
def definedAll (md : Mode) : Nat :=
  publicList.foldl (fun a h => match md.look h with
    | some w => a ||| w.defn
    | none => a) 0

/-- The headers that mention a name and leave it undefined, with the name. -/
def leftList : List (Nat × Nat) := [(97, 79), (98, 79), (90, 80), (280, 80)]

/-- The names that a header mentions and leaves undefined, as a set: `build_parser` (79) in `debug_parsing_error.hpp`
and `source_position` (80) in `source_position_tag.hpp`. -/
def leftSet (h : Nat) : Nat :=
  leftList.foldl (fun a t => if t.1 = h then put a t.2 else a) 0

/-- What is needed of every header for the user, and of `boost/metaparse.hpp` (number 309): it includes all but
`v1/swap.hpp` (number 316) and `string_value.hpp` (number 311), which defines the macro 362. -/
def good (md : Mode) : Bool :=
  (strict (definedAll md) fun d => publicList.all (fun h => match md.look h with
    | some w => (w.used &&& d) ||| (w.defn ||| leftSet h) == w.defn ||| leftSet h
    | none => false)) &&
  publicList.all (fun h => match md.look h with
    | some w => w.depth ≤ 256
    | none => false) &&
  titleList.all (fun t => match md.look t.1 with
    | some w => w.decl.testBit t.2
    | none => false) &&
  offerList.all (fun t => match md.look t.1 with
    | some w => w.on.testBit t.2
    | none => false) &&
  (!md.is11 || offerList11.all (fun t => match md.look t.1 with
    | some w => w.on.testBit t.2
    | none => false)) &&
  (match md.look 309 with
    | some w => titleList.all (fun t => t.1 = 316 || w.decl.testBit t.2) &&
        offerList.all (fun t => t.1 = 311 || w.on.testBit t.2) && !w.on.testBit 362
    | none => false)

theorem good98 : ∀ n, good ⟨.cpp98, false, false, false, n⟩ = true := by decide +kernel

theorem good11 : ∀ s n, good ⟨.cpp11, false, false, s, n⟩ = true := by decide +kernel

theorem good11_clang : ∀ s n, good ⟨.cpp11, true, false, s, n⟩ = true := by decide +kernel

theorem good11_literals : ∀ s n, good ⟨.cpp11, true, true, s, n⟩ = true := by decide +kernel

theorem good14 : ∀ s n, good ⟨.cpp14, false, false, s, n⟩ = true := by decide +kernel

theorem good14_clang : ∀ s n, good ⟨.cpp14, true, false, s, n⟩ = true := by decide +kernel

theorem good14_literals : ∀ s n, good ⟨.cpp14, true, true, s, n⟩ = true := by decide +kernel

/-- The modes that there are: what does not matter is false. -/
def Mode.Proper (md : Mode) : Prop :=
  (md.is11 = false → md.clang = false ∧ md.sun = false) ∧ (md.clang = false → md.literals = false)

theorem good_proper {md : Mode} (h : md.Proper) : good md = true := by
  rcases md with ⟨std, clang, literals, sun, noCStr⟩
  obtain ⟨h1, h2⟩ := h
  cases std with
  | cpp98 =>
    obtain ⟨h3, h4⟩ := h1 rfl
    have h5 := h2 h3
    dsimp only at h3 h4 h5
    subst h3 h4 h5
    exact good98 _
  | cpp11 =>
    cases clang with
    | false =>
      have h5 := h2 rfl
      dsimp only at h5
      subst h5
      exact good11 _ _
    | true =>
      cases literals with
      | false => exact good11_clang _ _
      | true => exact good11_literals _ _
  | cpp14 =>
    cases clang with
    | false =>
      have h5 := h2 rfl
      dsimp only at h5
      subst h5
      exact good14 _ _
    | true =>
      cases literals with
      | false => exact good14_clang _ _
      | true => exact good14_literals _ _

end Metaparse.Inclusion
