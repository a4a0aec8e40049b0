import Verif.Lemmas.GenerateNotes
import Verif.Props.GenerateAgain

/-!
# C83: the notes in the tutorial

`tools/generate_all.py` writes a note after the heading of a section that links to the page with the definitions
before it.
-/

namespace Metaparse

open Gen

/-- **C83.** The text that is written has, after the heading of every section that has a page, a note that links to
it, and no other notes: without blank lines and the other generated parts it is the text of the author with
exactly these notes. -/
theorem C83_notes {base src : Str} (hbase : ClearName base) (hsrc : Ended src) (hclear : ClearText (textLines src))
    {g : Generated} (hg : generate base src = some g) :
    withNotes g.text = annotated (fun n => (g.before.get (pageName n)).isSome) (authored src) :=
  (generate_notes hbase hsrc hclear hg).1

/-- **C83**, all pages are included by the text, if it has a section for them. -/
theorem C83_included {base src : Str} (hbase : ClearName base) (hsrc : Ended src) (hclear : ClearText (textLines src))
    {g : Generated} (hg : generate base src = some g)
    {l : Str} (hl : l ∈ authored src) (ht : trimmed l = lit "[section Definitions before each section]")
    {n : List Nat} {page : Str} (hp : g.before.get (pageName n) = some page) :
    lit "[include " ++ pageName n ++ lit "]\n" ∈ textLines g.text := by
  have := (generate_notes hbase hsrc hclear hg).2 l hl ht (dotted '_' n) (by
    have hp : g.before.get (lit "before_" ++ dotted '_' n ++ lit ".qbk") = some page := hp
    rw [hp]; rfl)
  have e : lit "[include before_" ++ dotted '_' n ++ lit ".qbk]\n" = lit "[include " ++ pageName n ++ lit "]\n" := by
    rw [pageName, show lit "[include before_" = lit "[include " ++ lit "before_" by decide,
      show lit ".qbk]\n" = lit ".qbk" ++ lit "]\n" by decide]
    simp
  rw [e] at this
  exact this

/-- The hypotheses hold for the new tutorial, and its second section has a note. -/
example : ∃ g, generate (lit "t") newTutorial = some g ∧
    withNotes g.text = annotated (fun n => (g.before.get (pageName n)).isSome) (authored newTutorial) ∧
    noteFor [2] ∈ textLines g.text ∧ (∃ l ∈ authored newTutorial, trimmed l = lit "[section Definitions before each section]") := by
  obtain ⟨hb, he, hc, hf⟩ := newTutorial_hypotheses
  have h := newTutorial_written
  rw [Option.bind_eq_some_iff] at h
  obtain ⟨g, hg, h⟩ := h
  rw [Option.map_eq_some_iff] at h
  obtain ⟨g', hg', h⟩ := h
  simp only [Prod.mk.injEq] at h
  refine ⟨g, hg, C83_notes hb he hc hg, ?_, ?_⟩
  · rw [h.1]
    decide +kernel
  · refine ⟨lit "[section Definitions before each section]\n", ?_, by decide⟩
    rw [hf, newTutorial_lines.2]
    decide +kernel

/-! ## Numbers with more than one digit -/

/-- A text with sections whose numbers have more than one digit. -/
def tenSections : Str :=
  [lit "[section 1. A]\n", lit "  > struct x;\n", lit "\n", lit "[section 2. B]\n", lit "  > struct y;\n", lit "\n",
   lit "[section 2.10. C]\n", lit "\n", lit "[section 10. D]\n"].flatten

/-- **C83**, the components of the number must have one digit: section 10 has a page but no note, and the note at
section 2.10 links to the page of section 2, which does not have the definitions of section 2. -/
theorem C83_two_digits : ∃ g, generate (lit "t") tenSections = some g ∧
    (g.before.get (pageName [10])).isSome = true ∧
    g.before.get (pageName [2, 10]) ≠ g.before.get (pageName [2]) ∧ (g.before.get (pageName [2, 10])).isSome = true ∧
    (textLines g.text).filter isNote = [noteFor [2], noteFor [2]] := by
  have h : ((generate (lit "t") tenSections).map fun g =>
      (g.before.get (pageName [10])).isSome && (g.before.get (pageName [2, 10]) != g.before.get (pageName [2])) &&
        (g.before.get (pageName [2, 10])).isSome &&
        ((textLines g.text).filter isNote == [noteFor [2], noteFor [2]])) = some true := by decide +kernel
  rw [Option.map_eq_some_iff] at h
  obtain ⟨g, hg, h⟩ := h
  simp only [Bool.and_eq_true, beq_iff_eq, bne_iff_ne] at h
  exact ⟨g, hg, h.1.1.1, h.1.1.2, h.1.2, h.2⟩

end Metaparse
