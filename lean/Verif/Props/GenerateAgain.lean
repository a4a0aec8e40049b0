import Verif.Lemmas.GenerateTwice
import Verif.Props.GenerateAll

/-!
# C82: running the generator of the tutorial again

`tools/generate_all.py` overwrites the tutorial with a text that has the notes and the links it generates. The
authors edit that text, and run the generator on it.
-/

namespace Metaparse

open Gen

/-- **C82.** The generator keeps what the author wrote: without the generated parts and without blank
lines, the text before and after it is the same. -/
theorem C82_keeps {base src : Str} (hbase : ClearName base) (hsrc : Ended src)
    (hclear : ClearText (textLines src)) {g : Generated} (hg : generate base src = some g) :
    authored g.text = authored src :=
  (generate_again hbase hsrc hclear hg).1

/-- **C82**, a second run never fails, has the same snippets, and after it the text does not change any more:
a third run reads the text it writes, and writes the same files. -/
theorem C82_second_run {base src : Str} (hbase : ClearName base) (hsrc : Ended src)
    (hclear : ClearText (textLines src)) {g : Generated} (hg : generate base src = some g) :
    ∃ g', generate base g.text = some g' ∧ g'.snippets = g.snippets ∧ generate base g'.text = some g' := by
  obtain ⟨g', h1, h2, h3, -⟩ := (generate_again hbase hsrc hclear hg).2
  exact ⟨g', h1, h2, h3⟩

/-- **C82**, for a text with nothing generated in it, the second run writes the same headers, pages and snippets
as the first one, and the same text up to blank lines. -/
theorem C82_fresh {base src : Str} (hbase : ClearName base) (hsrc : Ended src)
    (hclear : ClearText (textLines src)) (hf : Fresh src) {g : Generated} (hg : generate base src = some g) :
    ∃ g', generate base g.text = some g' ∧ g'.headers = g.headers ∧ g'.before = g.before ∧ g'.snippets = g.snippets ∧
      nonBlank (textLines g'.text) = nonBlank (textLines g.text) := by
  obtain ⟨g', h1, h2, h3, h4⟩ := (generate_again hbase hsrc hclear hg).2
  obtain ⟨h5, h6, h7⟩ := h4 hf
  exact ⟨g', h1, h5, h6, h2, h7⟩

/-! ## A tutorial -/

/-- A check for `ClearLine`. -/
def clearLine (l : Str) : Bool :=
  (!(lit "  ").isPrefixOf l || marks.all fun m => !isIn m l) &&
  (!(lit "[section").isPrefixOf l || (marks.all fun m => !isIn m l) || !(l.any fun c => c == '.' || isDigit c)) &&
  (!(trimmed l == lit "[section Definitions before each section]") || !(lit "  ").isPrefixOf l)

theorem clearLine_clear {l : Str} (h : clearLine l = true) : ClearLine l := by
  simp only [clearLine, Bool.and_eq_true, Bool.or_eq_true, Bool.not_eq_true', List.all_eq_true, beq_eq_false_iff_ne,
    Bool.eq_false_iff (b := isIn _ _), ne_eq, isIn_iff] at h
  obtain ⟨⟨h1, h2⟩, h3⟩ := h
  refine ⟨?_, ?_, ?_⟩
  · intro hp
    rcases h1 with h1 | h1
    · rw [← List.isPrefixOf_iff_prefix, h1] at hp; simp at hp
    · exact h1
  · intro hh
    rcases h2 with (h2 | h2) | h2
    · obtain ⟨k, c, r, rfl, -⟩ := hh
      rw [List.append_assoc, ← Bool.not_eq_true, List.isPrefixOf_iff_prefix] at h2
      exact absurd (List.prefix_append _ _) h2
    · exact h2
    · obtain ⟨k, c, r, rfl, hc⟩ := hh
      rw [List.any_eq_false] at h2
      have := h2 c (by simp)
      rcases hc with rfl | hc
      · simp at this
      · have hd : ∀ c ∈ lit "0123456789", isDigit c = true := by decide
        rw [hd c hc] at this
        simp at this
  · intro ht
    rcases h3 with h3 | h3
    · exact absurd ht h3
    · rw [← List.isPrefixOf_iff_prefix, h3]; simp

/-- A check for `BlanksInCode`. -/
def blanksInCode : Bool → List Str → Bool
  | _, [] => true
  | c, l :: ls => (!((lit "  ").isPrefixOf l && l.all blank) || c) && blanksInCode ((lit "  ").isPrefixOf l) ls

theorem blanksInCode_blanks {c : Bool} {ls : List Str} (h : blanksInCode c ls = true) : BlanksInCode c ls := by
  induction ls generalizing c with
  | nil => trivial
  | cons l ls ih =>
    rw [blanksInCode, Bool.and_eq_true, Bool.or_eq_true] at h
    refine ⟨?_, ih h.2⟩
    intro hp hb
    rcases h.1 with h | h
    · rw [List.isPrefixOf_iff_prefix.2 hp, hb] at h
      simp at h
    · exact h

/-- The lines of a tutorial before its first run. -/
def newLines : List Str :=
  [lit "[section 1. A]\n", lit "  > struct x;\n", lit "  > x\n", lit "  \n", lit "\n", lit "\n", lit "[section 2. B]\n",
   lit "[endsect]\n", lit "[section Copy-paste friendly code examples]\n", lit "[endsect]\n",
   lit "[section Definitions before each section]\n", lit "[endsect]\n"]

/-- A tutorial before its first run. -/
def newTutorial : Str := newLines.flatten

theorem newTutorial_lines : (∀ l ∈ newLines, Line l) ∧ textLines newTutorial = newLines := by
  have h : ∀ l ∈ newLines, Line l := by
    intro l hl
    have : newLines.all (fun l => !l.dropLast.contains '\n' && l.getLast? == some '\n') = true := by decide +kernel
    have := List.all_eq_true.1 this l hl
    simp only [Bool.and_eq_true, Bool.not_eq_true', beq_iff_eq] at this
    refine ⟨l.dropLast, ?_, ?_⟩
    · intro hm
      rw [← List.contains_iff_mem, this.1] at hm
      simp at hm
    · obtain ⟨q, rfl⟩ := List.getLast?_eq_some_iff.1 this.2
      simp
  exact ⟨h, textLines_flatten h⟩

/-- It has lines that do not confuse the generator and nothing generated in it. -/
theorem newTutorial_hypotheses : ClearName (lit "t") ∧ Ended newTutorial ∧ ClearText (textLines newTutorial) ∧
    Fresh newTutorial := by
  refine ⟨⟨by decide, by decide, ?_⟩, ended_flatten newTutorial_lines.1, ?_, ?_⟩
  · rw [← isIn_iff]; decide
  · rw [newTutorial_lines.2]
    have h : newLines.all clearLine = true := by decide +kernel
    refine ⟨fun l hl => clearLine_clear (List.all_eq_true.1 h l hl), ?_⟩
    exact blanksInCode_blanks (ls := newLines) (c := false) (by decide +kernel)
  · rw [Fresh, authored, newTutorial_lines.2]
    decide +kernel

/-- What is written for it in the first run, and in the second run. -/
theorem newTutorial_written : ((generate (lit "t") newTutorial).bind fun g => (generate (lit "t") g.text).map fun g' =>
    (g.text, g'.text)) = some (
      [lit "[section 1. A]\n", lit "  > struct x;\n", lit "  > x\n", lit "  \n", lit "\n",
       lit "[link t_0 copy-paste friendly version]\n", lit "\n", lit "\n", lit "[section 2. B]\n",
       lit "[note Note that you can find everything that has been included and defined so far [link before_2 here].]\n",
       lit "[endsect]\n", lit "[section Copy-paste friendly code examples]\n", lit "\n", lit "[include t_0.qbk]\n", lit "\n",
       lit "[endsect]\n", lit "[section Definitions before each section]\n", lit "\n", lit "[include before_2.qbk]\n",
       lit "\n", lit "[endsect]\n"].flatten,
      [lit "[section 1. A]\n", lit "  > struct x;\n", lit "  > x\n", lit "  \n", lit "\n",
       lit "[link t_0 copy-paste friendly version]\n", lit "\n", lit "[section 2. B]\n",
       lit "[note Note that you can find everything that has been included and defined so far [link before_2 here].]\n",
       lit "[endsect]\n", lit "[section Copy-paste friendly code examples]\n", lit "\n", lit "[include t_0.qbk]\n", lit "\n",
       lit "[endsect]\n", lit "[section Definitions before each section]\n", lit "\n", lit "[include before_2.qbk]\n",
       lit "\n", lit "[endsect]\n"].flatten) := by decide +kernel

/-- **C82**, one run is not always enough: for this text with nothing generated in it, the second run changes the
text again. It removes a blank line the author wrote after a snippet. -/
theorem C82_not_idempotent : Fresh newTutorial ∧
    ∃ g g', generate (lit "t") newTutorial = some g ∧ generate (lit "t") g.text = some g' ∧ g'.text ≠ g.text := by
  have h := newTutorial_written
  rw [Option.bind_eq_some_iff] at h
  obtain ⟨g, hg, h⟩ := h
  rw [Option.map_eq_some_iff] at h
  obtain ⟨g', hg', h⟩ := h
  simp only [Prod.mk.injEq] at h
  refine ⟨newTutorial_hypotheses.2.2.2, g, g', hg, hg', ?_⟩
  rw [h.1, h.2]
  intro he
  have := congrArg List.length he
  revert this
  decide +kernel

/-- The hypotheses of the theorems hold for it, and also for the text that is written. -/
example : ∃ g g', generate (lit "t") newTutorial = some g ∧ generate (lit "t") g.text = some g' ∧
    authored g.text = authored newTutorial ∧ generate (lit "t") g'.text = some g' ∧ g'.headers = g.headers := by
  obtain ⟨hb, he, hc, hf⟩ := newTutorial_hypotheses
  obtain ⟨-, g, -, hg, -⟩ := C82_not_idempotent
  obtain ⟨g', h1, h2, h3⟩ := C82_second_run hb he hc hg
  obtain ⟨g'', h1', h4, -⟩ := C82_fresh hb he hc hf hg
  rw [h1] at h1'
  simp only [Option.some.injEq] at h1'
  subst h1'
  exact ⟨g, g', hg, h1, C82_keeps hb he hc hg, h3, h4⟩

end Metaparse
