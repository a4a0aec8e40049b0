import Verif.Lemmas.GenerateCopies
import Verif.Props.GenerateNotes

/-!
# C84: the copy-paste friendly versions of the snippets

`tools/generate_all.py` writes a file for every session of the tutorial in which more than one line is entered, with the
commands and without the prompts and the output, and links to it from the text.
-/

namespace Metaparse

open Gen

/-- **C84.** There is one file for every session in which more than one line is entered and that something is after, in
order, and no other file; the lines of code of a file are the commands of the session, each in one line, word by
word. The text may have parts that were generated earlier. -/
theorem C84_snippets {base src : Str} (hbase : ClearName base) (hsrc : Ended src)
    (hclear : ClearText (textLines src)) (hap : Apart false (textLines src)) {doc : List Piece}
    (hdoc : body src = printTutorial doc) (hw : ∀ p ∈ doc, WellWrittenPiece p) (hs : Separated doc)
    (hc : ∀ p ∈ doc, CopyPiece p) {g : Generated} (hg : generate base src = some g) :
    g.snippets.map (fun f => (f.1, (codeLines f.2).map words)) =
      (copied doc).mapIdx fun k p => (copyName base k ++ lit ".qbk", p.commands.map fun ls => ls.flatMap words) :=
  (generate_snippets hbase hsrc hclear hap hdoc hw hs hc hg).1

/-- **C84**, the text that is written has a link to the file after the line that follows the session, and no other
links: without blank lines and the other generated parts it is the text of the author with exactly these links. -/
theorem C84_links {base src : Str} (hbase : ClearName base) (hsrc : Ended src)
    (hclear : ClearText (textLines src)) (hap : Apart false (textLines src)) {doc : List Piece}
    (hdoc : body src = printTutorial doc) (hw : ∀ p ∈ doc, WellWrittenPiece p) (hs : Separated doc)
    (hc : ∀ p ∈ doc, CopyPiece p) {g : Generated} (hg : generate base src = some g) :
    withLinks g.text = nonBlank (linked base 0 doc) :=
  (generate_snippets hbase hsrc hclear hap hdoc hw hs hc hg).2.1

/-- **C84**, the section of code examples includes exactly the files of the sessions before it, in order. -/
theorem C84_examples {base src : Str} (hbase : ClearName base) (hsrc : Ended src)
    (hclear : ClearText (textLines src)) (hap : Apart false (textLines src)) {pre post : List Piece} {t e : Str}
    (hdoc : body src = printTutorial (pre ++ .text t :: .text e :: post))
    (ht : occurs (lit "[section Copy-paste friendly code examples]") t = true) (hte : occurs (lit "endsect") t = false)
    (hw : ∀ p ∈ pre ++ .text t :: .text e :: post, WellWrittenPiece p) (hs : Separated (pre ++ .text t :: .text e :: post))
    (hc : ∀ p ∈ pre ++ .text t :: .text e :: post, CopyPiece p) {g : Generated} (hg : generate base src = some g) :
    ∃ a w, textLines g.text = a ++ (t ++ lit "\n") :: lit "\n" ::
      ((List.range (copied pre).length).map (copyInclude base) ++ lit "\n" :: (e ++ lit "\n") :: w) :=
  (generate_snippets hbase hsrc hclear hap hdoc hw hs hc hg).2.2 rfl ht hte

/-! ## A tutorial -/

/-- A check for `Apart`. -/
def apart : Bool → List Str → Bool
  | _, [] => true
  | c, l :: ls => (!c || !generatedLine l) && apart ((lit "  ").isPrefixOf l) ls

theorem apart_apart {c : Bool} {ls : List Str} (h : apart c ls = true) : Apart c ls := by
  induction ls generalizing c with
  | nil => trivial
  | cons l ls ih =>
    rw [apart, Bool.and_eq_true, Bool.or_eq_true] at h
    refine ⟨?_, ih h.2⟩
    intro hc
    rcases h.1 with h | h
    · rw [hc] at h; simp at h
    · simpa using h

/-- The lines of a tutorial with a session, and a link and an include from an earlier run. -/
def copyLines : List Str :=
  [lit "[section 1. A]\n", lit "  > struct \\\n", lit "  ...> x;\n", lit "  > x\n", lit "  int\n", lit "\n",
   lit "[link t_4 copy-paste friendly version]\n", lit "\n", lit "  > y\n", lit "\n",
   lit "[section Copy-paste friendly code examples]\n", lit "[include t_4.qbk]\n", lit "[endsect]\n"]

/-- A tutorial with a session. -/
def copyTutorial : Str := copyLines.flatten

/-- What its author wrote, before the section of examples. -/
def copyDocument : List Piece :=
  [.heading [1] (lit "A]"), .session [.command [lit "struct ", lit "x;"], .command [lit "x"], .output (lit "int")],
   .text [], .text [], .session [.command [lit "y"]], .text []]

theorem copyTutorial_lines : (∀ l ∈ copyLines, Line l) ∧ textLines copyTutorial = copyLines := by
  have h : ∀ l ∈ copyLines, Line l := by
    intro l hl
    have : copyLines.all (fun l => !l.dropLast.contains '\n' && l.getLast? == some '\n') = true := by decide +kernel
    have := List.all_eq_true.1 this l hl
    simp only [Bool.and_eq_true, Bool.not_eq_true', beq_iff_eq] at this
    refine ⟨l.dropLast, ?_, ?_⟩
    · intro hm
      rw [← List.contains_iff_mem, this.1] at hm
      simp at hm
    · obtain ⟨q, rfl⟩ := List.getLast?_eq_some_iff.1 this.2
      simp
  exact ⟨h, textLines_flatten h⟩

theorem copyTutorial_text : Ended copyTutorial ∧ ClearText (textLines copyTutorial) ∧ Apart false (textLines copyTutorial) ∧
    body copyTutorial = printTutorial (copyDocument ++
      .text (lit "[section Copy-paste friendly code examples]") :: .text (lit "[endsect]") :: []) := by
  refine ⟨ended_flatten copyTutorial_lines.1, ?_, ?_, ?_⟩
  · rw [copyTutorial_lines.2]
    have h : copyLines.all clearLine = true := by decide +kernel
    refine ⟨fun l hl => clearLine_clear (List.all_eq_true.1 h l hl), ?_⟩
    exact blanksInCode_blanks (ls := copyLines) (c := false) (by decide +kernel)
  · rw [copyTutorial_lines.2]
    exact apart_apart (by decide +kernel)
  · rw [body, copyTutorial_lines.2]
    decide +kernel

theorem copyTutorial_pieces : ∀ p ∈ copyDocument ++
      .text (lit "[section Copy-paste friendly code examples]") :: .text (lit "[endsect]") :: [],
    WellWrittenPiece p ∧ CopyPiece p := by
  have ht : ∀ {l : Str}, '\n' ∉ l → ¬ lit "  " <+: l → ¬ LooksLikeHeading l →
      WellWrittenPiece (.text l) ∧ CopyPiece (.text l) := fun h1 h2 h3 => ⟨⟨h1, h2, h3⟩, trivial⟩
  intro p hp
  simp only [copyDocument, List.cons_append, List.nil_append, List.mem_cons, List.not_mem_nil, or_false] at hp
  rcases hp with rfl | rfl | rfl | rfl | rfl | rfl | rfl | rfl
  · exact ⟨⟨by decide, by decide⟩, trivial⟩
  · refine ⟨⟨?_, _, _, rfl⟩, ?_⟩
    · intro q hq
      simp only [List.mem_cons, List.not_mem_nil, or_false] at hq
      rcases hq with rfl | rfl | rfl
      · exact smallTutorial_command (by decide) (by decide) (by decide)
      · exact smallTutorial_command (by decide) (by decide) (by decide)
      · exact ⟨by decide, notCommand_of (by decide)⟩
    · intro q hq
      simp only [List.mem_cons, List.not_mem_nil, or_false] at hq
      rcases hq with rfl | rfl | rfl
      · exact ⟨by decide, by decide⟩
      · exact ⟨by decide, by decide⟩
      · exact ⟨by decide, by decide⟩
  · exact ht (by decide) (by decide) (notHeading_of (by decide))
  · exact ht (by decide) (by decide) (notHeading_of (by decide))
  · refine ⟨⟨?_, _, _, rfl⟩, ?_⟩
    · intro q hq
      simp only [List.mem_cons, List.not_mem_nil, or_false] at hq
      rcases hq with rfl
      exact smallTutorial_command (by decide) (by decide) (by decide)
    · intro q hq
      simp only [List.mem_cons, List.not_mem_nil, or_false] at hq
      rcases hq with rfl
      exact ⟨by decide, by decide⟩
  · exact ht (by decide) (by decide) (notHeading_of (by decide))
  · refine ht (by decide) (by decide) ?_
    rintro ⟨k, c, r, h, hc⟩
    have hc1 : c ≠ ' ' := by
      rintro rfl
      rcases hc with h | h
      · exact absurd h (by decide)
      · exact absurd h (by decide)
    have hc2 : c ≠ 'C' := by
      rintro rfl
      rcases hc with h | h
      · exact absurd h (by decide)
      · exact absurd h (by decide)
    match k, h with
    | 0, h =>
      have := congrArg (fun x => x[8]?) h
      exact hc1 (by simpa [lit] using this.symm)
    | 1, h =>
      have := congrArg (fun x => x[9]?) h
      exact hc2 (by simpa [lit] using this.symm)
    | k + 2, h =>
      have := congrArg (fun x => x[9]?) h
      simp [lit, List.replicate_succ] at this
  · exact ht (by decide) (by decide) (notHeading_of (by decide))

/-- The hypotheses hold for this tutorial: it gets one file with two lines, a link, and an include. -/
example : ∃ g, generate (lit "t") copyTutorial = some g ∧
    g.snippets.map (fun f => (f.1, (codeLines f.2).map words)) =
      [(lit "t_0.qbk", [[lit "struct", lit "x;"], [lit "x"]])] ∧
    lit "[link t_0 copy-paste friendly version]\n" ∈ withLinks g.text ∧
    lit "[link t_4 copy-paste friendly version]\n" ∉ withLinks g.text ∧
    ∃ a w, textLines g.text = a ++ lit "[section Copy-paste friendly code examples]\n" :: lit "\n" ::
      [lit "[include t_0.qbk]\n", lit "\n", lit "[endsect]\n"] ++ w := by
  obtain ⟨he, hc, ha, hb⟩ := copyTutorial_text
  have hp := copyTutorial_pieces
  have hs : Separated (copyDocument ++
      .text (lit "[section Copy-paste friendly code examples]") :: .text (lit "[endsect]") :: []) := by
    simp [copyDocument, Separated, Piece.isSnippet]
  have hn : ClearName (lit "t") := newTutorial_hypotheses.1
  have hsome : (generate (lit "t") copyTutorial).isSome = true := by decide +kernel
  obtain ⟨g, hg⟩ := Option.isSome_iff_exists.1 hsome
  have hl := C84_links hn he hc ha hb (fun p h => (hp p h).1) hs (fun p h => (hp p h).2) hg
  refine ⟨g, hg, ?_, ?_, ?_, ?_⟩
  · rw [C84_snippets hn he hc ha hb (fun p h => (hp p h).1) hs (fun p h => (hp p h).2) hg]
    have : copied (copyDocument ++ .text (lit "[section Copy-paste friendly code examples]") :: .text (lit "[endsect]") :: []) =
        [.session [.command [lit "struct ", lit "x;"], .command [lit "x"], .output (lit "int")]] := by
      simp [copied, copyDocument, Piece.entered, Piece.commands]
    rw [this]
    decide +kernel
  · rw [hl]; decide +kernel
  · rw [hl]; decide +kernel
  · obtain ⟨a, w, h⟩ := C84_examples hn he hc ha hb (by decide +kernel) (by decide +kernel) (fun p h => (hp p h).1) hs
      (fun p h => (hp p h).2) hg
    refine ⟨a, w, h.trans ?_⟩
    have : copied copyDocument = [.session [.command [lit "struct ", lit "x;"], .command [lit "x"], .output (lit "int")]] := by
      simp [copied, copyDocument, Piece.entered, Piece.commands]
    rw [this]
    have e1 : (List.range 1).map (copyInclude (lit "t")) = [lit "[include t_0.qbk]\n"] := by decide +kernel
    have e2 : lit "[section Copy-paste friendly code examples]" ++ lit "\n" = lit "[section Copy-paste friendly code examples]\n" := by
      decide +kernel
    rw [List.length_singleton, e1, e2]
    simp [lit]

/-! ## What the conditions are for -/

/-- **C84**, a blank is needed before the backslash: the words of two lines are put together in the copy, though the
headers and Metashell keep them apart. -/
theorem C84_words_merge : ∃ g, generate (lit "t")
      [lit "[section 1. A]\n", lit "  > struct\\\n", lit "  ...>  x;\n", lit "\n", lit "[section 2. B]\n"].flatten = some g ∧
    g.snippets.map (fun f => (f.1, (codeLines f.2).map words)) = [(lit "t_0.qbk", [[lit "structx;"]])] ∧
    ∃ h, g.headers.get (lit "2.hpp") = some h ∧ [lit "struct", lit "x;"] <:+: words h := by
  have h : ((generate (lit "t")
      [lit "[section 1. A]\n", lit "  > struct\\\n", lit "  ...>  x;\n", lit "\n", lit "[section 2. B]\n"].flatten).bind
      fun g => (g.headers.get (lit "2.hpp")).map fun h =>
        (g.snippets.map (fun f => (f.1, (codeLines f.2).map words)) == [(lit "t_0.qbk", [[lit "structx;"]])]) &&
        (words h == (words h).take 21 ++ [lit "struct", lit "x;"] ++ (words h).drop 23)) = some true := by decide +kernel
  rw [Option.bind_eq_some_iff] at h
  obtain ⟨g, hg, h⟩ := h
  rw [Option.map_eq_some_iff] at h
  obtain ⟨x, hx, h⟩ := h
  simp only [Bool.and_eq_true, beq_iff_eq] at h
  exact ⟨g, hg, h.1, x, hx, _, _, h.2.symm⟩

/-- **C84**, something is needed in the last line of a command: otherwise the next command is put into the same
line. -/
theorem C84_commands_merge : ∃ g, generate (lit "t")
      [lit "  > a \\\n", lit "  ...> \n", lit "  > b\n", lit "\n"].flatten = some g ∧
    g.snippets.map (fun f => (f.1, (codeLines f.2).map words)) = [(lit "t_0.qbk", [[lit "a", lit "b"]])] := by
  have h : ((generate (lit "t") [lit "  > a \\\n", lit "  ...> \n", lit "  > b\n", lit "\n"].flatten).map
      fun g => (g.snippets.map (fun f => (f.1, (codeLines f.2).map words)))) =
        some [(lit "t_0.qbk", [[lit "a", lit "b"]])] := by decide +kernel
  rw [Option.map_eq_some_iff] at h
  exact h

/-- **C84**, a session at the end of the text has no file. -/
theorem C84_last_session : ∃ g, generate (lit "t") [lit "  > a\n", lit "  > b\n"].flatten = some g ∧ g.snippets = [] := by
  have h : ((generate (lit "t") [lit "  > a\n", lit "  > b\n"].flatten).map fun g => g.snippets) = some [] := by decide +kernel
  rw [Option.map_eq_some_iff] at h
  exact h

/-- **C84**, the generator raises an exception for code that begins like the rest of a command. -/
theorem C84_exception : generate (lit "t") [lit "  ...> a\n", lit "  > b\n", lit "\n"].flatten = none := by
  decide +kernel

end Metaparse
