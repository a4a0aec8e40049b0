import Verif.Lemmas.GeneratePages

/-!
# C80: the headers of the tutorial

`tools/generate_all.py` makes a header for every numbered section of the tutorial. A source that includes
it has what the reader has entered to Metashell before that section.
-/

namespace Metaparse

open Gen

theorem seenOf_definitions (metashell : Bool) (doc : List Piece) :
    (doc.flatMap Piece.commands).flatMap (seenOf (if metashell then [lit "__METASHELL"] else [])) =
      (definitions metashell doc).flatMap fun ls => ls.flatMap words := by
  have hm : metashellMacro ∈ (if metashell then [lit "__METASHELL"] else []) ↔ metashell = true := by
    cases metashell <;> simp [metashellMacro]
  rw [definitions]
  generalize doc.flatMap Piece.commands = cs
  induction cs with
  | nil => rfl
  | cons ls cs ih =>
    rw [List.flatMap_cons, List.filter_cons, ih, seenOf]
    by_cases h : Defines ls ∧ (metashell = true ∨ ¬ OnlyMetashell ls)
    · rw [if_pos (by rw [hm]; exact h), if_pos (by simpa using h)]
      rfl
    · rw [if_neg (by rw [hm]; exact h), if_neg (by simpa using h)]
      rfl

/-- **C80.** For a tutorial whose sections have increasing numbers: a source that includes the header of a
section, and any headers of sections before it, in any order and any number of times, has all definitions
before that section, each of them once, in the order of the tutorial, and nothing else. Definitions from
`<metashell...>` are there only for Metashell. -/
theorem C80_headers {a b : List Piece} {n : List Nat} {title : Str} (h : WellWritten (a ++ .heading n title :: b))
    {base : Str} {g : Generated} (hg : generate base (printTutorial (a ++ .heading n title :: b)).flatten = some g)
    {ns : List (List Nat)} (hn : n ∈ ns) (hns : ∀ x ∈ ns, x = n ∨ x ∈ numbers a) (metashell : Bool) :
    Sees g.headers.get (if metashell then [lit "__METASHELL"] else []) (including ns)
      ((definitions metashell a).flatMap fun ls => ls.flatMap words) := by
  rw [(generate_headers h hg).1, ← seenOf_definitions]
  refine headers_seen h hn hns _ ?_
  intro s hs
  cases metashell
  · simp at hs
  · simp [guardOf, lit] at hs

/-- **C80**, the generator runs: it fails with an exception for no tutorial that is well written and does not
have, in its commands, the marks the generator looks for. -/
theorem C80_runs {doc : List Piece} (h : WellWritten doc) (hc : ∀ p ∈ doc, ClearPiece p) (base : Str) :
    ∃ g, generate base (printTutorial doc).flatten = some g :=
  generate_succeeds h hc base

/-! ## A tutorial -/

/-- A small tutorial. -/
def smallTutorial : List Piece :=
  [.heading [1] (lit "First]"),
   .text [],
   .session [.command [lit "#include <metashell/formatter.hpp>"],
     .command [lit "using exp_parser = ", lit "  int_;"],
     .command [lit "exp_parser::type"], .output (lit "int_")],
   .text [],
   .heading [1, 1] (lit "Second]"),
   .text (lit "[note Nothing]"),
   .code [lit "$ metashell", lit "> "],
   .text [],
   .session [.command [lit "struct x {};"]],
   .text (lit "[endsect]"),
   .heading [2] (lit "Third]")]

theorem smallTutorial_command {c : Char} {l : Str} {more : List Str} (hc : c ≠ ' ')
    (h : ((c :: l) :: more).all (fun l =>
      (l.all fun c => !blank c || c == ' ') && l.getLast? != some '\\' &&
      (!(lit "#").isPrefixOf (l.dropWhile blank) || (lit "#include <").isPrefixOf (l.dropWhile blank))) = true)
    (h' : (lit "//").isPrefixOf (c :: l) = false) : WellWrittenCommand ((c :: l) :: more) := by
  refine ⟨?_, c, l, more, rfl, hc, ?_⟩
  · intro x hx
    have := List.all_eq_true.1 h x hx
    simp only [Bool.and_eq_true, List.all_eq_true, Bool.or_eq_true, Bool.not_eq_true', beq_iff_eq, bne_iff_ne,
      List.isPrefixOf_iff_prefix] at this
    refine ⟨fun d hd hb => ?_, this.1.2, ?_⟩
    · rcases this.1.1 d hd with h | h
      · rw [hb] at h; simp at h
      · exact h
    · rcases this.2 with h | h
      · left
        intro hp
        rw [← List.isPrefixOf_iff_prefix, h] at hp
        simp at hp
      · exact .inr h
  · intro hp
    rw [← List.isPrefixOf_iff_prefix, h'] at hp
    simp at hp

theorem notCommand_of {l : Str} (h : isCommand l = false) : ¬ LooksLikeCommand l := fun h' => by
  rw [← isCommand_iff, h] at h'
  simp at h'

theorem notHeading_of {l : Str} (h : (lit "[section").isPrefixOf l = false) : ¬ LooksLikeHeading l := by
  rintro ⟨k, c, r, rfl, -⟩
  rw [List.append_assoc, ← Bool.not_eq_true, List.isPrefixOf_iff_prefix] at h
  exact h (List.prefix_append _ _)

theorem smallTutorial_wellWritten : WellWritten smallTutorial := by
  refine ⟨?_, ?_, ?_⟩
  · intro p hp
    simp only [smallTutorial, List.mem_cons, List.not_mem_nil, or_false] at hp
    have ht : ∀ {l : Str}, '\n' ∉ l → ¬ lit "  " <+: l → (lit "[section").isPrefixOf l = false →
        WellWrittenPiece (.text l) := fun h1 h2 h3 => ⟨h1, h2, notHeading_of h3⟩
    rcases hp with rfl | rfl | rfl | rfl | rfl | rfl | rfl | rfl | rfl | rfl | rfl
    · exact ⟨by decide, by decide⟩
    · exact ht (by decide) (by decide) (by decide)
    · refine ⟨?_, _, _, rfl⟩
      intro q hq
      simp only [List.mem_cons, List.not_mem_nil, or_false] at hq
      rcases hq with rfl | rfl | rfl | rfl
      · exact smallTutorial_command (by decide) (by decide) (by decide)
      · exact smallTutorial_command (by decide) (by decide) (by decide)
      · exact smallTutorial_command (by decide) (by decide) (by decide)
      · exact ⟨by decide, notCommand_of (by decide)⟩
    · exact ht (by decide) (by decide) (by decide)
    · exact ⟨by decide, by decide⟩
    · exact ht (by decide) (by decide) (by decide)
    · exact ⟨by decide, _, _, rfl, notCommand_of (by decide)⟩
    · exact ht (by decide) (by decide) (by decide)
    · refine ⟨?_, _, _, rfl⟩
      intro q hq
      simp only [List.mem_cons, List.not_mem_nil, or_false] at hq
      rcases hq with rfl
      exact smallTutorial_command (by decide) (by decide) (by decide)
    · exact ht (by decide) (by decide) (by decide)
    · exact ⟨by decide, by decide⟩
  · simp [smallTutorial, Separated, Piece.isSnippet]
  · simp [smallTutorial, numbers, Before]

theorem smallTutorial_clear : ∀ p ∈ smallTutorial, ClearPiece p := by
  have hcmd : ∀ ls : List Str, (printCommand (lit "  > ") ls).all (fun l => marks.all fun m => !isIn m l) = true →
      ClearPart (.command ls) := by
    intro ls h l hl m hm hh
    have := List.all_eq_true.1 (List.all_eq_true.1 h l hl) m hm
    rw [(isIn_iff m l).2 hh] at this
    simp at this
  intro p hp
  simp only [smallTutorial, List.mem_cons, List.not_mem_nil, or_false] at hp
  rcases hp with rfl | rfl | rfl | rfl | rfl | rfl | rfl | rfl | rfl | rfl | rfl
  · trivial
  · trivial
  · intro q hq
    simp only [List.mem_cons, List.not_mem_nil, or_false] at hq
    rcases hq with rfl | rfl | rfl | rfl
    · exact hcmd _ (by decide)
    · exact hcmd _ (by decide)
    · exact hcmd _ (by decide)
    · show ¬ lit "...> " <+: lit "int_"
      decide
  · trivial
  · trivial
  · trivial
  · intro l hl
    simp only [List.mem_cons, List.not_mem_nil, or_false] at hl
    rcases hl with rfl | rfl <;> decide
  · trivial
  · intro q hq
    simp only [List.mem_cons, List.not_mem_nil, or_false] at hq
    rcases hq with rfl
    exact hcmd _ (by decide)
  · trivial
  · trivial

/-- The hypotheses of `C80_runs` and `C80_headers` hold for it. -/
example : ∃ g, generate (lit "t") (printTutorial smallTutorial).flatten = some g ∧
    Sees g.headers.get [] (including [[1, 1], [2], [1]])
      ((definitions false (smallTutorial.take 10)).flatMap fun ls => ls.flatMap words) := by
  obtain ⟨g, hg⟩ := C80_runs smallTutorial_wellWritten smallTutorial_clear (lit "t")
  refine ⟨g, hg, ?_⟩
  exact C80_headers (a := smallTutorial.take 10) (n := [2]) (b := []) (title := lit "Third]") smallTutorial_wellWritten hg
    (ns := [[1, 1], [2], [1]]) (by simp) (by simp [smallTutorial, numbers]) false

/-- What it sees. -/
example : definitions false (smallTutorial.take 10) =
    [[lit "using exp_parser = ", lit "  int_;"], [lit "struct x {};"]] := by
  have hno : ¬ Defines [lit "exp_parser::type"] := by
    rintro (⟨w, w', r, h, -⟩ | ⟨r, w, h⟩)
    · have := congrArg List.length h
      rw [show [lit "exp_parser::type"].flatMap words = [lit "exp_parser::type"] by decide] at this
      simp at this
    · rw [show [lit "exp_parser::type"].flatMap words = [] ++ [lit "exp_parser::typ" ++ ['e']] by decide] at h
      have := (List.append_inj' h rfl).2
      simp only [List.cons.injEq, and_true] at this
      have := (List.append_inj' this rfl).2
      simp at this
  have h1 : OnlyMetashell [lit "#include <metashell/formatter.hpp>"] := ⟨lit "/formatter.hpp>", [], by decide⟩
  have h2 : Defines [lit "using exp_parser = ", lit "  int_;"] :=
    .inl ⟨lit "using", lit "exp_parser", [lit "=", lit "int_;"], by decide, by decide⟩
  have h3 : Defines [lit "struct x {};"] := .inl ⟨lit "struct", lit "x", [lit "{};"], by decide, by decide⟩
  have h4 : ¬ OnlyMetashell [lit "using exp_parser = ", lit "  int_;"] := by
    rintro ⟨r, m, h⟩; simp [lit] at h
  have h5 : ¬ OnlyMetashell [lit "struct x {};"] := by
    rintro ⟨r, m, h⟩; simp [lit] at h
  simp [definitions, smallTutorial, Piece.commands, hno, h1, h2, h3, h4, h5]

/-! ## A section number that is used twice -/

/-- A tutorial with two sections with the same number. -/
def twiceNumbered : List Piece :=
  [.heading [1] (lit "First]"), .session [.command [lit "struct x;"]], .text [],
   .heading [2] (lit "Second]"), .session [.command [lit "struct y {};"]], .text [],
   .heading [2] (lit "Again]"), .session [.command [lit "struct z {};"]], .text [],
   .heading [3] (lit "Last]")]

/-- **C80**, the numbers have to increase: if a number is used twice, the header of the section includes
itself. The headers after it lose the definitions before it, here `struct x;`, and have its own
definitions twice, which is not valid. -/
theorem C80_same_number_loses :
    ∃ g, generate (lit "t") (printTutorial twiceNumbered).flatten = some g ∧
      Sees g.headers.get [] (including [[3]])
        [lit "struct", lit "y", lit "{};", lit "struct", lit "z", lit "{};",
         lit "struct", lit "y", lit "{};", lit "struct", lit "z", lit "{};"] := by
  refine ⟨_, rfl, 5, _, _, rfl, ?_⟩
  decide +kernel

/-! # C81: the pages with the definitions before a section -/

/-- **C81.** The page of a section has, as code, the definitions of all sections before it, each of them once,
in the order of the tutorial, with those for Metashell; its first line is the target of the note in the
tutorial. There is no page if there are no such definitions. -/
theorem C81_pages {a b : List Piece} {n : List Nat} {title : Str} (h : WellWritten (a ++ .heading n title :: b))
    {base : Str} {g : Generated} (hg : generate base (printTutorial (a ++ .heading n title :: b)).flatten = some g) :
    (definitions true (inSections a) = [] → g.before.get (pageName n) = none) ∧
    (definitions true (inSections a) ≠ [] → ∃ page, g.before.get (pageName n) = some page ∧
      codeWords page = (definitions true (inSections a)).flatMap (fun ls => ls.flatMap words) ∧
      (linesOf page).head? = some (lit "[#before_" ++ dotted '_' n ++ lit "]")) := by
  have hnd := names_nodup h
  have hsplit : (numbers (a ++ .heading n title :: b)).map (dotted '_') =
      (numbers a).map (dotted '_') ++ dotted '_' n :: (numbers b).map (dotted '_') := by
    rw [numbers_append, numbers]; simp
  have hw : ∀ d ∈ tagged [] (a ++ .heading n title :: b), WellWrittenCommand d.2 := by
    intro d hd
    apply commands_wellWritten h.pieces
    rw [← tagged_commands []]
    exact List.mem_map_of_mem hd
  have hget := beforeLoop_get ((tagged [] (a ++ .heading n title :: b)).map fun d => (d.1, definitionOf (rawCommand d.2)))
    (dotted '_' n) ((numbers b).map (dotted '_')) ((numbers a).map (dotted '_')) [] [] []
    (by rw [hsplit] at hnd; exact (List.nodup_cons.1 hnd).2) rfl
  rw [← hsplit, ← beforeDocs, ← (generate_headers h hg).2] at hget
  change g.before.get (pageName n) = _ at hget
  rw [List.nil_append] at hget
  have hs := soFarOf_words hw ((numbers a).map (dotted '_'))
  rw [ofSection_sections hnd, shown_definitions] at hs
  generalize soFarOf ((tagged [] (a ++ .heading n title :: b)).map fun d => (d.1, definitionOf (rawCommand d.2)))
    ((numbers a).map (dotted '_')) = soFar at hs hget
  constructor
  · intro he
    rw [hget, if_pos (hs.1.2 he)]
  · intro hne
    have hline : ∀ {x : Str} (y : Str), '\n' ∉ x → linesOf (x ++ '\n' :: y) = x :: linesOf y := by
      intro x y hx
      rw [linesOf_append, linesOf_line hx]; rfl
    have hno : '\n' ∉ dotted '_' n := by
      intro hm
      rcases mem_dotted hm with h | h
      · exact absurd h (by decide)
      · exact absurd h (by decide)
    have e : beforeDoc (dotted '_' n) soFar = (lit "[#before_" ++ dotted '_' n ++ lit "]") ++ '\n' ::
        ((lit "['Definitions before section " ++ replace '_' '.' (dotted '_' n) ++ lit ".]") ++ '\n' ::
          ([] ++ '\n' :: (soFar ++ lit "\n"))) := by
      rw [beforeDoc]
      simp [lit]
    have h1 : '\n' ∉ lit "[#before_" ++ dotted '_' n ++ lit "]" := by
      simp only [List.mem_append, not_or]
      exact ⟨⟨by decide, hno⟩, by decide⟩
    have h2 : '\n' ∉ lit "['Definitions before section " ++ replace '_' '.' (dotted '_' n) ++ lit ".]" := by
      simp only [List.mem_append, not_or]
      refine ⟨⟨by decide, ?_⟩, by decide⟩
      intro hm
      rcases mem_replace hm with h | h
      · exact hno h
      · exact absurd h (by decide)
    refine ⟨beforeDoc (dotted '_' n) soFar, ?_, ?_, ?_⟩
    · rw [hget, if_neg fun he => hne (hs.1.1 he)]
    · rw [e, codeWords_append, codeWords_append, codeWords_append, hs.2]
      have hc : ∀ {x : Str}, '\n' ∉ x → (lit "  ").isPrefixOf x = false → codeWords x = [] := by
        intro x hx hp
        rw [codeWords, linesOf_line hx, List.filter_cons, if_neg (by simp [hp])]
        rfl
      rw [hc h1 (by simp [lit, List.isPrefixOf]), hc h2 (by simp [lit, List.isPrefixOf]),
        show codeWords [] = [] by decide, show codeWords (lit "\n") = [] by decide]
      simp
    · rw [e, hline _ h1]
      rfl

/-- **C81**, there are no other pages. -/
theorem C81_no_other_pages {doc : List Piece} (h : WellWritten doc) {base : Str} {g : Generated}
    (hg : generate base (printTutorial doc).flatten = some g) {f : Str} (hf : g.before.get f ≠ none) :
    ∃ n ∈ numbers doc, f = pageName n := by
  rw [(generate_headers h hg).2, beforeDocs] at hf
  obtain ⟨s, hs, rfl⟩ := mem_beforeLoop _ _ hf
  obtain ⟨n, hn, rfl⟩ := List.mem_map.1 hs
  exact ⟨n, hn, rfl⟩

/-- The pages of the small tutorial: section 1 has none, section 2 has one. -/
example : ∃ g, generate (lit "t") (printTutorial smallTutorial).flatten = some g ∧
    g.before.get (pageName [1]) = none ∧
    ∃ page, g.before.get (pageName [2]) = some page ∧
      codeWords page = (definitions true (smallTutorial.take 10)).flatMap (fun ls => ls.flatMap words) := by
  obtain ⟨g, hg⟩ := C80_runs smallTutorial_wellWritten smallTutorial_clear (lit "t")
  refine ⟨g, hg, ?_, ?_⟩
  · exact (C81_pages (a := []) (n := [1]) smallTutorial_wellWritten hg).1 rfl
  · have hne : definitions true (inSections (smallTutorial.take 10)) ≠ [] := by
      have h3 : Defines [lit "struct x {};"] := .inl ⟨lit "struct", lit "x", [lit "{};"], by decide, by decide⟩
      intro he
      have : [lit "struct x {};"] ∈ definitions true (inSections (smallTutorial.take 10)) := by
        simp [definitions, inSections, smallTutorial, Piece.isHeading, Piece.commands, h3]
      rw [he] at this
      simp at this
    obtain ⟨page, h1, h2, -⟩ := (C81_pages (a := smallTutorial.take 10) (n := [2]) (b := []) (title := lit "Third]")
      smallTutorial_wellWritten hg).2 hne
    exact ⟨page, h1, h2⟩

end Metaparse
