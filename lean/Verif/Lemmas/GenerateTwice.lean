import Verif.Lemmas.GenerateFresh

/-! # The generator on its own output -/

namespace Metaparse.Gen

theorem readLines_ended (t : Str) : readLines (t ++ ['\n']) = textLines (t ++ ['\n']) := by
  induction t with
  | nil => decide
  | cons c t ih =>
    rw [List.cons_append, readLines, textLines, linesOf]
    rw [textLines] at ih
    have hne := readLines_ne_nil (m := t ++ ['\n']) (by simp)
    cases hl : linesOf (t ++ ['\n']) with
    | nil => rw [hl] at ih; exact absurd ih hne
    | cons l ls =>
      cases ls with
      | nil => rw [hl] at ih; exact absurd ih hne
      | cons l' ls =>
        rw [hl] at ih
        by_cases hc : c = '\n'
        · rw [if_pos hc, if_pos hc, ih]
          simp [lit]
        · rw [if_neg hc, if_neg hc, ih]
          simp

theorem readLines_text {s : Str} (h : Ended s) : readLines s = textLines s := by
  rcases h with rfl | ⟨t, rfl⟩
  · rfl
  · exact readLines_ended t

theorem line_text {s : Str} : ∀ l ∈ textLines s, Line l := by
  intro l hl
  obtain ⟨m, hm, rfl⟩ := List.mem_map.1 hl
  exact ⟨m, linesOf_no_feed (List.dropLast_subset _ hm), rfl⟩

theorem ended_flatten {ls : List Str} (h : ∀ l ∈ ls, Line l) : Ended ls.flatten := by
  rcases List.eq_nil_or_concat ls with rfl | ⟨q, l, rfl⟩
  · exact .inl rfl
  · obtain ⟨m, -, rfl⟩ := h l (by simp)
    exact .inr ⟨q.flatten ++ m, by simp [lit]⟩

theorem textLines_flatten {ls : List Str} (h : ∀ l ∈ ls, Line l) : textLines ls.flatten = ls := by
  rw [← readLines_text (ended_flatten h), readLines_flatten h]

/-- What `generate` does with the lines of the text. -/
theorem generate_iff {base src : Str} {g : Generated} : generate base src = some g ↔
    ∃ sections o s, sortSections (parseLoop {} (readLines src)).sections = some sections ∧
      againRun base false (beforeDocs sections (parseLoop {} (readLines src)).defs).2 (false, {}) (readLines src) =
        some (s, o) ∧
      g = ⟨genHeaders sections (parseLoop {} (readLines src)).defs, (beforeDocs sections (parseLoop {} (readLines src)).defs).1,
        o.files, o.lines.flatten⟩ := by
  rw [generate]
  simp only
  rw [Option.bind_eq_some_iff]
  constructor
  · rintro ⟨⟨sections, defs⟩, hp, h⟩
    rw [parseMd, Option.map_eq_some_iff] at hp
    obtain ⟨r, hr, hp⟩ := hp
    simp only [Prod.mk.injEq] at hp
    obtain ⟨rfl, rfl⟩ := hp
    simp only at h
    rw [extractCodeSnippets_eq, Option.map_map, Option.map_eq_some_iff] at h
    obtain ⟨⟨s, o⟩, ho, rfl⟩ := h
    exact ⟨r, o, s, hr, ho, rfl⟩
  · rintro ⟨r, o, s, hr, ho, rfl⟩
    refine ⟨(r, (parseLoop {} (readLines src)).defs), ?_, ?_⟩
    · rw [parseMd, hr]; rfl
    · simp only
      rw [extractCodeSnippets_eq, ho]
      rfl

/-- The run on the lines of a text, and on what is written. -/
theorem generate_again {base src : Str} (hbase : ClearName base) (hsrc : Ended src)
    (hclear : ClearText (textLines src)) {g : Generated} (hg : generate base src = some g) :
    (authored g.text = authored src) ∧
    ∃ g', generate base g.text = some g' ∧ g'.snippets = g.snippets ∧ generate base g'.text = some g' ∧
      (Fresh src → g'.headers = g.headers ∧ g'.before = g.before ∧
        nonBlank (textLines g'.text) = nonBlank (textLines g.text)) := by
  obtain ⟨sections, o, s, hsec, ho, rfl⟩ := generate_iff.1 hg
  rw [readLines_text hsrc] at hsec ho ⊢
  generalize hx : textLines src = x at hsec ho hclear ⊢
  have hlx : ∀ l ∈ x, Line l := by rw [← hx]; exact line_text
  have hV := goodNames_parse (qbk := x) (sections := sections) (defs := (parseLoop {} x).defs) (by
    rw [parseMd, hsec]; rfl)
  generalize hVe : (beforeDocs sections (parseLoop {} x).defs).2 = V at ho hV
  have hwrite : extractCodeSnippets base (notesLoop V false x) = some o := by
    rw [extractCodeSnippets_eq, ho]; rfl
  have hlo := written_lines hbase hV hlx hwrite
  have hto := textLines_flatten hlo
  have hro := readLines_flatten hlo
  constructor
  · show nonBlank (withoutLinks false (withoutNotes false (textLines o.lines.flatten))) = _
    rw [hto, authored, hx]
    exact run_keeps hbase hV hclear.lines hclear.blanks (fun h => by simp at h) ho
  · obtain ⟨sections', hsec'⟩ := sortSections_subset (l' := (parseLoop {} o.lines).sections) hsec (by
      rw [parseLoop_sections, parseLoop_sections]
      exact written_sections hbase hV hwrite)
    have hW := goodNames_parse (qbk := o.lines) (sections := sections') (defs := (parseLoop {} o.lines).defs) (by
      rw [parseMd, hsec']; rfl)
    generalize hWe : (beforeDocs sections' (parseLoop {} o.lines).defs).2 = W at hW
    obtain ⟨k, o', h2, h3, h4, h5, h6⟩ := good_run hbase hV hW (Again.no (false, {})) hclear.lines hclear.blanks (fun h => by simp at h) ho
    obtain ⟨k2, o'', f2, f3, f4, f5, f6⟩ := good_run hbase hW hW (Again.no (false, {})) hclear.lines hclear.blanks (fun h => by simp at h) h3
    have e3 : (some (third (third s k) k2, o'') : Option _) = some (third s k, o') := f3.symm.trans h3
    simp only [Option.some.injEq, Prod.mk.injEq] at e3
    obtain ⟨-, rfl⟩ := e3
    have hwrite' : extractCodeSnippets base (notesLoop W false o.lines) = some o'' := by
      rw [extractCodeSnippets_eq]
      exact congrArg (Option.map (·.2)) h2
    have hlo' := written_lines hbase hW hlo hwrite'
    have hro' := readLines_flatten hlo'
    have hparse : parseLoop {} o''.lines = parseLoop {} o.lines := (h5 {} fun h => by simp at h).1
    refine ⟨⟨genHeaders sections' (parseLoop {} o.lines).defs, (beforeDocs sections' (parseLoop {} o.lines).defs).1,
        o''.files, o''.lines.flatten⟩, ?_, h4, ?_, ?_⟩
    · rw [generate_iff]
      refine ⟨sections', o'', second s k, ?_, ?_, ?_⟩
      · rw [hro]; exact hsec'
      · rw [hro, hWe]; exact h2
      · rw [hro]
    · rw [generate_iff]
      refine ⟨sections', o'', second (third s k) k2, ?_, ?_, ?_⟩
      · rw [hro', hparse]; exact hsec'
      · rw [hro', hparse, hWe]; exact f2
      · rw [hro', hparse]
    · intro hf
      have hp := fresh_parse hbase hV hclear.lines hclear.blanks (fun h => by simp at h) ho (by
        rw [Fresh, authored, hx] at hf
        exact hf) rfl {} (fun h => by simp at h)
      have hs : sections' = sections := by
        rw [hp, hsec] at hsec'
        exact (Option.some.inj hsec').symm
      subst hs
      refine ⟨?_, ?_, ?_⟩
      · show genHeaders sections' (parseLoop {} o.lines).defs = _
        rw [hp]
      · show (beforeDocs sections' (parseLoop {} o.lines).defs).1 = _
        rw [hp]
      · show nonBlank (textLines o''.lines.flatten) = nonBlank (textLines o.lines.flatten)
        rw [textLines_flatten hlo', hto]
        apply h6
        rw [← hVe, ← hWe, hp]

end Metaparse.Gen
