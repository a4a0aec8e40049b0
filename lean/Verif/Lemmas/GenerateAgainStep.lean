import Verif.Lemmas.GenerateAgain

/-! # A line of the tutorial in the first run and in the second -/

namespace Metaparse.Gen

/-! ## What the generator inserts -/

/-- The line that includes a snippet. -/
def exampleLine (base : Str) (i : Nat) : Str := lit "[include " ++ snippetName base i ++ lit ".qbk]\n"

theorem number_eq (n : Nat) : number n = digitsOf n := by
  simp [number, digitsOf, toString, Nat.repr]

theorem isDigit_number {n : Nat} {c : Char} (h : c ∈ number n) : isDigit c = true := by
  rw [number_eq] at h
  exact isDigit_of_mem_digitsOf h

theorem not_mem_number {n : Nat} {c : Char} (h : isDigit c = false) : c ∉ number n := fun hm => by
  rw [isDigit_number hm] at h
  simp at h

theorem noteSection_none {l : Str} (h : (lit "[section ").isPrefixOf l = false) : noteSection l = none := by
  rw [noteSection, h]; rfl

theorem noteSection_prefix {l : Str} (h : noteSection l ≠ none) : ∃ r, l = lit "[section " ++ r := by
  rw [noteSection] at h
  split at h
  · rename_i hp
    rw [List.isPrefixOf_iff_prefix] at hp
    obtain ⟨r, rfl⟩ := hp
    exact ⟨r, rfl⟩
  · exact absurd rfl h

/-- A line in brackets. -/
theorem strip_bracket (s t : Str) (h : ¬ s <+: t) : strip ('[' :: t) ≠ '[' :: s := by
  obtain ⟨r, hr⟩ := strip_head (c := '[') (by decide) t
  have e : strip ('[' :: t) = rstrip ('[' :: t) := by rw [strip, lstrip_of_head (by decide)]
  intro he
  obtain ⟨b, hb, -⟩ := rstrip_split ('[' :: t)
  rw [e] at he
  rw [he] at hb
  injection hb with _ hb
  exact h ⟨b, hb.symm⟩

theorem linkLine_eq (base : Str) (n : Nat) :
    linkLine base n = (lit "[link " ++ base) ++ '_' :: (number n ++ lit " copy-paste friendly version]\n") := by
  simp [linkLine, snippetName]

structure IsLink (l : Str) : Prop where
  nonblank : strip l ≠ []
  notCode : isCode l = false
  noTitle : isIn examplesTitle l = false
  link : isIn linkMark l = true
  neutral : numberedHeader l = none
  notDefinitions : strip l ≠ definitionsTitle
  notEnd : strip l ≠ lit "[endsect]"
  notNote : notePrefix.isPrefixOf l = false
  noSection : noteSection l = none

theorem isLink_linkLine {base : Str} (h : ClearName base) (n : Nat) : IsLink (linkLine base n) := by
  have e : linkLine base n = '[' :: (lit "link " ++ snippetName base n ++ lit " copy-paste friendly version]\n") := rfl
  refine ⟨?_, ?_, ?_, ?_, ?_, ?_, ?_, ?_, ?_⟩
  · rw [e]
    exact fun hh => by
      obtain ⟨r, hr⟩ := strip_head (c := '[') (by decide) (lit "link " ++ snippetName base n ++ lit " copy-paste friendly version]\n")
      rw [hr] at hh; simp at hh
  · simp [linkLine, lit, isCode, List.isPrefixOf]
  · apply isIn_false
    rw [linkLine_eq]
    intro hh
    rcases hh.split (by decide) with hh | hh
    · obtain ⟨u, v, huv⟩ := hh
      rw [show examplesTitle = '[' :: lit "section Copy-paste friendly code examples]" by decide,
        show lit "[link " ++ base = '[' :: (lit "link " ++ base) from rfl] at huv
      cases u with
      | nil =>
        simp [lit] at huv
      | cons c u =>
        simp only [List.cons_append] at huv
        injection huv with _ huv
        have : '[' ∈ lit "link " ++ base := by rw [huv]; simp
        rw [List.mem_append] at this
        rcases this with h' | h'
        · exact absurd h' (by decide)
        · exact h.2.1 h'
    · have := hh.mem (c := 'C') (by decide)
      rw [List.mem_append] at this
      rcases this with h' | h'
      · exact not_mem_number (by decide) h'
      · exact absurd h' (by decide)
  · rw [isIn_iff]
    exact ⟨lit "[link " ++ snippetName base n ++ lit " ", lit "]\n", by
      rw [linkLine, show lit " copy-paste friendly version]\n" = lit " " ++ linkMark ++ lit "]\n" by decide]; simp⟩
  · apply numberedHeader_none
    simp [linkLine, lit, List.isPrefixOf]
  · rw [e]
    exact strip_bracket (lit "section Definitions before each section]") _ (by simp [lit])
  · rw [e]
    exact strip_bracket (lit "endsect]") _ (by simp [lit])
  · simp [linkLine, notePrefix, lit, List.isPrefixOf]
  · apply noteSection_none
    simp [linkLine, lit, List.isPrefixOf]

structure IsExample (l : Str) : Prop where
  noEnd : isIn (lit "endsect") l = false
  notDefinitions : strip l ≠ definitionsTitle
  notNote : notePrefix.isPrefixOf l = false
  noSection : noteSection l = none
  notCode : isCode l = false
  neutral : numberedHeader l = none

theorem isExample_line {base : Str} (h : ClearName base) (i : Nat) : IsExample (exampleLine base i) := by
  have e : exampleLine base i = '[' :: (lit "include " ++ snippetName base i ++ lit ".qbk]\n") := rfl
  refine ⟨?_, ?_, ?_, ?_, ?_, ?_⟩
  · apply isIn_false
    intro hh
    have e : exampleLine base i = lit "[include" ++ ' ' :: (base ++ '_' :: (number i ++ lit ".qbk]\n")) := by
      simp [exampleLine, snippetName, lit]
    rw [e] at hh
    rcases hh.split (by decide) with hh | hh
    · rw [← isIn_iff] at hh; exact absurd hh (by decide)
    · rcases hh.split (by decide) with hh | hh
      · exact h.2.2 hh
      · have := hh.mem (c := 't') (by decide)
        rw [List.mem_append] at this
        rcases this with h' | h'
        · exact not_mem_number (by decide) h'
        · exact absurd h' (by decide)
  · rw [e]
    exact strip_bracket (lit "section Definitions before each section]") _ (by simp [lit])
  · simp [exampleLine, notePrefix, lit, List.isPrefixOf]
  · apply noteSection_none
    simp [exampleLine, lit, List.isPrefixOf]
  · simp [exampleLine, lit, isCode, List.isPrefixOf]
  · apply numberedHeader_none
    simp [exampleLine, lit, List.isPrefixOf]

theorem isExample_newline : IsExample ['\n'] := ⟨by decide, by decide, by decide, by decide, by decide, by decide⟩

theorem IsExample.notes {l : Str} (h : IsExample l) (W : List Str) : notesStep W false l = (false, [l]) := by
  rw [notesStep, if_neg h.notDefinitions, if_neg (by rw [h.notNote]; simp), noteOf, h.noSection]

theorem IsLink.notes {l : Str} (h : IsLink l) (W : List Str) : notesStep W false l = (false, [l]) := by
  rw [notesStep, if_neg h.notDefinitions, if_neg (by rw [h.notNote]; simp), noteOf, h.noSection]

theorem notes_noteLine (s : Str) (W : List Str) : notesStep W false (noteLine s) = (false, []) := by
  rw [notesStep, if_neg, if_pos]
  · rw [List.isPrefixOf_iff_prefix, noteLine, List.append_assoc]
    exact List.prefix_append _ _
  · have e : noteLine s = '[' :: (notePrefix.tail ++ s ++ lit " here].]\n") := rfl
    rw [e]
    exact strip_bracket (lit "section Definitions before each section]") _ (by simp [lit, notePrefix])

/-! ## Lines for the extraction -/

/-- The state with another flag. -/
def ExtractState.skipping (st : ExtractState) (k : Bool) : ExtractState := { st with skipEmpty := k }

theorem skipping_self (st : ExtractState) {k : Bool} (h : st.skipEmpty = k) : st.skipping k = st := by
  subst h; rfl

theorem skipping_skipping (st : ExtractState) (k k' : Bool) : (st.skipping k).skipping k' = st.skipping k' := rfl

theorem extractLine_skip (base : Str) (st : ExtractState) {k : Bool} {l : Str} (h : strip l ≠ [] ∨ k = false) :
    extractLine base (st.skipping k) l = extractLine base (st.skipping false) l := by
  rcases h with h | rfl
  · simp [extractLine, h, ExtractState.skipping]
  · rfl

theorem extractLine_dropped (base : Str) (st : ExtractState) {l : Str} (h : strip l = []) :
    extractLine base (st.skipping true) l = some (st.skipping true, {}) := by
  simp [extractLine, h, ExtractState.skipping]

theorem extractLine_plain (base : Str) {st : ExtractState} {l : Str} (h : Plain l) (hi : st.inCode = false)
    (he : st.inExamples = false) (k : Bool) :
    extractLine base (st.skipping k) l = some (st.skipping false, ⟨[l], []⟩) := by
  rw [extractLine_skip base st (.inl h.nonblank)]
  simp [extractLine, extractOrdinary, ExtractState.skipping, hi, he, h.noTitle, h.noLink, h.notCode]

theorem extractLine_newline (base : Str) {st : ExtractState} (hi : st.inCode = false)
    (he : st.inExamples = false) :
    extractLine base (st.skipping false) ['\n'] = some (st.skipping false, ⟨[['\n']], []⟩) := by
  have h1 : isIn examplesTitle ['\n'] = false := by decide
  have h2 : isIn linkMark ['\n'] = false := by decide
  have h3 : isCode ['\n'] = false := by decide
  simp [extractLine, extractOrdinary, ExtractState.skipping, hi, he, h1, h2, h3]

theorem extractLine_inExamples (base : Str) {st : ExtractState} {l : Str} (h : isIn (lit "endsect") l = false)
    (he : st.inExamples = true) :
    extractLine base (st.skipping false) l = some (st.skipping false, {}) := by
  simp [extractLine, ExtractState.skipping, he, h]

theorem extractLine_end (base : Str) {st : ExtractState} {l : Str} (h : isIn (lit "endsect") l = true)
    (he : st.inExamples = true) :
    extractLine base (st.skipping false) l = some ({ st with inExamples := false, skipEmpty := false },
      ⟨['\n'] :: ((List.range st.counter).map (exampleLine base) ++ [['\n'], l]), []⟩) := by
  simp [extractLine, ExtractState.skipping, he, h, exampleLine]

theorem extractLine_title (base : Str) {st : ExtractState} {l : Str} (h : isIn examplesTitle l = true)
    (he : st.inExamples = false) :
    extractLine base (st.skipping false) l = some ({ st with inExamples := true, skipEmpty := false }, ⟨[l], []⟩) := by
  simp [extractLine, ExtractState.skipping, he, h]

theorem extractLine_link (base : Str) {st : ExtractState} {l : Str} (h : isIn examplesTitle l = false)
    (h' : isIn linkMark l = true) (he : st.inExamples = false) :
    extractLine base (st.skipping false) l = some (st.skipping true, {}) := by
  simp [extractLine, ExtractState.skipping, he, h, h']

theorem extractLine_ordinary (base : Str) {st : ExtractState} {l : Str} (h : isIn examplesTitle l = false)
    (h' : isIn linkMark l = false) (he : st.inExamples = false) :
    extractLine base (st.skipping false) l = extractOrdinary base (st.skipping false) l := by
  simp [extractLine, ExtractState.skipping, he, h, h']

/-- An ordinary line ends a snippet, or it does not. -/
theorem ordinary_cases {base : Str} {st st' : ExtractState} {l : Str} {o : Extracted}
    (h : extractOrdinary base st l = some (st', o)) :
    st'.inExamples = st.inExamples ∧ st'.skipEmpty = st.skipEmpty ∧ (isCode l = false → st'.inCode = false) ∧
    ((st'.counter = st.counter ∧ o.lines = [l]) ∨
     (isCode l = false ∧ st'.counter = st.counter + 1 ∧ o.lines = [l, linkLine base st.counter, ['\n']])) := by
  rw [extractOrdinary] at h
  split at h
  · split at h
    · rename_i hc
      split at h
      · simp only [Option.some.injEq, Prod.mk.injEq] at h
        obtain ⟨rfl, rfl⟩ := h
        exact ⟨rfl, rfl, fun hf => by rw [hc] at hf; simp at hf, .inl ⟨rfl, rfl⟩⟩
      · simp only [Option.some.injEq, Prod.mk.injEq] at h
        obtain ⟨rfl, rfl⟩ := h
        exact ⟨rfl, rfl, fun hf => by rw [hc] at hf; simp at hf, .inl ⟨rfl, rfl⟩⟩
    · rename_i hc
      split at h
      · rw [Option.map_eq_some_iff] at h
        obtain ⟨c, -, h⟩ := h
        simp only [Prod.mk.injEq] at h
        obtain ⟨rfl, rfl⟩ := h
        exact ⟨rfl, rfl, fun _ => rfl, .inr ⟨by simpa using hc, rfl, rfl⟩⟩
      · simp only [Option.some.injEq, Prod.mk.injEq] at h
        obtain ⟨rfl, rfl⟩ := h
        exact ⟨rfl, rfl, fun _ => rfl, .inl ⟨rfl, rfl⟩⟩
  · rename_i hi
    split at h
    · rename_i hc
      simp only [Option.some.injEq, Prod.mk.injEq] at h
      obtain ⟨rfl, rfl⟩ := h
      exact ⟨rfl, rfl, fun hf => by rw [hc] at hf; simp at hf, .inl ⟨rfl, rfl⟩⟩
    · simp only [Option.some.injEq, Prod.mk.injEq] at h
      obtain ⟨rfl, rfl⟩ := h
      exact ⟨rfl, rfl, fun _ => by simpa using hi, .inl ⟨rfl, rfl⟩⟩

end Metaparse.Gen
