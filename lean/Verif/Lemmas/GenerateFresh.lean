import Verif.Lemmas.GenerateKeeps

/-! # The headers after the second run -/

namespace Metaparse.Gen

/-! ## Sections -/

/-- The section a line begins, for `parse_md`. -/
def sectionOf (l : Str) : Option Str :=
  if isCode l then none else (numberedHeader l).map fun n => replace '.' '_' (removeLastDot n)

theorem parseLine_sections (p : ParseState) (l : Str) : (parseLine p l).2.sections = (sectionOf l).toList := by
  have hcmd : ∀ (st : ParseState) (ll : Str), (commandLine st ll).2.sections = [] := by
    intro st ll
    rw [commandLine]
    split <;> split <;> rfl
  rw [parseLine, sectionOf]
  by_cases hc : isCode l = true
  · rw [if_pos hc, if_pos hc]
    simp only
    generalize (if p.inCpp = true then p.inMsh else true) = m
    cases m with
    | false => rfl
    | true =>
      simp only [if_true]
      split
      · exact hcmd _ _
      · rfl
  · rw [if_neg hc, if_neg hc]
    cases numberedHeader l <;> rfl

theorem parseLoop_sections (p : ParseState) (ls : List Str) : (parseLoop p ls).sections = ls.filterMap sectionOf := by
  induction ls generalizing p with
  | nil => rfl
  | cons l ls ih =>
    rw [parseLoop]
    simp only [ih, parseLine_sections]
    rw [List.filterMap_cons]
    cases sectionOf l <;> rfl

theorem sectionOf_good {l s : Str} (h : sectionOf l = some s) : ∀ c ∈ s, isDigit c = true ∨ c = '_' := by
  rw [sectionOf] at h
  split at h
  · simp at h
  · rw [Option.map_eq_some_iff] at h
    obtain ⟨n, hn, rfl⟩ := h
    have hn' : ∀ c ∈ n, isDigit c = true ∨ c = '.' := by
      rw [numberedHeader] at hn
      split at hn
      · simp only at hn
        split at hn
        · simp at hn
        · simp only [Option.some.injEq] at hn
          subst hn
          intro c hc
          have h2 : ∀ (p : Char → Bool) (t : Str) (c : Char), c ∈ t.takeWhile p → p c = true := by
            intro p t
            induction t with
            | nil => intro c hc; simp at hc
            | cons d t ih =>
              intro c hc
              rw [List.takeWhile_cons] at hc
              split at hc
              · rcases List.mem_cons.1 hc with rfl | hc
                · assumption
                · exact ih c hc
              · simp at hc
          have := h2 _ _ _ hc
          simpa using this
      · simp at hn
    intro c hc
    rw [replace, List.mem_map] at hc
    obtain ⟨x, hx, rfl⟩ := hc
    have hx' : x ∈ n := by
      rw [removeLastDot] at hx
      split at hx
      · exact List.dropLast_subset _ hx
      · exact hx
    split
    · exact .inr rfl
    · rcases hn' x hx' with h | h
      · exact .inl h
      · contradiction

theorem mem_insertKey {x y : List Nat × Str} {l : List (List Nat × Str)} : x ∈ insertKey y l ↔ x = y ∨ x ∈ l := by
  induction l with
  | nil => simp [insertKey]
  | cons z l ih =>
    rw [insertKey]
    split
    · rw [List.mem_cons, ih, List.mem_cons]
      constructor
      · rintro (h | h | h)
        · exact .inr (.inl h)
        · exact .inl h
        · exact .inr (.inr h)
      · rintro (h | h | h)
        · exact .inr (.inl h)
        · exact .inl h
        · exact .inr (.inr h)
    · rw [List.mem_cons]

theorem mem_foldl_insertKey {x : List Nat × Str} : ∀ {l acc : List (List Nat × Str)},
    x ∈ l.foldl (fun acc x => insertKey x acc) acc → x ∈ acc ∨ x ∈ l
  | [], acc, h => .inl h
  | y :: l, acc, h => by
      rcases mem_foldl_insertKey (l := l) h with h | h
      · rcases mem_insertKey.1 h with rfl | h
        · exact .inr (by simp)
        · exact .inl h
      · exact .inr (by simp [h])

theorem mapM_keys {l : List Str} {ks : List (List Nat × Str)}
    (h : l.mapM (fun s => (sectionKey s).map (·, s)) = some ks) : ks.map (·.2) = l := by
  induction l generalizing ks with
  | nil => simp at h; subst h; rfl
  | cons s l ih =>
    rw [List.mapM_cons] at h
    cases hs : sectionKey s with
    | none => simp [hs] at h
    | some k =>
      cases hl : l.mapM (fun s => (sectionKey s).map (·, s)) with
      | none => simp [hs, hl] at h
      | some ks' =>
        simp [hs, hl] at h
        subst h
        simp [ih hl]

theorem sortSections_mem {l r : List Str} (h : sortSections l = some r) : ∀ s ∈ r, s ∈ l := by
  rw [sortSections, Option.map_eq_some_iff] at h
  obtain ⟨ks, hks, rfl⟩ := h
  intro s hs
  obtain ⟨x, hx, rfl⟩ := List.mem_map.1 hs
  rcases mem_foldl_insertKey hx with hx | hx
  · simp at hx
  · rw [← mapM_keys hks]
    exact List.mem_map_of_mem hx

theorem mapM_isSome {l : List Str} : (l.mapM (fun s => (sectionKey s).map (·, s))).isSome = true ↔
    ∀ s ∈ l, (sectionKey s).isSome = true := by
  induction l with
  | nil => simp
  | cons s l ih =>
    rw [List.mapM_cons]
    cases hs : sectionKey s with
    | none => simp [hs]
    | some k =>
      cases hl : l.mapM (fun s => (sectionKey s).map (·, s)) with
      | none =>
        rw [hl] at ih
        simp only [Option.isSome_none, Bool.false_eq_true, false_iff] at ih
        simp only [Option.map_some]
        constructor
        · intro h; simp at h
        · intro h; exact absurd (fun x hx => h x (by simp [hx])) ih
      | some ks =>
        rw [hl] at ih
        simp only [Option.isSome_some, true_iff] at ih
        simp only [Option.map_some]
        constructor
        · intro _ x hx
          rcases List.mem_cons.1 hx with rfl | hx
          · rw [hs]; rfl
          · exact ih x hx
        · intro _; rfl

theorem sortSections_subset {l r l' : List Str} (h : sortSections l = some r) (hs : ∀ s ∈ l', s ∈ l) :
    ∃ r', sortSections l' = some r' := by
  have h1 : (l.mapM (fun s => (sectionKey s).map (·, s))).isSome = true := by
    rw [sortSections, Option.map_eq_some_iff] at h
    obtain ⟨ks, hks, -⟩ := h
    rw [hks]; rfl
  rw [mapM_isSome] at h1
  have h2 : (l'.mapM (fun s => (sectionKey s).map (·, s))).isSome = true := mapM_isSome.2 fun s h => h1 s (hs s h)
  obtain ⟨ks, hks⟩ := Option.isSome_iff_exists.1 h2
  exact ⟨_, by rw [sortSections, hks]; rfl⟩

theorem beforeLoop_names (defs : List (Str × Str)) : ∀ (ss : List Str) (files : Files) (withDefs : List Str) (soFar : Str),
    ∀ s ∈ (beforeLoop defs files withDefs soFar ss).2, s ∈ withDefs ∨ s ∈ ss
  | [], files, withDefs, soFar, s, h => .inl h
  | x :: ss, files, withDefs, soFar, s, h => by
      rw [beforeLoop] at h
      split at h
      · rcases beforeLoop_names defs ss _ _ _ s h with h | h
        · exact .inl h
        · exact .inr (by simp [h])
      · rcases beforeLoop_names defs ss _ _ _ s h with h | h
        · rcases List.mem_append.1 h with h | h
          · exact .inl h
          · simp only [List.mem_cons, List.not_mem_nil, or_false] at h
            exact .inr (by simp [h])
        · exact .inr (by simp [h])

theorem goodNames_parse {qbk sections : List Str} {defs : List (Str × Str)} (h : parseMd qbk = some (sections, defs)) :
    GoodNames (beforeDocs sections defs).2 := by
  rw [parseMd, Option.map_eq_some_iff] at h
  obtain ⟨r, hr, h⟩ := h
  simp only [Prod.mk.injEq] at h
  obtain ⟨rfl, rfl⟩ := h
  intro s hs
  rcases beforeLoop_names _ _ _ _ _ s hs with h | h
  · simp at h
  · have := sortSections_mem hr s h
    rw [parseLoop_sections, List.mem_filterMap] at this
    obtain ⟨l, -, hl⟩ := this
    exact sectionOf_good hl

/-! ## Where the lines of the output are from -/

theorem extractLine_mem {base : Str} {st st' : ExtractState} {l : Str} {o : Extracted}
    (h : extractLine base st l = some (st', o)) :
    ∀ x ∈ o.lines, x = l ∨ x = ['\n'] ∨ (∃ n, x = linkLine base n) ∨ ∃ n, x = exampleLine base n := by
  rw [extractLine] at h
  split at h
  · simp only at h
    split at h
    · split at h
      · simp only [Option.some.injEq, Prod.mk.injEq] at h
        obtain ⟨-, rfl⟩ := h
        intro x hx
        simp only [List.cons_append, List.mem_cons, List.mem_append, List.mem_map, List.not_mem_nil, or_false] at hx
        rcases hx with rfl | ⟨i, -, rfl⟩ | rfl | rfl
        · exact .inr (.inl rfl)
        · exact .inr (.inr (.inr ⟨i, rfl⟩))
        · exact .inr (.inl rfl)
        · exact .inl rfl
      · simp only [Option.some.injEq, Prod.mk.injEq] at h
        obtain ⟨-, rfl⟩ := h
        intro x hx; simp at hx
    · split at h
      · simp only [Option.some.injEq, Prod.mk.injEq] at h
        obtain ⟨-, rfl⟩ := h
        intro x hx
        exact .inl (by simpa using hx)
      · split at h
        · simp only [Option.some.injEq, Prod.mk.injEq] at h
          obtain ⟨-, rfl⟩ := h
          intro x hx; simp at hx
        · obtain ⟨-, -, -, h | ⟨-, -, h⟩⟩ := ordinary_cases h
          · intro x hx
            rw [h.2] at hx
            exact .inl (by simpa using hx)
          · intro x hx
            rw [h] at hx
            simp only [List.mem_cons, List.not_mem_nil, or_false] at hx
            rcases hx with rfl | rfl | rfl
            · exact .inl rfl
            · exact .inr (.inr (.inl ⟨_, rfl⟩))
            · exact .inr (.inl rfl)
  · simp only [Option.some.injEq, Prod.mk.injEq] at h
    obtain ⟨-, rfl⟩ := h
    intro x hx; simp at hx

theorem extractRun_mem {base : Str} {ls : List Str} : ∀ {st st' : ExtractState} {o : Extracted},
    extractRun base st ls = some (st', o) →
    ∀ x ∈ o.lines, x ∈ ls ∨ x = ['\n'] ∨ (∃ n, x = linkLine base n) ∨ ∃ n, x = exampleLine base n := by
  induction ls with
  | nil =>
    intro st st' o h x hx
    simp only [extractRun, Option.some.injEq, Prod.mk.injEq] at h
    obtain ⟨-, rfl⟩ := h
    simp at hx
  | cons l ls ih =>
    intro st st' o h x hx
    rw [extractRun, Option.bind_eq_some_iff] at h
    obtain ⟨⟨s1, o1⟩, h1, h⟩ := h
    rw [Option.map_eq_some_iff] at h
    obtain ⟨⟨s2, o2⟩, h2, h⟩ := h
    simp only [Prod.mk.injEq] at h
    obtain ⟨rfl, rfl⟩ := h
    rcases List.mem_append.1 hx with hx | hx
    · rcases extractLine_mem h1 x hx with h | h
      · exact .inl (by simp [h])
      · exact .inr h
    · rcases ih h2 x hx with h | h
      · exact .inl (by simp [h])
      · exact .inr h

theorem notesLoop_mem {W : List Str} : ∀ {ls : List Str} {d : Bool}, ∀ x ∈ notesLoop W d ls,
    x ∈ ls ∨ x = ['\n'] ∨ ∃ n ∈ W, x = includeLine n ∨ x = noteLine n
  | [], d, x, h => by cases d <;> simp [notesLoop] at h
  | l :: ls, d, x, h => by
      rw [notesLoop_cons] at h
      rcases List.mem_append.1 h with h | h
      · cases d with
        | true =>
          rw [notesStep] at h
          split at h
          · exact .inl (by simpa using .inl (by simpa using h))
          · simp at h
        | false =>
          rw [notesStep] at h
          split at h
          · simp only [List.mem_cons, List.mem_append, List.mem_map, List.not_mem_nil, or_false] at h
            rcases h with rfl | rfl | ⟨n, hn, rfl⟩ | rfl
            · exact .inl (by simp)
            · exact .inr (.inl rfl)
            · exact .inr (.inr ⟨n, hn, .inl rfl⟩)
            · exact .inr (.inl rfl)
          · split at h
            · simp at h
            · rcases List.mem_cons.1 h with rfl | h
              · exact .inl (by simp)
              · rw [noteOf] at h
                split at h
                · split at h
                  · rename_i n _ hn
                    exact .inr (.inr ⟨n, hn, .inr (by simpa using h)⟩)
                  · simp at h
                · simp at h
      · rcases notesLoop_mem x h with h | h
        · exact .inl (by simp [h])
        · exact .inr h

/-- The lines of the text that is written. -/
theorem written_mem {base : Str} {W ls : List Str} {o : Extracted}
    (h : extractCodeSnippets base (notesLoop W false ls) = some o) :
    ∀ x ∈ o.lines, x ∈ ls ∨ x = ['\n'] ∨ (∃ n ∈ W, x = includeLine n ∨ x = noteLine n) ∨ (∃ n, x = linkLine base n) ∨
      ∃ n, x = exampleLine base n := by
  rw [extractCodeSnippets, extractLoop_eq, Option.map_eq_some_iff] at h
  obtain ⟨⟨st, o'⟩, h, rfl⟩ := h
  intro x hx
  rcases extractRun_mem h x hx with h | h | h | h
  · rcases notesLoop_mem x h with h | h | h
    · exact .inl h
    · exact .inr (.inl h)
    · exact .inr (.inr (.inl h))
  · exact .inr (.inl h)
  · exact .inr (.inr (.inr (.inl h)))
  · exact .inr (.inr (.inr (.inr h)))

theorem written_lines {base : Str} (hbase : ClearName base) {W ls : List Str} (hW : GoodNames W) (hls : ∀ l ∈ ls, Line l)
    {o : Extracted} (h : extractCodeSnippets base (notesLoop W false ls) = some o) : ∀ x ∈ o.lines, Line x := by
  have hname : ∀ n ∈ W, '\n' ∉ n := fun n hn => not_mem_name (hW n hn) (by decide) (by decide)
  have hsn : ∀ n, '\n' ∉ snippetName base n := by
    intro n
    simp only [snippetName, List.mem_append, not_or]
    exact ⟨⟨hbase.1, by decide⟩, not_mem_number (by decide)⟩
  intro x hx
  rcases written_mem h x hx with h | rfl | ⟨n, hn, rfl | rfl⟩ | ⟨n, rfl⟩ | ⟨n, rfl⟩
  · exact hls x h
  · exact ⟨[], by simp, rfl⟩
  · refine ⟨lit "[include before_" ++ n ++ lit ".qbk]", ?_, by simp [includeLine, lit]⟩
    simp only [List.mem_append, not_or]
    exact ⟨⟨by decide, hname n hn⟩, by decide⟩
  · refine ⟨notePrefix ++ n ++ lit " here].]", ?_, by simp [noteLine, lit]⟩
    simp only [List.mem_append, not_or]
    exact ⟨⟨by decide, hname n hn⟩, by decide⟩
  · refine ⟨lit "[link " ++ snippetName base n ++ lit " copy-paste friendly version]", ?_, by simp [linkLine, lit]⟩
    simp only [List.mem_append, not_or]
    exact ⟨⟨by decide, hsn n⟩, by decide⟩
  · refine ⟨lit "[include " ++ snippetName base n ++ lit ".qbk]", ?_, by simp [exampleLine, lit]⟩
    simp only [List.mem_append, not_or]
    exact ⟨⟨by decide, hsn n⟩, by decide⟩

theorem written_sections {base : Str} (hbase : ClearName base) {W ls : List Str} (hW : GoodNames W)
    {o : Extracted} (h : extractCodeSnippets base (notesLoop W false ls) = some o) :
    ∀ s ∈ o.lines.filterMap sectionOf, s ∈ ls.filterMap sectionOf := by
  intro s hs
  obtain ⟨x, hx, hs⟩ := List.mem_filterMap.1 hs
  have hquiet : ∀ {x : Str}, numberedHeader x = none → sectionOf x ≠ some s := by
    intro x hx hs
    rw [sectionOf, hx] at hs
    split at hs <;> simp at hs
  rcases written_mem h x hx with h | rfl | ⟨n, hn, rfl | rfl⟩ | ⟨n, rfl⟩ | ⟨n, rfl⟩
  · exact List.mem_filterMap.2 ⟨x, h, hs⟩
  · exact absurd hs (hquiet (by decide))
  · exact absurd hs (hquiet (plain_includeLine (hW n hn)).neutral)
  · exact absurd hs (hquiet (plain_noteLine (hW n hn)).neutral)
  · exact absurd hs (hquiet (isLink_linkLine hbase n).neutral)
  · exact absurd hs (hquiet (isExample_line hbase n).neutral)

/-! ## Fresh texts -/

theorem nonBlank_single (l : Str) : nonBlank [l] = [] ∧ l.all blank = true ∨ nonBlank [l] = [l] ∧ l.all blank = false := by
  cases h : l.all blank
  · exact .inr ⟨by simp [nonBlank, h], rfl⟩
  · exact .inl ⟨by simp [nonBlank, h], rfl⟩

theorem specStep_length (f : Bool × Bool) (l : Str) : (specStep f l).2 = [] ∨ (specStep f l).2 = nonBlank [l] := by
  rw [specStep]
  split
  · simp only
    split
    · exact .inr rfl
    · exact .inl rfl
  · exact .inl rfl

theorem authoredFrom_length (f : Bool × Bool) (ls : List Str) : (authoredFrom f ls).length ≤ (nonBlank ls).length := by
  induction ls generalizing f with
  | nil => rw [← specRun_eq]; exact Nat.le_refl _
  | cons l ls ih =>
    rw [authoredFrom_cons, List.length_append, show nonBlank (l :: ls) = nonBlank [l] ++ nonBlank ls from
      nonBlank_append [l] ls, List.length_append]
    have := ih (specStep f l).1
    rcases specStep_length f l with h | h
    · rw [h]; simp only [List.length_nil]; omega
    · rw [h]; omega

theorem fresh_cons {f : Bool × Bool} {l : Str} {ls : List Str} (h : authoredFrom f (l :: ls) = nonBlank (l :: ls)) :
    (specStep f l).2 = nonBlank [l] ∧ authoredFrom (specStep f l).1 ls = nonBlank ls := by
  rw [authoredFrom_cons, show nonBlank (l :: ls) = nonBlank [l] ++ nonBlank ls from nonBlank_append [l] ls] at h
  have h1 : (specStep f l).2 = nonBlank [l] := by
    rcases specStep_length f l with hs | hs
    · rw [hs] at h ⊢
      rcases nonBlank_single l with ⟨hb, -⟩ | ⟨hb, -⟩
      · exact hb.symm
      · exfalso
        have := authoredFrom_length (specStep f l).1 ls
        rw [hb] at h
        have h2 := congrArg List.length h
        simp only [List.nil_append, List.length_append, List.length_cons, List.length_nil] at h2
        omega
    · exact hs
  rw [h1] at h
  exact ⟨h1, List.append_cancel_left h⟩

theorem extractLine_sets {base : Str} {st st' : ExtractState} {l : Str} {o : Extracted}
    (h : extractLine base st l = some (st', o)) (h1 : st.skipEmpty = false) (h2 : st'.skipEmpty = true) :
    st.inExamples = false ∧ isIn examplesTitle l = false ∧ isIn linkMark l = true := by
  rw [extractLine] at h
  split at h
  · simp only at h
    split at h
    · split at h
      · simp only [Option.some.injEq, Prod.mk.injEq] at h
        obtain ⟨rfl, -⟩ := h
        simp at h2
      · simp only [Option.some.injEq, Prod.mk.injEq] at h
        obtain ⟨rfl, -⟩ := h
        simp at h2
    · rename_i he
      split at h
      · simp only [Option.some.injEq, Prod.mk.injEq] at h
        obtain ⟨rfl, -⟩ := h
        simp at h2
      · rename_i ht
        split at h
        · rename_i hl
          exact ⟨by simpa using he, by simpa using ht, hl⟩
        · obtain ⟨-, h, -⟩ := ordinary_cases h
          rw [h] at h2
          simp at h2
  · simp only [Option.some.injEq, Prod.mk.injEq] at h
    obtain ⟨rfl, -⟩ := h
    rw [h1] at h2
    simp at h2

theorem extractRun_sets {base : Str} {ls : List Str} (hl : ∀ l ∈ ls, isIn linkMark l = false) :
    ∀ {st st' : ExtractState} {o : Extracted}, extractRun base st ls = some (st', o) → st.skipEmpty = false →
      st'.skipEmpty = false := by
  induction ls with
  | nil =>
    intro st st' o h h1
    simp only [extractRun, Option.some.injEq, Prod.mk.injEq] at h
    obtain ⟨rfl, -⟩ := h
    exact h1
  | cons l ls ih =>
    intro st st' o h h1
    rw [extractRun, Option.bind_eq_some_iff] at h
    obtain ⟨⟨s1, o1⟩, e1, h⟩ := h
    rw [Option.map_eq_some_iff] at h
    obtain ⟨⟨s2, o2⟩, e2, h⟩ := h
    simp only [Prod.mk.injEq] at h
    obtain ⟨rfl, -⟩ := h
    refine ih (fun x hx => hl x (by simp [hx])) e2 ?_
    cases hs : s1.skipEmpty with
    | false => rfl
    | true =>
      have := (extractLine_sets e1 h1 hs).2.2
      rw [hl l (by simp)] at this
      simp at this

/-- No blank lines are skipped in a fresh text. -/
theorem fresh_skip {base : Str} {V : List Str} (hV : GoodNames V) {d : Bool} {st : ExtractState} {l : Str}
    (hf : (specStep (d, st.inExamples) l).2 = nonBlank [l])
    {s' : Bool × ExtractState} {o : Extracted} (hs : againStep base false V (d, st) l = some (s', o))
    (h1 : st.skipEmpty = false) : s'.2.skipEmpty = false := by
  rw [againStep, Option.map_eq_some_iff] at hs
  obtain ⟨⟨st', o'⟩, hrun, hs⟩ := hs
  simp only [Bool.false_and, Bool.false_eq_true, if_false, Prod.mk.injEq] at hs
  obtain ⟨rfl, rfl⟩ := hs
  simp only at hrun ⊢
  have hchunk : (notesStep V d l).2 = [] ∨ ∃ q, notesStep V d l = ((notesStep V d l).1, l :: q) ∧
      ∀ x ∈ q, isIn linkMark x = false := by
    cases d with
    | true =>
      rw [notesStep]
      split
      · exact .inr ⟨[], rfl, fun x hx => by simp at hx⟩
      · exact .inl rfl
    | false =>
      rw [notesStep]
      split
      · refine .inr ⟨_, rfl, ?_⟩
        intro x hx
        simp only [List.mem_cons, List.mem_append, List.mem_map, List.not_mem_nil, or_false] at hx
        rcases hx with rfl | ⟨n, hn, rfl⟩ | rfl
        · decide
        · exact (plain_includeLine (hV n hn)).noLink
        · decide
      · split
        · exact .inl rfl
        · refine .inr ⟨_, rfl, ?_⟩
          intro x hx
          rcases noteOf_cases hV (l := l) with h | ⟨-, -, n, h, hg⟩
          · rw [h] at hx; simp at hx
          · rw [h] at hx
            simp only [List.mem_cons, List.not_mem_nil, or_false] at hx
            subst hx
            exact (plain_noteLine hg).noLink
  rcases hchunk with hc | ⟨q, hc, hq⟩
  · rw [hc] at hrun
    simp only [extractRun, Option.some.injEq, Prod.mk.injEq] at hrun
    rw [← hrun.1]; exact h1
  · rw [hc] at hrun
    rw [extractRun, Option.bind_eq_some_iff] at hrun
    obtain ⟨⟨s1, o1⟩, e1, hrun⟩ := hrun
    rw [Option.map_eq_some_iff] at hrun
    obtain ⟨⟨s2, o2⟩, e2, hrun⟩ := hrun
    simp only [Prod.mk.injEq] at hrun
    obtain ⟨rfl, -⟩ := hrun
    refine extractRun_sets hq e2 ?_
    cases hsk : s1.skipEmpty with
    | false => rfl
    | true =>
      exfalso
      obtain ⟨he, ht, hl⟩ := extractLine_sets e1 h1 hsk
      have hk : keepNotes d l = ((notesStep V d l).1, true) := keepNotes_of hc
      rw [he, specStep_keep hk, keepLinks_false, if_neg (by rw [ht]; simp), if_pos hl] at hf
      rcases nonBlank_single l with ⟨-, hb⟩ | ⟨hb, -⟩
      · have := List.all_eq_true.1 hb 'c' (((isIn_iff _ _).1 hl).mem (by decide))
        exact absurd this (by decide)
      · rw [hb] at hf
        simp at hf

theorem quiet_of_blank {l : Str} (hc : isCode l = false) (hb : l.all blank = true) : Quiet [l] := by
  intro x hx
  simp only [List.mem_cons, List.not_mem_nil, or_false] at hx
  subst hx
  constructor
  · exact hc
  · cases hn : numberedHeader x with
    | none => rfl
    | some n =>
      have := numberedHeader_heading_some (l := x) (by rw [hn]; simp)
      rw [List.isPrefixOf_iff_prefix] at this
      have := List.all_eq_true.1 hb '[' (this.subset (by decide))
      exact absurd this (by decide)

/-- `parse_md` finds the same in a fresh text and in what is written for it. -/
theorem fresh_parse {base : Str} (hbase : ClearName base) {V : List Str} (hV : GoodNames V) {ls : List Str} :
    ∀ {s s' : Bool × ExtractState} {o : Extracted} {c : Bool}, (∀ l ∈ ls, ClearLine l) → BlanksInCode c ls →
    (c = true → s.1 = false ∧ s.2.inExamples = false) → againRun base false V s ls = some (s', o) →
    authoredFrom (s.1, s.2.inExamples) ls = nonBlank ls → s.2.skipEmpty = false →
    ∀ p : ParseState, (s.1 = true ∨ s.2.inExamples = true → p.inCpp = false) → parseLoop p o.lines = parseLoop p ls := by
  induction ls with
  | nil =>
    intro s s' o c hl hbl hcs hs hf hsk p hp
    simp only [againRun, Option.some.injEq, Prod.mk.injEq] at hs
    obtain ⟨rfl, rfl⟩ := hs
    rfl
  | cons l ls ih =>
    intro s s' o c hl hbl hcs hs hf hsk p hp
    rw [againRun, Option.bind_eq_some_iff] at hs
    obtain ⟨⟨s1, o1⟩, hs1, hs⟩ := hs
    rw [Option.map_eq_some_iff] at hs
    obtain ⟨⟨s2, o2⟩, hs2, hs⟩ := hs
    simp only [Prod.mk.injEq] at hs
    obtain ⟨rfl, rfl⟩ := hs
    obtain ⟨d, st⟩ := s
    obtain ⟨hf1, hf2⟩ := fresh_cons hf
    simp only at hf1 hf2 hp hsk hcs
    have hout := step_out hbase hV (hl l (by simp)) (fun _ _ => .inr hsk) hs1
    have hk := (out_keeps hout).1
    rw [hk] at hf2
    have hsk1 := fresh_skip hV hf1 hs1 hsk
    have hnb : l.all blank = false → (specStep (d, st.inExamples) l).2 ≠ [] := by
      intro hb he
      rw [hf1] at he
      simp [nonBlank, hb] at he
    have key : parseLoop p o1.lines = parseLoop p [l] ∧ endState p o1.lines = endState p [l] ∧
        (s1.1 = true ∨ s1.2.inExamples = true → (endState p [l]).inCpp = false) ∧
        (s1.1 = true ∨ s1.2.inExamples = true → isCode l = false) := by
      have dropped : l.all blank = true → d = true ∨ st.inExamples = true → isCode l = false := by
        intro hb hde
        rw [← Bool.not_eq_true]
        intro hc
        have := hcs (hbl.1 ((isCode_iff l).1 hc) hb)
        rcases hde with h | h
        · rw [this.1] at h; simp at h
        · rw [this.2] at h; simp at h
      have blankCase : l.all blank = true → isCode l = false → p.inCpp = false → parseLoop p [] = parseLoop p [l] ∧
          endState p [] = endState p [l] ∧ (endState p [l]).inCpp = false := by
        intro hb hc hpi
        obtain ⟨h1, h2⟩ := parse_quiet (quiet_of_blank hc hb) hpi
        exact ⟨by rw [h1]; rfl, by rw [h2]; rfl, by rw [h2]; exact hpi⟩
      have consCase : ∀ {q : List Str}, isCode l = false → Quiet q → parseLoop p (l :: q) = parseLoop p [l] ∧
          endState p (l :: q) = endState p [l] ∧ (endState p [l]).inCpp = false := by
        intro q hc hq
        obtain ⟨h1, h2, h3⟩ := SameParse.cons false true hc (q := []) (fun x hx => by simp at hx) hq p (fun h => by simp at h)
        exact ⟨h1, h2, h3 rfl⟩
      generalize s1.1 = d' at hout hk ⊢
      generalize s1.2.inExamples = e' at hout hk ⊢
      generalize o1.lines = q at hout ⊢
      generalize st.inExamples = e at hout hk hf1 hp hnb dropped
      cases hout with
      | nil hn =>
        have hs2 : (specStep (d, e') l).2 = [] := by rw [specStep_drop (keepNotes_nil hn)]
        cases hb : l.all blank with
        | false => exact absurd hs2 (hnb hb)
        | true =>
          cases d with
          | true =>
            obtain ⟨h1, h2, h3⟩ := blankCase hb (dropped hb (.inl rfl)) (hp (.inl rfl))
            exact ⟨h1, h2, fun _ => h3, fun _ => dropped hb (.inl rfl)⟩
          | false =>
            exfalso
            rw [notesStep] at hn
            split at hn
            · simp at hn
            · split at hn
              · rename_i hpre
                rw [List.isPrefixOf_iff_prefix] at hpre
                have := List.all_eq_true.1 hb '[' (hpre.subset (by decide))
                exact absurd this (by decide)
              · simp at hn
      | ends he hb hend hn hn' hpre =>
        rename_i pre
        have hpi := hp (.inr he)
        obtain ⟨h1, h2⟩ := parse_quiet (ls := pre) (fun x hx => ⟨(hpre x hx).notCode, (hpre x hx).neutral⟩) hpi
        rw [parseLoop_append, endState_append, h1, h2]
        refine ⟨?_, rfl, ?_, ?_⟩
        · simp
        · rintro (h | h) <;> simp at h
        · rintro (h | h) <;> simp at h
      | inside he hend hd hn =>
        subst he; subst hd
        have e1 : (specStep (false, true) l).2 = [] := by
          rw [specStep_keep (keepNotes_of hn), keepLinks_true, if_neg (by rw [hend]; simp)]; rfl
        cases hb : l.all blank with
        | false => exact absurd e1 (hnb hb)
        | true =>
          obtain ⟨h1, h2, h3⟩ := blankCase hb (dropped hb (.inr rfl)) (hp (.inr rfl))
          exact ⟨h1, h2, fun _ => h3, fun _ => dropped hb (.inr rfl)⟩
      | title he hd ht hc hn =>
        obtain ⟨h1, h2, h3⟩ := consCase (q := []) hc (fun x hx => by simp at hx)
        exact ⟨h1, h2, fun _ => h3, fun _ => hc⟩
      | link he hd hb ht hlk hn =>
        subst he; subst hd
        have e1 : (specStep (false, false) l).2 = [] := by
          rw [specStep_keep (keepNotes_of hn), keepLinks_false, if_neg (by rw [ht]; simp), if_pos hlk]; rfl
        have : l.all blank = false := by
          rw [← Bool.not_eq_true, ← trimmed_nil, ← strip_eq_trimmed]; exact hb
        exact absurd e1 (hnb this)
      | skipped hsk' he hd hb hc hq ht hlk hn =>
        rw [hsk] at hsk'
        simp at hsk'
      | ordinary he ht hlk hn hins hnt hc =>
        rename_i nt ins
        by_cases hne : ins = []
        · subst hne
          exact ⟨rfl, rfl, fun h => by rcases h with h | h <;> simp at h, fun h => by rcases h with h | h <;> simp at h⟩
        · obtain ⟨h1, h2, h3⟩ := consCase (q := ins) (hc hne) (by
            intro x hx
            rcases hins x hx with h | rfl | ⟨n, rfl, hg⟩
            · exact ⟨h.notCode, h.neutral⟩
            · exact ⟨by decide, by decide⟩
            · exact ⟨(plain_noteLine hg).notCode, (plain_noteLine hg).neutral⟩)
          exact ⟨h1, h2, fun _ => h3, fun _ => hc hne⟩
      | definitions he hd ht' hc ht hlk hins hincl =>
        rename_i ins
        obtain ⟨h1, h2, h3⟩ := consCase (q := ins) hc fun x hx => (hins x hx).2
        exact ⟨h1, h2, fun _ => h3, fun _ => hc⟩
    obtain ⟨k1, k2, k3, k4⟩ := key
    have hnext : isCode l = true → s1.1 = false ∧ s1.2.inExamples = false := by
      intro hc
      constructor
      · rw [← Bool.not_eq_true]
        intro h
        rw [k4 (.inl h)] at hc; simp at hc
      · rw [← Bool.not_eq_true]
        intro h
        rw [k4 (.inr h)] at hc; simp at hc
    have := ih (fun x hx => hl x (by simp [hx])) hbl.2 hnext hs2 hf2 hsk1 (endState p [l]) k3
    rw [show (o1.add o2).lines = o1.lines ++ o2.lines from rfl, parseLoop_append, k1, k2, this]
    rw [show l :: ls = [l] ++ ls from rfl, parseLoop_append]

end Metaparse.Gen
