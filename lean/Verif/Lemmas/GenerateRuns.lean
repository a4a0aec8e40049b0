import Verif.Lemmas.GenerateHeaders

/-! # The generator runs without exceptions -/

namespace Metaparse.Gen

/-! ## Lines -/

/-- A line with its end. -/
def Line (l : Str) : Prop := ∃ m, '\n' ∉ m ∧ l = m ++ ['\n']

theorem readLines_ne_nil {m : Str} (h : m ≠ []) : readLines m ≠ [] := by
  cases m with
  | nil => exact absurd rfl h
  | cons c m =>
    rw [readLines]
    split
    · simp
    · split <;> simp

theorem readLines_line {m : Str} (h : '\n' ∉ m) (t : Str) : readLines (m ++ ['\n'] ++ t) = (m ++ ['\n']) :: readLines t := by
  induction m with
  | nil => simp [readLines]
  | cons c m ih =>
    simp only [List.mem_cons, not_or] at h
    rw [List.cons_append, List.cons_append, readLines, if_neg fun e => h.1 e.symm, ih h.2]

theorem readLines_flatten {ls : List Str} (h : ∀ l ∈ ls, Line l) : readLines ls.flatten = ls := by
  induction ls with
  | nil => rfl
  | cons l ls ih =>
    obtain ⟨m, hm, rfl⟩ := h l (by simp)
    rw [List.flatten_cons, readLines_line hm, ih fun x hx => h x (by simp [hx])]

theorem line_of {l : Str} (h : '\n' ∉ l) : Line (l ++ lit "\n") := ⟨l, h, rfl⟩

theorem CommandLine.no_feed {l : Str} (h : CommandLine l) : '\n' ∉ l := fun hn =>
  absurd (h.blanks _ hn (by decide)) (by decide)

theorem lines_printCommand {ls : List Str} (h : ∀ l ∈ ls, CommandLine l) {p : Str} (hp : '\n' ∉ p) :
    ∀ l ∈ printCommand p ls, Line l := by
  induction ls generalizing p with
  | nil => simp [printCommand]
  | cons l ls ih =>
    have hl := (h l (by simp)).no_feed
    have hpl : '\n' ∉ p ++ l := by simp only [List.mem_append, not_or]; exact ⟨hp, hl⟩
    cases ls with
    | nil =>
      intro x hx
      rw [printCommand] at hx
      simp only [List.mem_cons, List.not_mem_nil, or_false] at hx
      subst hx
      exact line_of hpl
    | cons m ls =>
      intro x hx
      rw [printCommand] at hx
      · rcases List.mem_cons.1 hx with rfl | hx
        · exact ⟨p ++ l ++ ['\\'], by simp only [List.mem_append, not_or]; exact ⟨⟨hp, hl⟩, by decide⟩, by simp [lit]⟩
        · exact ih (fun y hy => h y (by simp [hy])) (by decide) x hx
      · simp

theorem lines_tutorial {doc : List Piece} (h : ∀ p ∈ doc, WellWrittenPiece p) : ∀ l ∈ printTutorial doc, Line l := by
  intro l hl
  obtain ⟨p, hp, hl⟩ := List.mem_flatMap.1 hl
  have hw := h p hp
  cases p with
  | heading n t =>
    simp only [Piece.print, List.mem_cons, List.not_mem_nil, or_false] at hl
    subst hl
    refine ⟨_, ?_, rfl⟩
    simp only [List.mem_append, not_or]
    refine ⟨⟨⟨by decide, ?_⟩, by decide⟩, hw.2⟩
    intro hm
    rcases mem_dotted hm with h | h
    · exact absurd h (by decide)
    · exact absurd h (by decide)
  | text l' =>
    simp only [Piece.print, List.mem_cons, List.not_mem_nil, or_false] at hl
    subst hl
    exact line_of hw.1
  | code ls =>
    obtain ⟨m, hm, rfl⟩ := List.mem_map.1 hl
    refine ⟨lit "  " ++ m, ?_, by simp [lit]⟩
    simp only [List.mem_append, not_or]
    exact ⟨by decide, hw.1 m hm⟩
  | session ps =>
    obtain ⟨q, hq, hl⟩ := List.mem_flatMap.1 hl
    have hwq := hw.1 q hq
    cases q with
    | command ls => exact lines_printCommand hwq.1 (by decide) l hl
    | output m =>
      simp only [Part.print, List.mem_cons, List.not_mem_nil, or_false] at hl
      subst hl
      refine ⟨lit "  " ++ m, ?_, by simp [lit]⟩
      simp only [List.mem_append, not_or]
      exact ⟨by decide, hwq.1⟩

/-! ## Commands in more than one line -/

theorem isIn_iff (p : Str) : ∀ s, isIn p s = true ↔ Has s p
  | [] => by
      rw [isIn, List.isEmpty_iff]
      constructor
      · rintro rfl; exact ⟨[], [], rfl⟩
      · rintro ⟨u, v, h⟩
        have := congrArg List.length h
        simp only [List.length_append, List.length_nil] at this
        exact List.length_eq_zero_iff.1 (by omega)
  | c :: s => by
      rw [isIn, Bool.or_eq_true, List.isPrefixOf_iff_prefix, isIn_iff p s]
      constructor
      · rintro (⟨v, h⟩ | ⟨u, v, h⟩)
        · exact ⟨[], v, by rw [← h]; rfl⟩
        · exact ⟨c :: u, v, by rw [h]; rfl⟩
      · rintro ⟨u, v, h⟩
        cases u with
        | nil => exact .inl ⟨v, by rw [h]; rfl⟩
        | cons d u =>
          simp only [List.cons_append, List.cons.injEq] at h
          exact .inr ⟨u, v, h.2⟩

/-- The line may be continued. -/
def Continued (l : Str) : Prop :=
  (lit "  > " <+: l ∨ lit "  ...> " <+: l) ∧ ∀ m ∈ marks, ¬ Has l m

/-- Every rest of a command is after a line that may be continued; `ok`: the line before may. -/
def Chain : Prop → List Str → Prop
  | _, [] => True
  | ok, l :: ls => (lit "  ...> " <+: l → ok) ∧ Chain (Continued l) ls

theorem Chain.mono {ok ok' : Prop} (h : ok → ok') : ∀ {ls}, Chain ok ls → Chain ok' ls
  | [], _ => trivial
  | _ :: _, hc => ⟨fun hl => h (hc.1 hl), hc.2⟩

theorem Chain.append {ls' : List Str} : ∀ {ls : List Str} {ok : Prop}, Chain ok ls → Chain False ls' → Chain ok (ls ++ ls')
  | [], _, _, h => h.mono False.elim
  | _ :: _, _, hc, h => ⟨hc.1, hc.2.append h⟩

theorem Chain.plain {ls : List Str} (h : ∀ l ∈ ls, ¬ lit "  ...> " <+: l) {ok : Prop} : Chain ok ls := by
  induction ls generalizing ok with
  | nil => trivial
  | cons l ls ih => exact ⟨fun hl => absurd hl (h l (by simp)), ih fun x hx => h x (by simp [hx])⟩

theorem chain_command : ∀ {ls : List Str} {p : Str} {ok : Prop}, (p = lit "  > " ∨ p = lit "  ...> " ∧ ok) →
    (∀ l ∈ printCommand p ls, ∀ m ∈ marks, ¬ Has l m) → Chain ok (printCommand p ls)
  | [], p, ok, hp, hm => trivial
  | [l], p, ok, hp, hm => by
      refine ⟨fun h => ?_, trivial⟩
      rcases hp with rfl | hp
      · simp [lit] at h
      · exact hp.2
  | l :: l' :: ls, p, ok, hp, hm => by
      have e : printCommand p (l :: l' :: ls) = (p ++ l ++ lit "\\\n") :: printCommand (lit "  ...> ") (l' :: ls) := by
        rw [printCommand]; simp
      rw [e] at hm ⊢
      refine ⟨fun h => ?_, chain_command (.inr ⟨rfl, ?_, ?_⟩) fun x hx => hm x (List.mem_cons_of_mem _ hx)⟩
      · rcases hp with rfl | hp
        · simp [lit] at h
        · exact hp.2
      · rcases hp with rfl | ⟨rfl, -⟩
        · left; rw [List.append_assoc]; exact List.prefix_append _ _
        · right; rw [List.append_assoc]; exact List.prefix_append _ _
      · exact hm _ List.mem_cons_self

theorem rest_prefix {l : Str} (t : Str) : lit "  ...> " <+: lit "  " ++ l ++ t ↔ lit "...> " <+: l ++ t := by
  rw [show lit "  ...> " = lit "  " ++ lit "...> " by decide, List.append_assoc, List.prefix_append_right_inj]

theorem rest_line {l : Str} (h : ¬ lit "...> " <+: l) : ¬ lit "  ...> " <+: lit "  " ++ l ++ lit "\n" := by
  rw [rest_prefix]
  intro hp
  apply h
  rcases Nat.lt_or_ge l.length (lit "...> ").length with hlt | hge
  · exfalso
    have h1 : (l ++ lit "\n").length ≤ (lit "...> ").length := by
      simp only [List.length_append]; have : (lit "\n").length = 1 := rfl; omega
    have h2 := hp.length_le
    have h3 := hp.eq_of_length (by omega)
    have : '\n' ∈ lit "...> " := by rw [h3]; simp [lit]
    exact absurd this (by decide)
  · exact List.prefix_of_prefix_length_le hp (List.prefix_append _ _) hge

theorem chain_tutorial {doc : List Piece} (h : ∀ p ∈ doc, WellWrittenPiece p) (hc : ∀ p ∈ doc, ClearPiece p) :
    Chain False (printTutorial doc) := by
  induction doc with
  | nil => trivial
  | cons p doc ih =>
    rw [printTutorial, List.flatMap_cons]
    apply Chain.append _ (ih (fun q hq => h q (by simp [hq])) fun q hq => hc q (by simp [hq]))
    have hw := h p (by simp)
    have hcp := hc p (by simp)
    cases p with
    | heading n t =>
      apply Chain.plain
      intro l hl
      simp only [Piece.print, List.mem_cons, List.not_mem_nil, or_false] at hl
      subst hl
      simp [lit]
    | text l' =>
      apply Chain.plain
      intro l hl
      simp only [Piece.print, List.mem_cons, List.not_mem_nil, or_false] at hl
      subst hl
      intro hp
      apply hw.2.1
      have h1 : lit "  " <+: l' ++ lit "\n" := List.IsPrefix.trans (by decide) hp
      rcases Nat.lt_or_ge l'.length 2 with hlt | hge
      · exfalso
        have := hp.length_le
        simp [lit] at this
        omega
      · exact List.prefix_of_prefix_length_le h1 (List.prefix_append _ _) hge
    | code ls =>
      apply Chain.plain
      intro l hl
      obtain ⟨m, hm, rfl⟩ := List.mem_map.1 hl
      exact rest_line (hcp m hm)
    | session ps =>
      have hcp' : ∀ q ∈ ps, ClearPart q := hcp
      clear hw hcp hc h ih
      show Chain False (ps.flatMap Part.print)
      induction ps with
      | nil => trivial
      | cons q ps ih =>
        rw [List.flatMap_cons]
        apply Chain.append _ (ih fun x hx => hcp' x (by simp [hx]))
        have hq := hcp' q (by simp)
        cases q with
        | command ls => exact chain_command (.inl rfl) hq
        | output m =>
          apply Chain.plain
          intro l hl
          simp only [Part.print, List.mem_cons, List.not_mem_nil, or_false] at hl
          subst hl
          exact rest_line hq

/-! ## The notes -/

theorem strip_continued {l : Str} (h : lit "  > " <+: l ∨ lit "  ...> " <+: l) :
    ∃ c r, strip l = c :: r ∧ (c = '>' ∨ c = '.') := by
  rcases h with ⟨r, rfl⟩ | ⟨r, rfl⟩
  · obtain ⟨l', hl'⟩ := rstrip_cons (c := '>') (by decide) (lit " " ++ r)
    exact ⟨'>', l', hl', .inl rfl⟩
  · obtain ⟨l', hl'⟩ := rstrip_cons (c := '.') (by decide) (lit "..> " ++ r)
    exact ⟨'.', l', hl', .inr rfl⟩

theorem not_continued {l : Str} (h : ¬ lit "  " <+: l) : ¬ Continued l := by
  rintro ⟨hp | hp, -⟩
  · exact h (List.IsPrefix.trans (by decide) hp)
  · exact h (List.IsPrefix.trans (by decide) hp)

theorem chain_notes (withDefs : List Str) : ∀ (ls : List Str) (ok : Prop), Chain ok ls →
    Chain ok (notesLoop withDefs false ls) ∧ Chain False (notesLoop withDefs true ls)
  | [], _, _ => ⟨trivial, trivial⟩
  | l :: ls, ok, h => by
      have ih := chain_notes withDefs ls (Continued l) h.2
      have hlist : ∀ {q : List Str}, (∀ x ∈ q, ¬ lit "  " <+: x) → ∀ {r}, Chain False r → ∀ {ok : Prop}, Chain ok (q ++ r) := by
        intro q hq r hr ok
        exact Chain.append (Chain.plain fun x hx hp => hq x hx (List.IsPrefix.trans (by decide) hp)) hr
      constructor
      · rw [notesLoop]
        split
        · rename_i ht
          have hn : ¬ lit "  ...> " <+: l := by
            intro hp
            obtain ⟨c, r, hs, hc⟩ := strip_continued (.inr hp)
            rw [hs] at ht
            rcases hc with rfl | rfl <;> simp [lit, definitionsTitle] at ht
          have e : (l :: ['\n'] :: (withDefs.map fun s => lit "[include before_" ++ s ++ lit ".qbk]\n") ++
              ['\n'] :: notesLoop withDefs true ls) =
              l :: ((['\n'] :: (withDefs.map fun s => lit "[include before_" ++ s ++ lit ".qbk]\n") ++ [['\n']]) ++
                notesLoop withDefs true ls) := by simp
          rw [e]
          refine ⟨h.1, hlist ?_ ih.2⟩
          intro x hx
          simp only [List.cons_append, List.mem_cons, List.mem_append, List.mem_map, List.not_mem_nil, or_false] at hx
          rcases hx with rfl | ⟨s, -, rfl⟩ | rfl
          · decide
          · simp [lit]
          · decide
        · split
          · rename_i hp
            have hl : ¬ lit "  " <+: l := by
              rw [List.isPrefixOf_iff_prefix] at hp
              obtain ⟨r, rfl⟩ := hp
              simp [lit, notePrefix]
            exact ih.1.mono fun hc => absurd hc (not_continued hl)
          · cases hn : noteSection l with
            | none => exact ⟨h.1, ih.1⟩
            | some n =>
              have hl : ¬ lit "  " <+: l := by
                rw [noteSection] at hn
                split at hn
                · rename_i hp
                  rw [List.isPrefixOf_iff_prefix] at hp
                  obtain ⟨r, rfl⟩ := hp
                  simp [lit]
                · simp at hn
              refine ⟨h.1, ?_⟩
              show Chain _ ((if n ∈ withDefs then [noteLine n] else []) ++ notesLoop withDefs false ls)
              apply hlist _ (ih.1.mono fun hc => absurd hc (not_continued hl))
              intro x hx
              split at hx
              · simp only [List.mem_cons, List.not_mem_nil, or_false] at hx
                subst hx
                simp [noteLine, notePrefix, lit]
              · simp at hx
      · rw [notesLoop]
        split
        · rename_i ht
          have hn : ¬ (lit "  > " <+: l ∨ lit "  ...> " <+: l) := by
            intro hp
            obtain ⟨c, r, hs, hc⟩ := strip_continued hp
            rw [hs] at ht
            rcases hc with rfl | rfl <;> simp [lit] at ht
          exact ⟨fun hp => absurd (.inr hp) hn, ih.1⟩
        · exact ih.2

/-! ## The snippets -/

theorem copyPasteLoop_append (a b : List Str) : ∀ (res : List Str),
    copyPasteLoop res (a ++ b) = (copyPasteLoop res a).bind fun r => copyPasteLoop r b := by
  induction a with
  | nil => intro res; rfl
  | cons l a ih =>
    intro res
    rw [List.cons_append, copyPasteLoop, copyPasteLoop]
    split
    · exact ih _
    · split
      · cases res.getLast? with
        | some x => exact ih _
        | none => rfl
      · exact ih _

/-- The state of the extraction after a line that may be continued, or not. -/
structure Extracting (ok : Prop) (st : ExtractState) : Prop where
  snippet : ok → st.inCode = true ∨ st.inExamples = true
  code : st.inCode = true → ∃ r, makeCopyPasteFriendly st.code = some r ∧ (ok → st.inExamples = false → r ≠ [])

theorem command_drop {l : Str} : lit "  > " <+: l → (lit "> ").isPrefixOf (l.drop 2) = true := by
  rintro ⟨r, rfl⟩
  simp [lit, List.isPrefixOf]

theorem rest_drop {l : Str} : lit "  ...> " <+: l → (lit "> ").isPrefixOf (l.drop 2) = false ∧
    (lit "...> ").isPrefixOf (l.drop 2) = true := by
  rintro ⟨r, rfl⟩
  simp [lit, List.isPrefixOf]

theorem extract_line (base : Str) {ok : Prop} {st : ExtractState} (h : Extracting ok st) {l : Str}
    (hl : lit "  ...> " <+: l → ok) :
    ∃ r, extractLine base st l = some r ∧ Extracting (Continued l) r.1 := by
  by_cases hb : (strip l ≠ [] || !st.skipEmpty) = true
  · rw [extractLine, if_pos hb]
    by_cases he : st.inExamples = true
    · simp only [he, if_true]
      split
      · rename_i hend
        have hn : ¬ Continued l := fun hc => hc.2 _ (by simp [marks]) ((isIn_iff _ _).1 hend)
        refine ⟨_, rfl, fun hc => absurd hc hn, fun hi => ?_⟩
        obtain ⟨r, hr, -⟩ := h.code hi
        exact ⟨r, hr, fun hc => absurd hc hn⟩
      · refine ⟨_, rfl, fun _ => .inr rfl, fun hi => ?_⟩
        obtain ⟨r, hr, -⟩ := h.code hi
        exact ⟨r, hr, fun _ hf => by simp at hf⟩
    · have hef : st.inExamples = false := by simpa using he
      simp only [hef, Bool.false_eq_true, if_false]
      split
      · rename_i hend
        have hn : ¬ Continued l := fun hc => hc.2 _ (by simp [marks, examplesTitle]) ((isIn_iff _ _).1 hend)
        refine ⟨_, rfl, fun hc => absurd hc hn, fun hi => ?_⟩
        obtain ⟨r, hr, -⟩ := h.code hi
        exact ⟨r, hr, fun hc => absurd hc hn⟩
      · split
        · rename_i hend
          have hn : ¬ Continued l := fun hc => hc.2 _ (by simp [marks, linkMark]) ((isIn_iff _ _).1 hend)
          refine ⟨_, rfl, fun hc => absurd hc hn, fun hi => ?_⟩
          obtain ⟨r, hr, -⟩ := h.code hi
          exact ⟨r, hr, fun hc => absurd hc hn⟩
        · rw [extractOrdinary]
          by_cases hi : st.inCode = true
          · obtain ⟨r, hr, hr'⟩ := h.code hi
            simp only [hi, if_true]
            split
            · split
              · rename_i hpre
                refine ⟨_, rfl, fun _ => .inl rfl, fun _ => ?_⟩
                show ∃ r, makeCopyPasteFriendly (st.code ++ [l.drop 2]) = some r ∧ _
                rw [makeCopyPasteFriendly, copyPasteLoop_append]
                rw [makeCopyPasteFriendly] at hr
                rw [hr, Option.bind_some]
                simp only [Bool.or_eq_true, List.isPrefixOf_iff_prefix] at hpre
                rcases hpre with hp | hp
                · rw [copyPasteLoop, if_pos (command_drop hp), copyPasteLoop]
                  exact ⟨_, rfl, fun _ _ => by simp⟩
                · have hok := hl hp
                  have hne := hr' hok hef
                  rw [copyPasteLoop, if_neg (by rw [(rest_drop hp).1]; simp), if_pos (rest_drop hp).2,
                    List.getLast?_eq_some_getLast hne]
                  simp only
                  rw [copyPasteLoop]
                  exact ⟨_, rfl, fun _ _ => by simp⟩
              · rename_i hpre
                have hn : ¬ Continued l := by
                  rintro ⟨hp, -⟩
                  apply hpre
                  simp only [Bool.or_eq_true, List.isPrefixOf_iff_prefix]
                  exact hp
                refine ⟨_, rfl, fun hc => absurd hc hn, fun _ => ⟨r, hr, fun hc => absurd hc hn⟩⟩
            · rename_i hcode
              have hn : ¬ Continued l := not_continued (by
                intro hp
                apply hcode
                rw [isCode, List.isPrefixOf_iff_prefix]
                exact hp)
              split
              · rw [show makeCopyPasteFriendly st.code = some r from hr]
                exact ⟨_, rfl, fun hc => absurd hc hn, fun hf => by simp at hf⟩
              · exact ⟨_, rfl, fun hc => absurd hc hn, fun hf => by simp at hf⟩
          · have hif : st.inCode = false := by simpa using hi
            simp only [hif, Bool.false_eq_true, if_false]
            split
            · rename_i hcode
              refine ⟨_, rfl, fun _ => .inl rfl, fun _ => ?_⟩
              show ∃ r, makeCopyPasteFriendly [l.drop 2] = some r ∧ _
              rw [makeCopyPasteFriendly, copyPasteLoop]
              split
              · rw [copyPasteLoop]
                exact ⟨_, rfl, fun _ _ => by simp⟩
              · rename_i hgt
                have hnr : ¬ lit "  ...> " <+: l := by
                  intro hp
                  rcases h.snippet (hl hp) with h | h
                  · exact hi h
                  · exact he h
                split
                · rename_i hre
                  exfalso
                  apply hnr
                  rw [isCode, List.isPrefixOf_iff_prefix] at hcode
                  obtain ⟨r, rfl⟩ := hcode
                  rw [List.isPrefixOf_iff_prefix] at hre
                  obtain ⟨q, hq⟩ := hre
                  have : r = lit "...> " ++ q := by rw [hq]; rfl
                  rw [this]
                  exact ⟨q, by simp [lit]⟩
                · rw [copyPasteLoop]
                  refine ⟨_, rfl, ?_⟩
                  rintro ⟨hp | hp, -⟩
                  · exact absurd (command_drop hp) hgt
                  · exact absurd hp hnr
            · rename_i hcode
              have hn : ¬ Continued l := not_continued (by
                intro hp
                apply hcode
                rw [isCode, List.isPrefixOf_iff_prefix]
                exact hp)
              exact ⟨_, rfl, fun hc => absurd hc hn, fun hf => by simp at hf⟩
  · rw [extractLine, if_neg hb]
    have hn : ¬ Continued l := by
      intro hc
      obtain ⟨c, r, hs, -⟩ := strip_continued hc.1
      apply hb
      rw [hs]
      simp
    refine ⟨_, rfl, fun hc => absurd hc hn, fun hi => ?_⟩
    obtain ⟨r, hr, -⟩ := h.code hi
    exact ⟨r, hr, fun hc => absurd hc hn⟩

theorem extract_succeeds (base : Str) : ∀ {ls : List Str} {ok : Prop} {st : ExtractState}, Extracting ok st → Chain ok ls →
    ∃ x, extractLoop base st ls = some x
  | [], _, _, _, _ => ⟨_, rfl⟩
  | l :: ls, ok, st, h, hc => by
      obtain ⟨r, hr, hr'⟩ := extract_line base h hc.1
      obtain ⟨x, hx⟩ := extract_succeeds base hr' hc.2
      rw [extractLoop, hr, Option.bind_some, hx]
      exact ⟨_, rfl⟩

/-- The generator succeeds. -/
theorem generate_succeeds {doc : List Piece} (h : WellWritten doc) (hc : ∀ p ∈ doc, ClearPiece p) (base : Str) :
    ∃ g, generate base (printTutorial doc).flatten = some g := by
  rw [generate, readLines_flatten (lines_tutorial h.pieces), parseMd_tutorial h]
  simp only [Option.bind_some]
  obtain ⟨x, hx⟩ := extract_succeeds base (st := {}) (ok := False) ⟨False.elim, fun hf => by simp at hf⟩
    (chain_notes (beforeDocs ((numbers doc).map (dotted '_'))
      ((tagged [] doc).map fun d => (d.1, definitionOf (rawCommand d.2)))).2 _ _ (chain_tutorial h.pieces hc)).1
  rw [extractCodeSnippets, hx]
  exact ⟨_, rfl⟩

/-- The headers that are generated. -/
theorem generate_headers {doc : List Piece} (h : WellWritten doc) {base : Str} {g : Generated}
    (hg : generate base (printTutorial doc).flatten = some g) :
    g.headers = genHeaders ((numbers doc).map (dotted '_'))
        ((tagged [] doc).map fun d => (d.1, definitionOf (rawCommand d.2))) ∧
      g.before = (beforeDocs ((numbers doc).map (dotted '_'))
        ((tagged [] doc).map fun d => (d.1, definitionOf (rawCommand d.2)))).1 := by
  rw [generate, readLines_flatten (lines_tutorial h.pieces), parseMd_tutorial h] at hg
  simp only [Option.bind_some, Option.map_eq_some_iff] at hg
  obtain ⟨x, -, rfl⟩ := hg
  exact ⟨rfl, rfl⟩

end Metaparse.Gen
