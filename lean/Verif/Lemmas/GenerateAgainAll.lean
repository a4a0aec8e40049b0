import Verif.Lemmas.GenerateAgainRun

/-! # The second run of the generator changes nothing but blank lines -/

namespace Metaparse.Gen

/-! ## The kinds of lines -/

/-- The kinds of lines of the tutorial, in a state of the generator. -/
inductive Kind (d : Bool) (st : ExtractState) (l : Str) : Prop
  /-- Dropped by the first loop. -/
  | nil (h : ∀ X, notesStep X d l = (d, []))
  /-- The end of the section of examples. -/
  | ends (he : st.inExamples = true) (hb : strip l ≠ []) (hend : isIn (lit "endsect") l = true)
      (hn : ∀ X, notesStep X d l = (false, [l])) (hn' : ∀ X, notesStep X false l = (false, [l]))
  /-- In the section of examples. -/
  | inside (he : st.inExamples = true) (hend : isIn (lit "endsect") l = false) (hd : d = false) (d' : Bool)
      (nt : List Str → List Str)
      (hn : ∀ X, GoodNames X → notesStep X d l = (d', l :: nt X) ∧ (∀ x ∈ nt X, isIn (lit "endsect") x = false) ∧
        (strip l = [] → nt X = []))
  /-- The title of the section of examples. -/
  | title (he : st.inExamples = false) (hd : d = false) (hb : strip l ≠ []) (ht : isIn examplesTitle l = true)
      (hc : isCode l = false) (hn : ∀ X, notesStep X false l = (false, [l]))
  /-- A link. -/
  | link (he : st.inExamples = false) (hd : d = false) (hb : strip l ≠ []) (ht : isIn examplesTitle l = false)
      (hl : isIn linkMark l = true) (hn : ∀ X, notesStep X false l = (false, [l]))
  /-- A blank line. -/
  | blankLine (he : st.inExamples = false) (hd : d = false) (hb : strip l = [])
      (hq : numberedHeader l = none) (ht : isIn examplesTitle l = false) (hl : isIn linkMark l = false)
      (hn : ∀ X, notesStep X false l = (false, [l]))
  /-- An ordinary line. -/
  | ordinary (he : st.inExamples = false) (hb : strip l ≠ [])
      (ht : isIn examplesTitle l = false) (hl : isIn linkMark l = false) (nt : List Str → List Str)
      (hn : ∀ X, GoodNames X → notesStep X d l = (false, l :: nt X) ∧
        (nt X = [] ∨ isCode l = false ∧ ∃ n, nt X = [noteLine n] ∧ ∀ c ∈ n, isDigit c = true ∨ c = '_'))
  /-- The title of the section of definitions. -/
  | definitions (he : st.inExamples = false) (hd : d = false) (ht' : strip l = definitionsTitle) (hc : isCode l = false)
      (ht : isIn examplesTitle l = false) (hl : isIn linkMark l = false)

theorem isCode_iff (l : Str) : isCode l = true ↔ lit "  " <+: l := by
  rw [isCode, List.isPrefixOf_iff_prefix]; exact Iff.rfl

theorem heading_of_noteSection {l : Str} (h : noteSection l ≠ none) : LooksLikeHeading l := by
  obtain ⟨r, rfl⟩ := noteSection_prefix h
  rw [noteSection, if_pos (by rw [List.isPrefixOf_iff_prefix]; exact List.prefix_append _ _)] at h
  have e : (lit "[section " ++ r).drop 9 = r := rfl
  rw [e] at h
  match r, h with
  | [], h => exact absurd rfl h
  | [c], h => exact absurd rfl h
  | c :: c' :: r, h =>
    by_cases hc' : c' = '.'
    · subst hc'
      by_cases hc : isDigit c = true
      · refine ⟨1, c, '.' :: r, rfl, .inr ?_⟩
        simp only [isDigit, Bool.and_eq_true, decide_eq_true_eq] at hc
        have h1 : 48 ≤ c.toNat := hc.1
        have h2 : c.toNat ≤ 57 := hc.2
        have h3 : ∀ k, 48 ≤ k → k ≤ 57 → Char.ofNat k ∈ lit "0123456789" := by
          intro k h1 h2
          have : k = 48 ∨ k = 49 ∨ k = 50 ∨ k = 51 ∨ k = 52 ∨ k = 53 ∨ k = 54 ∨ k = 55 ∨ k = 56 ∨ k = 57 := by omega
          rcases this with rfl | rfl | rfl | rfl | rfl | rfl | rfl | rfl | rfl | rfl <;> decide
        have := h3 _ h1 h2
        rwa [Char.ofNat_toNat] at this
      · rw [digitDots, if_neg hc] at h
        exact absurd rfl h
    · have : digitDots (c :: c' :: r) = [] := by
        unfold digitDots
        split
        · rename_i heq
          simp only [List.cons.injEq] at heq
          exact absurd heq.2.1 hc'
        · rfl
      rw [this] at h
      exact absurd rfl h

theorem noteOf_cases {X : List Str} (hX : GoodNames X) {l : Str} :
    noteOf X l = [] ∨ LooksLikeHeading l ∧ isCode l = false ∧
      ∃ n, noteOf X l = [noteLine n] ∧ ∀ c ∈ n, isDigit c = true ∨ c = '_' := by
  rw [noteOf]
  cases hs : noteSection l with
  | none => exact .inl rfl
  | some n =>
    simp only
    split
    · rename_i hn
      right
      have hne : noteSection l ≠ none := by rw [hs]; simp
      refine ⟨heading_of_noteSection hne, ?_, n, rfl, hX n hn⟩
      obtain ⟨r, rfl⟩ := noteSection_prefix hne
      simp [isCode, lit, List.isPrefixOf]
    · exact .inl rfl

theorem noteOf_plain {l : Str} (h : ¬ LooksLikeHeading l) (X : List Str) : noteOf X l = [] := by
  rw [noteOf]
  cases hs : noteSection l with
  | none => rfl
  | some n => exact absurd (heading_of_noteSection (by rw [hs]; simp)) h

theorem numberedHeader_heading_some {l : Str} (h : numberedHeader l ≠ none) : (lit "[section").isPrefixOf l = true := by
  rw [numberedHeader] at h
  split at h
  · assumption
  · exact absurd rfl h

theorem strip_blank {l : Str} (h : strip l = []) : ∀ c ∈ l, blank c = true := by
  rw [strip_eq_trimmed, trimmed_nil, List.all_eq_true] at h
  exact h

theorem endsect_of_strip {l : Str} (h : strip l = lit "[endsect]") :
    isIn (lit "endsect") l = true ∧ isIn examplesTitle l = false ∧ isIn linkMark l = false := by
  refine ⟨?_, ?_, ?_⟩
  · rw [isIn_iff]
    obtain ⟨b, hb, -⟩ := rstrip_split (lstrip l)
    have h1 : ∃ a, l = a ++ lstrip l := by
      rw [lstrip]
      exact ⟨l.takeWhile isSpace, (List.takeWhile_append_dropWhile).symm⟩
    obtain ⟨a, ha⟩ := h1
    have h2 : rstrip (lstrip l) = lit "[endsect]" := h
    rw [h2] at hb
    rw [ha, hb]
    exact ⟨a ++ lit "[", lit "]" ++ b, by
      rw [show lit "[endsect]" = lit "[" ++ lit "endsect" ++ lit "]" by decide]; simp⟩
  · apply isIn_false
    intro hh
    have := hh.strip (d := '[') (q := examplesTitle.tail) (by decide) (by decide) (e := ']') (r := examplesTitle.dropLast)
      (by decide) (by decide)
    rw [h, ← isIn_iff] at this
    exact absurd this (by decide)
  · apply isIn_false
    intro hh
    have := hh.strip (d := 'c') (q := linkMark.tail) (by decide) (by decide) (e := 'n') (r := linkMark.dropLast)
      (by decide) (by decide)
    rw [h, ← isIn_iff] at this
    exact absurd this (by decide)

theorem definitions_of_strip {l : Str} (h : strip l = definitionsTitle) :
    isIn (lit "endsect") l = false ∧ isIn examplesTitle l = false ∧ isIn linkMark l = false := by
  refine ⟨?_, ?_, ?_⟩
  · apply isIn_false
    intro hh
    have := hh.strip (d := 'e') (q := lit "ndsect") (by decide) (by decide) (e := 't') (r := lit "endsec")
      (by decide) (by decide)
    rw [h, ← isIn_iff] at this
    exact absurd this (by decide)
  · apply isIn_false
    intro hh
    have := hh.strip (d := '[') (q := examplesTitle.tail) (by decide) (by decide) (e := ']') (r := examplesTitle.dropLast)
      (by decide) (by decide)
    rw [h, ← isIn_iff] at this
    exact absurd this (by decide)
  · apply isIn_false
    intro hh
    have := hh.strip (d := 'c') (q := linkMark.tail) (by decide) (by decide) (e := 'n') (r := linkMark.dropLast)
      (by decide) (by decide)
    rw [h, ← isIn_iff] at this
    exact absurd this (by decide)

theorem notes_endsect {l : Str} (h : strip l = lit "[endsect]") (X : List Str) (d : Bool) :
    notesStep X d l = (false, [l]) := by
  cases d
  · have h1 : notePrefix.isPrefixOf l = false := by
      rw [← Bool.not_eq_true, List.isPrefixOf_iff_prefix]
      rintro ⟨r, rfl⟩
      have := strip_bracket (lit "endsect]") (notePrefix.tail ++ r) (by simp [lit, notePrefix])
      exact this h
    have h2 : noteSection l = none := by
      cases hs : noteSection l with
      | none => rfl
      | some n =>
        obtain ⟨r, rfl⟩ := noteSection_prefix (by rw [hs]; simp)
        have := strip_bracket (lit "endsect]") (lit "section " ++ r) (by simp [lit])
        exact absurd h this
    rw [notesStep, if_neg (by rw [h]; decide), if_neg (by rw [h1]; simp), noteOf, h2]
  · rw [notesStep, if_pos h]

theorem ClearLine.no_marks_heading {l : Str} (h : ClearLine l) (hh : LooksLikeHeading l) :
    isIn (lit "endsect") l = false ∧ isIn examplesTitle l = false ∧ isIn linkMark l = false :=
  ⟨isIn_false (h.heading hh _ (by simp [marks])), isIn_false (h.heading hh _ (by simp [marks, examplesTitle])),
    isIn_false (h.heading hh _ (by simp [marks, linkMark]))⟩

theorem ClearLine.no_marks_code {l : Str} (h : ClearLine l) (hh : isCode l = true) :
    isIn (lit "endsect") l = false ∧ isIn examplesTitle l = false ∧ isIn linkMark l = false := by
  have hc := h.code ((isCode_iff l).1 hh)
  exact ⟨isIn_false (hc _ (by simp [marks])), isIn_false (hc _ (by simp [marks, examplesTitle])),
    isIn_false (hc _ (by simp [marks, linkMark]))⟩

/-- Every line is of some kind. -/
theorem kind_of {l : Str} (hl : ClearLine l) (d : Bool) (st : ExtractState) : Kind d st l := by
  cases d with
  | true =>
    by_cases hs : strip l = lit "[endsect]"
    · obtain ⟨h1, h2, h3⟩ := endsect_of_strip hs
      have hb : strip l ≠ [] := by rw [hs]; decide
      by_cases he : st.inExamples = true
      · exact .ends he hb h1 (fun X => notes_endsect hs X true) fun X => notes_endsect hs X false
      · exact .ordinary (by simpa using he) hb h2 h3 (fun _ => []) fun X _ => ⟨notes_endsect hs X true, .inl rfl⟩
    · exact .nil fun X => by rw [notesStep, if_neg hs]
  | false =>
    by_cases ht : strip l = definitionsTitle
    · obtain ⟨h1, h2, h3⟩ := definitions_of_strip ht
      have hc : isCode l = false := by
        rw [← Bool.not_eq_true, isCode_iff]
        exact hl.title (by rw [← strip_eq_trimmed]; exact ht)
      by_cases he : st.inExamples = true
      · refine .inside he h1 rfl true (fun X => ['\n'] :: (X.map includeLine ++ [['\n']])) fun X hX => ⟨?_, ?_, ?_⟩
        · rw [notesStep, if_pos ht]
        · intro x hx
          simp only [List.mem_cons, List.mem_append, List.mem_map, List.not_mem_nil, or_false] at hx
          rcases hx with rfl | ⟨n, hn, rfl⟩ | rfl
          · decide
          · exact (plain_includeLine (hX n hn)).noEnd
          · decide
        · intro hf; rw [ht] at hf; exact absurd hf (by decide)
      · exact .definitions (by simpa using he) rfl ht hc h2 h3
    · by_cases hp : notePrefix.isPrefixOf l = true
      · exact .nil fun X => by rw [notesStep, if_neg ht, if_pos hp]
      · have hstep : ∀ X, notesStep X false l = (false, l :: noteOf X l) := fun X => by
          rw [notesStep, if_neg ht, if_neg hp]
        have hblank : strip l = [] → ∀ X, noteOf X l = [] := by
          intro hb X
          apply noteOf_plain
          rintro ⟨k, c, r, rfl, -⟩
          have := strip_blank hb '[' (by simp [lit])
          exact absurd this (by decide)
        have single : ¬ LooksLikeHeading l → ∀ X, notesStep X false l = (false, [l]) := by
          intro hh X
          rw [hstep, noteOf_plain hh]
        by_cases he : st.inExamples = true
        · by_cases hend : isIn (lit "endsect") l = true
          · have hh : ¬ LooksLikeHeading l := fun hh => by
              rw [(hl.no_marks_heading hh).1] at hend; simp at hend
            have hb : strip l ≠ [] := by
              intro hb
              have := strip_blank hb 'e' (((isIn_iff _ _).1 hend).mem (by decide))
              exact absurd this (by decide)
            exact .ends he hb hend (single hh) (single hh)
          · refine .inside he (by simpa using hend) rfl false (fun X => noteOf X l) fun X hX => ⟨hstep X, ?_, fun hb => hblank hb X⟩
            intro x hx
            rcases noteOf_cases hX (l := l) with h | ⟨-, -, n, h, hg⟩
            · rw [h] at hx; simp at hx
            · rw [h] at hx
              simp only [List.mem_cons, List.not_mem_nil, or_false] at hx
              subst hx
              exact (plain_noteLine hg).noEnd
        · have he : st.inExamples = false := by simpa using he
          by_cases hex : isIn examplesTitle l = true
          · have hh : ¬ LooksLikeHeading l := fun hh => by
              rw [(hl.no_marks_heading hh).2.1] at hex; simp at hex
            have hb : strip l ≠ [] := by
              intro hb
              have := strip_blank hb 'C' (((isIn_iff _ _).1 hex).mem (by decide))
              exact absurd this (by decide)
            have hc : isCode l = false := by
              rw [← Bool.not_eq_true]
              intro hc
              rw [(hl.no_marks_code hc).2.1] at hex; simp at hex
            exact .title he rfl hb hex hc (single hh)
          · have hex : isIn examplesTitle l = false := by simpa using hex
            by_cases hlk : isIn linkMark l = true
            · have hh : ¬ LooksLikeHeading l := fun hh => by
                rw [(hl.no_marks_heading hh).2.2] at hlk; simp at hlk
              have hb : strip l ≠ [] := by
                intro hb
                have := strip_blank hb 'c' (((isIn_iff _ _).1 hlk).mem (by decide))
                exact absurd this (by decide)
              exact .link he rfl hb hex hlk (single hh)
            · have hlk : isIn linkMark l = false := by simpa using hlk
              by_cases hb : strip l = []
              · refine .blankLine he rfl hb ?_ hex hlk fun X => by rw [hstep, hblank hb]
                · cases hn : numberedHeader l with
                  | none => rfl
                  | some n =>
                    have := numberedHeader_heading_some (l := l) (by rw [hn]; simp)
                    rw [List.isPrefixOf_iff_prefix] at this
                    have := strip_blank hb '[' (this.subset (by decide))
                    exact absurd this (by decide)
              · refine .ordinary he hb hex hlk (fun X => noteOf X l) fun X hX => ⟨hstep X, ?_⟩
                rcases noteOf_cases hX (l := l) with h | ⟨-, h1, h2⟩
                · exact .inl h
                · exact .inr ⟨h1, h2⟩

/-- After a line of code no blank lines are skipped, if none were before a blank one. -/
theorem code_skip {base : Str} {b : Bool} {W : List Str} (hW : GoodNames W) {d : Bool} {st : ExtractState} {l : Str}
    (hl : ClearLine l) (hc : isCode l = true) (hb : strip l = [] → d = true ∨ st.skipEmpty = false)
    {s' : Bool × ExtractState} {o : Extracted} (hs : againStep base b W (d, st) l = some (s', o)) :
    s'.1 = true ∨ s'.2.skipEmpty = false := by
  obtain ⟨m1, m2, m3⟩ := hl.no_marks_code hc
  have code : isCode l = false → False := fun h => by rw [hc] at h; simp at h
  have hord : (strip l ≠ [] ∨ st.skipEmpty = false) → st.inExamples = false → ∀ st' o',
      extractLine base st l = some (st', o') → st'.skipEmpty = false ∧ st'.counter = st.counter := by
    intro hb' he st' o' hx
    have := extractLine_skip base st (k := st.skipEmpty) hb'
    rw [skipping_self st rfl] at this
    rw [this, extractLine_ordinary base m2 m3 he] at hx
    obtain ⟨c1, c2, c3, c4⟩ := ordinary_cases hx
    refine ⟨c2, ?_⟩
    rcases c4 with h | h
    · exact h.1
    · exact (code h.1).elim
  have hone : d = false → (strip l ≠ [] ∨ st.skipEmpty = false) → st.inExamples = false →
      notesStep W d l = (false, [l]) → s'.2.skipEmpty = false := by
    intro hd hb' he hn
    cases hx : extractLine base st l with
    | none => rw [againStep, hn] at hs; simp [extractRun, hx] at hs
    | some r =>
      obtain ⟨st', o'⟩ := r
      obtain ⟨h1, h2⟩ := hord hb' he st' o' hx
      rw [againStep_single base b W hn hx] at hs
      rw [h2] at hs
      simp only [bne_self_eq_false, Bool.and_false, Bool.false_and, Bool.false_eq_true, if_false, Option.some.injEq,
        Prod.mk.injEq] at hs
      rw [← hs.1]; exact h1
  cases kind_of hl d st with
  | nil hn =>
    rw [againStep_nil base b W (hn W)] at hs
    simp only [Option.some.injEq, Prod.mk.injEq] at hs
    rw [← hs.1]
    cases d with
    | true => exact .inl rfl
    | false =>
      exfalso
      have := hn []
      rw [notesStep] at this
      split at this
      · simp at this
      · split at this
        · rename_i hp
          rw [List.isPrefixOf_iff_prefix] at hp
          obtain ⟨r, rfl⟩ := hp
          exact code (by simp [isCode, notePrefix, lit, List.isPrefixOf])
        · simp at this
  | ends he hb hend hn hn' => rw [m1] at hend; simp at hend
  | inside he hend hd d' nt hn =>
    obtain ⟨h1, h2, h3⟩ := hn W hW
    have hb' : strip l ≠ [] ∨ st.skipEmpty = false := by
      by_cases h : strip l = []
      · rcases hb h with h | h
        · rw [hd] at h; simp at h
        · exact .inr h
      · exact .inl h
    have hrun : extractRun base st (l :: nt W) = some (st.skipping false, {}) := by
      have := (extractLine_skip base st (k := st.skipEmpty) hb').trans (extractLine_inExamples base hend he)
      rw [skipping_self st rfl] at this
      rw [extractRun, this, Option.bind_some, extractRun_inExamples base he fun x hx => h2 x hx]
      rfl
    rw [againStep] at hs
    simp only [h1, hrun, Option.map_some, Option.some.injEq, Prod.mk.injEq] at hs
    rw [← hs.1]
    right
    simp [ExtractState.skipping]
  | title he hd hb ht hc' hn => exact (code hc').elim
  | link he hd hb ht hl hn => rw [m3] at hl; simp at hl
  | blankLine he hd hb' hq ht hl hn =>
    subst hd
    refine .inr (hone rfl (.inr ?_) he (hn W))
    rcases hb hb' with h | h
    · simp at h
    · exact h
  | ordinary he hb' ht hl nt hn =>
    obtain ⟨h1, h2⟩ := hn W hW
    have hnt : nt W = [] := by
      rcases h2 with h2 | ⟨h2, -⟩
      · exact h2
      · exact (code h2).elim
    rw [hnt] at h1
    cases d with
    | false => exact .inr (hone rfl (.inl hb') he h1)
    | true =>
      rw [notesStep] at h1
      split at h1
      · rename_i h
        have := (endsect_of_strip h).1
        rw [m1] at this; simp at this
      · simp at h1
  | definitions he hd ht' hc' ht hl => exact (code hc').elim

/-- A line in the second run. -/
theorem good_step {base : Str} (hbase : ClearName base) {b : Bool} {V W : List Str} (hV : GoodNames V) (hW : GoodNames W)
    {s : Bool × ExtractState} {k : Bool} (h : Again s k) {l : Str} (hl : ClearLine l)
    (hblank : isCode l = true → strip l = [] → s.1 = true ∨ s.2.skipEmpty = false ∧ k = false)
    {s' : Bool × ExtractState} {o : Extracted} (hs : againStep base b V s l = some (s', o)) :
    StepGood base V W l s k s' o := by
  obtain ⟨d, st⟩ := s
  have hg : ∀ X, X = V ∨ X = W → GoodNames X := by rintro X (rfl | rfl) <;> assumption
  cases kind_of hl d st with
  | nil hn =>
    rw [againStep_nil base b V (hn V)] at hs
    simp only [Option.some.injEq, Prod.mk.injEq] at hs
    obtain ⟨rfl, rfl⟩ := hs
    exact good_nil h (hn W)
  | ends he hb hend hn hn' => exact good_end hbase h he hb hend hn (hn' W) hs
  | inside he hend hd d' nt hn =>
    refine good_inExamples (d' := d') h he nt (fun X hX => ?_) hs
    obtain ⟨h1, h2, h3⟩ := hn X (hg X hX)
    refine ⟨h1, ?_, h3⟩
    intro x hx
    rcases List.mem_cons.1 hx with rfl | hx
    · exact hend
    · exact h2 x hx
  | title he hd hb ht hc hn => subst hd; exact good_title he hb ht hn hs
  | link he hd hb ht hl hn => subst hd; exact good_link h he hb ht hl hn hs
  | blankLine he hd hb hq ht hl hn =>
    subst hd
    cases hsk : st.skipEmpty with
    | true => exact good_skipped h hb hsk hn hs
    | false =>
      cases k with
      | true =>
        refine good_blank h hb hsk ?_ hq ht hl hn hs
        rw [← Bool.not_eq_true]
        intro hc
        rcases hblank hc hb with h | ⟨-, h⟩ <;> simp at h
      | false => exact good_ordinary hbase he (.inr ⟨hsk, rfl⟩) ht hl (fun _ => []) (fun X _ => ⟨hn X, .inl rfl⟩) hs
  | ordinary he hb ht hl nt hn => exact good_ordinary hbase he (.inl hb) ht hl nt (fun X hX => hn X (hg X hX)) hs
  | definitions he hd ht' hc ht hl => subst hd; exact good_definitions hbase hV hW he ht' hc ht hl hs

theorem SameParse.append {k k' k'' : Bool} {a a' b b' : List Str} (h : SameParse k k' a a') (h' : SameParse k' k'' b b') :
    SameParse k k'' (a ++ b) (a' ++ b') := by
  intro p hp
  obtain ⟨h1, h2, h3⟩ := h p hp
  obtain ⟨h4, h5, h6⟩ := h' (endState p a) h3
  rw [parseLoop_append, parseLoop_append, endState_append, endState_append, h1, h2]
  exact ⟨by rw [h4], h5, h6⟩

theorem nonBlank_append (a b : List Str) : nonBlank (a ++ b) = nonBlank a ++ nonBlank b := by simp [nonBlank]

/-- All lines in the second run. -/
theorem good_run {base : Str} (hbase : ClearName base) {b : Bool} {V W : List Str} (hV : GoodNames V) (hW : GoodNames W)
    {ls : List Str} : ∀ {s : Bool × ExtractState} {k c : Bool}, Again s k → (∀ l ∈ ls, ClearLine l) → BlanksInCode c ls →
    (c = true → s.1 = true ∨ s.2.skipEmpty = false ∧ k = false) →
    ∀ {s' : Bool × ExtractState} {o : Extracted}, againRun base b V s ls = some (s', o) →
    ∃ k' o', againRun base false W (second s k) o.lines = some (second s' k', o') ∧
      againRun base true W (third s k) ls = some (third s' k', o') ∧ o'.files = o.files ∧
      SameParse k k' o.lines o'.lines ∧ (V = W → nonBlank o'.lines = nonBlank o.lines) := by
  induction ls with
  | nil =>
    intro s k c h hl hbl hcs s' o hs
    simp only [againRun, Option.some.injEq, Prod.mk.injEq] at hs
    obtain ⟨rfl, rfl⟩ := hs
    exact ⟨k, {}, rfl, rfl, rfl, SameParse.nil k, fun _ => rfl⟩
  | cons l ls ih =>
    intro s k c h hl hbl hcs s' o hs
    rw [againRun, Option.bind_eq_some_iff] at hs
    obtain ⟨⟨s1, o1⟩, hs1, hs⟩ := hs
    rw [Option.map_eq_some_iff] at hs
    obtain ⟨⟨s2, o2⟩, hs2, hs⟩ := hs
    simp only [Prod.mk.injEq] at hs
    obtain ⟨rfl, rfl⟩ := hs
    obtain ⟨k1, o1', g1, g2, g3, g4, g5, g6⟩ := good_step hbase hV hW h (hl l (by simp)) (fun hc hb =>
      hcs (hbl.1 ((isCode_iff l).1 hc) (by rw [← trimmed_nil, ← strip_eq_trimmed]; exact hb))) hs1
    have hnext : isCode l = true → s1.1 = true ∨ s1.2.skipEmpty = false ∧ k1 = false := by
      intro hc
      have := code_skip hW (hl l (by simp)) hc (fun hb => by
        rcases hcs (hbl.1 ((isCode_iff l).1 hc) (by rw [← trimmed_nil, ← strip_eq_trimmed]; exact hb)) with h | ⟨h, h'⟩
        · exact .inl h
        · right
          show (s.2.skipEmpty || k) = false
          rw [h, h']; rfl) g2
      rcases this with h | h
      · exact .inl h
      · right
        have h : (s1.2.skipEmpty || k1) = false := h
        simpa using h
    obtain ⟨k2, o2', f1, f2, f3, f5, f6⟩ := ih g4 (fun x hx => hl x (by simp [hx])) hbl.2 hnext hs2
    refine ⟨k2, o1'.add o2', ?_, ?_, ?_, g5.append f5, fun e => ?_⟩
    · rw [show (o1.add o2).lines = o1.lines ++ o2.lines from rfl, againRun_append, g1, Option.bind_some]
      simp only
      rw [f1]
      rfl
    · rw [againRun, g2, Option.bind_some]
      simp only
      rw [f2]
      rfl
    · simp [Extracted.add, g3, f3]
    · simp only [Extracted.add, nonBlank_append, g6 e, f6 e]

end Metaparse.Gen
