import Verif.Lemmas.GenerateSnippets

/-! # The copy-paste friendly versions of the snippets -/

namespace Metaparse.Gen

/-! ## A command -/

theorem lstrip_append {l : Str} (h : ∃ c ∈ l, blank c = false) (t : Str) : lstrip (l ++ t) = lstrip l ++ t := by
  induction l with
  | nil => obtain ⟨c, hc, -⟩ := h; simp at hc
  | cons d l ih =>
    by_cases hd : blank d = true
    · rw [List.cons_append, lstrip_blank hd, lstrip_blank hd]
      apply ih
      obtain ⟨c, hc, hb⟩ := h
      rcases List.mem_cons.1 hc with rfl | hc
      · rw [hb] at hd; simp at hd
      · exact ⟨c, hc, hb⟩
    · rw [List.cons_append, lstrip_of_head (by simpa using hd), lstrip_of_head (by simpa using hd)]
      rfl

theorem lstrip_append_cons (l : Str) {c : Char} (h : blank c = false) (t : Str) :
    lstrip (l ++ c :: t) = lstrip l ++ c :: t := by
  induction l with
  | nil => exact lstrip_of_head h
  | cons d l ih =>
    by_cases hd : blank d = true
    · rw [List.cons_append, lstrip_blank hd, lstrip_blank hd, ih]
    · rw [List.cons_append, lstrip_of_head (by simpa using hd), lstrip_of_head (by simpa using hd)]
      rfl

theorem lstrip_suffix (l : Str) : lstrip l <:+ l := List.dropWhile_suffix _

/-- A line so far, that may be continued: it begins with something and ends with a blank. -/
structure Joined (a : Str) (ws : List Str) : Prop where
  head : ∃ c r, a = c :: r ∧ blank c = false
  last : a.getLast? = some ' '
  words : words a = ws
  line : '\n' ∉ a

theorem Joined.strip {a : Str} {ws : List Str} (h : Joined a ws) : stripNotFinishedLine (a ++ lit "\\\n") = a := by
  obtain ⟨c, r, rfl, hc⟩ := h.head
  have : Gen.strip (c :: r ++ lit "\\\n") = (c :: r) ++ ['\\'] := by
    have e : (c :: r) ++ lit "\\\n" = ((c :: r) ++ ['\\']) ++ ['\n'] := by simp [lit]
    rw [e, Gen.strip, List.cons_append, List.cons_append, lstrip_of_head hc, ← List.cons_append, ← List.cons_append,
      rstrip_append_blank (by decide), rstrip_of_last (by decide)]
  rw [stripNotFinishedLine, this]
  have h2 : ['\\'].isSuffixOf ((c :: r) ++ ['\\']) = true := by
    rw [List.isSuffixOf_iff_suffix]; exact List.suffix_append _ _
  simp only [h2, if_true, List.dropLast_concat]

theorem Joined.add {a : Str} {ws : List Str} (h : Joined a ws) {l : Str} (hl : '\n' ∉ l) (hb : l.getLast? = some ' ') :
    Joined (a ++ lstrip l) (ws ++ Gen.words l) := by
  obtain ⟨c, r, rfl, hc⟩ := h.head
  refine ⟨⟨c, r ++ lstrip l, rfl, hc⟩, ?_, ?_, ?_⟩
  · rw [List.getLast?_append]
    cases hs : (lstrip l).getLast? with
    | none => simpa using h.last
    | some d =>
      obtain ⟨p, hp⟩ := lstrip_suffix l
      rw [← hp, List.getLast?_append, hs] at hb
      simpa using hb
  · obtain ⟨q, hq⟩ := List.getLast?_eq_some_iff.1 h.last
    have h1 : Gen.words (c :: r) = Gen.words q := by rw [hq]; exact words_append_blanks q (by decide)
    rw [hq, List.append_assoc, List.singleton_append, words_append q (by decide), ← h1, h.words, words_lstrip]
  · rw [List.mem_append]
    rintro (hn | hn)
    · exact h.line hn
    · exact hl ((lstrip_suffix l).subset hn)

theorem Joined.words_add {a : Str} {ws : List Str} (h : Joined a ws) (l : Str) :
    Gen.words (a ++ lstrip l) = ws ++ Gen.words l := by
  obtain ⟨q, hq⟩ := List.getLast?_eq_some_iff.1 h.last
  have h1 : Gen.words a = Gen.words q := by rw [hq]; exact words_append_blanks q (by decide)
  rw [hq, List.append_assoc, List.singleton_append, words_append q (by decide), ← h1, h.words, words_lstrip]

theorem getLast_drop {l : Str} {ls : List Str} (h : ls ≠ []) : (l :: ls).getLast? = ls.getLast? := by
  cases ls with
  | nil => exact absurd rfl h
  | cons a ls => rw [List.getLast?_cons_cons]

theorem copy_rest {ls : List Str} (hls : ls ≠ []) (h : ∀ l ∈ ls, CommandLine l) (hc : CopyCommand ls) :
    ∀ {a : Str} {ws : List Str}, Joined a ws → ∀ (res more : List Str), ∃ b,
      copyPasteLoop (res ++ [a ++ lit "\\\n"]) ((printCommand (lit "  ...> ") ls).map (·.drop 2) ++ more) =
        copyPasteLoop (res ++ [b ++ lit "\n"]) more ∧
      words b = ws ++ ls.flatMap words ∧ '\n' ∉ b := by
  induction ls with
  | nil => exact absurd rfl hls
  | cons l ls ih =>
    intro a ws ha res more
    have hl := h l (by simp)
    have step : ∀ (t : Str) (more : List Str), copyPasteLoop (res ++ [a ++ lit "\\\n"]) ((lit "  ...> " ++ l ++ t).drop 2 :: more) =
        copyPasteLoop (res ++ [a ++ lstrip (l ++ t)]) more := by
      intro t more
      have e : (lit "  ...> " ++ l ++ t).drop 2 = lit "...> " ++ (l ++ t) := by simp [lit]
      rw [e, copyPasteLoop, if_neg (by simp [lit, List.isPrefixOf]),
        if_pos (by rw [List.isPrefixOf_iff_prefix]; exact List.prefix_append _ _)]
      simp only [List.getLast?_concat, List.dropLast_concat]
      rw [ha.strip]
      congr 1
    by_cases hm : ls = []
    · subst hm
      have hne := hc.2 l (by simp)
      refine ⟨a ++ lstrip l, ?_, ?_, ?_⟩
      · rw [printCommand, List.map_cons, List.map_nil, List.cons_append, List.nil_append, step, lstrip_append hne,
          List.append_assoc]
      · rw [ha.words_add]; simp
      · rw [List.mem_append]
        rintro (hn | hn)
        · exact ha.line hn
        · exact hl.no_feed ((lstrip_suffix l).subset hn)
    · have hb : l.getLast? = some ' ' := hc.1 l (by rw [List.dropLast_cons_of_ne_nil hm]; exact List.mem_cons_self)
      obtain ⟨b, h1, h2, h3⟩ := ih hm (fun x hx => h x (by simp [hx]))
        ⟨fun x hx => hc.1 x (by rw [List.dropLast_cons_of_ne_nil hm]; exact List.mem_cons_of_mem _ hx),
         fun x hx => hc.2 x (by rw [getLast_drop hm]; exact hx)⟩
        (ha.add hl.no_feed hb) res more
      refine ⟨b, ?_, ?_, h3⟩
      · rw [printCommand, List.map_cons, List.cons_append, step,
          show lit "\\\n" = '\\' :: lit "\n" from rfl, lstrip_append_cons l (by decide), ← List.append_assoc]
        · exact h1
        · exact hm
      · rw [h2]; simp

/-- A command in one line. -/
theorem copy_command {ls : List Str} (h : WellWrittenCommand ls) (hc : CopyCommand ls) (res more : List Str) : ∃ b,
    copyPasteLoop res ((printCommand (lit "  > ") ls).map (·.drop 2) ++ more) = copyPasteLoop (res ++ [b ++ lit "\n"]) more ∧
    words b = ls.flatMap words ∧ '\n' ∉ b := by
  obtain ⟨h, c, l, ls, rfl, hc1, -⟩ := h
  have hl := h (c :: l) (by simp)
  have hcb : blank c = false := by
    rw [← Bool.not_eq_true]
    exact fun hb => hc1 (hl.blanks c (by simp) hb)
  have step : ∀ (t : Str) (more : List Str), copyPasteLoop res ((lit "  > " ++ (c :: l) ++ t).drop 2 :: more) =
      copyPasteLoop (res ++ [c :: l ++ t]) more := by
    intro t more
    have e : (lit "  > " ++ (c :: l) ++ t).drop 2 = lit "> " ++ (c :: l ++ t) := by simp [lit]
    rw [e, copyPasteLoop, if_pos (by rw [List.isPrefixOf_iff_prefix]; exact List.prefix_append _ _)]
    congr 1
  by_cases hm : ls = []
  · subst hm
    refine ⟨c :: l, ?_, by simp, hl.no_feed⟩
    rw [printCommand, List.map_cons, List.map_nil, List.cons_append, List.nil_append, step]
  · have hb : (c :: l).getLast? = some ' ' := hc.1 _ (by rw [List.dropLast_cons_of_ne_nil hm]; exact List.mem_cons_self)
    obtain ⟨b, h1, h2, h3⟩ := copy_rest hm (fun x hx => h x (by simp [hx]))
      ⟨fun x hx => hc.1 x (by rw [List.dropLast_cons_of_ne_nil hm]; exact List.mem_cons_of_mem _ hx),
       fun x hx => hc.2 x (by rw [getLast_drop hm]; exact hx)⟩
      (a := c :: l) ⟨⟨c, l, rfl, hcb⟩, hb, rfl, hl.no_feed⟩ res more
    refine ⟨b, ?_, ?_, h3⟩
    · rw [printCommand, List.map_cons, List.cons_append, step]
      · exact h1
      · exact hm
    · rw [h2]; simp

/-- Commands, each in one line. -/
theorem copy_commands {cs : List (List Str)} (h : ∀ ls ∈ cs, WellWrittenCommand ls) (hc : ∀ ls ∈ cs, CopyCommand ls) :
    ∀ res : List Str, ∃ bs : List Str,
      copyPasteLoop res (cs.flatMap fun ls => (printCommand (lit "  > ") ls).map (·.drop 2)) =
        some (res ++ bs.map (· ++ lit "\n")) ∧
      bs.map words = cs.map (·.flatMap words) ∧ ∀ b ∈ bs, '\n' ∉ b := by
  induction cs with
  | nil => intro res; exact ⟨[], by simp [copyPasteLoop], rfl, by simp⟩
  | cons ls cs ih =>
    intro res
    obtain ⟨b, h1, h2, h3⟩ := copy_command (h ls (by simp)) (hc ls (by simp)) res
      (cs.flatMap fun ls => (printCommand (lit "  > ") ls).map (·.drop 2))
    obtain ⟨bs, h4, h5, h6⟩ := ih (fun x hx => h x (by simp [hx])) (fun x hx => hc x (by simp [hx])) (res ++ [b ++ lit "\n"])
    refine ⟨b :: bs, ?_, by simp [h2, h5], ?_⟩
    · rw [List.flatMap_cons, h1, h4]; simp
    · intro x hx
      rcases List.mem_cons.1 hx with rfl | hx
      · exact h3
      · exact h6 x hx

/-! ## The file -/

theorem snippetName_eq (base : Str) (k : Nat) : snippetName base k = copyName base k := by
  rw [snippetName, copyName, number_eq]; rfl

theorem linesOf_flatten {bs : List Str} (h : ∀ b ∈ bs, '\n' ∉ b) (t : Str) :
    linesOf ((bs.map (· ++ lit "\n")).flatten ++ t) = bs ++ linesOf t := by
  induction bs with
  | nil => rfl
  | cons b bs ih =>
    have e : ((b :: bs).map (· ++ lit "\n")).flatten ++ t = b ++ '\n' :: ((bs.map (· ++ lit "\n")).flatten ++ t) := by
      simp [lit]
    rw [e, linesOf_append, linesOf_line (h b (by simp)), ih fun x hx => h x (by simp [hx])]
    rfl

theorem codeLines_file {base : Str} (hbase : ClearName base) (k : Nat) {bs : List Str} (h : ∀ b ∈ bs, '\n' ∉ b) :
    (codeLines (snippetFile base k (bs.map (· ++ lit "\n")))).map words = bs.map words := by
  have e : snippetFile base k (bs.map (· ++ lit "\n")) =
      (([lit "[#" ++ snippetName base k ++ lit "]", []] ++ bs.map (lit "  " ++ ·)).map (· ++ lit "\n")).flatten ++
        lit "\n" := by
    simp [snippetFile, lit, Function.comp_def]
  have hline : ∀ b ∈ [lit "[#" ++ snippetName base k ++ lit "]", []] ++ bs.map (lit "  " ++ ·), '\n' ∉ b := by
    intro b hb
    simp only [List.mem_append, List.mem_cons, List.not_mem_nil, or_false, List.mem_map] at hb
    rcases hb with (rfl | rfl) | ⟨x, hx, rfl⟩
    · simp only [snippetName, List.mem_append, not_or]
      exact ⟨⟨by decide, ⟨hbase.1, by decide⟩, not_mem_number (by decide)⟩, by decide⟩
    · simp
    · rw [List.mem_append]
      rintro (hn | hn)
      · exact absurd hn (by decide)
      · exact h x hx hn
  rw [codeLines, e]
  rw [linesOf_flatten hline, List.filter_append, List.filter_append]
  have h1 : List.filter (fun l => (lit "  ").isPrefixOf l) [lit "[#" ++ snippetName base k ++ lit "]", []] = [] := by
    simp [lit, List.isPrefixOf]
  have h2 : List.filter (fun l => (lit "  ").isPrefixOf l) (bs.map (lit "  " ++ ·)) = bs.map (lit "  " ++ ·) := by
    rw [List.filter_eq_self]
    intro x hx
    obtain ⟨y, -, rfl⟩ := List.mem_map.1 hx
    rw [List.isPrefixOf_iff_prefix]
    exact List.prefix_append _ _
  have h3 : List.filter (fun l => (lit "  ").isPrefixOf l) (linesOf (lit "\n")) = [] := by decide
  rw [h1, h2, h3]
  simp only [List.nil_append, List.append_nil, List.map_map]
  apply List.map_congr_left
  intro b _
  show words (' ' :: ' ' :: b) = words b
  rw [words_blank (by decide), words_blank (by decide)]

/-! ## Snippets -/

/-- Is a line entered? -/
def isPrompt (l : Str) : Bool := (lit "  > ").isPrefixOf l || (lit "  ...> ").isPrefixOf l

theorem plain_code (base : Str) {ls : List Str} (h : ∀ l ∈ ls, isCode l = true) :
    ∀ {st : ExtractState}, st.inCode = true →
      plainRun base st ls = some ({ st with code := st.code ++ (ls.filter isPrompt).map (·.drop 2) }, ⟨ls, []⟩) := by
  induction ls with
  | nil => intro st _; simp [plainRun]
  | cons l ls ih =>
    intro st hi
    have ih := fun {st} => ih (fun x hx => h x (by simp [hx])) (st := st)
    rw [plainRun, extractOrdinary, if_pos hi, if_pos (h l (by simp))]
    rw [show ((lit "  > ").isPrefixOf l || (lit "  ...> ").isPrefixOf l) = isPrompt l from rfl]
    by_cases hp : isPrompt l = true
    · rw [if_pos hp, Option.bind_some, ih (st := { st with code := st.code ++ [l.drop 2] }) hi, List.filter_cons_of_pos hp]
      simp [Extracted.add]
    · rw [if_neg hp, Option.bind_some, ih hi, List.filter_cons_of_neg hp]
      simp [Extracted.add]

/-- A snippet: the first line, and the other lines that are entered. -/
theorem plain_snippet (base : Str) {l : Str} {ls : List Str} (h : ∀ x ∈ l :: ls, isCode x = true) {st : ExtractState}
    (hi : st.inCode = false) :
    plainRun base st (l :: ls) =
      some ({ st with inCode := true, code := l.drop 2 :: (ls.filter isPrompt).map (·.drop 2) }, ⟨l :: ls, []⟩) := by
  rw [plainRun, extractOrdinary, if_neg (by rw [hi]; simp), if_pos (h l (by simp)), Option.bind_some,
    plain_code base (fun x hx => h x (by simp [hx])) rfl]
  simp [Extracted.add]

theorem length_printCommand : ∀ (p : Str) (ls : List Str), (printCommand p ls).length = ls.length
  | _, [] => rfl
  | _, [_] => rfl
  | p, l :: l' :: ls => by
      rw [printCommand, List.length_cons, length_printCommand, List.length_cons]
      · rfl
      · simp

theorem prompts_printCommand : ∀ (p : Str) (ls : List Str), (p = lit "  > " ∨ p = lit "  ...> ") →
    ∀ x ∈ printCommand p ls, isPrompt x = true ∧ isCode x = true
  | _, [], _, x, hx => by simp [printCommand] at hx
  | p, l :: ls, hp, x, hx => by
      have hx' : (∃ t, x = p ++ t) ∨ x ∈ printCommand (lit "  ...> ") ls := by
        cases ls with
        | nil =>
          simp only [printCommand, List.mem_cons, List.not_mem_nil, or_false] at hx
          exact .inl ⟨l ++ lit "\n", by rw [hx]; simp⟩
        | cons l' ls =>
          rw [printCommand] at hx
          · rcases List.mem_cons.1 hx with hx | hx
            · exact .inl ⟨l ++ lit "\\\n", by rw [hx]; simp⟩
            · exact .inr hx
          · simp
      rcases hx' with ⟨t, rfl⟩ | hx
      · rcases hp with rfl | rfl
        · simp [isPrompt, isCode, lit, List.isPrefixOf]
        · simp [isPrompt, isCode, lit, List.isPrefixOf]
      · exact prompts_printCommand _ ls (.inr rfl) x hx

theorem not_prefix_line {p l : Str} (hp : '\n' ∉ p) (h : ¬ p <+: l) : ¬ lit "  " ++ p <+: lit "  " ++ l ++ lit "\n" := by
  rw [List.append_assoc, List.prefix_append_right_inj]
  intro hpre
  apply h
  rcases Nat.lt_or_ge l.length p.length with hlt | hge
  · exfalso
    have h2 := hpre.length_le
    have h3 := hpre.eq_of_length (by simp only [List.length_append, show (lit "\n").length = 1 from rfl] at h2 ⊢; omega)
    exact hp (by rw [h3]; simp [lit])
  · exact List.prefix_of_prefix_length_le hpre (List.prefix_append _ _) hge

theorem not_prompt {l : Str} (h : ¬ lit "> " <+: l ∧ ¬ lit "...> " <+: l) : isPrompt (lit "  " ++ l ++ lit "\n") = false := by
  have h1 := not_prefix_line (by decide) h.1
  have h2 := not_prefix_line (by decide) h.2
  rw [← Bool.not_eq_true, isPrompt, Bool.or_eq_true, List.isPrefixOf_iff_prefix, List.isPrefixOf_iff_prefix]
  rintro (h | h)
  · exact h1 h
  · exact h2 h

theorem code_line (l : Str) : isCode (lit "  " ++ l ++ lit "\n") = true := by
  simp [isCode, lit, List.isPrefixOf]

theorem isCode_text {l : Str} (h : ¬ lit "  " <+: l) : isCode (l ++ lit "\n") = false := by
  rw [← Bool.not_eq_true, isCode_iff]
  intro hp
  apply h
  rcases Nat.lt_or_ge l.length 2 with hlt | hge
  · exfalso
    have h2 := hp.length_le
    have h3 := hp.eq_of_length (by
      simp only [List.length_append, show (lit "\n").length = 1 from rfl, show (lit "  ").length = 2 from rfl] at h2 ⊢; omega)
    have : '\n' ∈ lit "  " := by rw [h3]; simp [lit]
    exact absurd this (by decide)
  · exact List.prefix_of_prefix_length_le hp (List.prefix_append _ _) hge

/-- What is entered in the parts of a session. -/
theorem prompts_session {ps : List Part} (h : ∀ p ∈ ps, CopyPart p) :
    ((ps.flatMap Part.print).filter isPrompt).map (·.drop 2) =
      (Piece.session ps).commands.flatMap (fun ls => (printCommand (lit "  > ") ls).map (·.drop 2)) ∧
    (∀ x ∈ ps.flatMap Part.print, isCode x = true) := by
  induction ps with
  | nil => exact ⟨rfl, by simp⟩
  | cons p ps ih =>
    obtain ⟨h1, h2⟩ := ih fun q hq => h q (by simp [hq])
    have hp := h p (by simp)
    rw [List.flatMap_cons, List.filter_append, List.map_append, h1]
    cases p with
    | command ls =>
      constructor
      · have : (printCommand (lit "  > ") ls).filter isPrompt = printCommand (lit "  > ") ls := by
          rw [List.filter_eq_self]
          exact fun x hx => (prompts_printCommand _ ls (.inl rfl) x hx).1
        rw [show Part.print (.command ls) = printCommand (lit "  > ") ls from rfl, this]
        rfl
      · intro x hx
        rcases List.mem_append.1 hx with hx | hx
        · exact (prompts_printCommand _ ls (.inl rfl) x hx).2
        · exact h2 x hx
    | output l =>
      constructor
      · rw [show Part.print (.output l) = [lit "  " ++ l ++ lit "\n"] from rfl,
          List.filter_cons_of_neg (by rw [not_prompt hp]; simp)]
        rfl
      · intro x hx
        rcases List.mem_append.1 hx with hx | hx
        · simp only [Part.print, List.mem_cons, List.not_mem_nil, or_false] at hx
          rw [hx]; exact code_line l
        · exact h2 x hx

theorem commands_mem {ps : List Part} {ls : List Str} (h : ls ∈ (Piece.session ps).commands) : .command ls ∈ ps := by
  simp only [Piece.commands, List.mem_flatMap] at h
  obtain ⟨p, hp, h⟩ := h
  cases p with
  | command ls' => simp at h; subst h; exact hp
  | output l => simp at h

/-- The code that is collected of a snippet. -/
theorem plain_piece (base : Str) {p : Piece} (hw : WellWrittenPiece p) (hc : CopyPiece p) (hs : p.isSnippet = true)
    {st : ExtractState} (hi : st.inCode = false) :
    ∃ code : List Str, plainRun base st p.print = some ({ st with inCode := true, code := code }, ⟨p.print, []⟩) ∧
      (code.length > 1 ↔ 2 ≤ p.entered) ∧
      (2 ≤ p.entered → code = p.commands.flatMap (fun ls => (printCommand (lit "  > ") ls).map (·.drop 2))) ∧
      (∀ ls ∈ p.commands, WellWrittenCommand ls ∧ CopyCommand ls) := by
  cases p with
  | heading n t => simp [Piece.isSnippet] at hs
  | text l => simp [Piece.isSnippet] at hs
  | code ls =>
    obtain ⟨-, l, more, rfl, -⟩ := hw
    have hcode : ∀ x ∈ (lit "  " ++ l ++ lit "\n") :: more.map (fun l => lit "  " ++ l ++ lit "\n"), isCode x = true := by
      intro x hx
      rcases List.mem_cons.1 hx with rfl | hx
      · exact code_line l
      · obtain ⟨y, -, rfl⟩ := List.mem_map.1 hx
        exact code_line y
    have hnone : (more.map (fun l => lit "  " ++ l ++ lit "\n")).filter isPrompt = [] := by
      rw [List.filter_eq_nil_iff]
      intro x hx
      obtain ⟨y, hy, rfl⟩ := List.mem_map.1 hx
      rw [not_prompt (hc y (by simp [hy]))]
      simp
    refine ⟨_, plain_snippet base hcode hi, ?_, ?_, ?_⟩
    · rw [hnone]
      simp [Piece.entered, Piece.commands]
    · simp [Piece.entered, Piece.commands]
    · simp [Piece.commands]
  | session ps =>
    obtain ⟨hw, ls0, more, rfl⟩ := hw
    have hw0 : WellWrittenCommand ls0 := hw (.command ls0) (by simp)
    obtain ⟨h1, h2⟩ := prompts_session hc
    obtain ⟨-, c, l, ls, rfl, -, -⟩ := hw0
    have hpr : ∃ x xs, printCommand (lit "  > ") ((c :: l) :: ls) = x :: xs ∧ isPrompt x = true := by
      cases hx : printCommand (lit "  > ") ((c :: l) :: ls) with
      | nil =>
        have := length_printCommand (lit "  > ") ((c :: l) :: ls)
        rw [hx] at this
        simp at this
      | cons x xs => exact ⟨x, xs, rfl, (prompts_printCommand _ _ (.inl rfl) x (by rw [hx]; simp)).1⟩
    obtain ⟨x, xs, hx, hxp⟩ := hpr
    have hprint : (Piece.session (.command ((c :: l) :: ls) :: more)).print = x :: (xs ++ more.flatMap Part.print) := by
      show List.flatMap Part.print (.command ((c :: l) :: ls) :: more) = _
      rw [List.flatMap_cons, show Part.print (.command ((c :: l) :: ls)) = x :: xs from hx]
      rfl
    have hp : List.flatMap Part.print (.command ((c :: l) :: ls) :: more) = x :: (xs ++ more.flatMap Part.print) := hprint
    rw [hp] at h1 h2
    rw [List.filter_cons_of_pos hxp, List.map_cons] at h1
    rw [hprint]
    refine ⟨_, plain_snippet base h2 hi, ?_, fun _ => h1, ?_⟩
    · rw [h1, Piece.entered]
      have : ∀ cs : List (List Str), (cs.flatMap fun ls => (printCommand (lit "  > ") ls).map (·.drop 2)).length =
          (cs.map List.length).sum := by
        intro cs
        induction cs with
        | nil => rfl
        | cons c cs ih => rw [List.flatMap_cons, List.length_append, ih, List.length_map, length_printCommand]; rfl
      rw [this]
      exact Iff.rfl
    · intro ls hls
      have := commands_mem hls
      exact ⟨hw _ this, hc _ this⟩

/-- A line that is not code. -/
theorem print_text {p : Piece} (hw : WellWrittenPiece p) (hs : p.isSnippet = false) :
    ∃ l, p.print = [l] ∧ isCode l = false ∧ p.entered = 0 := by
  cases p with
  | heading n t => exact ⟨_, rfl, by simp [isCode, lit, List.isPrefixOf], rfl⟩
  | text l => exact ⟨_, rfl, isCode_text hw.2.1, rfl⟩
  | code ls => simp [Piece.isSnippet] at hs
  | session ps => simp [Piece.isSnippet] at hs

theorem linked_text (base : Str) (k : Nat) {q : Piece} (h : q.entered = 0) (doc : List Piece) :
    linked base k (q :: doc) = q.print ++ linked base k doc := by
  cases doc with
  | nil => simp [linked]
  | cons p doc => rw [linked, if_neg (by omega)]

theorem copied_text {q : Piece} (h : q.entered = 0) (doc : List Piece) : copied (q :: doc) = copied doc := by
  cases doc with
  | nil => simp [copied]
  | cons p doc => rw [copied, if_neg (by omega)]

/-- The name of the file of a copy, and what the lines of code in it are. -/
def copyFile (base : Str) (k : Nat) (p : Piece) : Str × List (List Str) :=
  (copyName base k ++ lit ".qbk", p.commands.map (·.flatMap words))

theorem plain_doc {base : Str} (hbase : ClearName base) : ∀ (n : Nat) {doc : List Piece}, doc.length ≤ n →
    (∀ p ∈ doc, WellWrittenPiece p) → Separated doc → (∀ p ∈ doc, CopyPiece p) → ∀ {st : ExtractState}, st.inCode = false →
    ∃ st' o, plainRun base st (printTutorial doc) = some (st', o) ∧ st'.counter = st.counter + (copied doc).length ∧
      o.files.map (fun f => (f.1, (codeLines f.2).map words)) =
        (copied doc).mapIdx (fun k p => copyFile base (st.counter + k) p) ∧
      nonBlank o.lines = nonBlank (linked base st.counter doc)
  | _, [], _, _, _, _, st, _ => ⟨st, {}, rfl, rfl, rfl, rfl⟩
  | 0, p :: doc, hn, _, _, _, _, _ => by simp at hn
  | n + 1, p :: doc, hn, hw, hs, hc, st, hi => by
      have hwp := hw p (by simp)
      have hpr : printTutorial (p :: doc) = p.print ++ printTutorial doc := List.flatMap_cons
      rw [hpr, plainRun_append]
      by_cases hsn : p.isSnippet = true
      · obtain ⟨code, h1, h2, h3, h4⟩ := plain_piece base hwp (hc p (by simp)) hsn hi
        rw [h1, Option.bind_some]
        cases doc with
        | nil =>
          exact ⟨_, _, rfl, rfl, rfl, by simp [linked, Extracted.add]⟩
        | cons q doc =>
          have hq : q.isSnippet = false := hs.1 hsn
          have hwq := hw q (by simp)
          obtain ⟨l, hl, hlc, hq0⟩ := print_text hwq hq
          have hsd : Separated doc := by
            have := hs.2
            cases doc with
            | nil => trivial
            | cons r doc => exact this.2
          have ih := fun {st : ExtractState} (hi : st.inCode = false) => plain_doc hbase n (doc := doc)
            (by simp at hn; omega)
            (fun x hx => hw x (by simp [hx])) hsd (fun x hx => hc x (by simp [hx])) (st := st) hi
          have hpr' : printTutorial (q :: doc) = [l] ++ printTutorial doc := by
            rw [← hl]; exact List.flatMap_cons
          rw [hpr', plainRun_append]
          by_cases he : 2 ≤ p.entered
          · have hlen := h2.2 he
            obtain ⟨bs, b1, b2, b3⟩ := copy_commands (fun x hx => (h4 x hx).1) (fun x hx => (h4 x hx).2) []
            have hcopy : makeCopyPasteFriendly code = some (bs.map (· ++ lit "\n")) := by
              rw [makeCopyPasteFriendly, h3 he, b1]; rfl
            have hord : extractOrdinary base { st with inCode := true, code := code } l =
                some ({ st with inCode := false, code := code, counter := st.counter + 1 },
                  ⟨[l, linkLine base st.counter, ['\n']],
                   [(snippetName base st.counter ++ lit ".qbk", snippetFile base st.counter (bs.map (· ++ lit "\n")))]⟩) := by
              rw [extractOrdinary, if_pos rfl, if_neg (by rw [hlc]; simp), if_pos hlen]
              rw [show ({ st with inCode := true, code := code } : ExtractState).code = code from rfl, hcopy]
              rfl
            rw [plainRun_single hord, Option.bind_some]
            obtain ⟨st', o, i1, i2, i3, i4⟩ := ih (st := { st with inCode := false, code := code, counter := st.counter + 1 }) rfl
            rw [i1]
            refine ⟨st', _, rfl, ?_, ?_, ?_⟩
            · rw [i2, copied, if_pos he, copied_text hq0, List.length_cons]
              show st.counter + 1 + _ = _
              omega
            · show (_ ++ (_ ++ o.files)).map _ = _
              rw [List.nil_append, List.map_append, i3, copied, if_pos he, copied_text hq0, List.mapIdx_cons]
              simp only [List.map_cons, List.map_nil, List.cons_append, List.nil_append, List.cons.injEq]
              constructor
              · rw [copyFile, snippetName_eq, codeLines_file hbase _ b3, b2]
                rfl
              · congr 1
                funext k x
                rw [show st.counter + 1 + k = st.counter + (k + 1) by omega]
            · show nonBlank (p.print ++ ([l, linkLine base st.counter, ['\n']] ++ o.lines)) = _
              have e : linkLine base st.counter = copyLink base st.counter := by
                rw [linkLine, copyLink, snippetName_eq]
              have e2 : [l, linkLine base st.counter, ['\n']] ++ o.lines = [l] ++ ([linkLine base st.counter] ++ ([['\n']] ++ o.lines)) := rfl
              have e3 : ∀ y, (copyLink base st.counter :: y) = [copyLink base st.counter] ++ y := fun _ => rfl
              rw [linked, if_pos he, e2, e3, hl, ← e, List.append_assoc]
              simp only [nonBlank_append]
              rw [i4, show nonBlank [['\n']] = [] by decide]
              rfl
          · have hlen : ¬ code.length > 1 := fun h => he (h2.1 h)
            have hord : extractOrdinary base { st with inCode := true, code := code } l =
                some ({ st with inCode := false, code := code }, ⟨[l], []⟩) := by
              rw [extractOrdinary, if_pos rfl, if_neg (by rw [hlc]; simp), if_neg hlen]
            rw [plainRun_single hord, Option.bind_some]
            obtain ⟨st', o, i1, i2, i3, i4⟩ := ih (st := { st with inCode := false, code := code }) rfl
            rw [i1]
            refine ⟨st', _, rfl, ?_, ?_, ?_⟩
            · rw [i2, copied, if_neg he, copied_text hq0]
            · show ([] ++ ([] ++ o.files)).map _ = _
              rw [List.nil_append, List.nil_append, i3, copied, if_neg he, copied_text hq0]
            · show nonBlank (p.print ++ ([l] ++ o.lines)) = _
              rw [linked, if_neg he, linked_text base _ hq0, nonBlank_append, nonBlank_append, nonBlank_append,
                nonBlank_append, i4, hl]
      · obtain ⟨l, hl, hlc, hp0⟩ := print_text hwp (by simpa using hsn)
        have hsd : Separated doc := by
          cases doc with
          | nil => trivial
          | cons r doc => exact hs.2
        obtain ⟨st', o, i1, i2, i3, i4⟩ := plain_doc hbase n (doc := doc) (by simp at hn; omega)
          (fun x hx => hw x (by simp [hx])) hsd (fun x hx => hc x (by simp [hx])) (st := st) hi
        rw [hl, plainRun_single (ordinary_text base hi hlc), Option.bind_some, i1]
        refine ⟨st', _, rfl, ?_, ?_, ?_⟩
        · rw [i2, copied_text hp0]
        · show ([] ++ o.files).map _ = _
          rw [List.nil_append, i3, copied_text hp0]
        · show nonBlank ([l] ++ o.lines) = _
          rw [linked_text base _ hp0, nonBlank_append, nonBlank_append, i4, hl]

/-! ## The generator -/

theorem generate_snippets {base src : Str} (hbase : ClearName base) (hsrc : Ended src)
    (hclear : ClearText (textLines src)) (hap : Apart false (textLines src)) {doc : List Piece}
    (hdoc : body src = printTutorial doc) (hw : ∀ p ∈ doc, WellWrittenPiece p) (hs : Separated doc)
    (hc : ∀ p ∈ doc, CopyPiece p) {g : Generated} (hg : generate base src = some g) :
    g.snippets.map (fun f => (f.1, (codeLines f.2).map words)) = (copied doc).mapIdx (copyFile base) ∧
    withLinks g.text = nonBlank (linked base 0 doc) ∧
    (∀ {pre post : List Piece} {t e : Str}, doc = pre ++ .text t :: .text e :: post →
      occurs (lit "[section Copy-paste friendly code examples]") t = true → occurs (lit "endsect") t = false →
      ∃ a w, textLines g.text = a ++ (t ++ lit "\n") :: lit "\n" ::
        ((List.range (copied pre).length).map (copyInclude base) ++ lit "\n" :: (e ++ lit "\n") :: w)) := by
  obtain ⟨sections, o, s, hsec, ho, rfl⟩ := generate_iff.1 hg
  rw [readLines_text hsrc] at hsec ho ⊢
  generalize hx : textLines src = x at hsec ho hclear hap ⊢
  have hlx : ∀ l ∈ x, Line l := by rw [← hx]; exact line_text
  have hV := goodNames_parse (qbk := x) (sections := sections) (defs := (parseLoop {} x).defs) (by
    rw [parseMd, hsec]; rfl)
  have hwrite : extractCodeSnippets base (notesLoop (beforeDocs sections (parseLoop {} x).defs).2 false x) = some o := by
    rw [extractCodeSnippets_eq, ho]; rfl
  have hto := textLines_flatten (written_lines hbase hV hlx hwrite)
  have hcol : Collecting false false {} := ⟨fun h => by simp at h, fun h => by simp at h⟩
  have hbody : bodyFrom (false, false) x = printTutorial doc := by rw [← hdoc, body, hx]; rfl
  obtain ⟨o', h1, h2, h3⟩ := run_snippets hbase hV hclear.lines hclear.blanks hap (fun h => by simp at h) hcol ho
  obtain ⟨st', o'', p1, p2, p3, p4⟩ := plain_doc hbase doc.length (Nat.le_refl _) hw hs hc (st := ({} : ExtractState).core) rfl
  have h1' : plainRun base ({} : ExtractState).core (printTutorial doc) = some (s.2.core, o') := by
    rw [← hbody]; exact h1
  rw [p1] at h1'
  simp only [Option.some.injEq, Prod.mk.injEq] at h1'
  obtain ⟨-, rfl⟩ := h1'
  refine ⟨?_, ?_, ?_⟩
  · show o.files.map _ = _
    rw [← h2, p3]
    congr 1
    funext k p
    show copyFile base (0 + k) p = _
    rw [Nat.zero_add]
  · rw [withLinks]
    simp only
    rw [hto, ← viewRun_eq (false, false)]
    exact h3.trans p4
  · intro pre post t e hd ht hte
    simp only
    rw [hto]
    rw [occurs_eq] at ht hte
    have hno : ∀ {p : Str}, isIn p t = true → isIn p (t ++ lit "\n") = true := by
      intro p h
      rw [isIn_iff] at h ⊢
      obtain ⟨u, v, rfl⟩ := h
      exact ⟨u, v ++ lit "\n", by simp⟩
    have hte' : isIn (lit "endsect") (t ++ lit "\n") = false := by
      apply isIn_false
      intro hh
      have hh : Has (t ++ '\n' :: []) (lit "endsect") := hh
      rcases hh.split (by decide) with hh | hh
      · rw [← isIn_iff, hte] at hh; simp at hh
      · have := hh.mem (c := 'e') (by decide)
        simp at this
    have hb : bodyFrom (false, false) x = printTutorial pre ++ (t ++ lit "\n") :: (e ++ lit "\n") :: printTutorial post := by
      rw [hbody, hd]
      simp [printTutorial, Piece.print]
    obtain ⟨st, o1, a, w, q1, q2⟩ := run_examples hbase hV (hno ht) hte' hclear.lines hclear.blanks hap (fun h => by simp at h)
      hcol ho hb
    have hsp : Separated pre := by
      rw [hd] at hs
      clear hd hb q1
      induction pre with
      | nil => trivial
      | cons a pre ih =>
        cases pre with
        | nil => trivial
        | cons b pre => exact ⟨hs.1, ih hs.2⟩
    obtain ⟨st2, o2, r1, r2, -, -⟩ := plain_doc hbase pre.length (Nat.le_refl _)
      (fun p hp => hw p (by rw [hd]; simp [hp])) hsp
      (fun p hp => hc p (by rw [hd]; simp [hp])) (st := ({} : ExtractState).core) rfl
    have q1' : plainRun base ({} : ExtractState).core (printTutorial pre) = some (st, o1) := q1
    rw [r1] at q1'
    simp only [Option.some.injEq, Prod.mk.injEq] at q1'
    obtain ⟨rfl, rfl⟩ := q1'
    refine ⟨a, w, ?_⟩
    rw [q2, r2]
    have e1 : ({} : ExtractState).core.counter + (copied pre).length = (copied pre).length := Nat.zero_add _
    have e2 : exampleLine base = copyInclude base := by
      funext k
      rw [exampleLine, copyInclude, snippetName_eq]
    rw [e1, e2]
    rfl

end Metaparse.Gen
