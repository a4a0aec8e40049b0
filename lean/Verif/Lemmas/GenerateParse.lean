import Verif.Lemmas.GenerateTexts

/-! # What `parse_md` finds in a tutorial -/

namespace Metaparse.Gen

/-! ## Section numbers -/

theorem isDigit_of_mem_digitsOf {n : Nat} {c : Char} (h : c ∈ digitsOf n) : isDigit c = true := by
  have := Nat.isDigit_of_mem_toDigits (b := 10) (by decide) (by decide) h
  simp only [Char.isDigit, Bool.and_eq_true, decide_eq_true_eq] at this
  simp only [isDigit, Bool.and_eq_true, decide_eq_true_eq]
  exact this

theorem isDigit_dot : isDigit '.' = false := by decide
theorem isDigit_underscore : isDigit '_' = false := by decide

theorem digitsOf_ne_nil (n : Nat) : digitsOf n ≠ [] := Nat.toDigits_ne_nil

theorem toInt_digitsOf (n : Nat) : toInt (digitsOf n) = some n := by
  have h : (digitsOf n).all isDigit = true := List.all_eq_true.2 fun c hc => isDigit_of_mem_digitsOf hc
  have h' : (digitsOf n).isEmpty = false := by
    cases hd : digitsOf n with
    | nil => exact absurd hd (digitsOf_ne_nil n)
    | cons => rfl
  rw [toInt, h, h']
  simp only [Bool.not_true, Bool.or_self, Bool.false_eq_true, if_false]
  congr 1
  exact Nat.ofDigitChars_toDigits (b := 10) (by decide) (by decide)

theorem split_append (c : Char) {s : Str} (h : c ∉ s) (t : Str) : split c (s ++ c :: t) = s :: split c t := by
  induction s with
  | nil => simp [split]
  | cons d s ih =>
    simp only [List.mem_cons, not_or] at h
    rw [List.cons_append, split, if_neg (fun h' => h.1 h'.symm), ih h.2]

theorem split_none (c : Char) {s : Str} (h : c ∉ s) : split c s = [s] := by
  induction s with
  | nil => rfl
  | cons d s ih =>
    simp only [List.mem_cons, not_or] at h
    rw [split, if_neg (fun h' => h.1 h'.symm), ih h.2]

theorem not_mem_digitsOf {n : Nat} {c : Char} (h : isDigit c = false) : c ∉ digitsOf n := fun hm => by
  rw [isDigit_of_mem_digitsOf hm] at h; simp at h

theorem split_dotted (sep : Char) (hsep : isDigit sep = false) :
    ∀ {n : List Nat}, n ≠ [] → split sep (dotted sep n) = n.map digitsOf
  | [], h => absurd rfl h
  | [n], _ => split_none _ (not_mem_digitsOf hsep)
  | n :: m :: l, _ => by
      rw [dotted, split_append _ (not_mem_digitsOf hsep), split_dotted sep hsep (by simp)]
      · rfl
      · simp

theorem mapM_toInt (n : List Nat) : (n.map digitsOf).mapM toInt = some n := by
  induction n with
  | nil => rfl
  | cons a l ih =>
    rw [List.map_cons, List.mapM_cons, toInt_digitsOf, ih]
    rfl

theorem sectionKey_dotted {n : List Nat} (h : n ≠ []) : sectionKey (dotted '_' n) = some n := by
  rw [sectionKey, split_dotted _ isDigit_underscore h, mapM_toInt]

theorem dotted_injective {n m : List Nat} (hn : n ≠ []) (hm : m ≠ []) (h : dotted '_' n = dotted '_' m) : n = m := by
  have := sectionKey_dotted hn
  rw [h, sectionKey_dotted hm] at this
  simpa using this.symm

theorem replace_digitsOf (n : Nat) (a b : Char) (h : isDigit a = false) : replace a b (digitsOf n) = digitsOf n := by
  rw [replace]
  conv => rhs; rw [← List.map_id (digitsOf n)]
  apply List.map_congr_left
  intro c hc
  rw [if_neg]
  · rfl
  · rintro rfl; exact not_mem_digitsOf h hc

theorem replace_dotted {a b : Char} (h : isDigit a = false) :
    ∀ n, replace a b (dotted a n) = dotted b n
  | [] => rfl
  | [n] => replace_digitsOf n a b h
  | n :: m :: l => by
      have h1 := replace_digitsOf n a b h
      have h2 := replace_dotted (b := b) h (m :: l)
      show replace a b (digitsOf n ++ a :: dotted a (m :: l)) = digitsOf n ++ b :: dotted b (m :: l)
      rw [replace] at h1 h2
      rw [replace, List.map_append, List.map_cons, if_pos rfl, h1, h2]

theorem mem_dotted {sep c : Char} : ∀ {n}, c ∈ dotted sep n → isDigit c = true ∨ c = sep
  | [], h => by simp [dotted] at h
  | [n], h => .inl (isDigit_of_mem_digitsOf h)
  | n :: m :: l, h => by
      rw [dotted] at h
      · rcases List.mem_append.1 h with h | h
        · exact .inl (isDigit_of_mem_digitsOf h)
        · rcases List.mem_cons.1 h with rfl | h
          · exact .inr rfl
          · exact mem_dotted h
      · simp

theorem dotted_ne_nil {sep : Char} : ∀ {n : List Nat}, n ≠ [] → dotted sep n ≠ []
  | [], h => absurd rfl h
  | [n], _ => digitsOf_ne_nil n
  | n :: m :: l, _ => by rw [dotted] <;> simp

/-! ## Headings -/

theorem takeWhile_append_stop {p : Char → Bool} {s : Str} (h : ∀ c ∈ s, p c = true) {c : Char}
    (hc : p c = false) (t : Str) : (s ++ c :: t).takeWhile p = s := by
  induction s with
  | nil => simp [hc]
  | cons d s ih =>
    rw [List.cons_append, List.takeWhile_cons, if_pos (h d (by simp)), ih fun x hx => h x (by simp [hx])]

theorem numberedHeader_heading {n : List Nat} (hn : n ≠ []) (r : Str) :
    numberedHeader (lit "[section " ++ dotted '.' n ++ lit ". " ++ r) = some (dotted '.' n ++ ['.']) := by
  have hpre : (lit "[section").isPrefixOf (lit "[section " ++ dotted '.' n ++ lit ". " ++ r) = true := by
    simp [lit, List.isPrefixOf]
  rw [numberedHeader, if_pos hpre]
  show (if (((((lit "[section " ++ dotted '.' n ++ lit ". " ++ r).drop 8).dropWhile (· == ' ')).takeWhile
    fun c => isDigit c || c == '.')).isEmpty = true then none else some (((((lit "[section " ++ dotted '.' n ++
    lit ". " ++ r).drop 8).dropWhile (· == ' ')).takeWhile fun c => isDigit c || c == '.'))) = _
  have hdrop : (lit "[section " ++ dotted '.' n ++ lit ". " ++ r).drop 8 =
      ' ' :: (dotted '.' n ++ '.' :: ' ' :: r) := by
    simp [lit]
  rw [hdrop, List.dropWhile_cons, if_pos (show (' ' == ' ') = true from rfl)]
  have hne : ∃ d ds, dotted '.' n = d :: ds := by
    cases h : dotted '.' n with
    | nil => exact absurd h (dotted_ne_nil hn)
    | cons d ds => exact ⟨d, ds, rfl⟩
  obtain ⟨d, ds, hd⟩ := hne
  have hd' : (d == ' ') = false := by
    rcases mem_dotted (sep := '.') (n := n) (c := d) (by rw [hd]; simp) with h | h
    · cases h' : d == ' ' with
      | false => rfl
      | true => rw [eq_of_beq h'] at h; revert h; decide
    · rw [h]; decide
  rw [hd, List.cons_append, List.dropWhile_cons, if_neg (show ¬ (d == ' ') = true by simp [hd'])]
  have htake : ((d :: (ds ++ '.' :: ' ' :: r)).takeWhile fun c => isDigit c || c == '.') =
      dotted '.' n ++ ['.'] := by
    have := takeWhile_append_stop (p := fun c => isDigit c || c == '.') (s := dotted '.' n ++ ['.'])
      (by
        intro c hc
        rcases List.mem_append.1 hc with hc | hc
        · rcases mem_dotted hc with h | h <;> simp [h]
        · simp at hc; simp [hc]) (c := ' ') (by decide) r
    rw [← this, hd]
    simp
  rw [htake, hd]
  simp

theorem removeLastDot_dotted (n : List Nat) : removeLastDot (dotted '.' n ++ ['.']) = dotted '.' n := by
  rw [removeLastDot, if_pos]
  · simp
  · rw [List.isSuffixOf_iff_suffix]
    exact List.suffix_append _ _

theorem numberedHeader_text {l : Str} (h : ¬ LooksLikeHeading l) : numberedHeader (l ++ lit "\n") = none := by
  rw [numberedHeader]
  split
  · rename_i hp
    show (if ((((l ++ lit "\n").drop 8).dropWhile (· == ' ')).takeWhile
      fun c => isDigit c || c == '.').isEmpty = true then none else some ((((l ++ lit "\n").drop 8).dropWhile
      (· == ' ')).takeWhile fun c => isDigit c || c == '.')) = none
    split
    · rfl
    · rename_i hne
      exfalso
      apply h
      rw [List.isPrefixOf_iff_prefix] at hp
      -- the prefix is in the line
      have hl : lit "[section" <+: l := by
        rcases Nat.lt_or_ge l.length 8 with hlt | hge
        · exfalso
          obtain ⟨t, ht⟩ := hp
          have hlen := congrArg List.length ht
          simp [lit] at hlen
          have hll : l.length = 7 := by omega
          have h1 : (l ++ lit "\n")[7]? = some '\n' := by
            rw [List.getElem?_append_right (by omega), hll]; rfl
          rw [← ht] at h1
          simp [lit] at h1
        · exact List.prefix_of_prefix_length_le hp (List.prefix_append _ _) (by simpa [lit] using hge)
      obtain ⟨r, rfl⟩ := hl
      have hdrop : (lit "[section" ++ r ++ lit "\n").drop 8 = r ++ ['\n'] := by simp [lit]
      simp only [hdrop] at hne
      -- the blanks
      have hb : ∀ (r : Str), (((r ++ ['\n']).dropWhile (· == ' ')).takeWhile fun c => isDigit c || c == '.').isEmpty
          = false → ∃ k c t, r = List.replicate k ' ' ++ c :: t ∧ (isDigit c || c == '.') = true := by
        intro r
        induction r with
        | nil => intro h; exact absurd h (by decide)
        | cons c r ih =>
          intro h
          rw [List.cons_append, List.dropWhile_cons] at h
          split at h
          · rename_i hc
            obtain ⟨k, d, t, rfl, hd⟩ := ih h
            refine ⟨k + 1, d, t, ?_, hd⟩
            rw [eq_of_beq hc]; rfl
          · rw [List.takeWhile_cons] at h
            split at h
            · rename_i hc
              exact ⟨0, c, r, rfl, hc⟩
            · simp at h
      obtain ⟨k, c, t, rfl, hc⟩ := hb r (by simpa using hne)
      refine ⟨k, c, t, by simp, ?_⟩
      rcases Bool.or_eq_true _ _ ▸ hc with hc | hc
      · right
        simp only [isDigit, Bool.and_eq_true, decide_eq_true_eq] at hc
        have h1 : 48 ≤ c.toNat := hc.1
        have h2 : c.toNat ≤ 57 := hc.2
        have h3 : ∀ k, 48 ≤ k → k ≤ 57 → Char.ofNat k ∈ lit "0123456789" := by
          intro k h1 h2
          have : k = 48 ∨ k = 49 ∨ k = 50 ∨ k = 51 ∨ k = 52 ∨ k = 53 ∨ k = 54 ∨ k = 55 ∨ k = 56 ∨ k = 57 := by omega
          rcases this with rfl | rfl | rfl | rfl | rfl | rfl | rfl | rfl | rfl | rfl <;> decide
        have := h3 _ h1 h2
        rwa [Char.ofNat_toNat] at this
      · left; exact eq_of_beq hc
  · rfl

/-! ## Lines that are not commands -/

/-- The state after lines. -/
def endState : ParseState → List Str → ParseState
  | st, [] => st
  | st, l :: ls => endState (parseLine st l).1 ls

theorem endState_append (st : ParseState) (a b : List Str) :
    endState st (a ++ b) = endState (endState st a) b := by
  induction a generalizing st with
  | nil => rfl
  | cons l a ih => exact ih _

theorem parseLoop_append (st : ParseState) (a b : List Str) :
    parseLoop st (a ++ b) =
      { sections := (parseLoop st a).sections ++ (parseLoop (endState st a) b).sections
        defs := (parseLoop st a).defs ++ (parseLoop (endState st a) b).defs } := by
  induction a generalizing st with
  | nil => simp [parseLoop, endState]
  | cons l a ih =>
    rw [List.cons_append, parseLoop, parseLoop, endState]
    simp only [ih]
    simp

theorem isCode_blanks (l : Str) : isCode (lit "  " ++ l) = true := by simp [isCode, lit, List.isPrefixOf]

theorem parse_heading {n : List Nat} (hn : n ≠ []) (r : Str) (st : ParseState) :
    parseLine st (lit "[section " ++ dotted '.' n ++ lit ". " ++ r) =
      ({ st with inCpp := false, section_ := dotted '_' n }, { sections := [dotted '_' n] }) := by
  rw [parseLine, if_neg (by simp [isCode, lit, List.isPrefixOf]), numberedHeader_heading hn]
  simp only [removeLastDot_dotted, replace_dotted isDigit_dot]

theorem parse_text {l : Str} (h : ¬ lit "  " <+: l) (h' : ¬ LooksLikeHeading l) (st : ParseState) :
    parseLine st (l ++ lit "\n") = ({ st with inCpp := false }, {}) := by
  have hc : isCode (l ++ lit "\n") = false := by
    cases hc : isCode (l ++ lit "\n") with
    | false => rfl
    | true =>
      exfalso
      rw [isCode] at hc
      apply h
      rw [List.isPrefixOf_iff_prefix] at hc
      obtain ⟨t, ht⟩ := hc
      match l, ht with
      | [], ht => simp [lit] at ht
      | [c], ht => simp [lit] at ht
      | c :: d :: l, ht => simp at ht; exact ⟨l, by simp [lit, ← ht.1, ← ht.2.1]⟩
  rw [parseLine, hc, numberedHeader_text h']
  simp

theorem isCommand_iff (l : Str) : isCommand l = true ↔ LooksLikeCommand l := by
  constructor
  · intro h
    unfold isCommand at h
    split at h
    · rename_i c r
      exact ⟨c, r, rfl, by simpa using h⟩
    · simp at h
  · rintro ⟨c, r, rfl, hc⟩
    simpa [isCommand] using hc

theorem parse_not_command {l : Str} (h : ¬ LooksLikeCommand (l ++ lit "\n")) (st : ParseState)
    (hc : st.cmd = []) :
    parseLine st (lit "  " ++ l ++ lit "\n") =
      ({ st with inCpp := true, inMsh := st.inCpp && st.inMsh }, {}) := by
  have hd : (lit "  " ++ l ++ lit "\n").drop 2 = l ++ lit "\n" := by simp [lit]
  have h' : isCommand (l ++ lit "\n") = false := by
    rw [← isCommand_iff] at h; simpa using h
  rw [parseLine, List.append_assoc, if_pos (isCode_blanks _), ← List.append_assoc]
  obtain ⟨sec, inCpp, inMsh, cmd⟩ := st
  simp only at hc
  subst hc
  simp only [hd, h']
  cases inCpp <;> cases inMsh <;> simp

/-! ## Commands -/

/-- The text of a command, with the lines after the first. -/
def more : Str → List Str → Str
  | acc, [] => acc
  | acc, [l] => acc ++ lit "\n " ++ l
  | acc, l :: ls => more (strip (acc ++ lit "\n " ++ l) ++ lit " ") ls

/-- The text of a command. -/
def rawCommand : List Str → Str
  | [] => []
  | [l] => ' ' :: l
  | l :: ls => more (strip (' ' :: l) ++ lit " ") ls

theorem removeNewline_line {l : Str} (h : ∀ c ∈ l, blank c = true → c = ' ') (t : Str) :
    removeNewline (l ++ t) = l ++ removeNewline t := by
  rw [removeNewline, List.filter_append, List.filter_eq_self.2]
  · rfl
  · intro c hc
    by_cases h1 : c = '\r'
    · exact absurd (h c hc (by rw [h1]; decide)) (by rw [h1]; decide)
    · by_cases h2 : c = '\n'
      · exact absurd (h c hc (by rw [h2]; decide)) (by rw [h2]; decide)
      · simp [h1, h2]

theorem CommandLine.blanks_append {l : Str} (h : CommandLine l) (p : Str) (hp : ∀ c ∈ p, blank c = true → c = ' ') :
    ∀ c ∈ p ++ l, blank c = true → c = ' ' := by
  intro c hc
  rcases List.mem_append.1 hc with hc | hc
  · exact hp c hc
  · exact h.blanks c hc

/-- The lines of a command after the first. -/
theorem parse_more {ls : List Str} (hne : ls ≠ []) (h : ∀ l ∈ ls, CommandLine l) (st : ParseState)
    (hcpp : st.inCpp = true) (hmsh : st.inMsh = true) (hcmd : st.cmd ≠ []) :
    parseLoop st (printCommand (lit "  ...> ") ls) =
        { defs := [(st.section_, definitionOf (more st.cmd ls))] } ∧
      endState st (printCommand (lit "  ...> ") ls) = { st with cmd := [] } := by
  induction ls generalizing st with
  | nil => exact absurd rfl hne
  | cons l ls ih =>
    have hl := h l (by simp)
    obtain ⟨sec, inCpp, inMsh, cmd⟩ := st
    simp only at hcpp hmsh hcmd
    subst hcpp hmsh
    have hprompt : ∀ t : Str, dropPrompt (lit "...> " ++ l ++ t) = ' ' :: (l ++ t) := by
      intro t
      rw [dropPrompt, if_pos]
      · simp [lit]
      · simp [lit, List.isPrefixOf]
    cases ls with
    | nil =>
      have hrem : removeNewline (lit "...> " ++ l ++ lit "\n") = lit "...> " ++ l := by
        rw [removeNewline_line (hl.blanks_append (lit "...> ") (by decide))]; simp [lit, removeNewline]
      have hprompt0 := hprompt []
      rw [List.append_nil, List.append_nil] at hprompt0
      have hend : ['\\'].isSuffixOf (cmd ++ ['\n'] ++ ' ' :: l) = false := by
        cases hs : ['\\'].isSuffixOf (cmd ++ ['\n'] ++ ' ' :: l) with
        | false => rfl
        | true =>
          exfalso
          rw [List.isSuffixOf_iff_suffix] at hs
          obtain ⟨t, ht⟩ := hs
          have := congrArg List.getLast? ht
          rw [List.getLast?_append] at this
          simp only [List.getLast?_append, List.getLast?_cons] at this
          cases hlast : l.getLast? with
          | none => rw [hlast] at this; simp at this
          | some c =>
            rw [hlast] at this
            simp at this
            exact hl.noBackslash (by rw [hlast, ← this])
      have hline : parseLine ⟨sec, true, true, cmd⟩ (lit "  ...> " ++ l ++ lit "\n") =
          (⟨sec, true, true, []⟩, { defs := [(sec, definitionOf (cmd ++ lit "\n " ++ l))] }) := by
        have hd : (lit "  ...> " ++ l ++ lit "\n").drop 2 = lit "...> " ++ l ++ lit "\n" := by simp [lit]
        have hc : isCode (lit "  ...> " ++ l ++ lit "\n") = true := by simp [isCode, lit, List.isPrefixOf]
        rw [parseLine, if_pos hc]
        simp only [hd, hcmd, if_true, ne_eq, not_false_eq_true, decide_true, Bool.or_true, commandLine,
          hrem, hprompt0, if_false, hend, Bool.false_eq_true]
        simp [lit]
      rw [printCommand]
      simp only [parseLoop, endState, hline]
      simp [more]
    | cons m ls =>
      have hrem : removeNewline (lit "...> " ++ l ++ lit "\\\n") = lit "...> " ++ l ++ lit "\\" := by
        rw [removeNewline_line (hl.blanks_append (lit "...> ") (by decide))]; rfl
      have hend : ['\\'].isSuffixOf (cmd ++ ['\n'] ++ ' ' :: (l ++ lit "\\")) = true := by
        rw [List.isSuffixOf_iff_suffix]
        exact ⟨cmd ++ ['\n'] ++ ' ' :: l, by simp [lit]⟩
      have hlast : (cmd ++ ['\n'] ++ ' ' :: (l ++ lit "\\")).dropLast = cmd ++ lit "\n " ++ l := by
        have : cmd ++ ['\n'] ++ ' ' :: (l ++ lit "\\") = cmd ++ lit "\n " ++ l ++ ['\\'] := by simp [lit]
        rw [this, List.dropLast_concat]
      have hline : parseLine ⟨sec, true, true, cmd⟩ (lit "  ...> " ++ l ++ lit "\\\n") =
          (⟨sec, true, true, strip (cmd ++ lit "\n " ++ l) ++ lit " "⟩, {}) := by
        have hd : (lit "  ...> " ++ l ++ lit "\\\n").drop 2 = lit "...> " ++ l ++ lit "\\\n" := by simp [lit]
        have hc : isCode (lit "  ...> " ++ l ++ lit "\\\n") = true := by simp [isCode, lit, List.isPrefixOf]
        rw [parseLine, if_pos hc]
        simp only [hd, hcmd, if_true, ne_eq, not_false_eq_true, decide_true, Bool.or_true, commandLine,
          hrem, hprompt, if_false, hend, hlast]
        rfl
      rw [printCommand]
      · simp only [parseLoop, endState, hline]
        have := ih (by simp) (fun x hx => h x (by simp [hx])) ⟨sec, true, true, strip (cmd ++ lit "\n " ++ l) ++ lit " "⟩
          rfl rfl (by simp [lit])
        rw [this.1, this.2]
        exact ⟨by simp [more], rfl⟩
      · simp

/-- A command gives one definition or query. -/
theorem parse_command {ls : List Str} (h : WellWrittenCommand ls) (st : ParseState) (hcmd : st.cmd = [])
    (hmsh : st.inCpp = true → st.inMsh = true) :
    parseLoop st (printCommand (lit "  > ") ls) = { defs := [(st.section_, definitionOf (rawCommand ls))] } ∧
      endState st (printCommand (lit "  > ") ls) = ⟨st.section_, true, true, []⟩ := by
  obtain ⟨hls, c, l, ls', rfl, hc, -⟩ := h
  have hl := hls _ List.mem_cons_self
  obtain ⟨sec, inCpp, inMsh, cmd⟩ := st
  simp only at hcmd hmsh
  subst hcmd
  have hin : (if inCpp then inMsh else true) = true := by cases inCpp <;> simp_all
  have hprompt : ∀ t : Str, dropPrompt (lit "> " ++ (c :: l) ++ t) = ' ' :: (c :: l ++ t) := by
    intro t
    rw [dropPrompt, if_neg, if_pos]
    · simp [lit]
    · simp [lit, List.isPrefixOf]
    · simp [lit, List.isPrefixOf]
  have hcom : ∀ t : Str, isCommand (lit "> " ++ (c :: l) ++ t) = true := by
    intro t
    rw [isCommand_iff]
    exact ⟨c, l ++ t, by simp [lit], hc⟩
  cases ls' with
  | nil =>
    have hrem : removeNewline (lit "> " ++ (c :: l) ++ lit "\n") = lit "> " ++ (c :: l) := by
      rw [removeNewline_line (hl.blanks_append (lit "> ") (by decide))]; simp [lit, removeNewline]
    have hprompt0 := hprompt []
    rw [List.append_nil, List.append_nil] at hprompt0
    have hend : ['\\'].isSuffixOf (' ' :: (c :: l)) = false := by
      cases hs : ['\\'].isSuffixOf (' ' :: (c :: l)) with
      | false => rfl
      | true =>
        exfalso
        rw [List.isSuffixOf_iff_suffix] at hs
        obtain ⟨t, ht⟩ := hs
        have := congrArg List.getLast? ht
        rw [List.getLast?_append] at this
        simp only [List.getLast?_singleton, List.getLast?_cons_cons] at this
        exact hl.noBackslash (by rw [← this]; rfl)
    have hline : parseLine ⟨sec, inCpp, inMsh, []⟩ (lit "  > " ++ (c :: l) ++ lit "\n") =
        (⟨sec, true, true, []⟩, { defs := [(sec, definitionOf (' ' :: c :: l))] }) := by
      have hd : (lit "  > " ++ (c :: l) ++ lit "\n").drop 2 = lit "> " ++ (c :: l) ++ lit "\n" := by simp [lit]
      have hcode : isCode (lit "  > " ++ (c :: l) ++ lit "\n") = true := by simp [isCode, lit, List.isPrefixOf]
      rw [parseLine, if_pos hcode]
      simp only [hd, hin, hcom, if_true, Bool.true_or, commandLine, hrem, hprompt0,
        List.nil_append, hend, Bool.false_eq_true, if_false]
    rw [printCommand]
    simp only [parseLoop, endState, hline]
    simp [rawCommand]
  | cons m ls =>
    have hrem : removeNewline (lit "> " ++ (c :: l) ++ lit "\\\n") = lit "> " ++ (c :: l) ++ lit "\\" := by
      rw [removeNewline_line (hl.blanks_append (lit "> ") (by decide))]; rfl
    have hend : ['\\'].isSuffixOf (' ' :: (c :: l ++ lit "\\")) = true := by
      rw [List.isSuffixOf_iff_suffix]
      exact ⟨' ' :: c :: l, by simp [lit]⟩
    have hlast : (' ' :: (c :: l ++ lit "\\")).dropLast = ' ' :: c :: l := by
      have : ' ' :: (c :: l ++ lit "\\") = (' ' :: c :: l) ++ ['\\'] := by simp [lit]
      rw [this, List.dropLast_concat]
    have hline : parseLine ⟨sec, inCpp, inMsh, []⟩ (lit "  > " ++ (c :: l) ++ lit "\\\n") =
        (⟨sec, true, true, strip (' ' :: c :: l) ++ lit " "⟩, {}) := by
      have hd : (lit "  > " ++ (c :: l) ++ lit "\\\n").drop 2 = lit "> " ++ (c :: l) ++ lit "\\\n" := by simp [lit]
      have hcode : isCode (lit "  > " ++ (c :: l) ++ lit "\\\n") = true := by simp [isCode, lit, List.isPrefixOf]
      rw [parseLine, if_pos hcode]
      simp only [hd, hin, hcom, if_true, Bool.true_or, commandLine, hrem, hprompt,
        List.nil_append, hend, hlast]
      rfl
    rw [printCommand]
    · simp only [parseLoop, endState, hline]
      have := parse_more (ls := m :: ls) (by simp) (fun x hx => hls x (by simp [hx]))
        ⟨sec, true, true, strip (' ' :: c :: l) ++ lit " "⟩ rfl rfl (by simp [lit])
      rw [this.1, this.2]
      exact ⟨by simp [rawCommand], rfl⟩
    · simp

/-! ## Pieces -/

/-- The commands of a part of a session. -/
def Part.commands : Part → List (List Str)
  | .command ls => [ls]
  | .output _ => []

theorem commands_session (ps : List Part) : (Piece.session ps).commands = ps.flatMap Part.commands := by
  rw [Piece.commands]
  congr 1

theorem parse_parts {ps : List Part} (h : ∀ p ∈ ps, WellWrittenPart p) (sec : Str) :
    parseLoop ⟨sec, true, true, []⟩ (ps.flatMap Part.print) =
        { defs := (ps.flatMap Part.commands).map fun ls => (sec, definitionOf (rawCommand ls)) } ∧
      endState ⟨sec, true, true, []⟩ (ps.flatMap Part.print) = ⟨sec, true, true, []⟩ := by
  induction ps with
  | nil => exact ⟨rfl, rfl⟩
  | cons p ps ih =>
    have hp := h p (by simp)
    have ih := ih fun q hq => h q (by simp [hq])
    rw [List.flatMap_cons, parseLoop_append, endState_append]
    cases p with
    | command ls =>
      have := parse_command hp ⟨sec, true, true, []⟩ rfl fun _ => rfl
      simp only [Part.print, this.1, this.2, ih.1, ih.2]
      simp [Part.commands]
    | output l =>
      have := parse_not_command hp.2 ⟨sec, true, true, []⟩ rfl
      simp only [Part.print, parseLoop, endState, this]
      simp only [Bool.and_self, ih.1, ih.2]
      simp [Part.commands]

theorem parse_code_rest (ls : List Str) (sec : Str) :
    parseLoop ⟨sec, true, false, []⟩ (ls.map fun l => lit "  " ++ l ++ lit "\n") = {} ∧
      endState ⟨sec, true, false, []⟩ (ls.map fun l => lit "  " ++ l ++ lit "\n") = ⟨sec, true, false, []⟩ := by
  induction ls with
  | nil => exact ⟨rfl, rfl⟩
  | cons l ls ih =>
    have : parseLine ⟨sec, true, false, []⟩ (lit "  " ++ l ++ lit "\n") = (⟨sec, true, false, []⟩, {}) := by
      rw [parseLine, List.append_assoc, if_pos (isCode_blanks _)]
      simp
    simp only [List.map_cons, parseLoop, endState, this, ih.1, ih.2]
    simp

/-- The section after a piece. -/
def sectionAfter (sec : Str) : Piece → Str
  | .heading n _ => dotted '_' n
  | _ => sec

theorem parse_piece {p : Piece} (h : WellWrittenPiece p) (st : ParseState) (hcmd : st.cmd = [])
    (hcpp : p.isSnippet = true → st.inCpp = false) :
    parseLoop st p.print =
        { sections := (numbers [p]).map (dotted '_')
          defs := p.commands.map fun ls => (st.section_, definitionOf (rawCommand ls)) } ∧
      (endState st p.print).cmd = [] ∧ (endState st p.print).section_ = sectionAfter st.section_ p ∧
      (endState st p.print).inCpp = p.isSnippet := by
  obtain ⟨sec, inCpp, inMsh, cmd⟩ := st
  simp only at hcmd
  subst hcmd
  cases p with
  | heading n title =>
    have e : lit "[section " ++ dotted '.' n ++ lit ". " ++ title ++ lit "\n" =
        lit "[section " ++ dotted '.' n ++ lit ". " ++ (title ++ lit "\n") := by simp
    simp only [Piece.print, e, parseLoop, endState, parse_heading h.1]
    simp [numbers, Piece.commands, sectionAfter, Piece.isSnippet]
  | text l =>
    simp only [Piece.print, parseLoop, endState, parse_text h.2.1 h.2.2]
    simp [numbers, Piece.commands, sectionAfter, Piece.isSnippet]
  | code ls =>
    have hc : inCpp = false := hcpp rfl
    subst hc
    obtain ⟨-, l, more, rfl, hl⟩ := h
    simp only [Piece.print, List.map_cons, parseLoop, endState, parse_not_command hl ⟨sec, false, inMsh, []⟩ rfl]
    have := parse_code_rest more sec
    simp only [Bool.false_and, this.1, this.2]
    simp [numbers, Piece.commands, sectionAfter, Piece.isSnippet]
  | session ps =>
    have hc : inCpp = false := hcpp rfl
    subst hc
    obtain ⟨hps, ls, more, rfl⟩ := h
    have h1 := parse_command (hps (.command ls) (by simp)) ⟨sec, false, inMsh, []⟩ rfl (by simp)
    have h2 := parse_parts (ps := more) (fun q hq => hps q (by simp [hq])) sec
    rw [commands_session, List.flatMap_cons]
    simp only [Piece.print, List.flatMap_cons, parseLoop_append, endState_append]
    simp only [Part.print, h1.1, h1.2, h2.1, h2.2]
    simp [numbers, Part.commands, sectionAfter, Piece.isSnippet]

/-- What is found in a tutorial, by section. -/
def tagged : Str → List Piece → List (Str × List Str)
  | _, [] => []
  | sec, p :: doc => p.commands.map (sec, ·) ++ tagged (sectionAfter sec p) doc

theorem numbers_cons (p : Piece) (doc : List Piece) : numbers (p :: doc) = numbers [p] ++ numbers doc := by
  cases p <;> rfl

theorem numbers_append (a b : List Piece) : numbers (a ++ b) = numbers a ++ numbers b := by
  induction a with
  | nil => rfl
  | cons p a ih => rw [List.cons_append, numbers_cons, numbers_cons p a, ih, List.append_assoc]

theorem parse_tutorial {doc : List Piece} (h : ∀ p ∈ doc, WellWrittenPiece p) (hs : Separated doc)
    (st : ParseState) (hcmd : st.cmd = [])
    (hcpp : ∀ p r, doc = p :: r → p.isSnippet = true → st.inCpp = false) :
    parseLoop st (printTutorial doc) =
      { sections := (numbers doc).map (dotted '_')
        defs := (tagged st.section_ doc).map fun d => (d.1, definitionOf (rawCommand d.2)) } := by
  induction doc generalizing st with
  | nil => rfl
  | cons p doc ih =>
    obtain ⟨h1, h2, h3, h4⟩ := parse_piece (h p (by simp)) st hcmd (hcpp p doc rfl)
    have hsep : Separated doc := by
      cases doc with
      | nil => trivial
      | cons q l => exact hs.2
    have := ih (fun q hq => h q (by simp [hq])) hsep (endState st p.print) h2 (by
      rintro q r rfl hq
      rw [h4]
      cases hp : p.isSnippet with
      | false => rfl
      | true => rw [hs.1 hp] at hq; simp at hq)
    rw [printTutorial, List.flatMap_cons, parseLoop_append, ← printTutorial, this, h1, h3, numbers_cons p doc]
    simp [tagged, Function.comp_def]

/-! ## Sections in order -/

theorem keyLe_of_before : ∀ {a b : List Nat}, Before a b → keyLe a b = true
  | [], [], h => absurd h (by simp [Before])
  | _ :: _, [], h => absurd h (by simp [Before])
  | [], _ :: _, _ => rfl
  | a :: l, b :: m, h => by
      rw [keyLe]
      rcases h with h | ⟨rfl, h⟩
      · simp [h]
      · simp [keyLe_of_before h]

theorem insertKey_last {x : List Nat × Str} {l : List (List Nat × Str)} (h : ∀ y ∈ l, keyLe y.1 x.1 = true) :
    insertKey x l = l ++ [x] := by
  induction l with
  | nil => rfl
  | cons y l ih =>
    rw [insertKey, if_pos (h y (by simp)), ih fun z hz => h z (by simp [hz])]
    rfl

theorem foldl_insertKey {l acc : List (List Nat × Str)} (h : (acc ++ l).Pairwise fun x y => keyLe x.1 y.1 = true) :
    l.foldl (fun acc x => insertKey x acc) acc = acc ++ l := by
  induction l generalizing acc with
  | nil => simp
  | cons x l ih =>
    rw [List.foldl_cons, insertKey_last, ih]
    · simp
    · simpa using h
    · intro y hy
      exact (List.pairwise_append.1 h).2.2 y hy x (by simp)

theorem mapM_sectionKey {ns : List (List Nat)} (h : ∀ n ∈ ns, n ≠ []) :
    (ns.map (dotted '_')).mapM (fun s => (sectionKey s).map (·, s)) = some (ns.map fun n => (n, dotted '_' n)) := by
  induction ns with
  | nil => rfl
  | cons n ns ih =>
    rw [List.map_cons, List.mapM_cons, sectionKey_dotted (h n (by simp)), ih fun m hm => h m (by simp [hm])]
    rfl

theorem sortSections_increasing {ns : List (List Nat)} (h : ∀ n ∈ ns, n ≠ []) (hi : ns.Pairwise Before) :
    sortSections (ns.map (dotted '_')) = some (ns.map (dotted '_')) := by
  rw [sortSections, mapM_sectionKey h, Option.map_some, foldl_insertKey]
  · simp [Function.comp_def]
  · rw [List.nil_append, List.pairwise_map]
    exact hi.imp keyLe_of_before

theorem numbers_ne_nil {doc : List Piece} (h : ∀ p ∈ doc, WellWrittenPiece p) : ∀ n ∈ numbers doc, n ≠ [] := by
  induction doc with
  | nil => simp [numbers]
  | cons p doc ih =>
    intro n hn
    rw [numbers_cons] at hn
    rcases List.mem_append.1 hn with hn | hn
    · cases p with
      | heading m t => simp [numbers] at hn; rw [hn]; exact (h (.heading m t) (by simp)).1
      | _ => simp [numbers] at hn
    · exact ih (fun q hq => h q (by simp [hq])) n hn

/-- The sections and the definitions of a tutorial. -/
theorem parseMd_tutorial {doc : List Piece} (h : WellWritten doc) :
    parseMd (printTutorial doc) =
      some ((numbers doc).map (dotted '_'),
        (tagged [] doc).map fun d => (d.1, definitionOf (rawCommand d.2))) := by
  have := parse_tutorial h.pieces h.separated {} rfl (by intros; rfl)
  rw [parseMd]
  simp only [this, sortSections_increasing (numbers_ne_nil h.pieces) h.increasing]
  rfl

end Metaparse.Gen
