import Verif.Spec.Debug
import Verif.Lemmas.Chars
import Verif.Props.Sequences
import Verif.Props.Strings
/-!
# Properties of debug_parsing_error

C54.
-/

namespace Metaparse

variable {E E' : Env (List Chr)} {user : Nat → List Chr}

theorem lits_eq_txt (s : String) : lits s = txt s := rfl

theorem toDigits_map_ch (n : Nat) : (Nat.toDigits 10 n).map ch = decimalText n := by
  have hd : ∀ d, d < 10 → ch (Nat.digitChar d) = 48 + (d : Int) := by decide
  fun_induction decimalText n with
  | case1 n h => rw [Nat.toDigits_of_lt_base h, List.map_singleton, hd n h]
  | case2 n h ih =>
    rw [Nat.toDigits_of_base_le (by decide) (by omega), List.map_append, ih, List.map_singleton,
      hd _ (Nat.mod_lt _ (by decide))]

theorem showInt_eq (n : Int) : showInt n = signedDecimal n := by
  simp only [showInt, signedDecimal, toDigits_map_ch]

theorem showCStr_cStr (s : List Chr) : showCStr (str11.cStr s) = .ok (upToNul s) := by
  have : str11.cStr s = s ++ [0] := C40_list_laws.cStr s trivial
  rw [this]
  induction s with
  | nil => rfl
  | cons c s ih =>
    have ih := ih (C40_list_laws.cStr s trivial)
    simp only [List.cons_append, showCStr]
    by_cases h : c = 0
    · simp [h, upToNul]
    · rw [if_neg h, ih, Out.bind_ok]
      simp [upToNul, h]

/-- A rejection is reported with its line, its column and the text of its message. -/
theorem C54_failure (p : P) (s : List Chr) (m : Msg) (e : Pos) (h : Rejects E p s start m e) :
    debugParsingError str11 user E p s = .ok (failureReport s e.line e.col (m.text user)) := by
  have h : run E p s start = .ok (.rej m e) := h
  simp only [debugParsingError, h, Out.bind_ok, showCStr_cStr, displayResult, showInt_eq, lits_eq_txt,
    failureReport, reportHeader]

/-- An acceptance is reported with the remaining text. -/
theorem C54_success (p : P) (s : List Chr) (v : Val) (s' : List Chr) (pos : Pos)
    (h : Accepts E p s start v s' pos) :
    debugParsingError str11 user E p s = .ok (successReport s s') := by
  have h : run E p s start = .ok (.acc v s' pos) := h
  simp only [debugParsingError, h, Out.bind_ok, showCStr_cStr, displayResult, lits_eq_txt,
    successReport, reportHeader]

/-- There is a report exactly if the parser comes to an outcome. -/
theorem C54_reports_iff (p : P) (s : List Chr) :
    (∃ t, debugParsingError str11 user E p s = .ok t) ↔ ∃ r, run E p s start = .ok r := by
  constructor
  · rintro ⟨t, h⟩
    unfold debugParsingError at h
    rw [Out.bind_eq_ok] at h
    obtain ⟨r, hr, -⟩ := h
    exact ⟨r, hr⟩
  · rintro ⟨r, h⟩
    cases r with
    | acc v s' pos => exact ⟨_, C54_success p s v s' pos h⟩
    | rej m e => exact ⟨_, C54_failure p s m e h⟩

/-- `debug_parsing_error<build_parser<P>, S>` reports what `debug_parsing_error<P, S>` does, and when
`build_parser<P>` does not compile because of a rejection, the report has the same line, column and
message. -/
theorem C54_build_parser (p : P) (s : List Chr) (m : Msg) (e : Pos) (h : Rejects E p s start m e) :
    buildParser E p s = .ill (.parsingFailed e.line e.col m) ∧
    debugParsingErrorBuild str11 user E p s = .ok (failureReport s e.line e.col (m.text user)) :=
  ⟨C34_buildParser_rejects p s m e h, C54_failure p s m e h⟩

/-! ## Reports are unambiguous -/

/-- The characters of numbers. -/
def numChar (c : Chr) : Bool := digitChar c || c == ch '-'

theorem signedDecimal_chars (n : Int) : ∀ c ∈ signedDecimal n, numChar c = true := by
  intro c hc
  unfold signedDecimal at hc
  split at hc
  · rcases List.mem_cons.1 hc with rfl | hc
    · decide
    · simp [numChar, decimalText_digits _ c hc]
  · simp [numChar, decimalText_digits _ c hc]

theorem signedDecimal_ne_nil (n : Int) : signedDecimal n ≠ [] := by
  unfold signedDecimal
  split
  · simp
  · exact decimalText_ne_nil _

theorem signedDecimal_inj {a b : Int} (h : signedDecimal a = signedDecimal b) : a = b := by
  have key : ∀ n, ∃ c t, decimalText n = c :: t ∧ c ≠ ch '-' := by
    intro n
    cases hn : decimalText n with
    | nil => exact absurd hn (decimalText_ne_nil n)
    | cons c t =>
      refine ⟨c, t, rfl, ?_⟩
      have := decimalText_digits n c (by simp [hn])
      rintro rfl
      exact absurd this (by decide)
  have inj : ∀ {m n : Nat}, decimalText m = decimalText n → m = n := by
    intro m n h
    have := congrArg decimal h
    rw [decimal_decimalText, decimal_decimalText] at this
    omega
  unfold signedDecimal at h
  split at h <;> split at h
  · have := inj (List.cons.inj h).2; omega
  · obtain ⟨c, t, hc, hne⟩ := key b.natAbs
    rw [hc] at h
    exact absurd (List.cons.inj h).1.symm hne
  · obtain ⟨c, t, hc, hne⟩ := key a.natAbs
    rw [hc] at h
    exact absurd (List.cons.inj h).1 hne
  · have := inj h; omega

/-- Two texts that begin with a run of characters of a class, followed by a character outside it. -/
theorem run_inj {f : Chr → Bool} {a b r r' : List Chr} {x y : Chr} (ha : ∀ c ∈ a, f c = true)
    (hb : ∀ c ∈ b, f c = true) (hx : f x = false) (hy : f y = false)
    (h : a ++ x :: r = b ++ y :: r') : a = b ∧ x :: r = y :: r' := by
  induction a generalizing b with
  | nil =>
    cases b with
    | nil => exact ⟨rfl, h⟩
    | cons c b =>
      simp only [List.nil_append, List.cons_append, List.cons.injEq] at h
      have := hb c (by simp)
      rw [← h.1, hx] at this; cases this
  | cons c a ih =>
    cases b with
    | nil =>
      simp only [List.nil_append, List.cons_append, List.cons.injEq] at h
      have := ha c (by simp)
      rw [h.1, hy] at this; cases this
    | cons d b =>
      simp only [List.cons_append, List.cons.injEq] at h
      obtain ⟨rfl, h2⟩ := ih (fun c hc => ha c (by simp [hc])) (fun c hc => hb c (by simp [hc])) h.2
      exact ⟨by rw [h.1], h2⟩

theorem run_inj_rev {f : Chr → Bool} {a b r r' : List Chr} {x y : Chr} (ha : ∀ c ∈ a, f c = true)
    (hb : ∀ c ∈ b, f c = true) (hx : f x = false) (hy : f y = false)
    (h : r ++ [x] ++ a = r' ++ [y] ++ b) : a = b ∧ r ++ [x] = r' ++ [y] := by
  have h' := congrArg List.reverse h
  simp only [List.reverse_append, List.reverse_singleton, List.singleton_append] at h'
  obtain ⟨h1, h2⟩ := run_inj (a := a.reverse) (b := b.reverse) (by simpa using ha) (by simpa using hb)
    hx hy h'
  refine ⟨List.reverse_inj.1 h1, ?_⟩
  have := congrArg List.reverse h2
  simpa using this

theorem unpaired_text_inj {l l' c c' : Int} {t t' : List Chr}
    (h : t ++ lits " (see " ++ showInt l ++ lits ":" ++ showInt c ++ lits ")" =
      t' ++ lits " (see " ++ showInt l' ++ lits ":" ++ showInt c' ++ lits ")") :
    l = l' ∧ c = c' ∧ t = t' := by
  simp only [showInt_eq] at h
  obtain ⟨h, -⟩ := List.append_inj' h rfl
  obtain ⟨hc, h⟩ := run_inj_rev (x := ch ':') (y := ch ':') (signedDecimal_chars c)
    (signedDecimal_chars c') (by decide) (by decide) h
  obtain ⟨h, -⟩ := List.append_inj' h rfl
  have e : ∀ t : List Chr, t ++ lits " (see " = (t ++ lits " (see") ++ [ch ' '] := fun t => by
    rw [List.append_assoc]; rfl
  rw [e, e] at h
  obtain ⟨hl, h⟩ := run_inj_rev (signedDecimal_chars l) (signedDecimal_chars l') (by decide)
    (by decide) h
  obtain ⟨h, -⟩ := List.append_inj' h rfl
  obtain ⟨h, -⟩ := List.append_inj' h rfl
  exact ⟨signedDecimal_inj hl, signedDecimal_inj hc, h⟩

theorem signed_dash_inj {a b : Int} {r r' : List Chr}
    (h : signedDecimal a ++ ch '-' :: r = signedDecimal b ++ ch '-' :: r') : a = b ∧ r = r' := by
  have nd : ∀ n t, decimalText n ++ t ≠ [] ∧ (decimalText n ++ t).head? ≠ some (ch '-') := by
    intro n t
    cases hn : decimalText n with
    | nil => exact absurd hn (decimalText_ne_nil n)
    | cons c u =>
      refine ⟨by simp, ?_⟩
      have := decimalText_digits n c (by simp [hn])
      simp only [List.cons_append, List.head?_cons, ne_eq, Option.some.injEq]
      rintro rfl
      exact absurd this (by decide)
  have main : ∀ {m n : Nat}, decimalText m ++ ch '-' :: r = decimalText n ++ ch '-' :: r' →
      decimalText m = decimalText n ∧ r = r' := by
    intro m n h
    obtain ⟨h1, h2⟩ := run_inj (decimalText_digits m) (decimalText_digits n) (by decide) (by decide) h
    exact ⟨h1, (List.cons.inj h2).2⟩
  by_cases ha : a < 0 <;> by_cases hb : b < 0
  · simp only [signedDecimal, if_pos ha, if_pos hb, List.cons_append, List.cons.injEq, true_and] at h
    obtain ⟨h1, h2⟩ := main h
    exact ⟨signedDecimal_inj (by simp only [signedDecimal, if_pos ha, if_pos hb, h1]), h2⟩
  · simp only [signedDecimal, if_pos ha, if_neg hb, List.cons_append] at h
    exact ((nd b.natAbs _).2 (congrArg List.head? h.symm)).elim
  · simp only [signedDecimal, if_neg ha, if_pos hb, List.cons_append] at h
    exact ((nd a.natAbs _).2 (congrArg List.head? h)).elim
  · simp only [signedDecimal, if_neg ha, if_neg hb] at h
    obtain ⟨h1, h2⟩ := main h
    exact ⟨signedDecimal_inj (by simp only [signedDecimal, if_neg ha, if_neg hb, h1]), h2⟩

theorem index_text_inj {a b n a' b' n' : Int}
    (h : (Msg.indexOutOfRange a b n).text user = (Msg.indexOutOfRange a' b' n').text user) :
    a = a' ∧ b = b' ∧ n = n' := by
  simp only [Msg.text, showInt_eq, List.append_assoc] at h
  have h := List.append_cancel_left h
  obtain ⟨hn, h⟩ := run_inj (r := lits " out of range [" ++ (signedDecimal a ++ (lits "-" ++
    (signedDecimal b ++ lits "]")))) (r' := lits " out of range [" ++ (signedDecimal a' ++ (lits "-" ++
    (signedDecimal b' ++ lits "]")))) (x := ch ')') (y := ch ')')
    (signedDecimal_chars n) (signedDecimal_chars n') (by decide) (by decide) h
  have h := List.append_cancel_left (as := lits ") out of range [") h
  obtain ⟨ha, h⟩ := signed_dash_inj h
  obtain ⟨hb, -⟩ := run_inj (x := ch ']') (y := ch ']') (r := []) (r' := []) (signedDecimal_chars b)
    (signedDecimal_chars b') (by decide) (by decide) h
  exact ⟨ha, signedDecimal_inj hb, signedDecimal_inj hn⟩

theorem text_length {m : Msg} (hm : m.FromLibrary) : 11 ≤ (m.text user).length := by
  induction m with
  | unpaired l c m ih =>
    have := ih hm
    simp only [Msg.text, List.length_append]
    omega
  | user n => cases hm
  | indexOutOfRange a b n =>
    have h : (lits ") out of range [").length = 16 := rfl
    simp only [Msg.text, List.length_append, h]
    omega
  | literalExpected c => simp [Msg.text, lits]
  | _ => simp [Msg.text, lits]

/-- A message that is not about another message. -/
def Msg.isPlain : Msg → Bool
  | .unpaired _ _ _ => false
  | _ => true

/-- The beginning of the text of a message. -/
def Msg.beginning : Msg → List Chr
  | .digitExpected => lits "Digit e"
  | .endOfInputExpected => lits "End of "
  | .expectedToFail => lits "Parser "
  | .indexOutOfRange _ _ _ => lits "index ("
  | .letterExpected => lits "Letter "
  | .literalExpected _ => lits "Expecte"
  | .noneOfTheExpectedCasesFound => lits "None of"
  | .unexpectedCharacter => lits "Unexpec"
  | .unexpectedEndOfInput => lits "Unexpec"
  | .unpaired _ _ m => m.beginning
  | .whitespaceExpected => lits "Whitesp"
  | .user _ => []

theorem take_text {m : Msg} (hm : m.FromLibrary) (hp : m.isPlain = true) :
    (m.text user).take 7 = m.beginning := by
  cases m with
  | unpaired l c m => cases hp
  | user n => cases hm
  | _ => rfl

theorem plain_inj {m m' : Msg} (hm : m.FromLibrary) (hm' : m'.FromLibrary) (hp : m.isPlain = true)
    (hp' : m'.isPlain = true) (h : m.text user = m'.text user) : m = m' := by
  have hb : m.beginning = m'.beginning := by
    rw [← take_text (user := user) hm hp, h, take_text hm' hp']
  cases m with
  | user n => cases hm
  | unpaired l c m => cases hp
  | literalExpected c =>
    cases m' with
    | literalExpected d =>
      have := List.append_cancel_left (as := lits "Expected: ") h
      simp only [List.cons.injEq, and_true] at this
      rw [this]
    | user n => cases hm'
    | unpaired l c m => cases hp'
    | _ => exact absurd hb (by simp only [Msg.beginning]; decide)
  | indexOutOfRange a b n =>
    cases m' with
    | indexOutOfRange a' b' n' => obtain ⟨rfl, rfl, rfl⟩ := index_text_inj h; rfl
    | user n => cases hm'
    | unpaired l c m => cases hp'
    | _ => exact absurd hb (by simp only [Msg.beginning]; decide)
  | _ =>
    cases m' with
    | user n => cases hm'
    | unpaired l c m => cases hp'
    | _ =>
      first
      | rfl
      | exact absurd hb (by simp only [Msg.beginning]; decide)
      | exact absurd h (by simp only [Msg.text]; decide)

/-- The text of a plain message does not look like one that names an opening bracket. -/
theorem plain_ne_unpaired {m m' : Msg} {l c : Int} (hm : m.FromLibrary)
    (hm' : m'.FromLibrary) (hp : m.isPlain = true)
    (h : m.text user = (Msg.unpaired l c m').text user) : False := by
  have hl := congrArg List.getLast? h
  have hr : ((Msg.unpaired l c m').text user).getLast? = some (ch ')') := by
    simp only [Msg.text, List.getLast?_append]; rfl
  rw [hr] at hl
  cases m with
  | user n => cases hm
  | unpaired l c m => cases hp
  | literalExpected d =>
    have hlen := congrArg List.length h
    have := text_length (user := user) hm'
    have e1 : (lits "Expected: ").length = 10 := rfl
    have e2 : (lits " (see ").length = 6 := rfl
    simp only [Msg.text, List.length_append, e1, e2, List.length_singleton] at hlen
    omega
  | indexOutOfRange a b n =>
    simp only [Msg.text, List.getLast?_append] at hl
    have e : (lits "]").getLast? = some (ch ']') := rfl
    rw [e, Option.some_or] at hl
    exact absurd hl (by decide)
  | _ => exact absurd hl (by simp only [Msg.text]; decide)

theorem plain_first {m m' : Msg} (hm : m.FromLibrary) (hm' : m'.FromLibrary) (hp : m.isPlain = true)
    (h : m.text user = m'.text user) : m = m' := by
  cases hp' : m'.isPlain with
  | true => exact plain_inj hm hm' hp hp' h
  | false =>
    cases m' with
    | unpaired l' c' m' => exact (plain_ne_unpaired (m' := m') hm hm' hp h).elim
    | _ => cases hp'

/-- Different messages of the library have different texts. -/
theorem C54_message_texts (m m' : Msg) (hm : m.FromLibrary) (hm' : m'.FromLibrary)
    (h : m.text user = m'.text user) : m = m' := by
  induction m generalizing m' with
  | unpaired l c m ih =>
    cases hp : m'.isPlain with
    | true => exact (plain_ne_unpaired (m' := m) hm' hm hp h.symm).elim
    | false =>
      cases m' with
      | unpaired l' c' m' =>
        obtain ⟨rfl, rfl, ht⟩ := unpaired_text_inj h
        rw [ih m' hm hm' ht]
      | _ => cases hp
  | user n => cases hm
  | _ => exact plain_first hm hm' rfl h

/-- The report of a rejection determines its line, its column and the text of its message. -/
theorem failureReport_inj {s t t' : List Chr} {l l' c c' : Int}
    (h : failureReport s l c t = failureReport s l' c' t') : l = l' ∧ c = c' ∧ t = t' := by
  have h := List.append_cancel_left h
  simp only [List.append_assoc] at h
  have h := List.append_cancel_left h
  obtain ⟨hl, h⟩ := run_inj (x := ch ',') (y := ch ',')
    (r := txt " col " ++ (signedDecimal c ++ (txt ": " ++ (t ++ txt "\n"))))
    (r' := txt " col " ++ (signedDecimal c' ++ (txt ": " ++ (t' ++ txt "\n"))))
    (signedDecimal_chars l) (signedDecimal_chars l') (by decide) (by decide) h
  have h := List.append_cancel_left (as := txt ", col ") h
  obtain ⟨hc, h⟩ := run_inj (x := ch ':') (y := ch ':')
    (r := txt " " ++ (t ++ txt "\n")) (r' := txt " " ++ (t' ++ txt "\n"))
    (signedDecimal_chars c) (signedDecimal_chars c') (by decide) (by decide) h
  have h := List.append_cancel_left (as := txt ": ") h
  exact ⟨signedDecimal_inj hl, signedDecimal_inj hc, List.append_cancel_right h⟩

theorem failure_ne_success {s t r : List Chr} {l c : Int} :
    failureReport s l c t ≠ successReport s r := by
  intro h
  have h := List.append_cancel_left h
  have h := congrArg (List.take 9) h
  have e1 : (txt "Parsing failed:\nline " ++ signedDecimal l ++ txt ", col " ++ signedDecimal c ++
      txt ": " ++ t ++ txt "\n").take 9 = txt "Parsing f" := rfl
  have e2 : (txt "Parsing was successful. Remaining string is:\n" ++ upToNul r ++
      txt "\n").take 9 = txt "Parsing w" := rfl
  rw [e1, e2] at h
  exact absurd h (by decide)

/-- From the report on a text one can tell whether the parser accepted it; the line, the column and the
message if it did not; and the remaining text, up to a NUL character, if it did. -/
theorem C54_unambiguous (p p' : P) (s t : List Chr)
    (h : debugParsingError str11 user E p s = .ok t)
    (h' : debugParsingError str11 user E' p' s = .ok t) :
    (∃ m e m' e', Rejects E p s start m e ∧ Rejects E' p' s start m' e' ∧
      e.line = e'.line ∧ e.col = e'.col ∧ m.text user = m'.text user ∧
      (m.FromLibrary → m'.FromLibrary → m = m')) ∨
    (∃ v r pos v' r' pos', Accepts E p s start v r pos ∧ Accepts E' p' s start v' r' pos' ∧
      upToNul r = upToNul r') := by
  obtain ⟨x, hx⟩ := (C54_reports_iff (user := user) p s).1 ⟨t, h⟩
  obtain ⟨y, hy⟩ := (C54_reports_iff (user := user) p' s).1 ⟨t, h'⟩
  cases x with
  | acc v r pos =>
    have e := C54_success (user := user) p s v r pos hx
    rw [h] at e
    cases y with
    | acc v' r' pos' =>
      have e' := C54_success (user := user) p' s v' r' pos' hy
      rw [h'] at e'
      refine .inr ⟨v, r, pos, v', r', pos', hx, hy, ?_⟩
      have := (Out.ok.inj e).symm.trans (Out.ok.inj e')
      have := List.append_cancel_left this
      simp only [List.append_assoc] at this
      exact List.append_cancel_right (List.append_cancel_left this)
    | rej m e0 =>
      have e' := C54_failure (user := user) p' s m e0 hy
      rw [h'] at e'
      exact (failure_ne_success ((Out.ok.inj e').symm.trans (Out.ok.inj e))).elim
  | rej m e0 =>
    have e := C54_failure (user := user) p s m e0 hx
    rw [h] at e
    cases y with
    | acc v' r' pos' =>
      have e' := C54_success (user := user) p' s v' r' pos' hy
      rw [h'] at e'
      exact (failure_ne_success ((Out.ok.inj e).symm.trans (Out.ok.inj e'))).elim
    | rej m' e0' =>
      have e' := C54_failure (user := user) p' s m' e0' hy
      rw [h'] at e'
      obtain ⟨h1, h2, h3⟩ := failureReport_inj ((Out.ok.inj e).symm.trans (Out.ok.inj e'))
      exact .inl ⟨m, e0, m', e0', hx, hy, h1, h2, h3, fun hm hm' => C54_message_texts m m' hm hm' h3⟩

theorem upToNul_eq_self {s : List Chr} (h : 0 ∉ s) : upToNul s = s := by
  induction s with
  | nil => rfl
  | cons c s ih =>
    have hc : ¬ c = 0 := fun e => h (by simp [e])
    have := ih fun hm => h (List.mem_cons_of_mem _ hm)
    simp only [upToNul] at this ⊢
    rw [List.takeWhile_cons, this]
    simp [hc]

/-- For a text without NUL characters the remaining text, and with it the position, is determined by
the report. -/
theorem C54_success_unambiguous (hE : E.Honest) (hE' : E'.Honest) (p p' : P) (s t : List Chr)
    (hs : 0 ∉ s) (v v' : Val) (r r' : List Chr) (pos pos' : Pos)
    (ha : Accepts E p s start v r pos) (ha' : Accepts E' p' s start v' r' pos')
    (h : debugParsingError str11 user E p s = .ok t)
    (h' : debugParsingError str11 user E' p' s = .ok t) : r = r' ∧ pos = pos' := by
  obtain ⟨c, hc, hpos⟩ := ha.honest hE
  obtain ⟨c', hc', hpos'⟩ := ha'.honest hE'
  have hn : (0 : Chr) ∉ r := fun hm => hs (hc ▸ List.mem_append_right _ hm)
  have hn' : (0 : Chr) ∉ r' := fun hm => hs (hc' ▸ List.mem_append_right _ hm)
  rcases C54_unambiguous p p' s t h h' with ⟨m, e, _, _, hr, _⟩ | ⟨_, _, _, _, _, _, h1, h2, heq⟩
  · exact (ha.not_rejects hr).elim
  · obtain ⟨rfl, rfl, rfl⟩ := ha.unique h1
    obtain ⟨rfl, rfl, rfl⟩ := ha'.unique h2
    rw [upToNul_eq_self hn, upToNul_eq_self hn'] at heq
    subst heq
    refine ⟨rfl, ?_⟩
    rw [hpos, hpos', List.append_cancel_right (hc.symm.trans hc')]

/-! ## Concrete reports -/

example : debugParsingError str11 user env11 (.sequence [P.digit, P.digit]) (txt "1x") =
    .ok (txt "Compile-time parsing results\n----------------------------\nInput text:\n1x\n\nParsing failed:\nline 1, col 2: Digit expected\n") := by
  rw [C54_failure (m := .digitExpected) (e := ⟨1, 2, ch '1'⟩) _ _
    (rejects_of_eval 30 (by decide +kernel))]
  have h : failureReport (txt "1x") 1 2 (Msg.text (fun _ => []) .digitExpected) =
    txt "Compile-time parsing results\n----------------------------\nInput text:\n1x\n\nParsing failed:\nline 1, col 2: Digit expected\n" := by decide +kernel
  exact congrArg Out.ok h

example : debugParsingError str11 user env11 P.digit (txt "1x") =
    .ok (txt "Compile-time parsing results\n----------------------------\nInput text:\n1x\n\nParsing was successful. Remaining string is:\nx\n") := by
  rw [C54_success (v := .chr (ch '1')) (s' := txt "x") (pos := ⟨1, 2, ch '1'⟩) _ _
    (accepts_of_eval 30 (by decide +kernel))]
  exact congrArg Out.ok (by decide +kernel)

example : (Msg.unpaired 1 7 (.literalExpected (ch ')'))).text (fun _ => []) =
    txt "Expected: ) (see 1:7)" := by
  decide +kernel

/-- `digit` at "x". -/
example : buildParser env11 P.digit (txt "x") = .ill (.parsingFailed 1 1 .digitExpected) ∧
    debugParsingErrorBuild str11 user env11 P.digit (txt "x") = .ok (failureReport (txt "x") 1 1 (txt "Digit expected")) :=
  C54_build_parser _ _ .digitExpected start (rejects_of_eval 30 (by decide +kernel))

example {m : Msg} (hm : m.FromLibrary) (h : m.text user = txt "Digit expected") : m = .digitExpected :=
  C54_message_texts m .digitExpected hm trivial h

/-- The same report with C++98 and C++11 is the same error. -/
example : ∃ m e m' e', Rejects env11 P.digit (txt "x") start m e ∧ Rejects env98 P.digit (txt "x") start m' e' ∧
    e.line = e'.line ∧ e.col = e'.col ∧ m.text user = m'.text user ∧ (m.FromLibrary → m'.FromLibrary → m = m') := by
  rcases C54_unambiguous (user := user) P.digit P.digit (txt "x") _
    (C54_failure (E := env11) _ _ .digitExpected start (rejects_of_eval 30 (by decide +kernel)))
    (C54_failure (E := env98) _ _ .digitExpected start (rejects_of_eval 30 (by decide +kernel))) with h | ⟨v, r, pos, -, -, -, h, -⟩
  · exact h
  · have hr : Rejects env11 P.digit (txt "x") start .digitExpected start := rejects_of_eval 30 (by decide +kernel)
    exact absurd (h.symm.trans hr) (by simp)

end Metaparse
