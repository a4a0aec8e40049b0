import Verif.Lemmas.GenerateParse

/-! # The text of a command in a header -/

namespace Metaparse.Gen

/-- A line of a definition: neither a directive nor a comment. -/
def Harmless (l : Str) : Prop :=
  (¬ lit "#" <+: l.dropWhile blank ∨ lit "#include <" <+: l.dropWhile blank) ∧ ¬ lit "//" <+: l

/-- A prefix without white space at its end. -/
theorem prefix_append_blanks {p l e : Str} (hp : ∀ c, p.getLast? = some c → blank c = false)
    (he : ∀ c ∈ e, blank c = true) : p <+: l ++ e ↔ p <+: l := by
  constructor
  · intro h
    rcases Nat.lt_or_ge l.length p.length with hlt | hge
    · exfalso
      obtain ⟨t, ht⟩ := h
      have hl : l <+: p := List.prefix_of_prefix_length_le (List.prefix_append l e) ⟨t, ht⟩ (Nat.le_of_lt hlt)
      obtain ⟨q, rfl⟩ := hl
      rw [List.append_assoc] at ht
      have ht := List.append_cancel_left ht
      have hq : q ≠ [] := by rintro rfl; simp at hlt
      have hlast : (l ++ q).getLast? = some (q.getLast hq) := by
        rw [List.getLast?_append, List.getLast?_eq_some_getLast hq]; rfl
      have h1 := hp _ hlast
      have h2 := he (q.getLast hq) (by rw [← ht]; simp)
      rw [h1] at h2; simp at h2
    · exact List.prefix_of_prefix_length_le h (List.prefix_append l e) hge
  · intro h
    exact h.trans (List.prefix_append l e)

theorem dropWhile_append_blanks {l e : Str} (he : ∀ c ∈ e, blank c = true) :
    ∃ e', (∀ c ∈ e', blank c = true) ∧ (l ++ e).dropWhile blank = l.dropWhile blank ++ e' := by
  induction l with
  | nil => exact ⟨[], by simp, by simp [dropWhile_eq_nil_of_all he]⟩
  | cons c l ih =>
    rw [List.cons_append, List.dropWhile_cons, List.dropWhile_cons]
    split
    · exact ih
    · exact ⟨e, he, rfl⟩

theorem harmless_append_blanks {l e : Str} (he : ∀ c ∈ e, blank c = true) : Harmless (l ++ e) ↔ Harmless l := by
  obtain ⟨e', he', h⟩ := dropWhile_append_blanks (l := l) he
  rw [Harmless, Harmless, h, prefix_append_blanks (by decide) he', prefix_append_blanks (by decide) he',
    prefix_append_blanks (by decide) he]

theorem directive_of_harmless {l : Str} (h : ¬ lit "#" <+: l.dropWhile blank ∨ lit "#include <" <+: l.dropWhile blank) :
    directive l = .other := by
  have key : ∀ p : Str, ¬ p <+: lit "#include <" → ¬ lit "#include <" <+: p → lit "#" <+: p →
      p.isPrefixOf (l.dropWhile blank) = false := by
    intro p h1 h2 h3
    cases hp : p.isPrefixOf (l.dropWhile blank) with
    | false => rfl
    | true =>
      exfalso
      rw [List.isPrefixOf_iff_prefix] at hp
      rcases h with h | h
      · exact h (h3.trans hp)
      · rcases List.prefix_or_prefix_of_prefix h hp with h | h
        · exact h2 h
        · exact h1 h
  rw [directive]
  simp only [key (lit "#ifndef ") (by decide) (by decide) (by decide), key (lit "#ifdef ") (by decide) (by decide) (by decide),
    key (lit "#endif") (by decide) (by decide) (by decide), key (lit "#define ") (by decide) (by decide) (by decide),
    key (lit "#include \"") (by decide) (by decide) (by decide)]
  simp

/-- The texts that occur: all lines are harmless; a line feed is after a blank; the text begins with the
first line. -/
structure GoodText (first : Str) (ws : List Str) (t : Str) : Prop where
  words : words t = ws
  harmless : ∀ l ∈ linesOf t, Harmless l
  blanks : ∀ c ∈ t, blank c = true → c = ' ' ∨ c = '\n'
  feeds : ∀ u v, t = u ++ '\n' :: v → ∃ u', u = u' ++ [' ']
  first : ∃ r, t = rstrip first ++ r ∧ (r = [] ∨ r = [' '] ∨ ∃ r', r = ' ' :: '\n' :: r')

theorem rstrip_cons {c : Char} (h : blank c = false) (l : Str) : ∃ l', rstrip (c :: l) = c :: l' := by
  obtain ⟨b, hb, hall⟩ := rstrip_split (c :: l)
  cases hr : rstrip (c :: l) with
  | nil =>
    rw [hr] at hb
    have := hall c (by rw [← List.nil_append b, ← hb]; simp)
    rw [h] at this; simp at this
  | cons d l' =>
    rw [hr] at hb
    simp at hb
    exact ⟨l', by rw [hb.1]⟩

theorem goodText_rstrip {first : Str} {ws : List Str} {t : Str} (h : GoodText first ws t) :
    GoodText first ws (rstrip t) := by
  obtain ⟨b, hb, hall⟩ := rstrip_split t
  refine ⟨by rw [words_rstrip, h.words], ?_, ?_, ?_, ?_⟩
  · intro l hl
    obtain ⟨e, he, hm⟩ := mem_linesOf_append_blanks hall hl
    rw [← hb] at hm
    exact (harmless_append_blanks he).1 (h.harmless _ hm)
  · intro c hc
    exact h.blanks c (by rw [hb]; simp [hc])
  · intro u v huv
    exact h.feeds u (v ++ b) (by rw [hb, huv]; simp)
  · obtain ⟨r, hr, hcase⟩ := h.first
    -- the stripped text begins with the stripped first line
    have h1 : rstrip first <+: rstrip t := by
      have hp : rstrip first <+: rstrip t ++ b := by rw [← hb, hr]; exact List.prefix_append _ _
      exact (prefix_append_blanks (fun c hc => rstrip_last hc) hall).1 hp
    obtain ⟨q, hq⟩ := h1
    refine ⟨q, hq.symm, ?_⟩
    have hr' : r = q ++ b := by
      have : rstrip first ++ r = rstrip first ++ (q ++ b) := by rw [← hr, ← List.append_assoc, hq, ← hb]
      exact List.append_cancel_left this
    match q, hr' with
    | [], _ => exact .inl rfl
    | [c], hr' =>
      rcases hcase with h | h | ⟨r', h⟩
      · rw [h] at hr'; simp at hr'
      · rw [h] at hr'; simp at hr'; exact .inr (.inl (by rw [← hr'.1]))
      · rw [h] at hr'; simp at hr'; exact .inr (.inl (by rw [← hr'.1]))
    | c :: d :: q, hr' =>
      rcases hcase with h | h | ⟨r', h⟩
      · rw [h] at hr'; simp at hr'
      · rw [h] at hr'; simp at hr'
      · rw [h] at hr'; simp at hr'; exact .inr (.inr ⟨q, by rw [← hr'.1, ← hr'.2.1]⟩)

theorem goodText_head {first : Str} {ws : List Str} {t : Str} (h : GoodText first ws t) {c : Char} {l : Str}
    (hf : first = c :: l) (hc : blank c = false) : ∃ t', t = c :: t' := by
  obtain ⟨r, hr, -⟩ := h.first
  obtain ⟨l', hl'⟩ := rstrip_cons hc l
  exact ⟨l' ++ r, by rw [hr, hf, hl']; rfl⟩

theorem goodText_strip {first : Str} {ws : List Str} {t : Str} (h : GoodText first ws t) {c : Char} {l : Str}
    (hf : first = c :: l) (hc : blank c = false) : strip t = rstrip t := by
  obtain ⟨t', ht'⟩ := goodText_head h hf hc
  rw [strip, ht', lstrip_of_head hc]

/-- A blank after a text. -/
theorem goodText_blank {first : Str} {ws : List Str} {t : Str} (h : GoodText first ws t) :
    GoodText first ws (rstrip t ++ lit " ") := by
  have hr := goodText_rstrip h
  have hb : ∀ c ∈ lit " ", blank c = true := by decide
  refine ⟨by rw [words_append_blanks _ hb, hr.words], ?_, ?_, ?_, ?_⟩
  · intro l hl
    rcases mem_linesOf_append_blank hl with hl | ⟨m, hm, rfl⟩
    · exact hr.harmless l hl
    · exact (harmless_append_blanks hb).2 (hr.harmless m hm)
  · intro c hc hbl
    rcases List.mem_append.1 hc with hc | hc
    · exact hr.blanks c hc hbl
    · simp [lit] at hc; exact .inl hc
  · intro u v huv
    -- the line feed is in the text
    have : v ≠ [] := by
      rintro rfl
      have := congrArg List.getLast? huv
      rw [List.getLast?_append] at this
      simp [lit] at this
    obtain ⟨v', x, rfl⟩ : ∃ v' x, v = v' ++ [x] := ⟨v.dropLast, v.getLast this, (List.dropLast_concat_getLast this).symm⟩
    have h2 : rstrip t ++ [' '] = (u ++ '\n' :: v') ++ [x] := by simpa [lit] using huv
    have h3 := List.append_inj' h2 rfl
    exact hr.feeds u v' h3.1
  · obtain ⟨r, hr1, hcase⟩ := hr.first
    refine ⟨r ++ lit " ", by rw [hr1]; simp, ?_⟩
    rcases hcase with h | h | ⟨r', h⟩
    · subst h; exact .inr (.inl rfl)
    · -- a stripped text does not end with a blank
      subst h
      exfalso
      have : (rstrip t).getLast? = some ' ' := by rw [hr1, List.getLast?_append]; rfl
      exact absurd (rstrip_last this) (by decide)
    · subst h; exact .inr (.inr ⟨r' ++ lit " ", by simp⟩)

/-- One more line. -/
theorem goodText_line {first : Str} {ws : List Str} {t : Str} (h : GoodText first ws t) {m : Str}
    (hm : CommandLine m) : GoodText first (ws ++ Gen.words m) (rstrip t ++ lit " " ++ lit "\n " ++ m) := by
  have hb := goodText_blank h
  have hnl : '\n' ∉ ' ' :: m := by
    intro hn
    rcases List.mem_cons.1 hn with hn | hn
    · exact absurd hn (by decide)
    · exact absurd (hm.blanks _ hn (by decide)) (by decide)
  have e : rstrip t ++ lit " " ++ lit "\n " ++ m = (rstrip t ++ lit " ") ++ '\n' :: ' ' :: m := by simp [lit]
  rw [e]
  refine ⟨by rw [words_append _ (by decide), hb.words, words_blank (by decide)], ?_, ?_, ?_, ?_⟩
  · intro l hl
    rw [linesOf_append, linesOf_line hnl] at hl
    rcases List.mem_append.1 hl with hl | hl
    · exact hb.harmless l hl
    · simp only [List.mem_cons, List.not_mem_nil, or_false] at hl
      subst hl
      refine ⟨?_, by simp [lit]⟩
      rw [List.dropWhile_cons, if_pos (by decide)]
      exact hm.plain
  · intro c hc hbl
    rcases List.mem_append.1 hc with hc | hc
    · exact hb.blanks c hc hbl
    · rcases List.mem_cons.1 hc with hc | hc
      · exact .inr hc
      · rcases List.mem_cons.1 hc with hc | hc
        · exact .inl hc
        · exact .inl (hm.blanks c hc hbl)
  · intro u v huv
    -- the line feed is the last one, or one in the text
    rcases Nat.lt_trichotomy u.length (rstrip t ++ lit " ").length with hlt | heq | hgt
    · have h1 : u ++ ['\n'] <+: rstrip t ++ lit " " := by
        apply List.prefix_of_prefix_length_le (l₃ := (rstrip t ++ lit " ") ++ '\n' :: ' ' :: m)
        · exact ⟨v, by rw [huv]; simp⟩
        · exact List.prefix_append _ _
        · simp only [List.length_append, List.length_cons, List.length_nil] at hlt ⊢; omega
      obtain ⟨w, hw⟩ := h1
      exact hb.feeds u w (by rw [← hw]; simp)
    · have := List.append_inj huv heq.symm
      exact ⟨rstrip t, by rw [← this.1]; rfl⟩
    · exfalso
      have h1 : (rstrip t ++ lit " ") ++ ['\n'] <+: u := by
        apply List.prefix_of_prefix_length_le (l₃ := (rstrip t ++ lit " ") ++ '\n' :: ' ' :: m)
        · exact ⟨' ' :: m, by simp⟩
        · rw [huv]; exact List.prefix_append _ _
        · simp only [List.length_append, List.length_cons, List.length_nil] at hgt ⊢; omega
      obtain ⟨w, hw⟩ := h1
      rw [← hw] at huv
      have h2 : ' ' :: m = w ++ '\n' :: v := by
        have : (rstrip t ++ lit " ") ++ ['\n'] ++ (' ' :: m) = (rstrip t ++ lit " ") ++ ['\n'] ++ (w ++ '\n' :: v) := by
          simpa using huv
        exact List.append_cancel_left this
      exact hnl (by rw [h2]; simp)
  · obtain ⟨r, hr1, hcase⟩ := hb.first
    refine ⟨r ++ '\n' :: ' ' :: m, by rw [hr1]; simp, ?_⟩
    rcases hcase with h' | h' | ⟨r', h'⟩
    · subst h'
      exfalso
      rw [List.append_nil] at hr1
      have : (rstrip first).getLast? = some ' ' := by rw [← hr1, List.getLast?_append]; rfl
      exact absurd (rstrip_last this) (by decide)
    · subst h'; exact .inr (.inr ⟨_, rfl⟩)
    · subst h'; exact .inr (.inr ⟨_, rfl⟩)

/-- The first line. -/
theorem goodText_first {c : Char} {l : Str} (h : CommandLine (c :: l)) (hcom : ¬ lit "//" <+: c :: l) :
    GoodText (c :: l) (Gen.words (c :: l)) (rstrip (c :: l)) := by
  have hnl : '\n' ∉ rstrip (c :: l) := by
    intro hn
    obtain ⟨b, hb, -⟩ := rstrip_split (c :: l)
    exact absurd (h.blanks '\n' (by rw [hb]; simp [hn]) (by decide)) (by decide)
  refine ⟨words_rstrip _, ?_, ?_, ?_, ⟨[], by simp, .inl rfl⟩⟩
  · intro m hm
    rw [linesOf_line hnl] at hm
    simp only [List.mem_cons, List.not_mem_nil, or_false] at hm
    subst hm
    obtain ⟨b, hb, hall⟩ := rstrip_split (c :: l)
    have : Harmless (c :: l) := ⟨h.plain, hcom⟩
    rw [hb] at this
    exact (harmless_append_blanks hall).1 this
  · intro d hd hbl
    obtain ⟨b, hb, -⟩ := rstrip_split (c :: l)
    exact .inl (h.blanks d (by rw [hb]; simp [hd]) hbl)
  · intro u v huv
    exact absurd (by rw [huv]; simp : '\n' ∈ rstrip (c :: l)) hnl

theorem goodText_more {first : Str} {c : Char} {f : Str} (hf : first = c :: f) (hc : blank c = false)
    {ls : List Str} (hls : ∀ l ∈ ls, CommandLine l) (hne : ls ≠ []) {ws : List Str} {t : Str}
    (h : GoodText first ws t) :
    GoodText first (ws ++ ls.flatMap Gen.words) (rstrip (more (rstrip t ++ lit " ") ls)) ∧
      strip (more (rstrip t ++ lit " ") ls) = rstrip (more (rstrip t ++ lit " ") ls) := by
  induction ls generalizing ws t with
  | nil => exact absurd rfl hne
  | cons l ls ih =>
    have hl := goodText_line h (hls l (by simp))
    cases ls with
    | nil =>
      simp only [more]
      exact ⟨by simpa using goodText_rstrip hl, goodText_strip hl hf hc⟩
    | cons m ls =>
      have := ih (fun x hx => hls x (by simp [hx])) (by simp) hl
      rw [more, goodText_strip hl hf hc]
      · simpa using this
      · simp

/-- The text of a command. -/
theorem goodText_command {ls : List Str} (h : WellWrittenCommand ls) :
    GoodText (ls.head?.getD []) (ls.flatMap Gen.words) (strip (rawCommand ls)) ∧
      strip (rawCommand ls) = rstrip (strip (rawCommand ls)) := by
  obtain ⟨hls, c, l, ls', rfl, hc, hcom⟩ := h
  have hl := hls _ List.mem_cons_self
  have hcb : blank c = false := by
    cases hb : blank c with
    | false => rfl
    | true => exact absurd (hl.blanks c (by simp) hb) hc
  have hs : strip (' ' :: c :: l) = rstrip (c :: l) := by
    rw [strip, lstrip_blank (by decide), lstrip_of_head hcb]
  have h1 := goodText_first hl hcom
  have hrr : ∀ t, rstrip (rstrip t) = rstrip t := by
    intro t
    obtain ⟨b, hb, hall⟩ := rstrip_split t
    conv => rhs; rw [hb]
    rw [rstrip_append_blank hall]
  cases ls' with
  | nil =>
    rw [rawCommand, hs, hrr]
    exact ⟨by simpa using h1, rfl⟩
  | cons m ls =>
    have h2 := goodText_more (first := c :: l) rfl hcb (ls := m :: ls) (fun x hx => hls x (by simp [hx])) (by simp) h1
    rw [hrr] at h2
    rw [rawCommand, hs, h2.2, hrr]
    · exact ⟨by simpa using h2.1, rfl⟩
    · simp

end Metaparse.Gen
