import Verif.Lemmas.GenerateCommands

/-! # What a compiler sees of a definition -/

namespace Metaparse.Gen

/-! ## Which commands are definitions -/

theorem last_not_blank {t : Str} (h : t = rstrip t) {u : Str} {c : Char} (hu : t = u ++ [c]) : blank c = false := by
  apply rstrip_last (s := t)
  rw [← h, hu, List.getLast?_append]; rfl

theorem words_ne_nil_of_last (s : Str) {c : Char} (h : blank c = false) : words (s ++ [c]) ≠ [] := by
  obtain ⟨r, w, hw⟩ := words_last s h
  rw [hw]; simp

theorem keyword_prefix {first : Str} {ws : List Str} {t : Str} (h : GoodText first ws t) (ht : t = rstrip t)
    (hhead : ∀ c l, t = c :: l → blank c = false)
    {k : Str} (hne : k ≠ []) (hk : ∀ c ∈ k, blank c = false) :
    (k ++ [' '] <+: t) ↔ ∃ w r, ws = k :: w :: r := by
  constructor
  · rintro ⟨r, hr⟩
    rw [List.append_assoc] at hr
    have hw := words_append k (c := ' ') (by decide) r
    rw [words_word hne hk] at hw
    have ht2 : words t = k :: words r := by rw [← hr]; exact hw
    rw [h.words] at ht2
    have hrne : r ≠ [] := by
      rintro rfl
      exact absurd (last_not_blank ht (u := k) (c := ' ') (by rw [← hr]; simp)) (by decide)
    have hlast : blank (r.getLast hrne) = false := by
      apply last_not_blank ht (u := k ++ ' ' :: r.dropLast)
      rw [← hr]
      simp [List.dropLast_concat_getLast hrne]
    have hwr : words r ≠ [] := by
      rw [← List.dropLast_concat_getLast hrne]
      exact words_ne_nil_of_last _ hlast
    cases hwr' : words r with
    | nil => exact absurd hwr' hwr
    | cons w q => exact ⟨w, q, by rw [ht2, hwr']⟩
  · rintro ⟨w, r, hws⟩
    have hw := h.words
    rw [hws] at hw
    -- the text is a word, or a word, white space and more
    have hsplit := List.takeWhile_append_dropWhile (p := fun c => !blank c) (l := t)
    generalize hk' : t.takeWhile (fun c => !blank c) = k' at hsplit
    have hk'all : ∀ c ∈ k', blank c = false := by
      intro c hc
      rw [← hk'] at hc
      have := List.all_takeWhile (p := fun c => !blank c) (l := t)
      rw [List.all_eq_true] at this
      simpa using this c hc
    have hk'ne : k' ≠ [] := by
      rintro rfl
      cases t with
      | nil => simp [words] at hw
      | cons c l =>
        have hb := hhead c l rfl
        rw [List.takeWhile_cons] at hk'
        simp [hb] at hk'
    cases hd : t.dropWhile (fun c => !blank c) with
    | nil =>
      rw [hd, List.append_nil] at hsplit
      rw [← hsplit, words_word hk'ne hk'all] at hw
      simp at hw
    | cons c v =>
      rw [hd] at hsplit
      have hc : blank c = true := by
        have := List.head?_dropWhile_not (fun c => !blank c) t
        rw [hd] at this
        simpa using this
      rw [← hsplit, words_append _ hc, words_word hk'ne hk'all] at hw
      simp only [List.cons_append, List.nil_append, List.cons.injEq] at hw
      rcases h.blanks c (by rw [← hsplit]; simp) hc with rfl | rfl
      · exact ⟨v, by rw [← hw.1, List.append_assoc]; exact hsplit⟩
      · obtain ⟨u', hu'⟩ := h.feeds k' v hsplit.symm
        exact absurd (hk'all ' ' (by rw [hu']; simp)) (by decide)

theorem text_head {ls : List Str} (h : WellWrittenCommand ls) :
    ∃ c f more, ls = (c :: f) :: more ∧ blank c = false := by
  obtain ⟨hls, c, l, ls', rfl, hc, -⟩ := h
  refine ⟨c, l, ls', rfl, ?_⟩
  cases hb : blank c with
  | false => rfl
  | true => exact absurd ((hls _ List.mem_cons_self).blanks c (by simp) hb) hc

theorem isDefinition_iff {ls : List Str} (h : WellWrittenCommand ls) :
    isDefinition (rawCommand ls) = true ↔ Defines ls := by
  obtain ⟨g, gr⟩ := goodText_command h
  obtain ⟨c, f, more, rfl, hc⟩ := text_head h
  generalize ht : strip (rawCommand ((c :: f) :: more)) = t at g gr
  have hhead : ∀ d l, t = d :: l → blank d = false := by
    intro d l hd
    obtain ⟨t', ht'⟩ := goodText_head g (c := c) (l := f) rfl hc
    rw [ht'] at hd
    simp at hd
    rw [← hd.1]; exact hc
  have hkw : ∀ k : Str, k ≠ [] → (∀ c ∈ k, blank c = false) →
      ((k ++ [' ']).isPrefixOf t = true ↔ ∃ w r, ((c :: f) :: more).flatMap words = k :: w :: r) := by
    intro k h1 h2
    rw [List.isPrefixOf_iff_prefix]
    exact keyword_prefix g gr hhead h1 h2
  have hi := hkw (lit "#include") (by decide) (by decide)
  have hu := hkw (lit "using") (by decide) (by decide)
  have hs := hkw (lit "struct") (by decide) (by decide)
  have hte := hkw (lit "template") (by decide) (by decide)
  have hsemi : [';'].isSuffixOf t = true ↔ ∃ r w, ((c :: f) :: more).flatMap words = r ++ [w ++ [';']] := by
    rw [List.isSuffixOf_iff_suffix, ← g.words]
    constructor
    · rintro ⟨u, rfl⟩
      exact words_last u (by decide)
    · rintro ⟨r, w, hw⟩
      cases hne : t with
      | nil => rw [hne] at hw; simp [words] at hw
      | cons d l =>
        have htne : t ≠ [] := by rw [hne]; simp
        have hcat := List.dropLast_concat_getLast htne
        have hb := last_not_blank gr hcat.symm
        obtain ⟨r', w', hw'⟩ := words_last t.dropLast hb
        rw [hcat, hw] at hw'
        have := (List.append_inj' hw' rfl).2
        simp only [List.cons.injEq, and_true] at this
        have := (List.append_inj' this rfl).2
        simp only [List.cons.injEq, and_true] at this
        rw [← hne]
        refine ⟨t.dropLast, ?_⟩
        rw [this]; exact hcat
  rw [isDefinition, Defines]
  simp only [ht, List.any_cons, List.any_nil, Bool.or_false, Bool.or_eq_true]
  rw [show lit "#include " = lit "#include" ++ [' '] by decide, show lit "using " = lit "using" ++ [' '] by decide,
    show lit "struct " = lit "struct" ++ [' '] by decide, show lit "template " = lit "template" ++ [' '] by decide,
    hi, hu, hs, hte, hsemi]
  constructor
  · rintro ((⟨w, r, h⟩ | ⟨w, r, h⟩ | ⟨w, r, h⟩ | ⟨w, r, h⟩) | h)
    · exact .inl ⟨_, w, r, h, by simp⟩
    · exact .inl ⟨_, w, r, h, by simp⟩
    · exact .inl ⟨_, w, r, h, by simp⟩
    · exact .inl ⟨_, w, r, h, by simp⟩
    · exact .inr h
  · rintro (⟨k, w, r, h, hk⟩ | h)
    · simp only [List.mem_cons, List.not_mem_nil, or_false] at hk
      rcases hk with rfl | rfl | rfl | rfl
      · exact .inl (.inl ⟨w, r, h⟩)
      · exact .inl (.inr (.inl ⟨w, r, h⟩))
      · exact .inl (.inr (.inr (.inl ⟨w, r, h⟩)))
      · exact .inl (.inr (.inr (.inr ⟨w, r, h⟩)))
    · exact .inr h

theorem metashell_prefix {ls : List Str} (h : WellWrittenCommand ls) :
    (lit "#include <metashell").isPrefixOf (strip (rawCommand ls)) = true ↔ OnlyMetashell ls := by
  obtain ⟨g, gr⟩ := goodText_command h
  obtain ⟨c, f, more, rfl, hc⟩ := text_head h
  generalize ht : strip (rawCommand ((c :: f) :: more)) = t at g gr
  rw [List.isPrefixOf_iff_prefix]
  obtain ⟨r, hr, hcase⟩ := g.first
  simp only [List.head?_cons, Option.getD_some] at hr
  obtain ⟨b, hb, hall⟩ := rstrip_split (c :: f)
  constructor
  · intro hp
    have key : lit "#include <metashell" <+: rstrip (c :: f) := by
      rcases Nat.lt_or_ge (rstrip (c :: f)).length (lit "#include <metashell").length with hlt | hge
      · exfalso
        have hq : rstrip (c :: f) <+: lit "#include <metashell" :=
          List.prefix_of_prefix_length_le ⟨r, hr.symm⟩ hp (Nat.le_of_lt hlt)
        obtain ⟨q, hq⟩ := hq
        obtain ⟨v, hv⟩ := hp
        rw [← hq, hr, List.append_assoc] at hv
        have hv := List.append_cancel_left hv
        have hqne : q ≠ [] := by rintro rfl; rw [← hq] at hlt; simp at hlt
        rcases hcase with hr' | hr' | ⟨r', hr'⟩
        · rw [hr'] at hv; simp at hv; exact hqne hv.1
        · rw [hr'] at hv
          match q, hqne with
          | [d], _ =>
            simp only [List.cons_append, List.cons.injEq] at hv
            rw [hv.1] at hq
            have := congrArg List.getLast? hq
            rw [List.getLast?_append] at this
            simp [lit] at this
          | d :: e :: q, _ => simp at hv
        · rw [hr'] at hv
          match q, hqne with
          | [d], _ =>
            simp only [List.cons_append, List.cons.injEq] at hv
            rw [hv.1] at hq
            have := congrArg List.getLast? hq
            rw [List.getLast?_append] at this
            simp [lit] at this
          | d :: e :: q, _ =>
            simp only [List.cons_append, List.cons.injEq] at hv
            have : '\n' ∈ lit "#include <metashell" := by rw [← hq, ← hv.2.1]; simp
            exact absurd this (by decide)
      · exact List.prefix_of_prefix_length_le hp ⟨r, hr.symm⟩ hge
    obtain ⟨q, hq⟩ := key
    exact ⟨q ++ b, more, by rw [← List.append_assoc, hq, ← hb]⟩
  · rintro ⟨q, more', hq⟩
    simp only [List.cons.injEq] at hq
    have h1 : lit "#include <metashell" <+: rstrip (c :: f) ++ b := by rw [← hb, hq.1]; exact List.prefix_append _ _
    have h2 := (prefix_append_blanks (by decide) hall).1 h1
    exact h2.trans ⟨r, hr.symm⟩

/-! ## The lines of a definition -/

theorem linesOf_no_feed {s l : Str} (h : l ∈ linesOf s) : '\n' ∉ l := by
  induction s generalizing l with
  | nil => simp [linesOf] at h; simp [h]
  | cons c s ih =>
    rw [linesOf] at h
    split at h
    · rcases List.mem_cons.1 h with rfl | h
      · simp
      · exact ih h
    · rename_i hc
      cases hl : linesOf s with
      | nil => exact absurd hl (linesOf_ne_nil s)
      | cons m ms =>
        rw [hl] at h ih
        rcases List.mem_cons.1 h with rfl | h
        · simp only [List.mem_cons, not_or]
          exact ⟨fun e => hc e.symm, ih (by simp)⟩
        · exact ih (by simp [h])

theorem linesOf_join {ls : List Str} (hne : ls ≠ []) (h : ∀ l ∈ ls, '\n' ∉ l) : linesOf (join ['\n'] ls) = ls := by
  induction ls with
  | nil => exact absurd rfl hne
  | cons l ls ih =>
    cases ls with
    | nil => exact linesOf_line (h l (by simp))
    | cons m ls =>
      have e : join ['\n'] (l :: m :: ls) = l ++ '\n' :: join ['\n'] (m :: ls) := by
        rw [join]
        · simp
        · simp
      rw [e, linesOf_append, linesOf_line (h l (by simp)), ih (by simp) fun x hx => h x (by simp [hx])]
      rfl

theorem split_ne_nil (c : Char) (s : Str) : split c s ≠ [] := by
  cases s with
  | nil => simp [split]
  | cons d s =>
    rw [split]
    split
    · simp
    · split <;> simp

theorem linesOf_prefixLines {pre : Str} (hp : '\n' ∉ pre) (s : Str) :
    linesOf (prefixLines pre s) = (linesOf s).map (pre ++ ·) := by
  rw [prefixLines, linesOf_join]
  · rw [linesOf_eq_split]
  · simpa using split_ne_nil '\n' s
  · intro l hl
    obtain ⟨m, hm, rfl⟩ := List.mem_map.1 hl
    rw [← linesOf_eq_split] at hm
    simp only [List.mem_append, not_or]
    exact ⟨hp, linesOf_no_feed hm⟩

/-- Is it not a comment? -/
def notComment (l : Str) : Bool := !(lit "//").isPrefixOf l

theorem notComment_of_harmless {l : Str} (h : Harmless l) : notComment l = true := by
  cases hp : (lit "//").isPrefixOf l with
  | false => simp [notComment, hp]
  | true => exact absurd (List.isPrefixOf_iff_prefix.1 hp) h.2

/-- The lines show some lines to a compiler, and have no other effect. -/
def Shows (macros : List Str) (ls out : List Str) : Prop :=
  ∀ file rest, preprocessLines file macros 0 (ls ++ rest) =
    (preprocessLines file macros 0 rest).map fun r => (out ++ r.1, r.2)

theorem Shows.nil (macros : List Str) : Shows macros [] [] := fun file rest => by
  simp

theorem Shows.append {macros ls out ls' out' : List Str} (h : Shows macros ls out) (h' : Shows macros ls' out') :
    Shows macros (ls ++ ls') (out ++ out') := fun file rest => by
  rw [List.append_assoc, h, h', Option.map_map]
  simp [Function.comp_def]

theorem Shows.plain {macros ls : List Str} (h : ∀ l ∈ ls, directive l = .other) : Shows macros ls ls := by
  intro file rest
  induction ls with
  | nil => simp
  | cons l ls ih =>
    rw [List.cons_append, preprocessLines]
    simp only [h l (by simp), ih fun x hx => h x (by simp [hx]), Option.map_map]
    simp [Function.comp_def]

theorem preprocess_skip {ls : List Str} (h : ∀ l ∈ ls, directive l = .other)
    (file : List Str → Str → Option (List Str × List Str)) (macros rest : List Str) :
    preprocessLines file macros 1 (ls ++ rest) = preprocessLines file macros 1 rest := by
  induction ls with
  | nil => rfl
  | cons l ls ih =>
    rw [List.cons_append, preprocessLines]
    simp only [h l (by simp), ih fun x hx => h x (by simp [hx])]

/-- The macro of Metashell. -/
def metashellMacro : Str := lit "__METASHELL"

theorem directive_ifdef : directive (lit "#ifdef __METASHELL") = .ifdef metashellMacro := by decide
theorem directive_endif : directive (lit "#endif") = .endif := by decide

theorem Shows.protected_ {macros ls : List Str} (h : ∀ l ∈ ls, directive l = .other) :
    Shows macros (lit "#ifdef __METASHELL" :: ls ++ [lit "#endif"]) (if metashellMacro ∈ macros then ls else []) := by
  intro file rest
  rw [List.append_assoc, List.cons_append, preprocessLines]
  simp only [directive_ifdef]
  split
  · rw [Shows.plain h]
    simp only [List.cons_append, List.nil_append]
    rw [preprocessLines]
    simp only [directive_endif]
  · rw [preprocess_skip h]
    simp only [List.cons_append, List.nil_append]
    rw [preprocessLines]
    simp only [directive_endif]
    simp

theorem comment_query (s : Str) : ∀ l ∈ linesOf (strip (lit "// query:\n" ++ prefixLines (lit "//   ") s)),
    (lit "//").isPrefixOf l = true := by
  intro l hl
  have e : strip (lit "// query:\n" ++ prefixLines (lit "//   ") s) =
      rstrip (lit "// query:\n" ++ prefixLines (lit "//   ") s) := by
    rw [strip]
    congr 1
  rw [e] at hl
  obtain ⟨b, hb, hall⟩ := rstrip_split (lit "// query:\n" ++ prefixLines (lit "//   ") s)
  obtain ⟨x, hx, hm⟩ := mem_linesOf_append_blanks hall hl
  rw [← hb, show lit "// query:\n" ++ prefixLines (lit "//   ") s =
    lit "// query:" ++ '\n' :: prefixLines (lit "//   ") s by
      rw [show lit "// query:\n" = lit "// query:" ++ ['\n'] by decide]; simp,
    linesOf_append, linesOf_prefixLines (by decide), linesOf_line (by decide)] at hm
  have : lit "//" <+: l ++ x := by
    rcases List.mem_append.1 hm with hm | hm
    · simp only [List.mem_cons, List.not_mem_nil, or_false] at hm
      rw [hm]; decide
    · obtain ⟨m, -, hm⟩ := List.mem_map.1 hm
      rw [← hm]
      exact ⟨lit "   " ++ m, by simp [lit]⟩
  rw [List.isPrefixOf_iff_prefix]
  exact (prefix_append_blanks (by decide) hx).1 this

theorem directive_comment {l : Str} (h : (lit "//").isPrefixOf l = true) : directive l = .other := by
  apply directive_of_harmless
  left
  rw [List.isPrefixOf_iff_prefix] at h
  obtain ⟨r, rfl⟩ := h
  simp [lit, blank]

theorem protect_query (s : Str) : protectMetashell (strip (lit "// query:\n" ++ s)) = strip (lit "// query:\n" ++ s) := by
  rw [protectMetashell, if_neg]
  obtain ⟨l', hl'⟩ := rstrip_cons (c := '/') (by decide) (lit "/ query:\n" ++ s)
  have : strip (lit "// query:\n" ++ s) = '/' :: l' := hl'
  rw [this]
  simp [lit, List.isPrefixOf]

/-- The lines of a command: lines that are not directives, perhaps with `#ifdef` and `#endif`. -/
theorem lines_command {ls : List Str} (h : WellWrittenCommand ls) :
    (∃ ls', linesOf (definitionOf (rawCommand ls)) = ls' ∧ ∀ l ∈ ls', directive l = .other) ∨
    (∃ ls', linesOf (definitionOf (rawCommand ls)) = lit "#ifdef __METASHELL" :: ls' ++ [lit "#endif"] ∧
      ∀ l ∈ ls', directive l = .other) := by
  by_cases hd : isDefinition (rawCommand ls) = true
  · obtain ⟨g, -⟩ := goodText_command h
    have hother : ∀ l ∈ linesOf (strip (rawCommand ls)), directive l = .other :=
      fun l hl => directive_of_harmless (g.harmless l hl).1
    rw [definitionOf, if_pos hd, protectMetashell]
    split
    · right
      refine ⟨_, ?_, hother⟩
      rw [show lit "#ifdef __METASHELL\n" ++ strip (rawCommand ls) ++ lit "\n#endif" =
          lit "#ifdef __METASHELL" ++ '\n' :: (strip (rawCommand ls) ++ '\n' :: lit "#endif") by
            simp [lit], linesOf_append, linesOf_append,
            linesOf_line (l := lit "#ifdef __METASHELL") (by decide), linesOf_line (l := lit "#endif") (by decide)]
      simp
    · exact .inl ⟨_, rfl, hother⟩
  · left
    rw [definitionOf, if_neg hd, protect_query]
    exact ⟨_, rfl, fun l hl => directive_comment (comment_query (rawCommand ls) l hl)⟩

open Classical in
/-- What a compiler sees of a command. -/
theorem shows_command {ls : List Str} (h : WellWrittenCommand ls) (macros : List Str) :
    ∃ out, Shows macros (linesOf (definitionOf (rawCommand ls))) out ∧
      (out.filter notComment).flatMap words =
        if Defines ls ∧ (metashellMacro ∈ macros ∨ ¬ OnlyMetashell ls) then ls.flatMap words else [] := by
  by_cases hd : isDefinition (rawCommand ls) = true
  · obtain ⟨g, -⟩ := goodText_command h
    have hother : ∀ l ∈ linesOf (strip (rawCommand ls)), directive l = .other :=
      fun l hl => directive_of_harmless (g.harmless l hl).1
    have hnc : (linesOf (strip (rawCommand ls))).filter notComment = linesOf (strip (rawCommand ls)) :=
      List.filter_eq_self.2 fun l hl => notComment_of_harmless (g.harmless l hl)
    rw [definitionOf, if_pos hd, protectMetashell]
    have hD := (isDefinition_iff h).1 hd
    by_cases hm : (lit "#include <metashell").isPrefixOf (strip (rawCommand ls)) = true
    · rw [if_pos hm]
      have hO := (metashell_prefix h).1 hm
      have e : linesOf (lit "#ifdef __METASHELL\n" ++ strip (rawCommand ls) ++ lit "\n#endif") =
          lit "#ifdef __METASHELL" :: linesOf (strip (rawCommand ls)) ++ [lit "#endif"] := by
        rw [show lit "#ifdef __METASHELL\n" ++ strip (rawCommand ls) ++ lit "\n#endif" =
          lit "#ifdef __METASHELL" ++ '\n' :: (strip (rawCommand ls) ++ '\n' :: lit "#endif") by
            simp [lit], linesOf_append, linesOf_append,
            linesOf_line (l := lit "#ifdef __METASHELL") (by decide), linesOf_line (l := lit "#endif") (by decide)]
        simp
      rw [e]
      refine ⟨_, Shows.protected_ hother, ?_⟩
      by_cases hM : metashellMacro ∈ macros
      · rw [if_pos hM, if_pos ⟨hD, .inl hM⟩, hnc, words_linesOf, g.words]
      · rw [if_neg hM, if_neg (by rintro ⟨-, h | h⟩; exact hM h; exact h hO)]; rfl
    · rw [if_neg hm]
      have hO : ¬ OnlyMetashell ls := fun h' => hm ((metashell_prefix h).2 h')
      refine ⟨_, Shows.plain hother, ?_⟩
      rw [if_pos ⟨hD, .inr hO⟩, hnc, words_linesOf, g.words]
  · rw [definitionOf, if_neg hd, if_neg fun h' => hd ((isDefinition_iff h).2 h'.1)]
    rw [protect_query]
    have hc := comment_query (rawCommand ls)
    refine ⟨_, Shows.plain fun l hl => directive_comment (hc l hl), ?_⟩
    rw [List.filter_eq_nil_iff.2]
    · rfl
    · intro l hl
      simp [notComment, hc l hl]

end Metaparse.Gen
