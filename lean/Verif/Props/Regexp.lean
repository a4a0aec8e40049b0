import Verif.Spec.Regexp
import Verif.Lemmas.Formula
import Verif.Lemmas.Finish
/-!
# The example that parses regular expressions (C62)
-/

namespace Metaparse

variable {E : Env (List Chr)}

namespace Env.ReadsRegexps

theorem nth3 (h : E.ReadsRegexps) : E.SupportsNth 3 := h.limSequence
theorem nth2 (h : E.ReadsRegexps) : E.SupportsNth 2 := fun e => Nat.lt_trans (by decide) (h.nth3 e)
theorem oneOf2 (h : E.ReadsRegexps) : E.SupportsOneOf 2 := h.limOneOf

end Env.ReadsRegexps

namespace Regexp

/-- The class for a character. -/
def itemOf (c : Chr) : Val := if c = ch '.' then anyChar else charLit (.chr c)

theorem run_itemOf (c : Chr) : run (itemOf c) = .ok [pieceOf c] := by
  unfold itemOf pieceOf
  by_cases h : c = ch '.'
  · rw [if_pos h, if_pos h]; rfl
  · rw [if_neg h, if_neg h]; rfl

theorem oneChar_accepts (h : E.ReadsRegexps) (s : List Chr) (pos : Pos) (v : Val) (s' : List Chr)
    (pos' : Pos) : Accepts E oneChar s pos v s' pos' ↔
      ∃ c, s = c :: s' ∧ plainChar c = true ∧ v = itemOf c ∧ pos' = moveOver pos [c] := by
  have hlit := (C28_lit h.onText (ch '.')).1
  have hex := C28_one_char_except h.onText [ch '.', ch '(', ch ')'] h.limOneCharExcept
  constructor
  · intro ha
    obtain ⟨-, b, r, a, hl, -, hr⟩ := (C19_oneOf_accepts _ h.oneOf2 ..).1 ha
    have hm : r ∈ [P.alwaysC (ch '.') anyChar,
      .transform (.oneCharExceptC [ch '.', ch '(', ch ')']) charLit] := by rw [hl]; simp
    simp only [List.mem_cons, List.not_mem_nil, or_false] at hm
    rcases hm with rfl | rfl
    · obtain ⟨⟨w, hw⟩, rfl⟩ := (C36_always_accepts ..).1 hr
      obtain ⟨c, rfl, hc, -, rfl⟩ := (C28_exactly hlit ..).1 hw
      simp only [decide_eq_true_eq] at hc
      subst hc
      exact ⟨_, rfl, by decide, rfl, rfl⟩
    · obtain ⟨w, hw, hf⟩ := (C36_transform_accepts ..).1 hr
      obtain ⟨c, rfl, hc, rfl, rfl⟩ := (C28_exactly hex ..).1 hw
      cases hf
      simp at hc
      exact ⟨c, rfl, by simp [plainChar, hc], by rw [itemOf, if_neg hc.1], rfl⟩
  · rintro ⟨c, rfl, hc, rfl, rfl⟩
    by_cases hd : c = ch '.'
    · subst hd
      have h1 : Accepts E (P.alwaysC (ch '.') anyChar) (ch '.' :: s') pos (itemOf (ch '.')) s'
          (moveOver pos [ch '.']) := (C36_always_accepts ..).2 ⟨⟨_, hlit.accepts _ _ _ (by simp)⟩, rfl⟩
      have h2 : Rejects E (.transform (.oneCharExceptC [ch '.', ch '(', ch ')']) charLit)
          (ch '.' :: s') pos _ pos := (C36_transform_rejects ..).2 (hex.other _ _ _ (by decide))
      refine (C19_oneOf_accepts _ h.oneOf2 ..).2 ⟨?_, [], _, [_], rfl, by simp, h1⟩
      intro r hr
      simp only [List.mem_cons, List.not_mem_nil, or_false] at hr
      rcases hr with rfl | rfl
      · exact ⟨_, h1⟩
      · exact ⟨_, h2⟩
    · have h1 : Rejects E (P.alwaysC (ch '.') anyChar) (c :: s') pos _ pos :=
        (C36_always_rejects ..).2 (hlit.other _ _ _ (by simp [hd]))
      have h2 : Accepts E (.transform (.oneCharExceptC [ch '.', ch '(', ch ')']) charLit)
          (c :: s') pos (itemOf c) s' (moveOver pos [c]) :=
        (C36_transform_accepts ..).2 ⟨_, hex.accepts _ _ _ (by
          simp only [plainChar, Bool.and_eq_true, bne_iff_ne] at hc
          simp [hd, hc]), by rw [itemOf, if_neg hd]; rfl⟩
      refine (C19_oneOf_accepts _ h.oneOf2 ..).2 ⟨?_, [_], _, [], rfl, by simpa using ⟨_, _, h1⟩, h2⟩
      intro r hr
      simp only [List.mem_cons, List.not_mem_nil, or_false] at hr
      rcases hr with rfl | rfl
      · exact ⟨_, h1⟩
      · exact ⟨_, h2⟩

theorem oneChar_rejects (h : E.ReadsRegexps) (s : List Chr) (pos : Pos)
    (hb : beginsWith plainChar s = false) : ∃ m, Rejects E oneChar s pos m pos := by
  have hlit := (C28_lit h.onText (ch '.')).1
  have hex := C28_one_char_except h.onText [ch '.', ch '(', ch ')'] h.limOneCharExcept
  refine BeginsIn.oneOf h.oneOf2 (f := fun c => decide (c = ch '.'))
    (g := fun c => !([ch '.', ch '(', ch ')']).contains c) ?_ ?_ s pos ?_
  · intro s pos hb
    obtain ⟨m, hr⟩ := hlit.rejects s pos hb
    exact ⟨m, (C36_always_rejects ..).2 hr⟩
  · intro s pos hb
    obtain ⟨m, hr⟩ := hex.rejects s pos hb
    exact ⟨m, (C36_transform_rejects ..).2 hr⟩
  · refine beginsWith_mono (fun c hc => ?_) hb
    simp only [Bool.or_eq_true, decide_eq_true_eq] at hc
    rcases hc with rfl | hc
    · decide
    · simp at hc; simp [plainChar, hc]

theorem run_fold {vs : List Val} {x v : Val} {ps : List Piece} (hx : run x = .ok ps)
    (hv : leftFold append x vs = .ok v) {qs : List (List Piece)}
    (hvs : vs.map run = qs.map .ok) : run v = .ok (ps ++ qs.flatten) := by
  induction vs generalizing x ps qs with
  | nil =>
    cases qs with
    | nil => cases hv; simpa using hx
    | cons q qs => cases hvs
  | cons w vs ih =>
    cases qs with
    | nil => cases hvs
    | cons q qs =>
      simp only [List.map_cons, List.cons.injEq] at hvs
      have hv' : leftFold append (.flip 3 w x) vs = .ok v := hv
      have := ih (x := .flip 3 w x) (ps := ps ++ q) (by rw [run, hx, hvs.1]; rfl) hv' hvs.2
      simpa using this

theorem fold_ok (x : Val) (vs : List Val) : ∃ v, leftFold append x vs = .ok v := by
  induction vs generalizing x with
  | nil => exact ⟨x, rfl⟩
  | cons w vs ih => exact ih (.flip 3 w x)

theorem oneChar_steps (h : E.ReadsRegexps) {s : List Chr} {pos : Pos} {vs : List Val} {s' : List Chr}
    {pos' : Pos} (hs : Steps E oneChar s pos vs s' pos') :
    ∃ w, s = w ++ s' ∧ (∀ c ∈ w, plainChar c = true) ∧ vs = w.map itemOf := by
  induction hs with
  | nil => exact ⟨[], rfl, by simp, rfl⟩
  | cons ha _ ih =>
    obtain ⟨w, rfl, hw, rfl⟩ := ih
    obtain ⟨c, rfl, hc, rfl, -⟩ := (oneChar_accepts h ..).1 ha
    refine ⟨c :: w, rfl, ?_, rfl⟩
    intro d hd
    rcases List.mem_cons.1 hd with rfl | hd
    · exact hc
    · exact hw d hd

theorem oneChar_reads (h : E.ReadsRegexps) (w s' : List Chr) (hw : ∀ c ∈ w, plainChar c = true) :
    ∀ pos, Steps E oneChar (w ++ s') pos (w.map itemOf) s' (moveOver pos w) := by
  induction w with
  | nil => intro pos; exact .nil ..
  | cons c w ih =>
    intro pos
    exact .cons ((oneChar_accepts h ..).2 ⟨c, rfl, hw c (by simp), rfl, rfl⟩)
      (ih (fun d hd => hw d (by simp [hd])) _)

theorem flatten_items (w : List Chr) (hw : ∀ c ∈ w, plainChar c = true) :
    (w.map fun c => [pieceOf c]).flatten = piecesOf w := by
  rw [piecesOf, List.filter_eq_self.2 hw]
  induction w with
  | nil => rfl
  | cons c w ih => simpa using ih fun d hd => hw d (by simp [hd])

theorem nonBracket_accepts (h : E.ReadsRegexps) {s : List Chr} {pos : Pos} {v : Val} {s' : List Chr}
    {pos' : Pos} (ha : Accepts E nonBracketExpr s pos v s' pos') :
    ∃ w, s = w ++ s' ∧ w ≠ [] ∧ (∀ c ∈ w, plainChar c = true) ∧ run v = .ok (piecesOf w) := by
  have hfirst : beginsWith plainChar s = true := by
    cases hb : beginsWith plainChar s with
    | true => rfl
    | false =>
      obtain ⟨m, hr⟩ := oneChar_rejects h s pos hb
      exact (ha.not_rejects ((C13_reject_incomplete1 oneChar epsilon append s pos).1 _ _ hr).1).elim
  cases s with
  | nil => cases hfirst
  | cons c s =>
    have h1 : Accepts E oneChar (c :: s) pos _ _ _ := (oneChar_accepts h ..).2 ⟨c, rfl, hfirst, rfl, rfl⟩
    unfold Accepts at ha
    rw [nonBracketExpr, ((C13_reject_incomplete1 oneChar epsilon append _ _).2 _ _ _ h1).1] at ha
    obtain ⟨vs, m, x, hm, hx, hv⟩ := (C16_foldl_reject_incomplete_accepts ..).1 ha
    cases hx
    obtain ⟨w, hw, hp, rfl⟩ := oneChar_steps h hm.1
    refine ⟨w, hw, ?_, hp, ?_⟩
    · rintro rfl
      simp only [List.nil_append] at hw
      subst hw
      obtain ⟨hst, hrej⟩ := hm
      cases hst
      exact h1.not_rejects hrej
    · have := run_fold (x := epsilon) (ps := []) rfl hv (qs := w.map fun c => [pieceOf c]) (by
        simp only [List.map_map]
        exact List.map_congr_left fun c _ => run_itemOf c)
      rw [this, flatten_items w hp]; rfl

theorem nonBracket_reads (h : E.ReadsRegexps) {w s' : List Chr} (pos : Pos) (hne : w ≠ [])
    (hw : ∀ c ∈ w, plainChar c = true) (hb : beginsWith plainChar s' = false) :
    ∃ v, Accepts E nonBracketExpr (w ++ s') pos v s' (moveOver pos w) ∧ run v = .ok (piecesOf w) := by
  cases w with
  | nil => exact absurd rfl hne
  | cons c w =>
    have h1 : Accepts E oneChar (c :: (w ++ s')) pos _ _ _ :=
      (oneChar_accepts h ..).2 ⟨c, rfl, hw c (by simp), rfl, rfl⟩
    obtain ⟨v, hv⟩ := fold_ok epsilon ((c :: w).map itemOf)
    obtain ⟨m, hr⟩ := oneChar_rejects h s' (moveOver pos (c :: w)) hb
    have ha : Accepts E (.foldlRejectIncomplete oneChar epsilon append) (c :: w ++ s') pos v s'
        (moveOver pos (c :: w)) := (C16_foldl_reject_incomplete_accepts ..).2
      ⟨_, m, _, ⟨oneChar_reads h (c :: w) s' hw pos, hr⟩, rfl, hv⟩
    refine ⟨v, ?_, ?_⟩
    · unfold Accepts
      rw [nonBracketExpr, show c :: w ++ s' = c :: (w ++ s') from rfl,
        ((C13_reject_incomplete1 oneChar epsilon append _ _).2 _ _ _ h1).1]
      exact ha
    · have := run_fold (x := epsilon) (ps := []) rfl hv (qs := (c :: w).map fun c => [pieceOf c]) (by
        simp only [List.map_map]
        exact List.map_congr_left fun c _ => run_itemOf c)
      rw [this, flatten_items _ hw]; rfl

theorem nonBracket_rejects (h : E.ReadsRegexps) (s : List Chr) (pos : Pos)
    (hb : beginsWith plainChar s = false) : ∃ m, Rejects E nonBracketExpr s pos m pos := by
  obtain ⟨m, hr⟩ := oneChar_rejects h s pos hb
  exact ⟨m, ((C13_reject_incomplete1 oneChar epsilon append s pos).1 _ _ hr).1⟩

/-- A part of a regular expression: characters, maybe in brackets. -/
def Part (t : List Chr) (w : List Chr) : Prop :=
  w ≠ [] ∧ (∀ c ∈ w, plainChar c = true) ∧ (t = w ∨ t = ch '(' :: (w ++ [ch ')']))

theorem piecesOf_part {t w : List Chr} (h : Part t w) : piecesOf t = piecesOf w := by
  obtain ⟨-, hw, rfl | rfl⟩ := h
  · rfl
  · have h1 : plainChar (ch '(') = false := by decide
    have h2 : plainChar (ch ')') = false := by decide
    simp [piecesOf, h1, h2]

theorem part_text {t w s : List Chr} (h : Part t w) (hs : RegexpText s) : RegexpText (t ++ s) := by
  obtain ⟨hne, hw, rfl | rfl⟩ := h
  · clear hne
    induction t with
    | nil => exact hs
    | cons c t ih => exact .chr (hw c (by simp)) (ih fun d hd => hw d (by simp [hd]))
  · have := RegexpText.bracket hne hw hs
    simpa using this

theorem part_accepts (h : E.ReadsRegexps) {s : List Chr} {pos : Pos} {v : Val} {s' : List Chr}
    {pos' : Pos} (ha : Accepts E (.oneOf [bracketExpr, nonBracketExpr]) s pos v s' pos') :
    ∃ t w, s = t ++ s' ∧ Part t w ∧ run v = .ok (piecesOf w) := by
  obtain ⟨-, b, r, a, hl, -, hr⟩ := (C19_oneOf_accepts _ h.oneOf2 ..).1 ha
  have hm : r ∈ [bracketExpr, nonBracketExpr] := by rw [hl]; simp
  simp only [List.mem_cons, List.not_mem_nil, or_false] at hm
  rcases hm with rfl | rfl
  · obtain ⟨v1, v3, hi⟩ := (C25_middleOf_accepts _ _ _ h.nth3 ..).1 hr
    obtain ⟨x, y, z, s1, pos1, s2, pos2, he, h1, h2, h3⟩ := hi.three
    simp only [List.cons.injEq, and_true] at he
    obtain ⟨rfl, rfl, rfl⟩ := he
    obtain ⟨c1, rfl, hc1, -, -⟩ := (C28_exactly (C28_lit h.onText _).1 ..).1 h1
    obtain ⟨c3, rfl, hc3, -, -⟩ := (C28_exactly (C28_lit h.onText _).1 ..).1 h3
    simp only [decide_eq_true_eq] at hc1 hc3
    subst hc1 hc3
    obtain ⟨w, rfl, hne, hw, hv⟩ := nonBracket_accepts h h2
    exact ⟨_, w, by simp, ⟨hne, hw, .inr rfl⟩, hv⟩
  · obtain ⟨w, rfl, hne, hw, hv⟩ := nonBracket_accepts h hr
    exact ⟨w, w, rfl, ⟨hne, hw, .inl rfl⟩, hv⟩

theorem bracket_rejects (h : E.ReadsRegexps) (s : List Chr) (pos : Pos)
    (hb : beginsWith (fun c => decide (c = ch '(')) s = false) :
    ∃ m, Rejects E bracketExpr s pos m pos := by
  obtain ⟨m, hr⟩ := (C28_lit h.onText (ch '(')).1.rejects s pos hb
  exact ⟨m, (C25_middleOf_rejects _ _ _ h.nth3 ..).2 (.inl ⟨[], _, _, [], s, pos, rfl, .nil .., hr⟩)⟩

theorem part_reads (h : E.ReadsRegexps) {t w s' : List Chr} (pos : Pos) (hp : Part t w)
    (hb : t = w → beginsWith plainChar s' = false) :
    ∃ v pos', Accepts E (.oneOf [bracketExpr, nonBracketExpr]) (t ++ s') pos v s' pos' ∧
      run v = .ok (piecesOf t) := by
  rw [piecesOf_part hp]
  obtain ⟨hne, hw, rfl | rfl⟩ := hp
  · obtain ⟨v, ha, hv⟩ := nonBracket_reads h pos hne hw (hb rfl)
    have hb' : beginsWith (fun c => decide (c = ch '(')) (t ++ s') = false := by
      cases t with
      | nil => exact absurd rfl hne
      | cons c t =>
        have := hw c (by simp)
        simp only [plainChar, Bool.and_eq_true, bne_iff_ne] at this
        simp [beginsWith, this.1]
    obtain ⟨m, hr⟩ := bracket_rejects h (t ++ s') pos hb'
    refine ⟨v, _, (C19_oneOf_accepts _ h.oneOf2 ..).2
      ⟨?_, [_], _, [], rfl, by simpa using ⟨_, _, hr⟩, ha⟩, hv⟩
    intro r hr'
    simp only [List.mem_cons, List.not_mem_nil, or_false] at hr'
    rcases hr' with rfl | rfl
    · exact ⟨_, hr⟩
    · exact ⟨_, ha⟩
  · obtain ⟨v, ha, hv⟩ := nonBracket_reads h (moveOver pos [ch '(']) hne hw
      (s' := ch ')' :: s') rfl
    have h1 := (C28_lit h.onText (ch '(')).1.accepts (ch '(') (w ++ ch ')' :: s') pos (by simp)
    have h3 := (C28_lit h.onText (ch ')')).1.accepts (ch ')') s'
      (moveOver (moveOver pos [ch '(']) w) (by simp)
    have hacc : Accepts E bracketExpr (ch '(' :: (w ++ [ch ')']) ++ s') pos v s' _ :=
      (C25_middleOf_accepts _ _ _ h.nth3 ..).2
        ⟨_, _, .cons (by simpa using h1) (.cons ha (.cons h3 (.nil ..)))⟩
    obtain ⟨m, hr⟩ := nonBracket_rejects h (ch '(' :: (w ++ [ch ')']) ++ s') pos rfl
    refine ⟨v, _, (C19_oneOf_accepts _ h.oneOf2 ..).2 ⟨?_, [], _, [_], rfl, by simp, hacc⟩, hv⟩
    intro r hr'
    simp only [List.mem_cons, List.not_mem_nil, or_false] at hr'
    rcases hr' with rfl | rfl
    · exact ⟨_, hacc⟩
    · exact ⟨_, hr⟩

theorem piecesOf_append (s t : List Chr) : piecesOf (s ++ t) = piecesOf s ++ piecesOf t := by
  simp [piecesOf]

theorem steps_text (h : E.ReadsRegexps) {s : List Chr} {pos : Pos} {vs : List Val} {s' : List Chr}
    {pos' : Pos} (hs : Steps E (.oneOf [bracketExpr, nonBracketExpr]) s pos vs s' pos') :
    ∃ (t : List Chr) (qs : List (List Piece)), s = t ++ s' ∧ RegexpText t ∧ vs.map run = qs.map .ok ∧ qs.flatten = piecesOf t := by
  induction hs with
  | nil => exact ⟨[], [], rfl, .nil, rfl, rfl⟩
  | cons ha _ ih =>
    obtain ⟨t, qs, rfl, ht, hq, hf⟩ := ih
    obtain ⟨u, w, rfl, hp, hv⟩ := part_accepts h ha
    refine ⟨u ++ t, piecesOf w :: qs, by simp, part_text hp ht, by simp [hv, hq], ?_⟩
    rw [piecesOf_append, List.flatten_cons, hf, piecesOf_part hp]

/-- A text that is not empty begins with a part, after which, unless it is in brackets, there is no
further character that is not a bracket. -/
theorem text_part {s : List Chr} (hs : RegexpText s) (hne : s ≠ []) : ∃ t w s', s = t ++ s' ∧ Part t w ∧
    (t = w → beginsWith plainChar s' = false) ∧ RegexpText s' := by
  induction hs with
  | nil => exact absurd rfl hne
  | @chr c s hc hs ih =>
    cases s with
    | nil => exact ⟨[c], [c], [], rfl, ⟨by simp, by simpa using hc, .inl rfl⟩, fun _ => rfl, .nil⟩
    | cons d s =>
      obtain ⟨t, w, s', he, hp, hb, hs'⟩ := ih (by simp)
      cases hd : plainChar d with
      | false =>
        exact ⟨[c], [c], d :: s, rfl, ⟨by simp, by simpa using hc, .inl rfl⟩, fun _ => hd, hs⟩
      | true =>
        obtain ⟨hw1, hw2, rfl | rfl⟩ := hp
        · refine ⟨c :: t, c :: t, s', by simp [he], ⟨by simp, ?_, .inl rfl⟩, fun _ => hb rfl, hs'⟩
          intro x hx
          rcases List.mem_cons.1 hx with rfl | hx
          · exact hc
          · exact hw2 x hx
        · simp only [List.cons_append, List.cons.injEq] at he
          rw [he.1] at hd
          exact absurd hd (by decide)
  | @bracket w s hw hp hs _ =>
    refine ⟨ch '(' :: (w ++ [ch ')']), w, s, by simp, ⟨hw, hp, .inr rfl⟩, ?_, hs⟩
    intro he
    exact absurd (congrArg List.length he) (by simp; omega)

theorem text_steps (h : E.ReadsRegexps) : ∀ n (s : List Chr) (pos : Pos), s.length ≤ n → RegexpText s →
    ∃ (vs : List Val) (qs : List (List Piece)) (pos' : Pos), Steps E (.oneOf [bracketExpr, nonBracketExpr]) s pos vs [] pos' ∧
      vs.map run = qs.map .ok ∧ qs.flatten = piecesOf s := by
  intro n
  induction n with
  | zero =>
    intro s pos hn hs
    obtain rfl : s = [] := List.length_eq_zero_iff.1 (Nat.le_zero.1 hn)
    exact ⟨[], [], pos, .nil .., rfl, rfl⟩
  | succ n ih =>
    intro s pos hn hs
    by_cases hne : s = []
    · subst hne; exact ⟨[], [], pos, .nil .., rfl, rfl⟩
    · obtain ⟨t, w, s', rfl, hp, hb, hs'⟩ := text_part hs hne
      obtain ⟨v, pos1, ha, hv⟩ := part_reads h pos hp hb
      have hlen : t ≠ [] := by
        obtain ⟨hw, -, rfl | rfl⟩ := hp
        · exact hw
        · simp
      have := List.length_pos_iff.2 hlen
      simp only [List.length_append] at hn
      obtain ⟨vs, qs, pos', hst, hq, hf⟩ := ih s' pos1 (by omega) hs'
      refine ⟨v :: vs, piecesOf t :: qs, pos', .cons ha hst, by simp [hv, hq], ?_⟩
      rw [piecesOf_append, List.flatten_cons, hf]

end Regexp

/-- The parser compiles exactly for the texts in which the brackets are in pairs with something between
them and not nested; the regular expression it gives consists of the other characters, in order. -/
theorem C62_regexp (h : E.ReadsRegexps) (s : List Chr) :
    ((∃ v, Regexp.regexpParser E s = .ok v) ↔ RegexpText s) ∧
    (∀ v, Regexp.regexpParser E s = .ok v → Regexp.value v = .ok (piecesOf s)) := by
  have key : ∀ v, Regexp.regexpParser E s = .ok v ↔ ∃ vs pos', leftFold Regexp.append Regexp.epsilon vs = .ok v ∧
      Steps E (.oneOf [Regexp.bracketExpr, Regexp.nonBracketExpr]) s start vs [] pos' := by
    intro v
    unfold Regexp.regexpParser
    rw [C34_buildParser_accepts]
    constructor
    · rintro ⟨s', pos', he⟩
      obtain ⟨ha, rfl⟩ := (C33_entireInput_accepts h.onText h.nth2 ..).1 he
      obtain ⟨vs, m, x, hm, hx, hv⟩ := (C16_foldl_reject_incomplete_accepts ..).1 ha
      cases hx
      exact ⟨vs, pos', hv, hm.1⟩
    · rintro ⟨vs, pos', hv, hst⟩
      obtain ⟨m, hr⟩ := BeginsIn.oneOf h.oneOf2 (Regexp.bracket_rejects h) (Regexp.nonBracket_rejects h)
        [] pos' rfl
      exact ⟨[], pos', (C33_entireInput_accepts h.onText h.nth2 ..).2
        ⟨(C16_foldl_reject_incomplete_accepts ..).2 ⟨vs, m, _, ⟨hst, hr⟩, rfl, hv⟩, rfl⟩⟩
  refine ⟨⟨?_, ?_⟩, ?_⟩
  · rintro ⟨v, hv⟩
    obtain ⟨vs, pos', -, hst⟩ := (key v).1 hv
    obtain ⟨t, qs, hs, ht, -⟩ := Regexp.steps_text h hst
    rw [List.append_nil] at hs
    exact hs ▸ ht
  · intro hs
    obtain ⟨vs, qs, pos', hst, -⟩ := Regexp.text_steps h s.length s start (Nat.le_refl _) hs
    obtain ⟨v, hv⟩ := Regexp.fold_ok Regexp.epsilon vs
    exact ⟨v, (key v).2 ⟨vs, pos', hv, hst⟩⟩
  · intro v hv
    obtain ⟨vs, pos', hf, hst⟩ := (key v).1 hv
    obtain ⟨t, qs, hs, ht, hq, hqt⟩ := Regexp.steps_text h hst
    rw [List.append_nil] at hs
    subst hs
    have := Regexp.run_fold (x := Regexp.epsilon) (ps := []) rfl hf hq
    rw [Regexp.value, this, hqt]; rfl

theorem matchesText_iff {w u : List Chr} :
    MatchesText (w.map pieceOf) u ↔ w.length = u.length ∧
      ∀ i (h : i < w.length) (h' : i < u.length), w[i] = ch '.' ∨ w[i] = u[i] := by
  induction w generalizing u with
  | nil =>
    cases u with
    | nil => simp [MatchesText]
    | cons d u => simp [MatchesText]
  | cons c w ih =>
    cases u with
    | nil =>
      simp only [List.map_cons, List.length_cons, List.length_nil]
      refine ⟨fun h => ?_, fun h => absurd h.1 (by omega)⟩
      unfold pieceOf at h
      split at h <;> exact h.elim
    | cons d u =>
      have hstep : MatchesText ((c :: w).map pieceOf) (d :: u) ↔
          (c = ch '.' ∨ c = d) ∧ MatchesText (w.map pieceOf) u := by
        simp only [List.map_cons, pieceOf]
        by_cases hc : c = ch '.'
        · simp [hc, MatchesText]
        · simp [hc, MatchesText]
      rw [hstep, ih]
      constructor
      · rintro ⟨h1, h2, h3⟩
        refine ⟨by simp [h2], ?_⟩
        intro i h h'
        cases i with
        | zero => exact h1
        | succ i => exact h3 i _ _
      · rintro ⟨h1, h2⟩
        refine ⟨h2 0 (by simp) (by simp), by simpa using h1, ?_⟩
        intro i h h'
        exact h2 (i + 1) (by simpa using h) (by simpa using h')

/-- The regular expression matches a text exactly if, after removing the brackets, both have the same
length and at each place the expression has a dot or the character of the text. -/
theorem C62_matches (h : E.ReadsRegexps) {s : List Chr} {v : Val} {ps : List Piece}
    (hv : Regexp.regexpParser E s = .ok v) (hps : Regexp.value v = .ok ps) (u : List Chr) :
    MatchesText ps u ↔ (s.filter plainChar).length = u.length ∧
      ∀ i (h : i < (s.filter plainChar).length) (h' : i < u.length),
        (s.filter plainChar)[i] = ch '.' ∨ (s.filter plainChar)[i] = u[i] := by
  rw [(C62_regexp h s).2 v hv] at hps
  cases hps
  exact matchesText_iff

theorem RegexpComment.append {s t : List Chr} (hs : RegexpComment s) (ht : RegexpComment t) :
    RegexpComment (s ++ t) := by
  induction hs with
  | nil => exact ht
  | chr hc _ ih => exact .chr hc ih
  | bracket hw _ _ ih =>
    have := RegexpComment.bracket hw ih
    simpa using this

/-- Everything the parser accepts follows the grammar in the comment of the example, but the comment also
allows empty and nested brackets, which do not compile. -/
theorem C62_comment (h : E.ReadsRegexps) :
    (∀ s v, Regexp.regexpParser E s = .ok v → RegexpComment s) ∧
    (RegexpComment (txt "()") ∧ ¬ ∃ v, Regexp.regexpParser E (txt "()") = .ok v) ∧
    (RegexpComment (txt "((a))") ∧ ¬ ∃ v, Regexp.regexpParser E (txt "((a))") = .ok v) := by
  refine ⟨?_, ⟨?_, ?_⟩, ?_, ?_⟩
  · intro s v hv
    have hs := (C62_regexp h s).1.1 ⟨v, hv⟩
    clear hv
    induction hs with
    | nil => exact .nil
    | chr hc _ ih => exact .chr hc ih
    | @bracket w s hw hp _ ih =>
      refine .bracket ?_ ih
      clear hw
      induction w with
      | nil => exact .nil
      | cons c w ih => exact .chr (hp c (by simp)) (ih fun d hd => hp d (by simp [hd]))
  · exact .bracket (w := []) (s := []) .nil .nil
  · rw [(C62_regexp h _).1]
    generalize hs : txt "()" = s
    intro h
    cases h with
    | nil => cases hs
    | chr hc _ => cases hs; exact absurd hc (by decide)
    | @bracket w s hw hp _ =>
      cases w with
      | nil => exact hw rfl
      | cons c w =>
        have hc := hp c (by simp)
        have : c = ch ')' := by
          have := (List.cons.inj (List.cons.inj hs).2).1
          exact this.symm
        subst this
        exact absurd hc (by decide)
  · exact .bracket (w := txt "(a)") (s := []) (.bracket (w := txt "a") (s := [])
      (.chr (by decide) .nil) .nil) .nil
  · rw [(C62_regexp h _).1]
    generalize hs : txt "((a))" = s
    intro h
    cases h with
    | nil => cases hs
    | chr hc _ => cases hs; exact absurd hc (by decide)
    | @bracket w s hw hp _ =>
      cases w with
      | nil => exact hw rfl
      | cons c w =>
        have hc := hp c (by simp)
        have : c = ch '(' := by
          have := (List.cons.inj (List.cons.inj hs).2).1
          exact this.symm
        subst this
        exact absurd hc (by decide)

theorem Env.ReadsRegexps.withClass (h : E.ReadsRegexps) (R : P) : (E.withClass R).ReadsRegexps :=
  ⟨h.onText, h.limSequence, h.limOneOf, h.limOneCharExcept⟩

/-- The parser always finishes. -/
theorem C62_finishes (h : E.ReadsRegexps) (s : List Chr) : Regexp.regexpParser E s ≠ .deep := by
  have h1 : ¬ Nullable (E.withClass .oneChar) Regexp.oneChar := by
    rintro ⟨s, pos, v, pos', ha⟩
    obtain ⟨c, hc, -⟩ := (Regexp.oneChar_accepts (h.withClass _) ..).1 ha
    exact absurd (congrArg List.length hc) (by simp)
  have h2 : ¬ Nullable (E.withClass .oneChar) (.oneOf [Regexp.bracketExpr, Regexp.nonBracketExpr]) := by
    rintro ⟨s, pos, v, pos', ha⟩
    obtain ⟨t, w, hs, ⟨hw, -, rfl | rfl⟩, -⟩ := Regexp.part_accepts (h.withClass _) ha
    · exact hw (List.append_left_eq_self.1 hs.symm)
    · exact absurd (congrArg List.length hs) (by simp; omega)
  refine buildParser_finishes (finishes_of_sound h.onText ?_ ?_ s start)
  · simp [P.every_iff, P.EveryL, P.parts, P.Uses, onlyClasses, P.entireInput, P.firstOf, Regexp.regexp,
      Regexp.bracketExpr, Regexp.nonBracketExpr, Regexp.oneChar, P.alwaysC, P.foldlRejectIncomplete1,
      P.litC]
  · unfold Regexp.oneChar at h1
    unfold Regexp.bracketExpr Regexp.nonBracketExpr Regexp.oneChar P.foldlRejectIncomplete1 P.alwaysC P.litC at h2
    unfold P.alwaysC P.litC at h1
    simp [P.Sound, P.every_iff, P.EveryL, P.parts, P.entireInput, P.firstOf, Regexp.regexp,
      Regexp.bracketExpr, Regexp.nonBracketExpr, Regexp.oneChar, P.alwaysC, P.foldlRejectIncomplete1,
      P.FunctionsFinish, P.RepeatsConsume, P.litC, isCharC, Out.bind_eq_deep, Val.value_ne_deep, h1, h2]

/-! ## Examples -/

/-- The regular expression of the example (137-139) and the texts it is tested on (153-154). -/
example : RegexpText (txt ".(bc)") ∧ MatchesText (piecesOf (txt ".(bc)")) (txt "abc") ∧
    ¬ MatchesText (piecesOf (txt ".(bc)")) (txt "aba") := by
  refine ⟨.chr (by decide) (.bracket (w := txt "bc") (s := []) (by decide) (by decide) .nil), ?_, ?_⟩
  · simp [piecesOf, txt, plainChar, pieceOf, MatchesText, ch]
  · simp [piecesOf, txt, plainChar, pieceOf, MatchesText, ch]

example : env11.ReadsRegexps := ⟨env11_onText, (by intro h; cases h), (by intro h; cases h), (by intro h; cases h)⟩

example : env98.ReadsRegexps := ⟨env98_onText, (by intro _; decide), (by intro _; decide), (by intro _; decide)⟩

/-- `.(bc)` is read, and matches `abc`. -/
example : ∃ v, Regexp.regexpParser env98 (txt ".(bc)") = .ok v ∧ Regexp.value v = .ok (piecesOf (txt ".(bc)")) ∧
    (MatchesText (piecesOf (txt ".(bc)")) (txt "abc") ↔ (txt ".bc").length = (txt "abc").length ∧
      ∀ i (h : i < (txt ".bc").length) (h' : i < (txt "abc").length), (txt ".bc")[i] = ch '.' ∨ (txt ".bc")[i] = (txt "abc")[i]) := by
  have he : env98.ReadsRegexps := ⟨env98_onText, (by intro _; decide), (by intro _; decide), (by intro _; decide)⟩
  have ht : RegexpText (txt ".(bc)") := .chr (by decide) (.bracket (w := txt "bc") (s := []) (by decide) (by decide) .nil)
  obtain ⟨v, hv⟩ := (C62_regexp he _).1.2 ht
  have hp := (C62_regexp he _).2 v hv
  exact ⟨v, hv, hp, C62_matches he hv hp (txt "abc")⟩

example : ¬ ∃ v, Regexp.regexpParser env11 (txt "((a))") = .ok v :=
  (C62_comment ⟨env11_onText, (by intro h; cases h), (by intro h; cases h), (by intro h; cases h)⟩).2.2.2

end Metaparse
