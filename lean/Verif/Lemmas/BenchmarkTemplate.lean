import Verif.Spec.BenchmarkTemplate
import Verif.Lemmas.BenchmarkRun
import Verif.Lemmas.GenerateAgainAll
/-!
# Lemmas about the comments of benchmark templates
-/

namespace Metaparse.Bench

open Gen

/-! ### The regular expressions -/

/-- What the parts of a regular expression can stand for. -/
inductive Matches : List Item → Str → List Str → Prop
  | nil : Matches [] [] []
  | one {p : Char → Bool} {r : List Item} {c : Char} {s : Str} {gs : List Str} : p c = true → Matches r s gs →
      Matches (.one p :: r) (c :: s) gs
  | many {n : Nat} {g : Bool} {p : Char → Bool} {r : List Item} {u s : Str} {gs : List Str} : n ≤ u.length →
      (∀ c ∈ u, p c = true) → Matches r s gs → Matches (.many n g p :: r) (u ++ s) (if g then u :: gs else gs)

theorem tries_sound {f : Str → Option (List Str)} {g : Bool} {s : Str} {n : Nat} : ∀ {k : Nat} {gs : List Str},
    tries f g s n k = some gs → ∃ j gs', n ≤ j ∧ j ≤ k ∧ f (s.drop j) = some gs' ∧
      gs = if g then s.take j :: gs' else gs'
  | 0, gs, h => by
      rw [tries] at h
      split at h
      · obtain ⟨gs', h1, h2⟩ := Option.map_eq_some_iff.1 h
        exact ⟨0, gs', by omega, by omega, h1, h2.symm⟩
      · cases h
  | k + 1, gs, h => by
      rw [tries] at h
      split at h
      · cases h
      · rcases Option.or_eq_some_iff.1 h with h | ⟨-, h⟩
        · obtain ⟨gs', h1, h2⟩ := Option.map_eq_some_iff.1 h
          exact ⟨k + 1, gs', by omega, by omega, h1, h2.symm⟩
        · obtain ⟨j, gs', h1, h2, h3⟩ := tries_sound h
          exact ⟨j, gs', h1, by omega, h3⟩

theorem matchItems_sound : ∀ {r : List Item} {s : Str} {gs : List Str}, matchItems r s = some gs → Matches r s gs
  | [], s, gs, h => by
      rw [matchItems] at h
      split at h
      · rename_i e
        rw [List.isEmpty_iff.1 e, ← Option.some.inj h]
        exact .nil
      · cases h
  | .one p :: r, [], gs, h => by cases h
  | .one p :: r, c :: s, gs, h => by
      rw [matchItems] at h
      split at h
      · rename_i e
        exact .one e (matchItems_sound h)
      · cases h
  | .many n g p :: r, s, gs, h => by
      rw [matchItems] at h
      obtain ⟨j, gs', h1, h2, h3, rfl⟩ := tries_sound h
      have := List.takeWhile_prefix (p := p) (l := s)
      have hle := this.length_le
      have key : Matches (.many n g p :: r) (s.take j ++ s.drop j) (if g then s.take j :: gs' else gs') := by
        refine .many (by rw [List.length_take]; omega) (fun c hc => ?_) (matchItems_sound h3)
        have : s.take j <+: s.takeWhile p :=
          List.prefix_of_prefix_length_le (List.take_prefix _ _) this (by rw [List.length_take]; omega)
        exact List.all_eq_true.1 (List.all_takeWhile (p := p) (l := s)) c (this.subset hc)
      rwa [List.take_append_drop] at key

/-- The first attempt succeeds. -/
theorem matchItems_many {n : Nat} {g : Bool} {p : Char → Bool} {r : List Item} {u t : Str} {gs : List Str}
    (hn : n ≤ u.length) (hu : ∀ c ∈ u, p c = true) (ht : ∀ c t', t = c :: t' → p c = false)
    (h : matchItems r t = some gs) :
    matchItems (.many n g p :: r) (u ++ t) = some (if g then u :: gs else gs) := by
  have e : (u ++ t).takeWhile p = u := by
    rw [List.takeWhile_append_of_pos hu]
    cases t with
    | nil => simp
    | cons c t' => simp [ht c t' rfl]
  have ha : attempt (matchItems r) g (u ++ t) u.length = some (if g then u :: gs else gs) := by
    unfold attempt
    rw [List.drop_left, List.take_left, h]
    rfl
  rw [matchItems, e]
  cases hl : u.length with
  | zero => rw [tries, if_pos (by omega), ← hl, ha]
  | succ k => rw [tries, if_neg (by omega), ← hl, ha]; rfl

theorem matchItems_text {t s : Str} {r : List Item} : matchItems (text t ++ r) (t ++ s) = matchItems r s := by
  induction t with
  | nil => rfl
  | cons c t ih =>
      rw [show text (c :: t) ++ r = Item.one (fun d => d == c) :: (text t ++ r) from rfl, List.cons_append, matchItems,
        if_pos (beq_self_eq_true c), ih]

theorem matches_one {p : Char → Bool} {r : List Item} {s : Str} {gs : List Str} (h : Matches (.one p :: r) s gs) :
    ∃ c t, s = c :: t ∧ p c = true ∧ Matches r t gs := by
  cases h with
  | one hp h => exact ⟨_, _, rfl, hp, h⟩

theorem matches_many {n : Nat} {g : Bool} {p : Char → Bool} {r : List Item} {s : Str} {gs : List Str}
    (h : Matches (.many n g p :: r) s gs) :
    ∃ u t gs', s = u ++ t ∧ n ≤ u.length ∧ (∀ c ∈ u, p c = true) ∧ gs = (if g then u :: gs' else gs') ∧ Matches r t gs' := by
  cases h with
  | many h1 h2 h => exact ⟨_, _, _, rfl, h1, h2, rfl, h⟩

theorem matches_nil {s : Str} {gs : List Str} (h : Matches [] s gs) : s = [] ∧ gs = [] := by
  cases h; exact ⟨rfl, rfl⟩

theorem matches_text {t : Str} {r : List Item} : ∀ {s : Str} {gs : List Str}, Matches (text t ++ r) s gs →
    ∃ s', s = t ++ s' ∧ Matches r s' gs := by
  induction t with
  | nil => exact fun h => ⟨_, rfl, h⟩
  | cons c t ih =>
      intro s gs h
      obtain ⟨d, s', rfl, hd, h⟩ := matches_one (r := text t ++ r) h
      obtain ⟨s'', rfl, h'⟩ := ih h
      exact ⟨s'', by rw [beq_iff_eq.1 hd]; rfl, h'⟩

/-! ### The lines of a template -/

theorem blanks_iff {s : Str} : Blanks s ↔ ∀ c ∈ s, isBlankTab c = true := by
  simp [Blanks, isBlankTab]

theorem digits_iff {s : Str} : (∀ c ∈ s, '0' ≤ c ∧ c ≤ '9') ↔ ∀ c ∈ s, isDigit c = true := by
  simp [isDigit]

theorem toInt_decimal {s : Str} {n : Nat} : toInt s = some n ↔ Decimal s n := by
  unfold toInt Decimal
  rw [digits_iff]
  cases s with
  | nil => simp
  | cons c s =>
      by_cases h : (c :: s).all isDigit = true
      · simp only [List.isEmpty_cons, h, Bool.not_true, Bool.or_self, Bool.false_eq_true, if_false]
        simp only [List.all_eq_true] at h
        constructor
        · exact fun e => ⟨List.cons_ne_nil _ _, h, Option.some.inj e⟩
        · exact fun e => congrArg some e.2.2
      · simp only [Bool.not_eq_true] at h
        simp only [List.isEmpty_cons, h, Bool.not_false, Bool.or_true, if_true]
        constructor
        · exact fun e => nomatch e
        · rintro ⟨-, h', -⟩
          rw [List.all_eq_true.2 h'] at h
          cases h

theorem decimal_exists {s : Str} (h1 : s ≠ []) (h2 : ∀ c ∈ s, isDigit c = true) : ∃ n, Decimal s n :=
  ⟨_, h1, digits_iff.2 h2, rfl⟩

/-- The groups of a line that says the range. -/
theorem match_rangeLine {line : Str} {a b s : Nat} (h : RangeLine line a b s) :
    ∃ da db ds, matchItems rangeRegex line = some [da, db, ds] ∧ Decimal da a ∧ Decimal db b ∧ Decimal ds s := by
  obtain ⟨b1, b2, b3, b4, b5, b6, b7, da, db, ds, rfl, h1, h2, h3, h4, h5, h6, h7, n3, n5, n6, hda, hdb, hds⟩ := h
  refine ⟨da, db, ds, ?_, hda, hdb, hds⟩
  have len {u : Str} (h : u ≠ []) : 1 ≤ u.length := List.length_pos_iff.2 h
  have dig {u : Str} {n : Nat} (h : Decimal u n) : ∀ c ∈ u, isDigit c = true := digits_iff.1 h.2.1
  unfold rangeRegex inComment
  simp only [List.append_assoc, List.cons_append, List.nil_append]
  have e7 : matchItems [.many 0 false isBlankTab] b7 = some [] := by
    have := matchItems_many (n := 0) (g := false) (r := []) (t := []) (gs := []) (Nat.zero_le _) (blanks_iff.1 h7)
      (fun _ _ e => nomatch e) rfl
    rwa [List.append_nil] at this
  have ends : ∀ c t', b7 = c :: t' → isDigit c = false := by
    rintro c t' rfl
    rcases h7 c List.mem_cons_self with rfl | rfl <;> rfl
  have starts {u v : Str} {n : Nat} (h : Decimal u n) : ∀ c t', u ++ v = c :: t' → isBlankTab c = false := by
    intro c t' e
    cases u with
    | nil => exact absurd rfl h.1
    | cons d u =>
        cases e
        have := dig h c List.mem_cons_self
        cases hb : isBlankTab c with
        | false => rfl
        | true =>
            simp only [isBlankTab, Bool.or_eq_true, beq_iff_eq] at hb
            rcases hb with rfl | rfl <;> cases this
  refine matchItems_many (g := false) (Nat.zero_le _) (blanks_iff.1 h1) (fun _ _ e => by cases e; rfl) ?_
  rw [matchItems_text]
  refine matchItems_many (g := false) (Nat.zero_le _) (blanks_iff.1 h2) (fun _ _ e => by cases e; rfl) ?_
  rw [matchItems_text]
  refine matchItems_many (g := false) (len n3) (blanks_iff.1 h3) (fun _ _ e => by cases e; rfl) ?_
  rw [matchItems_text]
  refine matchItems_many (g := false) (Nat.zero_le _) (blanks_iff.1 h4) (fun _ _ e => by cases e; rfl) ?_
  rw [matchItems_text]
  refine matchItems_many (g := true) (gs := [db, ds]) (len hda.1) (dig hda) (fun _ _ e => by cases e; rfl) ?_
  rw [matchItems_text]
  refine matchItems_many (g := true) (gs := [ds]) (len hdb.1) (dig hdb) (fun _ _ e => by cases e; rfl) ?_
  rw [matchItems_text]
  refine matchItems_many (g := false) (len n5) (blanks_iff.1 h5) (fun _ _ e => by cases e; rfl) ?_
  rw [matchItems_text]
  refine matchItems_many (g := false) (len n6) (blanks_iff.1 h6) (starts hds) ?_
  exact matchItems_many (g := true) (gs := []) (len hds.1) (dig hds) ends e7

/-- Other lines do not match. -/
theorem rangeLine_of_match {line : Str} {gs : List Str} (h : matchItems rangeRegex line = some gs) :
    ∃ a b s, RangeLine line a b s := by
  replace h := matchItems_sound h
  unfold rangeRegex inComment at h
  simp only [List.append_assoc, List.cons_append, List.nil_append] at h
  obtain ⟨b1, t, gs1, e, -, h1, -, k1⟩ := matches_many h
  subst e
  obtain ⟨t, e, k2⟩ := matches_text k1
  subst e
  obtain ⟨b2, t, gs2, e, -, h2, -, k3⟩ := matches_many k2
  subst e
  obtain ⟨t, e, k4⟩ := matches_text k3
  subst e
  obtain ⟨b3, t, gs3, e, l3, h3, -, k5⟩ := matches_many k4
  subst e
  obtain ⟨t, e, k6⟩ := matches_text k5
  subst e
  obtain ⟨b4, t, gs4, e, -, h4, -, k7⟩ := matches_many k6
  subst e
  obtain ⟨t, e, k8⟩ := matches_text k7
  subst e
  obtain ⟨da, t, gs5, e, la, ha, -, k9⟩ := matches_many k8
  subst e
  obtain ⟨t, e, k10⟩ := matches_text k9
  subst e
  obtain ⟨db, t, gs6, e, lb, hb, -, k11⟩ := matches_many k10
  subst e
  obtain ⟨t, e, k12⟩ := matches_text k11
  subst e
  obtain ⟨b5, t, gs7, e, l5, h5, -, k13⟩ := matches_many k12
  subst e
  obtain ⟨t, e, k14⟩ := matches_text k13
  subst e
  obtain ⟨b6, t, gs8, e, l6, h6, -, k15⟩ := matches_many k14
  subst e
  obtain ⟨ds, t, gs9, e, ls, hs, -, k16⟩ := matches_many k15
  subst e
  obtain ⟨b7, t, gs10, e, -, h7, -, k17⟩ := matches_many k16
  subst e
  obtain ⟨rfl, -⟩ := matches_nil k17
  have ne {u : Str} (h : 1 ≤ u.length) : u ≠ [] := List.length_pos_iff.1 h
  obtain ⟨a, ha⟩ := decimal_exists (ne la) ha
  obtain ⟨b, hb⟩ := decimal_exists (ne lb) hb
  obtain ⟨s, hs⟩ := decimal_exists (ne ls) hs
  exact ⟨a, b, s, b1, b2, b3, b4, b5, b6, b7, da, db, ds, by simp, blanks_iff.2 h1, blanks_iff.2 h2, blanks_iff.2 h3,
    blanks_iff.2 h4, blanks_iff.2 h5, blanks_iff.2 h6, blanks_iff.2 h7, ne l3, ne l5, ne l6, ha, hb, hs⟩

/-- The group of a line that says a property. -/
theorem match_propertyLine {name line value : Str} (hn : ∃ d t, name = d :: t ∧ d ≠ ' ' ∧ d ≠ '\t') (hl : '\n' ∉ line)
    (h : PropertyLine name line value) : matchItems (propertyRegex name) line = some [value] := by
  obtain ⟨b1, b2, b3, rfl, h1, h2, h3, hv⟩ := h
  obtain ⟨d, t, rfl, hd⟩ := hn
  unfold propertyRegex inComment
  simp only [List.append_assoc]
  refine matchItems_many (g := false) (Nat.zero_le _) (blanks_iff.1 h1) (fun _ _ e => by cases e; rfl) ?_
  rw [matchItems_text]
  refine matchItems_many (g := false) (Nat.zero_le _) (blanks_iff.1 h2) (fun _ _ e => by cases e; simp [isBlankTab, hd]) ?_
  rw [matchItems_text, matchItems_text]
  refine matchItems_many (g := false) (Nat.zero_le _) (blanks_iff.1 h3) (fun c t e => by simp [isBlankTab, hv c t e]) ?_
  have := matchItems_many (n := 0) (g := true) (p := notNewline) (r := [.many 0 false isBlankTab]) (u := value) (t := [])
    (gs := []) (Nat.zero_le _) (fun c hc => by
      simp only [notNewline, bne_iff_ne, ne_eq]
      rintro rfl
      exact hl (by simp [hc])) (fun _ _ e => nomatch e) rfl
  rw [List.append_nil] at this
  exact this

/-- Other lines do not match. -/
theorem propertyLine_of_match {name line : Str} {gs : List Str} (h : matchItems (propertyRegex name) line = some gs) :
    ∃ value, PropertyLine name line value := by
  replace h := matchItems_sound h
  unfold propertyRegex inComment at h
  simp only [List.append_assoc, List.cons_append, List.nil_append] at h
  obtain ⟨b1, t, gs1, e, -, h1, -, k1⟩ := matches_many h
  subst e
  obtain ⟨t, e, k2⟩ := matches_text k1
  subst e
  obtain ⟨b2, t, gs2, e, -, h2, -, k3⟩ := matches_many k2
  subst e
  obtain ⟨t, e, k4⟩ := matches_text k3
  subst e
  obtain ⟨t, e, k5⟩ := matches_text k4
  subst e
  refine ⟨t.dropWhile isBlankTab, b1, b2, t.takeWhile isBlankTab, ?_, blanks_iff.2 h1, blanks_iff.2 h2,
    blanks_iff.2 (List.all_eq_true.1 List.all_takeWhile), fun c t' e => ?_⟩
  · simp [List.takeWhile_append_dropWhile]
  · have := List.head?_dropWhile_not isBlankTab t
    rw [e] at this
    simpa [isBlankTab] using this

/-! ### The lines of a text -/

theorem splitLines_cons {c : Char} {s : Str} (h : c ≠ '\n') (h' : c ≠ '\r') :
    splitLines (c :: s) = match splitLines s with
      | [] => [[c]]
      | w :: ws => (c :: w) :: ws := by
  rw [splitLines]
  · rfl
  · exact h
  · exact fun _ e => absurd e h'
  · exact h'

theorem splitLines_append {l s : Str} {w : Str} {ws : List Str} (h : '\n' ∉ l) (h' : '\r' ∉ l)
    (hs : splitLines s = w :: ws) : splitLines (l ++ s) = (l ++ w) :: ws := by
  induction l with
  | nil => exact hs
  | cons c l ih =>
      simp only [List.mem_cons, not_or] at h h'
      rw [List.cons_append, splitLines_cons (fun e => h.1 e.symm) (fun e => h'.1 e.symm), ih h.2 h'.2]
      rfl

theorem splitLines_last {l : Str} (hl : l ≠ []) (h : '\n' ∉ l) (h' : '\r' ∉ l) : splitLines l = [l] := by
  induction l with
  | nil => exact absurd rfl hl
  | cons c l ih =>
      simp only [List.mem_cons, not_or] at h h'
      rw [splitLines_cons (fun e => h.1 e.symm) (fun e => h'.1 e.symm)]
      cases l with
      | nil => rfl
      | cons d l => rw [ih (List.cons_ne_nil _ _) h.2 h'.2]

theorem splitLines_text {ls : List Str} {content : Str} (h : TextOf ls content) : splitLines content = ls := by
  induction h with
  | nil => rfl
  | last hl h h' => exact splitLines_last hl h h'
  | unix h h' _ ih =>
      rw [splitLines_append h h' (w := []) (by rw [splitLines, ih])]
      simp
  | windows h h' _ ih =>
      rw [splitLines_append h h' (w := []) (by rw [splitLines, ih])]
      simp

theorem no_newline {ls : List Str} {content : Str} (h : TextOf ls content) {l : Str} (hl : l ∈ ls) : '\n' ∉ l := by
  induction h with
  | nil => cases hl
  | last _ h _ => rwa [List.mem_singleton.1 hl]
  | unix h _ _ ih => rcases List.mem_cons.1 hl with rfl | hl
                     · exact h
                     · exact ih hl
  | windows h _ _ ih => rcases List.mem_cons.1 hl with rfl | hl
                        · exact h
                        · exact ih hl

theorem findSome_first {β : Type} {f : Str → Option β} {before after : List Str} {line : Str} {v : β}
    (hb : ∀ l ∈ before, f l = none) (h : f line = some v) : (before ++ line :: after).findSome? f = some v := by
  rw [List.findSome?_append, List.findSome?_eq_none_iff.2 hb, List.findSome?_cons, h]
  rfl

/-! ### The modes -/

theorem blank_isSpace (c : Char) : blank c = isSpace c := by
  simp [blank, isSpace]
  grind

theorem dropWhile_blanks {a s : Str} (h : ∀ c ∈ a, blank c = true) (hs : ∀ c t, s = c :: t → blank c = false) :
    (a ++ s).dropWhile isSpace = s := by
  rw [List.dropWhile_append_of_pos fun c hc => by rw [← blank_isSpace]; exact h c hc]
  cases s with
  | nil => rfl
  | cons c t => rw [List.dropWhile_cons, ← blank_isSpace, hs c t rfl]; rfl

theorem strip_between {a s b : Str} (ha : ∀ c ∈ a, blank c = true) (hb : ∀ c ∈ b, blank c = true) (hs : s ≠ [])
    (h1 : ∀ c t, s = c :: t → blank c = false) (h2 : ∀ c t, s.reverse = c :: t → blank c = false) :
    strip (a ++ s ++ b) = s := by
  unfold strip lstrip rstrip
  rw [List.append_assoc, dropWhile_blanks ha, List.reverse_append, dropWhile_blanks (fun c hc => hb c (List.mem_reverse.1 hc)) h2,
    List.reverse_reverse]
  intro c t e
  cases s with
  | nil => exact absurd rfl hs
  | cons d s => cases e; exact h1 _ _ rfl

theorem strip_spaces (s : Str) : ∃ a b, s = a ++ strip s ++ b ∧ (∀ c ∈ a, blank c = true) ∧ ∀ c ∈ b, blank c = true := by
  have h1 := List.takeWhile_append_dropWhile (p := isSpace) (l := s)
  have h2 := List.takeWhile_append_dropWhile (p := isSpace) (l := (s.dropWhile isSpace).reverse)
  refine ⟨s.takeWhile isSpace, ((s.dropWhile isSpace).reverse.takeWhile isSpace).reverse, ?_, ?_, ?_⟩
  · have h2 := congrArg List.reverse h2
    rw [List.reverse_append, List.reverse_reverse] at h2
    unfold strip rstrip lstrip
    rw [List.append_assoc, h2, h1]
  · intro c hc
    rw [blank_isSpace]
    exact List.all_eq_true.1 (List.all_takeWhile (p := isSpace) (l := s)) c hc
  · intro c hc
    rw [blank_isSpace]
    exact List.all_eq_true.1 List.all_takeWhile c (List.mem_reverse.1 hc)

theorem modeOf_iff {s : Str} {m : Mode} : modeOf s = some m ↔ s = modeName m := by
  unfold modeOf
  constructor
  · intro h
    split at h
    · cases h; assumption
    · split at h
      · cases h; assumption
      · cases h
  · rintro rfl
    cases m <;> decide

theorem strip_mode {a b : Str} (m : Mode) (ha : ∀ c ∈ a, blank c = true) (hb : ∀ c ∈ b, blank c = true) :
    strip (a ++ modeName m ++ b) = modeName m := by
  cases m
  · exact strip_between ha hb (by decide) (fun _ _ e => by cases e; rfl) (fun _ _ e => by cases e; rfl)
  · exact strip_between ha hb (by decide) (fun _ _ e => by cases e; rfl) (fun _ _ e => by cases e; rfl)

theorem comma_mode {a b : Str} (m : Mode) (ha : ∀ c ∈ a, blank c = true) (hb : ∀ c ∈ b, blank c = true) :
    ',' ∉ a ++ modeName m ++ b := by
  intro h
  rcases List.mem_append.1 h with h | h
  · rcases List.mem_append.1 h with h | h
    · exact absurd (ha _ h) (by decide)
    · cases m <;> revert h <;> decide
  · exact absurd (hb _ h) (by decide)

theorem modes_of_list {v : Str} {ms : List Mode} (h : ModeList v ms) :
    ((split ',' v).mapM fun s => modeOf (strip s)) = some ms := by
  induction h with
  | one ha hb =>
      rw [split_none _ (comma_mode _ ha hb), List.mapM_cons, strip_mode _ ha hb, modeOf_iff.2 rfl]
      rfl
  | cons ha hb _ ih =>
      rw [split_append _ (comma_mode _ ha hb), List.mapM_cons, strip_mode _ ha hb, modeOf_iff.2 rfl, ih]
      rfl

theorem split_eq (c : Char) (s : Str) : (split c s = [s] ∧ c ∉ s) ∨ ∃ a t, s = a ++ c :: t ∧ c ∉ a ∧ split c s = a :: split c t := by
  by_cases h : c ∈ s
  · obtain ⟨a, t, rfl, hc⟩ := List.eq_append_cons_of_mem h
    exact .inr ⟨a, t, rfl, hc, split_append _ hc t⟩
  · exact .inl ⟨split_none _ h, h⟩

theorem list_of_modes : ∀ (n : Nat) {v : Str} {ms : List Mode}, v.length ≤ n →
    ((split ',' v).mapM fun s => modeOf (strip s)) = some ms → ModeList v ms
  | n, v, ms, hn, h => by
      rcases split_eq ',' v with ⟨e, -⟩ | ⟨a, t, rfl, -, e⟩
      · rw [e, List.mapM_cons] at h
        cases hm : modeOf (strip v) with
        | none => rw [hm] at h; cases h
        | some m =>
            rw [hm] at h
            cases h
            obtain ⟨x, y, h1, h2, h3⟩ := strip_spaces v
            rw [modeOf_iff.1 hm] at h1
            rw [h1]
            exact .one h2 h3
      · rw [e, List.mapM_cons] at h
        cases hm : modeOf (strip a) with
        | none => rw [hm] at h; cases h
        | some m =>
            rw [hm] at h
            cases hr : (split ',' t).mapM fun s => modeOf (strip s) with
            | none => rw [hr] at h; cases h
            | some ms' =>
                rw [hr] at h
                cases h
                obtain ⟨x, y, h1, h2, h3⟩ := strip_spaces a
                rw [modeOf_iff.1 hm] at h1
                rw [h1]
                match n with
                | 0 => simp at hn
                | n + 1 => exact .cons h2 h3 (list_of_modes n (by simp at hn; omega) hr)

/-! ### The range -/

theorem mem_pyRange {a b s : Nat} (hs : 0 < s) {r : List Nat} (h : pyRange a b s = some r) (x : Nat) :
    x ∈ r ↔ x < b ∧ ∃ k, x = a + k * s := by
  unfold pyRange at h
  rw [if_neg (by omega)] at h
  cases h
  rw [List.mem_map]
  constructor
  · rintro ⟨k, hk, rfl⟩
    rw [List.mem_range] at hk
    have := (Nat.le_div_iff_mul_le hs).1 (show k + 1 ≤ _ from hk)
    rw [Nat.succ_mul] at this
    exact ⟨by omega, k, rfl⟩
  · rintro ⟨hx, k, rfl⟩
    refine ⟨k, List.mem_range.2 ?_, rfl⟩
    refine (Nat.le_div_iff_mul_le hs).2 ?_
    rw [Nat.succ_mul]
    omega

theorem pyRange_sorted {a b s : Nat} {r : List Nat} (h : pyRange a b s = some r) : r.Pairwise (· < ·) := by
  unfold pyRange at h
  split at h
  · cases h
  · rename_i hs
    cases h
    rw [List.pairwise_map]
    refine List.pairwise_lt_range.imp fun {i j} h => ?_
    have := Nat.mul_lt_mul_of_pos_right h (Nat.pos_of_ne_zero hs)
    omega

/-! ### The statistics -/

theorem lookup_countChar (out : List (Char × Nat)) (c d : Char) :
    (countChar out c).lookup d = if d = c then some ((out.lookup c).getD 0 + 1) else out.lookup d := by
  have lm : ∀ out : List (Char × Nat), (out.map fun x => if x.1 == c then (c, x.2 + 1) else x).lookup d =
      if d = c then (out.lookup c).map (· + 1) else out.lookup d := by
    intro out
    induction out with
    | nil => simp
    | cons x out ih =>
        obtain ⟨e, n⟩ := x
        rw [List.map_cons, List.lookup_cons, List.lookup_cons]
        by_cases he : e = c
        · subst he
          by_cases hd : d = e
          · subst hd; simp
          · have : (d == e) = false := beq_eq_false_iff_ne.2 hd
            simp only [beq_self_eq_true, if_true, this, ih, hd, if_false, List.lookup_cons]
        · have h1 : (e == c) = false := beq_eq_false_iff_ne.2 he
          have h2 : (c == e) = false := beq_eq_false_iff_ne.2 fun h => he h.symm
          simp only [h1, Bool.false_eq_true, if_false, h2, ih, List.lookup_cons]
          by_cases hd : d = e
          · subst hd; simp [he]
          · have : (d == e) = false := beq_eq_false_iff_ne.2 hd
            simp [this]
  unfold countChar
  rw [lm]
  by_cases h : (out.any fun x => x.1 == c) = true
  · rw [if_pos h]
    cases hl : out.lookup c with
    | some n => simp
    | none =>
        obtain ⟨x, hx, e⟩ := List.any_eq_true.1 h
        have := List.lookup_eq_none_iff.1 hl x hx
        rw [beq_iff_eq.1 e] at this
        simp at this
  · rw [if_neg h]
    have hl : out.lookup c = none := List.lookup_eq_none_iff.2 fun x hx => by
      rw [bne_iff_ne]
      rintro e
      exact h (List.any_eq_true.2 ⟨x, hx, beq_iff_eq.2 e.symm⟩)
    rw [List.lookup_append, List.lookup_append, hl]
    by_cases hd : d = c
    · subst hd; simp
    · have : (d == c) = false := beq_eq_false_iff_ne.2 hd
      simp [hd, List.lookup_cons, this]

theorem countChar_keys {out : List (Char × Nat)} (c : Char) (h : (out.map Prod.fst).Nodup) :
    ((countChar out c).map Prod.fst).Nodup := by
  have mk : ∀ out : List (Char × Nat), (out.map fun x => if x.1 == c then (c, x.2 + 1) else x).map Prod.fst =
      out.map Prod.fst := by
    intro out
    rw [List.map_map]
    refine List.map_congr_left fun x _ => ?_
    dsimp only [Function.comp]
    split
    · rename_i e; exact (beq_iff_eq.1 e).symm
    · rfl
  unfold countChar
  rw [mk]
  split
  · exact h
  · rename_i hn
    rw [List.map_append, List.nodup_append]
    refine ⟨h, by simp, ?_⟩
    intro a ha b hb
    rw [show b = c by simpa using hb]
    rintro rfl
    obtain ⟨x, hx, rfl⟩ := List.mem_map.1 ha
    exact hn (List.any_eq_true.2 ⟨x, hx, beq_self_eq_true _⟩)

/-- What was there and how often the character was seen. -/
def seenMore (o : Option Nat) (k : Nat) : Option Nat := if k = 0 then o else some (o.getD 0 + k)

theorem lookup_foldl_count : ∀ (s : Str) (out : List (Char × Nat)) (c : Char),
    (s.foldl countChar out).lookup c = seenMore (out.lookup c) (s.count c)
  | [], out, c => by simp [seenMore]
  | d :: s, out, c => by
      rw [List.foldl_cons, lookup_foldl_count s, lookup_countChar, List.count_cons]
      unfold seenMore
      by_cases h : c = d
      · subst h
        simp only [if_true, beq_self_eq_true]
        split
        · simp_all
        · simp; omega
      · have : (d == c) = false := beq_eq_false_iff_ne.2 fun e => h e.symm
        simp [h, this]

theorem foldl_count_keys : ∀ (s : Str) {out : List (Char × Nat)}, (out.map Prod.fst).Nodup →
    ((s.foldl countChar out).map Prod.fst).Nodup
  | [], _, h => h
  | c :: s, _, h => foldl_count_keys s (countChar_keys c h)

theorem seenMore_seenMore (o : Option Nat) (k l : Nat) : seenMore (seenMore o k) l = seenMore o (k + l) := by
  unfold seenMore
  by_cases hk : k = 0
  · subst hk; simp
  · by_cases hl : l = 0
    · subst hl; simp
    · simp [hk, hl]; omega

mutual

theorem lookup_countCharacters : ∀ (t : Tree) (out : List (Char × Nat)) (c : Char),
    (countCharacters t out).lookup c = seenMore (out.lookup c) (t.texts.flatten.count c)
  | .file s, out, c => by rw [countCharacters, lookup_foldl_count, Tree.texts]; simp
  | .dir ts, out, c => by rw [countCharacters, Tree.texts]; exact lookup_countEntries ts out c
  | .other, out, c => by simp [countCharacters, Tree.texts, seenMore]

theorem lookup_countEntries : ∀ (ts : List Tree) (out : List (Char × Nat)) (c : Char),
    (countEntries ts out).lookup c = seenMore (out.lookup c) ((entriesTexts ts).flatten.count c)
  | [], out, c => by simp [countEntries, entriesTexts, seenMore]
  | t :: ts, out, c => by
      rw [countEntries, lookup_countEntries ts, lookup_countCharacters t, seenMore_seenMore, entriesTexts, List.flatten_append,
        List.count_append]

end

mutual

theorem countCharacters_keys : ∀ (t : Tree) {out : List (Char × Nat)}, (out.map Prod.fst).Nodup →
    ((countCharacters t out).map Prod.fst).Nodup
  | .file s, _, h => by rw [countCharacters]; exact foldl_count_keys s h
  | .dir ts, _, h => by rw [countCharacters]; exact countEntries_keys ts h
  | .other, _, h => by rw [countCharacters]; exact h

theorem countEntries_keys : ∀ (ts : List Tree) {out : List (Char × Nat)}, (out.map Prod.fst).Nodup →
    ((countEntries ts out).map Prod.fst).Nodup
  | [], _, h => by rw [countEntries]; exact h
  | t :: ts, _, h => by rw [countEntries]; exact countEntries_keys ts (countCharacters_keys t h)

end

end Metaparse.Bench
