import Verif.Lemmas.GenerateRuns
import Verif.Spec.GenerateAgain

/-! # Running the generator again -/

namespace Metaparse.Gen

/-! ## Texts -/

theorem Has.split {u v p : Str} {c : Char} (hc : c ∉ p) (h : Has (u ++ c :: v) p) : Has u p ∨ Has v p := by
  obtain ⟨a, b, h⟩ := h
  rw [List.append_assoc] at h
  rcases List.append_eq_append_iff.1 h with ⟨m, h1, h2⟩ | ⟨m, h1, h2⟩
  · -- `a = u ++ m`
    cases m with
    | nil =>
      rw [List.nil_append] at h2
      cases p with
      | nil => exact .inl ⟨u, [], by simp⟩
      | cons d p =>
        rw [List.cons_append] at h2
        injection h2 with h2 _
        exact absurd (by rw [h2]; exact List.mem_cons_self) hc
    | cons d m =>
      rw [List.cons_append] at h2
      injection h2 with _ h2
      exact .inr ⟨m, b, by rw [h2]; simp⟩
  · -- `u = a ++ m`
    rcases List.append_eq_append_iff.1 h2 with ⟨k, h3, h4⟩ | ⟨k, h3, h4⟩
    · exact .inl ⟨a, k, by rw [h1, h3]; simp⟩
    · cases k with
      | nil => exact .inl ⟨a, [], by rw [h1, h3]; simp⟩
      | cons d k =>
        rw [List.cons_append] at h4
        injection h4 with h4 _
        exact absurd (by rw [h3, h4]; simp) hc

theorem Has.mem {l p : Str} (h : Has l p) {c : Char} (hc : c ∈ p) : c ∈ l := by
  obtain ⟨a, b, rfl⟩ := h
  simp [hc]

theorem isIn_false {l p : Str} (h : ¬ Has l p) : isIn p l = false := by
  rw [← Bool.not_eq_true, isIn_iff]; exact h

theorem not_isIn_of_char {l p : Str} (c : Char) (hc : c ∈ p) (h : c ∉ l) : isIn p l = false :=
  isIn_false fun hh => h (hh.mem hc)

theorem Has.blank_cons {c : Char} {l p : Str} (h : Has (c :: l) p) (hc : blank c = true) {d : Char} {q : Str}
    (hp : p = d :: q) (hd : blank d = false) : Has l p := by
  obtain ⟨a, b, h⟩ := h
  cases a with
  | nil =>
    rw [hp] at h
    simp only [List.nil_append, List.cons_append] at h
    injection h with h _
    rw [h, hd] at hc; simp at hc
  | cons x a =>
    simp only [List.cons_append] at h
    injection h with _ h
    exact ⟨a, b, h⟩

theorem Has.lstrip {l p : Str} (h : Has l p) {d : Char} {q : Str} (hp : p = d :: q) (hd : blank d = false) :
    Has (lstrip l) p := by
  induction l with
  | nil => exact h
  | cons c l ih =>
    by_cases hc : blank c = true
    · rw [lstrip_blank hc]
      exact ih (h.blank_cons hc hp hd)
    · rw [lstrip_of_head (by simpa using hc)]
      exact h

theorem Has.reverse {l p : Str} (h : Has l p) : Has l.reverse p.reverse := by
  obtain ⟨a, b, rfl⟩ := h
  exact ⟨b.reverse, a.reverse, by simp⟩

theorem Has.strip {l p : Str} (h : Has l p) {d e : Char} {q r : Str} (hp : p = d :: q) (hd : blank d = false)
    (hp' : p = r ++ [e]) (he : blank e = false) : Has (strip l) p := by
  have h1 := (h.lstrip hp hd).reverse.lstrip (d := e) (q := r.reverse) (by rw [hp']; simp) he
  have h2 := h1.reverse
  rw [List.reverse_reverse] at h2
  exact h2

theorem strip_eq_trimmed (l : Str) : strip l = trimmed l := by
  rw [strip, rstrip, lstrip, trimmed, isSpace_eq_blank]

theorem trimmed_nil {l : Str} : trimmed l = [] ↔ l.all blank = true := by
  rw [trimmed]
  constructor
  · intro h
    have h1 : ((l.dropWhile blank).reverse.dropWhile blank) = [] := by simpa using h
    have h2 : ∀ {s : Str}, s.dropWhile blank = [] → ∀ c ∈ s, blank c = true := by
      intro s
      induction s with
      | nil => simp
      | cons c s ih =>
        intro h
        rw [List.dropWhile_cons] at h
        split at h
        · rename_i hc
          intro d hd
          rcases List.mem_cons.1 hd with rfl | hd
          · exact hc
          · exact ih h d hd
        · simp at h
    have h3 : l.dropWhile blank = [] := by
      cases hl : l.dropWhile blank with
      | nil => rfl
      | cons c s =>
        have hc : blank c = true := h2 h1 c (by rw [hl]; simp)
        have : ∀ {t : Str}, t.dropWhile blank = c :: s → blank c = false := by
          intro t
          induction t with
          | nil => simp
          | cons d t ih =>
            intro h
            rw [List.dropWhile_cons] at h
            split at h
            · exact ih h
            · rename_i hd
              injection h with h _
              rw [← h]; simpa using hd
        rw [this hl] at hc
        simp at hc
    rw [List.all_eq_true]
    exact h2 h3
  · intro h
    rw [dropWhile_eq_nil_of_all (List.all_eq_true.1 h)]
    rfl

/-- The first character of a stripped line. -/
theorem strip_head {c : Char} (h : blank c = false) (s : Str) : ∃ r, strip (c :: s) = c :: r := by
  rw [strip, lstrip_of_head h]
  exact rstrip_cons h s

theorem occurs_eq (p l : Str) : occurs p l = isIn p l := by
  rw [Bool.eq_iff_iff, isIn_iff, occurs, List.any_eq_true]
  constructor
  · rintro ⟨k, -, h⟩
    rw [List.isPrefixOf_iff_prefix] at h
    obtain ⟨v, hv⟩ := h
    exact ⟨l.take k, v, by rw [List.append_assoc, hv, List.take_append_drop]⟩
  · rintro ⟨u, v, rfl⟩
    refine ⟨u.length, by rw [List.mem_range]; simp only [List.length_append]; omega, ?_⟩
    rw [List.isPrefixOf_iff_prefix, List.append_assoc, List.drop_left]
    exact List.prefix_append _ _

/-! ## Lines -/

/-- A line without a mark that is not blank and not code. -/
structure Plain (l : Str) : Prop where
  nonblank : strip l ≠ []
  notCode : isCode l = false
  noEnd : isIn (lit "endsect") l = false
  noTitle : isIn examplesTitle l = false
  noLink : isIn linkMark l = false
  neutral : numberedHeader l = none

/-- Names of sections. -/
def GoodNames (W : List Str) : Prop := ∀ s ∈ W, ∀ c ∈ s, isDigit c = true ∨ c = '_'

/-- The line that includes a page. -/
def includeLine (s : Str) : Str := lit "[include before_" ++ s ++ lit ".qbk]\n"

theorem not_mem_name {s : Str} (h : ∀ c ∈ s, isDigit c = true ∨ c = '_') {c : Char} (hc : isDigit c = false)
    (hc' : c ≠ '_') : c ∉ s := fun hm => by
  rcases h c hm with h | h
  · rw [hc] at h; simp at h
  · exact hc' h

theorem numberedHeader_none {l : Str} (h : (lit "[section").isPrefixOf l = false) : numberedHeader l = none := by
  rw [numberedHeader, h]; rfl

theorem plain_includeLine {s : Str} (h : ∀ c ∈ s, isDigit c = true ∨ c = '_') : Plain (includeLine s) := by
  have hm : ∀ {c : Char}, c ∉ lit "[include before_" → isDigit c = false → c ≠ '_' → c ∉ lit ".qbk]\n" → c ∉ includeLine s := by
    intro c h1 h2 h3 h4
    simp only [includeLine, List.mem_append, not_or]
    exact ⟨⟨h1, not_mem_name h h2 h3⟩, h4⟩
  refine ⟨?_, ?_, ?_, ?_, ?_, ?_⟩
  · obtain ⟨r, hr⟩ := strip_head (c := '[') (by decide) (lit "include before_" ++ s ++ lit ".qbk]\n")
    have : includeLine s = '[' :: (lit "include before_" ++ s ++ lit ".qbk]\n") := rfl
    rw [this, hr]; simp
  · simp [includeLine, lit, isCode, List.isPrefixOf]
  · exact not_isIn_of_char 's' (by decide) (hm (by decide) (by decide) (by decide) (by decide))
  · exact not_isIn_of_char 'C' (by decide) (hm (by decide) (by decide) (by decide) (by decide))
  · exact not_isIn_of_char 'v' (by decide) (hm (by decide) (by decide) (by decide) (by decide))
  · apply numberedHeader_none
    simp [includeLine, lit, List.isPrefixOf]

theorem plain_noteLine {s : Str} (h : ∀ c ∈ s, isDigit c = true ∨ c = '_') : Plain (noteLine s) := by
  have hm : ∀ {c : Char}, c ∉ notePrefix → isDigit c = false → c ≠ '_' → c ∉ lit " here].]\n" → c ∉ noteLine s := by
    intro c h1 h2 h3 h4
    simp only [noteLine, List.mem_append, not_or]
    exact ⟨⟨h1, not_mem_name h h2 h3⟩, h4⟩
  refine ⟨?_, ?_, ?_, ?_, ?_, ?_⟩
  · obtain ⟨r, hr⟩ := strip_head (c := '[') (by decide) (notePrefix.tail ++ s ++ lit " here].]\n")
    have : noteLine s = '[' :: (notePrefix.tail ++ s ++ lit " here].]\n") := rfl
    rw [this, hr]; simp
  · simp [noteLine, notePrefix, lit, isCode, List.isPrefixOf]
  · apply isIn_false
    intro hh
    have e : noteLine s = notePrefix.dropLast ++ '_' :: (s ++ lit " here].]\n") := by
      have : notePrefix = notePrefix.dropLast ++ ['_'] := by decide
      rw [noteLine, this]
      simp
    rw [e] at hh
    rcases hh.split (by decide) with hh | hh
    · rw [← isIn_iff] at hh
      exact absurd hh (by decide)
    · have := hh.mem (c := 't') (by decide)
      rw [List.mem_append] at this
      rcases this with h' | h'
      · exact not_mem_name h (by decide) (by decide) h'
      · exact absurd h' (by decide)
  · exact not_isIn_of_char 'C' (by decide) (hm (by decide) (by decide) (by decide) (by decide))
  · exact not_isIn_of_char 'p' (by decide) (hm (by decide) (by decide) (by decide) (by decide))
  · apply numberedHeader_none
    simp [noteLine, notePrefix, lit, List.isPrefixOf]

/-! ## The two loops, line by line -/

/-- The note of a line. -/
def noteOf (W : List Str) (l : Str) : List Str :=
  match noteSection l with
  | some n => if n ∈ W then [noteLine n] else []
  | none => []

/-- A line of the second loop of `what_we_have_so_far_docs`. -/
def notesStep (W : List Str) : Bool → Str → Bool × List Str
  | true, l => if strip l = lit "[endsect]" then (false, [l]) else (true, [])
  | false, l =>
      if strip l = definitionsTitle then (true, l :: ['\n'] :: (W.map includeLine ++ [['\n']]))
      else if notePrefix.isPrefixOf l then (false, [])
      else (false, l :: noteOf W l)

theorem notesLoop_cons (W : List Str) (d : Bool) (l : Str) (ls : List Str) :
    notesLoop W d (l :: ls) = (notesStep W d l).2 ++ notesLoop W (notesStep W d l).1 ls := by
  cases d
  · rw [notesLoop, notesStep]
    split
    · simp [includeLine]
    · split
      · rfl
      · rfl
  · rw [notesLoop, notesStep]
    split <;> rfl

/-- Both parts together. -/
def Extracted.add (x y : Extracted) : Extracted := ⟨x.lines ++ y.lines, x.files ++ y.files⟩

theorem Extracted.add_assoc (x y z : Extracted) : (x.add y).add z = x.add (y.add z) := by
  simp [Extracted.add]

theorem Extracted.nil_add (x : Extracted) : Extracted.add {} x = x := by simp [Extracted.add]
theorem Extracted.add_nil (x : Extracted) : x.add {} = x := by simp [Extracted.add]

/-- The loop of `extract_code_snippets`, with the state at the end. -/
def extractRun (base : Str) : ExtractState → List Str → Option (ExtractState × Extracted)
  | st, [] => some (st, {})
  | st, l :: ls =>
      (extractLine base st l).bind fun r => (extractRun base r.1 ls).map fun q => (q.1, r.2.add q.2)

theorem extractLoop_eq (base : Str) (st : ExtractState) (ls : List Str) :
    extractLoop base st ls = (extractRun base st ls).map (·.2) := by
  induction ls generalizing st with
  | nil => rfl
  | cons l ls ih =>
    rw [extractLoop, extractRun]
    cases extractLine base st l with
    | none => rfl
    | some r =>
      simp only [Option.bind_some, ih]
      cases extractRun base r.1 ls <;> rfl

theorem extractRun_append (base : Str) (st : ExtractState) (a b : List Str) :
    extractRun base st (a ++ b) =
      (extractRun base st a).bind fun r => (extractRun base r.1 b).map fun q => (q.1, r.2.add q.2) := by
  induction a generalizing st with
  | nil =>
    simp only [List.nil_append, extractRun, Option.bind_some]
    cases extractRun base st b with
    | none => rfl
    | some q => simp [Extracted.nil_add]
  | cons l a ih =>
    rw [List.cons_append, extractRun, extractRun]
    cases extractLine base st l with
    | none => rfl
    | some r =>
      simp only [Option.bind_some, ih]
      cases extractRun base r.1 a with
      | none => rfl
      | some q =>
        simp only [Option.bind_some, Option.map_some]
        cases extractRun base q.1 b with
        | none => rfl
        | some q' => simp [Extracted.add_assoc]

/-- A line of the tutorial for both loops. With `b`, blank lines are skipped after a link, as in a second
run. -/
def againStep (base : Str) (b : Bool) (W : List Str) (s : Bool × ExtractState) (l : Str) :
    Option ((Bool × ExtractState) × Extracted) :=
  (extractRun base s.2 (notesStep W s.1 l).2).map fun r =>
    (((notesStep W s.1 l).1,
      if b && r.1.counter != s.2.counter && !(notesStep W s.1 l).1 then { r.1 with skipEmpty := true } else r.1), r.2)

/-- Both loops. -/
def againRun (base : Str) (b : Bool) (W : List Str) :
    Bool × ExtractState → List Str → Option ((Bool × ExtractState) × Extracted)
  | s, [] => some (s, {})
  | s, l :: ls =>
      (againStep base b W s l).bind fun r => (againRun base b W r.1 ls).map fun q => (q.1, r.2.add q.2)

theorem againRun_append (base : Str) (b : Bool) (W : List Str) (s : Bool × ExtractState) (x y : List Str) :
    againRun base b W s (x ++ y) =
      (againRun base b W s x).bind fun r => (againRun base b W r.1 y).map fun q => (q.1, r.2.add q.2) := by
  induction x generalizing s with
  | nil =>
    simp only [List.nil_append, againRun, Option.bind_some]
    cases againRun base b W s y with
    | none => rfl
    | some q => simp [Extracted.nil_add]
  | cons l a ih =>
    rw [List.cons_append, againRun, againRun]
    cases againStep base b W s l with
    | none => rfl
    | some r =>
      simp only [Option.bind_some, ih]
      cases againRun base b W r.1 a with
      | none => rfl
      | some q =>
        simp only [Option.bind_some, Option.map_some]
        cases againRun base b W q.1 y with
        | none => rfl
        | some q' => simp [Extracted.add_assoc]

theorem againRun_eq (base : Str) (W : List Str) (d : Bool) (st : ExtractState) (ls : List Str) :
    extractRun base st (notesLoop W d ls) = (againRun base false W (d, st) ls).map fun r => (r.1.2, r.2) := by
  induction ls generalizing d st with
  | nil => cases d <;> rfl
  | cons l ls ih =>
    rw [notesLoop_cons, extractRun_append, againRun, againStep]
    simp only [Bool.false_and, Bool.false_eq_true, if_false]
    cases extractRun base st (notesStep W d l).2 with
    | none => rfl
    | some r =>
      simp only [Option.bind_some, Option.map_some, ih]
      cases againRun base false W ((notesStep W d l).1, r.1) ls <;> rfl

/-- What a run of the generator writes to the text and the snippets. -/
theorem extractCodeSnippets_eq (base : Str) (W : List Str) (ls : List Str) :
    extractCodeSnippets base (notesLoop W false ls) = (againRun base false W (false, {}) ls).map (·.2) := by
  rw [extractCodeSnippets, extractLoop_eq, againRun_eq, Option.map_map]
  rfl

end Metaparse.Gen
