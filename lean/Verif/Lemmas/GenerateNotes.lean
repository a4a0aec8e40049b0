import Verif.Lemmas.GenerateTwice
import Verif.Lemmas.GeneratePages
import Verif.Spec.GenerateNotes

/-! # The notes the generator writes -/

namespace Metaparse.Gen

/-! ## The specification, line by line -/

/-- `withoutDefinitions`, for one line. -/
def keepDefs : Bool → Str → Bool × Bool
  | true, l => if trimmed l = lit "[endsect]" then (false, true) else (true, false)
  | false, l => if trimmed l = lit "[section Definitions before each section]" then (true, true) else (false, true)

/-- `withNotes`, from a state. -/
def noteRun : Bool × Bool → List Str → (Bool × Bool) × List Str
  | f, [] => (f, [])
  | f, l :: ls =>
      let k := keepDefs f.1 l
      if k.2 then
        let m := keepLinks f.2 l
        let r := noteRun (k.1, m.1) ls
        (r.1, (if m.2 then nonBlank [l] else []) ++ r.2)
      else noteRun (k.1, f.2) ls

theorem noteRun_eq (f : Bool × Bool) (ls : List Str) :
    (noteRun f ls).2 = nonBlank (withoutLinks f.2 (withoutDefinitions f.1 ls)) := by
  have hd : ∀ d l ls, withoutDefinitions d (l :: ls) =
      (if (keepDefs d l).2 then [l] else []) ++ withoutDefinitions (keepDefs d l).1 ls := by
    intro d l ls
    cases d
    · rw [withoutDefinitions, keepDefs]; split <;> rfl
    · rw [withoutDefinitions, keepDefs]; split <;> rfl
  induction ls generalizing f with
  | nil =>
    obtain ⟨d, e⟩ := f
    cases d <;> cases e <;> rfl
  | cons l ls ih =>
    rw [noteRun, hd]
    simp only
    split
    · rename_i h
      simp only [List.cons_append, List.nil_append]
      rw [withoutLinks_cons, nonBlank_append, ih]
      split <;> rfl
    · rename_i h
      rw [ih]
      rfl

theorem noteRun_append (f : Bool × Bool) (a b : List Str) :
    noteRun f (a ++ b) = ((noteRun (noteRun f a).1 b).1, (noteRun f a).2 ++ (noteRun (noteRun f a).1 b).2) := by
  induction a generalizing f with
  | nil => rfl
  | cons l a ih =>
    rw [List.cons_append, noteRun, noteRun]
    simp only
    split
    · rw [ih]; simp
    · rw [ih]

theorem noteRun_cons_keep {d d' e : Bool} {l : Str} (h : keepDefs d l = (d', true)) (ls : List Str) :
    noteRun (d, e) (l :: ls) = ((noteRun (d', (keepLinks e l).1) ls).1,
      (if (keepLinks e l).2 then nonBlank [l] else []) ++ (noteRun (d', (keepLinks e l).1) ls).2) := by
  simp [noteRun, h]

theorem noteRun_cons_drop {d d' e : Bool} {l : Str} (h : keepDefs d l = (d', false)) (ls : List Str) :
    noteRun (d, e) (l :: ls) = noteRun (d', e) ls := by
  simp [noteRun, h]

theorem keepDefs_false {l : Str} (h : strip l ≠ definitionsTitle) : keepDefs false l = (false, true) := by
  rw [keepDefs, ← strip_eq_trimmed]
  exact if_neg h

theorem notTitle_of {V : List Str} {l : Str} {q : List Str} (h : notesStep V false l = (false, q)) :
    strip l ≠ definitionsTitle := by
  intro ht
  rw [notesStep, if_pos ht] at h
  simp at h

theorem noteOf_of {V : List Str} {l : Str} {q : List Str} (h : notesStep V false l = (false, l :: q)) : noteOf V l = q := by
  have ht := notTitle_of h
  rw [notesStep, if_neg ht] at h
  split at h
  · simp at h
  · simpa using h

theorem noteRun_definitions {ins : List Str} (h : ∀ x ∈ ins, strip x ≠ lit "[endsect]") (e : Bool) :
    noteRun (true, e) ins = ((true, e), []) := by
  induction ins with
  | nil => rfl
  | cons x ins ih =>
    have hx : keepDefs true x = (true, false) := by
      rw [keepDefs, ← strip_eq_trimmed, if_neg (h x (by simp))]
    rw [noteRun_cons_drop hx, ih fun y hy => h y (by simp [hy])]

theorem noteRun_examples {pre : List Str} (h : ∀ x ∈ pre, IsExample x) : noteRun (false, true) pre = ((false, true), []) := by
  induction pre with
  | nil => rfl
  | cons x pre ih =>
    have hx := h x (by simp)
    rw [noteRun_cons_keep (keepDefs_false (notTitle_of (hx.notes []))), keepLinks_true,
      if_neg (by rw [hx.noEnd]; simp)]
    simp only
    rw [ih fun y hy => h y (by simp [hy])]
    rfl

theorem noteRun_links {ks : List Str} (h : ∀ x ∈ ks, IsLink x ∨ x = ['\n']) : noteRun (false, false) ks = ((false, false), []) := by
  induction ks with
  | nil => rfl
  | cons x ks ih =>
    have ih := ih fun y hy => h y (by simp [hy])
    rcases h x (by simp) with hx | rfl
    · rw [noteRun_cons_keep (keepDefs_false hx.notDefinitions), keepLinks_false,
        if_neg (by rw [hx.noTitle]; simp), if_pos hx.link]
      simp only
      rw [ih]
      rfl
    · rw [noteRun_cons_keep (d' := false) (by decide)]
      rw [show keepLinks false ['\n'] = (false, true) by decide, show nonBlank [['\n']] = [] by decide]
      simp only
      rw [ih]
      rfl

theorem noteRun_note {nt : List Str}
    (h : nt = [] ∨ ∃ n, nt = [noteLine n] ∧ ∀ c ∈ n, isDigit c = true ∨ c = '_') :
    noteRun (false, false) nt = ((false, false), nt) := by
  rcases h with rfl | ⟨n, rfl, hn⟩
  · rfl
  · have hp := plain_noteLine hn
    have ht : strip (noteLine n) ≠ definitionsTitle :=
      strip_bracket (lit "section Definitions before each section]") (notePrefix.tail ++ n ++ lit " here].]\n")
        (by simp [lit, notePrefix])
    have hb : nonBlank [noteLine n] = [noteLine n] := by
      rcases nonBlank_single (noteLine n) with ⟨-, h⟩ | ⟨h, -⟩
      · have := List.all_eq_true.1 h 'N' (by simp [noteLine, notePrefix, lit])
        exact absurd this (by decide)
      · exact h
    rw [noteRun_cons_keep (keepDefs_false ht), keepLinks_false, if_neg (by rw [hp.noTitle]; simp),
      if_neg (by rw [hp.noLink]; simp), hb]
    rfl

/-- The lines with the notes for the sections in `V`. -/
def notesIn (V : List Str) (ls : List Str) : List Str := ls.flatMap fun l => l :: noteOf V l

theorem noteOf_blank {V : List Str} {l : Str} (h : l.all blank = true) : noteOf V l = [] := by
  apply noteOf_plain
  rintro ⟨k, c, r, rfl, -⟩
  have := List.all_eq_true.1 h '[' (by simp [lit])
  exact absurd this (by decide)

theorem notesIn_single {V : List Str} {l : Str} (h : noteOf V l = []) : notesIn V (nonBlank [l]) = nonBlank [l] := by
  rcases nonBlank_single l with ⟨hb, -⟩ | ⟨hb, -⟩
  · rw [hb]; rfl
  · rw [hb]; simp [notesIn, h]

/-- What is kept of a line, with its note. -/
theorem out_notes {V : List Str} (hV : GoodNames V) {d e sk d' e' : Bool} {l : Str} {q : List Str} (h : Out V d e sk l d' e' q) :
    noteRun (d && !e, e) q = ((d' && !e', e'), notesIn V (specStep (d, e) l).2) := by
  cases h with
  | nil hn =>
    rw [specStep_drop (keepNotes_nil hn)]
    rfl
  | ends he hb hend hn hn' hpre =>
    subst he
    have e1 : specStep (d, true) l = ((false, false), nonBlank [l]) := by
      rw [specStep_keep (keepNotes_of hn), keepLinks_true, if_pos hend]; rfl
    rw [e1, notesIn_single (noteOf_of hn'), Bool.not_true, Bool.and_false, noteRun_append, noteRun_examples hpre]
    simp only
    rw [noteRun_cons_keep (keepDefs_false (notTitle_of hn')), keepLinks_true, if_pos hend]
    simp [noteRun]
  | inside he hend hd hn =>
    subst he; subst hd
    have e1 : specStep (false, true) l = ((d', true), []) := by
      rw [specStep_keep (keepNotes_of hn), keepLinks_true, if_neg (by rw [hend]; simp)]; rfl
    rw [e1]
    simp [noteRun, notesIn]
  | title he hd ht hc hn =>
    subst he; subst hd
    have e1 : specStep (false, false) l = ((false, true), nonBlank [l]) := by
      rw [specStep_keep (keepNotes_of hn), keepLinks_false, if_pos ht]; rfl
    rw [e1, notesIn_single (noteOf_of hn), Bool.false_and, noteRun_cons_keep (keepDefs_false (notTitle_of hn)),
      keepLinks_false, if_pos ht]
    simp [noteRun]
  | link he hd hb ht hl hn =>
    subst he; subst hd
    have e1 : specStep (false, false) l = ((false, false), []) := by
      rw [specStep_keep (keepNotes_of hn), keepLinks_false, if_neg (by rw [ht]; simp), if_pos hl]; rfl
    rw [e1]
    rfl
  | skipped hsk he hd hb hc hq ht hl hn =>
    subst he; subst hd
    have e1 : specStep (false, false) l = ((false, false), []) := by
      rw [specStep_keep (keepNotes_of hn), keepLinks_false, if_neg (by rw [ht]; simp), if_neg (by rw [hl]; simp)]
      rw [strip_eq_trimmed, trimmed_nil] at hb
      simp [nonBlank, hb]
    rw [e1]
    rfl
  | ordinary he ht hl hn hins hnt hc =>
    rename_i nt ins
    subst he
    have e1 : specStep (d, false) l = ((false, false), nonBlank [l]) := by
      rw [specStep_keep (keepNotes_of hn), keepLinks_false, if_neg (by rw [ht]; simp), if_neg (by rw [hl]; simp)]
      rfl
    obtain ⟨ks, rfl, hks⟩ := hnt
    have hnote : noteOf V l = nt ∧ keepDefs d l = (false, true) := by
      cases d with
      | false => exact ⟨noteOf_of hn, keepDefs_false (notTitle_of hn)⟩
      | true =>
        rw [notesStep] at hn
        split at hn
        · rename_i hs
          simp only [Prod.mk.injEq, true_and, List.cons.injEq] at hn
          subst hn
          refine ⟨noteOf_of (notes_endsect hs V false), ?_⟩
          rw [keepDefs, ← strip_eq_trimmed, if_pos hs]
        · simp at hn
    have hnt : noteRun (false, false) nt = ((false, false), nt) := by
      apply noteRun_note
      rcases noteOf_cases hV (l := l) with h | ⟨-, -, n, h, hg⟩
      · exact .inl (hnote.1 ▸ h)
      · exact .inr ⟨n, hnote.1 ▸ h, hg⟩
    rw [e1, Bool.not_false, Bool.and_true, noteRun_cons_keep hnote.2, keepLinks_false, if_neg (by rw [ht]; simp),
      if_neg (by rw [hl]; simp), noteRun_append, noteRun_links hks]
    simp only
    rw [hnt]
    simp only [if_true, Bool.false_and, List.nil_append, Prod.mk.injEq, true_and]
    rcases nonBlank_single l with ⟨hb, hb'⟩ | ⟨hb, -⟩
    · rw [hb, ← hnote.1, noteOf_blank hb']; rfl
    · rw [hb, notesIn, List.flatMap_cons, List.flatMap_nil, hnote.1]; simp
  | definitions he hd ht' hc ht hl hins hincl =>
    subst he; subst hd
    have e1 : specStep (false, false) l = ((true, false), nonBlank [l]) := by
      have : keepNotes false l = (true, true) := by
        rw [keepNotes, ← strip_eq_trimmed, ht']
        rfl
      rw [specStep_keep this, keepLinks_false, if_neg (by rw [ht]; simp), if_neg (by rw [hl]; simp)]
      rfl
    have hk : keepDefs false l = (true, true) := by
      rw [keepDefs, ← strip_eq_trimmed]
      exact if_pos ht'
    have hno : noteOf V l = [] := by
      rw [noteOf]
      cases hs : noteSection l with
      | none => rfl
      | some n =>
        exfalso
        have hne : noteSection l ≠ none := by rw [hs]; simp
        obtain ⟨k, c, r, rfl, hcd⟩ := heading_of_noteSection hne
        refine strip_bracket (lit "section Definitions before each section]")
          (lit "section" ++ List.replicate k ' ' ++ c :: r) ?_ ht'
        rintro ⟨y, hy⟩
        have hc1 : c ≠ ' ' := by
          rintro rfl
          rcases hcd with h | h
          · exact absurd h (by decide)
          · exact absurd h (by decide)
        have hc2 : c ≠ 'D' := by
          rintro rfl
          rcases hcd with h | h
          · exact absurd h (by decide)
          · exact absurd h (by decide)
        have hy' : ' ' :: 'D' :: (lit "efinitions before each section]" ++ y) = List.replicate k ' ' ++ c :: r := by
          have : lit "section" ++ (' ' :: 'D' :: (lit "efinitions before each section]" ++ y)) =
              lit "section" ++ (List.replicate k ' ' ++ c :: r) := by
            rw [← List.append_assoc, ← hy]; simp [lit]
          exact List.append_cancel_left this
        match k, hy' with
        | 0, h => exact hc1 (by simpa using (congrArg List.head? h).symm)
        | 1, h =>
          have := congrArg (fun x => x[1]?) h
          exact hc2 (by simpa using this.symm)
        | k + 2, h =>
          have := congrArg (fun x => x[1]?) h
          simp [List.replicate_succ] at this
    rw [e1, notesIn_single hno, Bool.false_and, noteRun_cons_keep hk, keepLinks_false, if_neg (by rw [ht]; simp),
      if_neg (by rw [hl]; simp)]
    simp only
    rw [noteRun_definitions fun x hx => (hins x hx).1]
    simp

/-- What is kept of all lines, with the notes. -/
theorem run_notes {base : Str} (hbase : ClearName base) {V : List Str} (hV : GoodNames V) {ls : List Str} :
    ∀ {s s' : Bool × ExtractState} {o : Extracted} {c : Bool}, (∀ l ∈ ls, ClearLine l) → BlanksInCode c ls →
    (c = true → s.1 = true ∨ s.2.skipEmpty = false) → againRun base false V s ls = some (s', o) →
    (noteRun (s.1 && !s.2.inExamples, s.2.inExamples) o.lines).2 =
      notesIn V (authoredFrom (s.1, s.2.inExamples) ls) ∧
    (∀ l ∈ authoredFrom (s.1, s.2.inExamples) ls, strip l = definitionsTitle → ∀ n ∈ V, includeLine n ∈ o.lines) := by
  induction ls with
  | nil =>
    intro s s' o c hl hbl hcs hs
    simp only [againRun, Option.some.injEq, Prod.mk.injEq] at hs
    obtain ⟨rfl, rfl⟩ := hs
    rw [← specRun_eq]
    exact ⟨rfl, fun l hl => by simp [specRun] at hl⟩
  | cons l ls ih =>
    intro s s' o c hl hbl hcs hs
    rw [againRun, Option.bind_eq_some_iff] at hs
    obtain ⟨⟨s1, o1⟩, hs1, hs⟩ := hs
    rw [Option.map_eq_some_iff] at hs
    obtain ⟨⟨s2, o2⟩, hs2, hs⟩ := hs
    simp only [Prod.mk.injEq] at hs
    obtain ⟨rfl, rfl⟩ := hs
    obtain ⟨d, st⟩ := s
    have hblank : isCode l = true → strip l = [] → d = true ∨ st.skipEmpty = false := fun hc hb =>
      hcs (hbl.1 ((isCode_iff l).1 hc) (by rw [← trimmed_nil, ← strip_eq_trimmed]; exact hb))
    have hout := step_out hbase hV (hl l (by simp)) hblank hs1
    have h1 := (out_keeps hout).1
    have h2 := out_notes hV hout
    obtain ⟨h3, h4⟩ := ih (fun x hx => hl x (by simp [hx])) hbl.2
      (fun hc => code_skip hV (hl l (by simp)) hc (hblank hc) hs1) hs2
    rw [show (o1.add o2).lines = o1.lines ++ o2.lines from rfl, noteRun_append, authoredFrom_cons]
    simp only
    constructor
    · rw [h2, h1]
      simp only
      rw [h3, notesIn, notesIn, notesIn, List.flatMap_append]
    · intro x hx ht n hn
      rw [List.mem_append] at hx ⊢
      rcases hx with hx | hx
      · left
        have hxl : x = l := by
          rcases specStep_length (d, st.inExamples) l with h | h
          · rw [h] at hx; simp at hx
          · rw [h] at hx
            rcases nonBlank_single l with ⟨h, -⟩ | ⟨h, -⟩
            · rw [h] at hx; simp at hx
            · rw [h] at hx; simpa using hx
        subst hxl
        obtain ⟨t1, t2, t3⟩ := definitions_of_strip ht
        generalize st.inExamples = e at hout hx
        generalize s1.2.inExamples = e' at hout
        generalize s1.1 = d' at hout
        generalize o1.lines = q at hout ⊢
        cases hout with
        | nil hn => rw [specStep_drop (keepNotes_nil hn)] at hx; simp at hx
        | ends he hb hend hn hn' hpre => rw [t1] at hend; simp at hend
        | inside he hend hd hn =>
          subst he; subst hd
          rw [specStep_keep (keepNotes_of hn), keepLinks_true, if_neg (by rw [hend]; simp)] at hx
          simp at hx
        | title he hd ht' hc hn => rw [t2] at ht'; simp at ht'
        | link he hd hb ht' hl' hn => rw [t3] at hl'; simp at hl'
        | skipped hsk he hd hb hc hq ht' hl' hn => rw [ht] at hb; exact absurd hb (by decide)
        | ordinary he ht' hl' hn hins hnt hc =>
          exfalso
          cases d with
          | false => exact notTitle_of hn ht
          | true =>
            rw [notesStep, ht, if_neg (by decide)] at hn
            simp at hn
        | definitions he hd ht' hc ht'' hl' hins hincl => exact List.mem_cons_of_mem _ (hincl n hn)
      · rw [h1] at hx
        exact .inr (h4 x hx ht n hn)

/-! ## The number of a section -/

theorem isDigit_eq {c : Char} (h : isDigit c = true) : ∃ d, d < 10 ∧ (lit "0123456789").idxOf? c = some d ∧ digitsOf d = [c] := by
  simp only [isDigit, Bool.and_eq_true, decide_eq_true_eq] at h
  have h1 : 48 ≤ c.toNat := h.1
  have h2 : c.toNat ≤ 57 := h.2
  have hk : ∀ k, 48 ≤ k → k ≤ 57 → ∃ d, d < 10 ∧ (lit "0123456789").idxOf? (Char.ofNat k) = some d ∧
      digitsOf d = [Char.ofNat k] := by
    intro k h1 h2
    have : k = 48 ∨ k = 49 ∨ k = 50 ∨ k = 51 ∨ k = 52 ∨ k = 53 ∨ k = 54 ∨ k = 55 ∨ k = 56 ∨ k = 57 := by omega
    rcases this with rfl | rfl | rfl | rfl | rfl | rfl | rfl | rfl | rfl | rfl
    · exact ⟨0, by decide, by decide, by decide⟩
    · exact ⟨1, by decide, by decide, by decide⟩
    · exact ⟨2, by decide, by decide, by decide⟩
    · exact ⟨3, by decide, by decide, by decide⟩
    · exact ⟨4, by decide, by decide, by decide⟩
    · exact ⟨5, by decide, by decide, by decide⟩
    · exact ⟨6, by decide, by decide, by decide⟩
    · exact ⟨7, by decide, by decide, by decide⟩
    · exact ⟨8, by decide, by decide, by decide⟩
    · exact ⟨9, by decide, by decide, by decide⟩
  have := hk _ h1 h2
  rwa [Char.ofNat_toNat] at this

theorem notDigit_eq {c : Char} (h : isDigit c = false) : (lit "0123456789").idxOf? c = none := by
  rw [List.idxOf?_eq_none_iff]
  intro hm
  have : ∀ c ∈ lit "0123456789", isDigit c = true := by decide
  rw [this c hm] at h
  simp at h

theorem shortNumbers_eq (s : Str) :
    (digitDots s = [] ↔ shortNumbers s = []) ∧
    (shortNumbers s ≠ [] → (replace '.' '_' (digitDots s)).dropLast = dotted '_' (shortNumbers s)) := by
  fun_induction digitDots s with
  | case1 c s h ih =>
    obtain ⟨d, hd, hi, hs⟩ := isDigit_eq h
    have hc : c ≠ '.' := by rintro rfl; exact absurd h (by decide)
    rw [shortNumbers, hi]
    simp only
    refine ⟨by simp, fun _ => ?_⟩
    have e : replace '.' '_' (c :: '.' :: digitDots s) = c :: '_' :: replace '.' '_' (digitDots s) := by
      simp [replace, hc]
    rw [e]
    by_cases hn : shortNumbers s = []
    · rw [hn, ih.1.2 hn]
      show [c] = digitsOf d
      exact hs.symm
    · have h2 := ih.2 hn
      have h3 : replace '.' '_' (digitDots s) ≠ [] := by
        intro h
        have : digitDots s = [] := by simpa [replace] using h
        exact hn (ih.1.1 this)
      obtain ⟨x, q, hx⟩ := List.exists_cons_of_ne_nil hn
      rw [hx] at h2 ⊢
      rw [dotted, hs, ← h2]
      · rw [List.dropLast_cons_of_ne_nil (by simp), List.dropLast_cons_of_ne_nil h3]
        rfl
      · simp
  | case2 c s h =>
    have : shortNumbers (c :: '.' :: s) = [] := by
      rw [shortNumbers, notDigit_eq (by simpa using h)]
    rw [this]
    exact ⟨by simp, fun h => absurd rfl h⟩
  | case3 s h =>
    have : shortNumbers s = [] := by
      unfold shortNumbers
      split
      · exact absurd rfl (h _ _)
      · rfl
    rw [this]
    exact ⟨by simp, fun h => absurd rfl h⟩

theorem noteSection_eq (l : Str) :
    noteSection l = if shortHeading l = [] then none else some (dotted '_' (shortHeading l)) := by
  rw [noteSection, shortHeading]
  split
  · obtain ⟨h1, h2⟩ := shortNumbers_eq (l.drop 9)
    simp only
    by_cases h : shortNumbers (l.drop 9) = []
    · rw [if_pos h, h1.2 h]; rfl
    · rw [if_neg h, if_neg, h2 h]
      simpa using fun h' => h (h1.1 h')
  · rfl

/-- Sections have a page if and only if they are among those with definitions. -/
theorem beforeLoop_mem (defs : List (Str × Str)) (n : Str) : ∀ (ss : List Str) (files : Files) (withDefs : List Str) (soFar : Str),
    ((files.get (pageOf n)).isSome = true ↔ n ∈ withDefs) →
    (((beforeLoop defs files withDefs soFar ss).1.get (pageOf n)).isSome = true ↔
      n ∈ (beforeLoop defs files withDefs soFar ss).2)
  | [], files, withDefs, soFar, h => h
  | s :: ss, files, withDefs, soFar, h => by
      rw [beforeLoop]
      split
      · exact beforeLoop_mem defs n ss _ _ _ h
      · apply beforeLoop_mem defs n ss
        by_cases hs : n = s
        · subst hs
          have : (files.put (lit "before_" ++ n ++ lit ".qbk") (beforeDoc n soFar)).get (pageOf n) = some (beforeDoc n soFar) :=
            get_put_same _ _ _
          rw [this]
          simp
        · rw [get_put_other]
          · rw [h, List.mem_append]
            simp [hs]
          · exact fun he => hs (pageOf_injective he)

theorem notesIn_eq {sections : List Str} {defs : List (Str × Str)} (ls : List Str) :
    notesIn (beforeDocs sections defs).2 ls =
      annotated (fun n => ((beforeDocs sections defs).1.get (pageName n)).isSome) ls := by
  rw [notesIn, annotated]
  apply flatMap_congr_left
  intro l _
  rw [noteOf, noteSection_eq]
  by_cases h : shortHeading l = []
  · rw [if_pos h, if_neg fun h' => h'.1 h]
  · rw [if_neg h]
    simp only
    have : ((beforeDocs sections defs).1.get (pageName (shortHeading l))).isSome = true ↔
        dotted '_' (shortHeading l) ∈ (beforeDocs sections defs).2 :=
      beforeLoop_mem defs (dotted '_' (shortHeading l)) sections [] [] [] (by simp [Files.get])
    by_cases hp : ((beforeDocs sections defs).1.get (pageName (shortHeading l))).isSome = true
    · rw [if_pos (this.1 hp), if_pos ⟨h, hp⟩]
      rfl
    · rw [if_neg fun h' => hp (this.2 h'), if_neg fun h' => hp h'.2]

theorem generate_notes {base src : Str} (hbase : ClearName base) (hsrc : Ended src)
    (hclear : ClearText (textLines src)) {g : Generated} (hg : generate base src = some g) :
    withNotes g.text = annotated (fun n => (g.before.get (pageName n)).isSome) (authored src) ∧
    (∀ l ∈ authored src, trimmed l = lit "[section Definitions before each section]" → ∀ n,
      (g.before.get (lit "before_" ++ n ++ lit ".qbk")).isSome = true → lit "[include before_" ++ n ++ lit ".qbk]\n" ∈ textLines g.text) := by
  obtain ⟨sections, o, s, hsec, ho, rfl⟩ := generate_iff.1 hg
  rw [readLines_text hsrc] at hsec ho ⊢
  generalize hx : textLines src = x at hsec ho hclear ⊢
  have hlx : ∀ l ∈ x, Line l := by rw [← hx]; exact line_text
  have hV := goodNames_parse (qbk := x) (sections := sections) (defs := (parseLoop {} x).defs) (by
    rw [parseMd, hsec]; rfl)
  have hwrite : extractCodeSnippets base (notesLoop (beforeDocs sections (parseLoop {} x).defs).2 false x) = some o := by
    rw [extractCodeSnippets_eq, ho]; rfl
  have hto := textLines_flatten (written_lines hbase hV hlx hwrite)
  obtain ⟨h1, h2⟩ := run_notes hbase hV hclear.lines hclear.blanks (fun h => by simp at h) ho
  rw [withNotes, authored, hx]
  simp only
  rw [hto, ← notesIn_eq]
  refine ⟨?_, ?_⟩
  · rw [← noteRun_eq (false, false)]
    exact h1
  · intro l hl ht n hn
    refine h2 l hl (by rw [strip_eq_trimmed]; exact ht) n ?_
    exact (beforeLoop_mem (parseLoop {} x).defs n sections [] [] [] (by simp [Files.get])).1 hn

end Metaparse.Gen
