import Verif.Lemmas.GenerateNotes
import Verif.Spec.GenerateSnippets

/-! # The snippets are those of the text of the author -/

namespace Metaparse.Gen

/-! ## Ordinary lines -/

/-- The loop of `extract_code_snippets`, if all lines are ordinary. -/
def plainRun (base : Str) : ExtractState → List Str → Option (ExtractState × Extracted)
  | st, [] => some (st, {})
  | st, l :: ls =>
      (extractOrdinary base st l).bind fun r => (plainRun base r.1 ls).map fun q => (q.1, r.2.add q.2)

theorem plainRun_append (base : Str) (st : ExtractState) (a b : List Str) :
    plainRun base st (a ++ b) =
      (plainRun base st a).bind fun r => (plainRun base r.1 b).map fun q => (q.1, r.2.add q.2) := by
  induction a generalizing st with
  | nil =>
    simp only [List.nil_append, plainRun, Option.bind_some]
    cases plainRun base st b with
    | none => rfl
    | some q => simp [Extracted.nil_add]
  | cons l a ih =>
    rw [List.cons_append, plainRun, plainRun]
    cases extractOrdinary base st l with
    | none => rfl
    | some r =>
      simp only [Option.bind_some, ih]
      cases plainRun base r.1 a with
      | none => rfl
      | some q =>
        simp only [Option.bind_some, Option.map_some]
        cases plainRun base q.1 b with
        | none => rfl
        | some q' => simp [Extracted.add_assoc]

theorem plainRun_single {base : Str} {st st' : ExtractState} {l : Str} {o : Extracted}
    (h : extractOrdinary base st l = some (st', o)) : plainRun base st [l] = some (st', o) := by
  rw [plainRun, h]
  simp [plainRun, Extracted.add_nil]

/-- The state without what is not used for ordinary lines. -/
def ExtractState.core (st : ExtractState) : ExtractState := { st with inExamples := false, skipEmpty := false }

theorem ordinary_core {base : Str} {st st' : ExtractState} {l : Str} {o : Extracted}
    (h : extractOrdinary base st l = some (st', o)) : extractOrdinary base st.core l = some (st'.core, o) := by
  rw [extractOrdinary] at h ⊢
  by_cases hi : st.inCode = true
  · rw [if_pos hi] at h
    rw [if_pos (show st.core.inCode = true from hi)]
    by_cases hc : isCode l = true
    · rw [if_pos hc] at h ⊢
      split at h
      · rename_i hp
        rw [if_pos hp]
        simp only [Option.some.injEq, Prod.mk.injEq] at h
        obtain ⟨rfl, rfl⟩ := h
        rfl
      · rename_i hp
        rw [if_neg hp]
        simp only [Option.some.injEq, Prod.mk.injEq] at h
        obtain ⟨rfl, rfl⟩ := h
        rfl
    · rw [if_neg hc] at h ⊢
      split at h
      · rename_i hp
        rw [if_pos (show st.core.code.length > 1 from hp)]
        rw [Option.map_eq_some_iff] at h ⊢
        obtain ⟨c, hc, h⟩ := h
        simp only [Prod.mk.injEq] at h
        obtain ⟨rfl, rfl⟩ := h
        exact ⟨c, hc, rfl⟩
      · rename_i hp
        rw [if_neg (show ¬ st.core.code.length > 1 from hp)]
        simp only [Option.some.injEq, Prod.mk.injEq] at h
        obtain ⟨rfl, rfl⟩ := h
        rfl
  · rw [if_neg hi] at h
    rw [if_neg (show ¬ st.core.inCode = true from hi)]
    split at h
    · rename_i hp
      rw [if_pos hp]
      simp only [Option.some.injEq, Prod.mk.injEq] at h
      obtain ⟨rfl, rfl⟩ := h
      rfl
    · rename_i hp
      rw [if_neg hp]
      simp only [Option.some.injEq, Prod.mk.injEq] at h
      obtain ⟨rfl, rfl⟩ := h
      rfl

theorem ordinary_text (base : Str) {st : ExtractState} {l : Str} (hi : st.inCode = false) (hc : isCode l = false) :
    extractOrdinary base st l = some (st, ⟨[l], []⟩) := by
  rw [extractOrdinary, if_neg (by rw [hi]; simp), if_neg (by rw [hc]; simp)]

/-! ## The specification, line by line -/

/-- The lines that are the author's, from given flags. -/
def bodyFrom (f : Bool × Bool) (ls : List Str) : List Str := withoutLinks f.2 (withoutNotes f.1 ls)

/-- What is kept of a line. -/
def kept (f : Bool × Bool) (l : Str) : List Str :=
  if (keepNotes f.1 l).2 then (if (keepLinks f.2 l).2 then [l] else []) else []

theorem bodyFrom_cons (f : Bool × Bool) (l : Str) (ls : List Str) :
    bodyFrom f (l :: ls) = kept f l ++ bodyFrom (specStep f l).1 ls := by
  rw [bodyFrom, withoutNotes_cons, specStep, kept]
  by_cases h : (keepNotes f.1 l).2 = true
  · rw [if_pos h, if_pos h, if_pos h, List.singleton_append, withoutLinks_cons]
    rfl
  · rw [if_neg h, if_neg h, if_neg h]
    rfl

/-- `withoutExamples`, for one line. -/
def keepExamples : Bool → Str → Bool × Bool
  | true, l => if occurs (lit "endsect") l then (false, true) else (true, false)
  | false, l => if occurs (lit "[section Copy-paste friendly code examples]") l then (true, true) else (false, true)

/-- `withLinks`, from a state. -/
def viewRun : Bool × Bool → List Str → (Bool × Bool) × List Str
  | f, [] => (f, [])
  | f, l :: ls =>
      let k := keepNotes f.1 l
      if k.2 then
        let m := keepExamples f.2 l
        let r := viewRun (k.1, m.1) ls
        (r.1, (if m.2 then nonBlank [l] else []) ++ r.2)
      else viewRun (k.1, f.2) ls

theorem viewRun_eq (f : Bool × Bool) (ls : List Str) :
    (viewRun f ls).2 = nonBlank (withoutExamples f.2 (withoutNotes f.1 ls)) := by
  have hd : ∀ d l ls, withoutExamples d (l :: ls) =
      (if (keepExamples d l).2 then [l] else []) ++ withoutExamples (keepExamples d l).1 ls := by
    intro d l ls
    cases d
    · rw [withoutExamples, keepExamples]; split <;> rfl
    · rw [withoutExamples, keepExamples]; split <;> rfl
  induction ls generalizing f with
  | nil =>
    obtain ⟨d, e⟩ := f
    cases d <;> cases e <;> rfl
  | cons l ls ih =>
    rw [viewRun, withoutNotes_cons]
    simp only
    split
    · rename_i h
      simp only [List.cons_append, List.nil_append]
      rw [hd, nonBlank_append, ih]
      split <;> rfl
    · rename_i h
      rw [ih]
      rfl

theorem viewRun_append (f : Bool × Bool) (a b : List Str) :
    viewRun f (a ++ b) = ((viewRun (viewRun f a).1 b).1, (viewRun f a).2 ++ (viewRun (viewRun f a).1 b).2) := by
  induction a generalizing f with
  | nil => rfl
  | cons l a ih =>
    rw [List.cons_append, viewRun, viewRun]
    simp only
    split
    · rw [ih]; simp
    · rw [ih]

theorem viewRun_cons_keep {d d' e : Bool} {l : Str} (h : keepNotes d l = (d', true)) (ls : List Str) :
    viewRun (d, e) (l :: ls) = ((viewRun (d', (keepExamples e l).1) ls).1,
      (if (keepExamples e l).2 then nonBlank [l] else []) ++ (viewRun (d', (keepExamples e l).1) ls).2) := by
  simp [viewRun, h]

theorem viewRun_cons_drop {d d' e : Bool} {l : Str} (h : keepNotes d l = (d', false)) (ls : List Str) :
    viewRun (d, e) (l :: ls) = viewRun (d', e) ls := by
  simp [viewRun, h]

theorem keepExamples_true (l : Str) : keepExamples true l = if isIn (lit "endsect") l then (false, true) else (true, false) := by
  rw [keepExamples, occurs_eq]

theorem keepExamples_false (l : Str) : keepExamples false l = if isIn examplesTitle l then (true, true) else (false, true) := by
  rw [keepExamples, occurs_eq]; rfl

theorem viewRun_definitions {ins : List Str} (h : ∀ x ∈ ins, strip x ≠ lit "[endsect]") (e : Bool) :
    viewRun (true, e) ins = ((true, e), []) := by
  induction ins with
  | nil => rfl
  | cons x ins ih =>
    have hx : keepNotes true x = (true, false) := by
      rw [keepNotes, ← strip_eq_trimmed, if_neg (h x (by simp))]
    rw [viewRun_cons_drop hx, ih fun y hy => h y (by simp [hy])]

theorem viewRun_examples {pre : List Str} (h : ∀ x ∈ pre, IsExample x) : viewRun (false, true) pre = ((false, true), []) := by
  induction pre with
  | nil => rfl
  | cons x pre ih =>
    have hx := h x (by simp)
    rw [viewRun_cons_keep (keepNotes_of (hx.notes [])), keepExamples_true, if_neg (by rw [hx.noEnd]; simp)]
    simp only
    rw [ih fun y hy => h y (by simp [hy])]
    rfl

theorem viewRun_note {nt : List Str} (h : nt = [] ∨ ∃ n, nt = [noteLine n]) :
    viewRun (false, false) nt = ((false, false), []) := by
  rcases h with rfl | ⟨n, rfl⟩
  · rfl
  · rw [viewRun_cons_drop (keepNotes_nil (notes_noteLine n []))]
    rfl

/-! ## A line -/

/-- The states of the generator: code is only collected after a line of code, outside of the generated sections. -/
structure Collecting (c : Bool) (d : Bool) (st : ExtractState) : Prop where
  after : st.inCode = true → c = true ∧ d = false ∧ st.inExamples = false
  skip : st.skipEmpty = true → st.inCode = false

theorem generatedLine_false {l : Str} (h : generatedLine l = false) :
    notePrefix.isPrefixOf l = false ∧ strip l ≠ definitionsTitle ∧ isIn examplesTitle l = false ∧ isIn linkMark l = false := by
  simp only [generatedLine, Bool.or_eq_false_iff, isNote_eq, occurs_eq, beq_eq_false_iff_ne] at h
  obtain ⟨⟨⟨h1, h2⟩, h3⟩, h4⟩ := h
  exact ⟨h1, by rw [strip_eq_trimmed]; exact h2, h3, h4⟩

/-- What is written for a line comes from what is kept of it. -/
def StepKeeps (base : Str) (d : Bool) (st : ExtractState) (l : Str) (s' : Bool × ExtractState) (o : Extracted) : Prop :=
  ∃ o', plainRun base st.core (kept (d, st.inExamples) l) = some (s'.2.core, o') ∧ o'.files = o.files ∧
    viewRun (d && !st.inExamples, st.inExamples) o.lines =
      ((s'.1 && !s'.2.inExamples, s'.2.inExamples), nonBlank o'.lines) ∧
    Collecting (isCode l) s'.1 s'.2

theorem kept_yes {V : List Str} {d d' e e' : Bool} {l : Str} {q : List Str} (hn : notesStep V d l = (d', l :: q))
    (hl : keepLinks e l = (e', true)) : kept (d, e) l = [l] := by
  simp [kept, keepNotes_of hn, hl]

theorem kept_no {V : List Str} {d d' e e' : Bool} {l : Str} {q : List Str} (hn : notesStep V d l = (d', l :: q))
    (hl : keepLinks e l = (e', false)) : kept (d, e) l = [] := by
  simp [kept, keepNotes_of hn, hl]

theorem kept_nil {V : List Str} {d d' e : Bool} {l : Str} (hn : notesStep V d l = (d', [])) : kept (d, e) l = [] := by
  simp [kept, keepNotes_nil hn]

theorem view_links {base : Str} (hbase : ClearName base) {k : Nat} {l : Str} {d : Bool} {V : List Str} {nt : List Str}
    (hn : notesStep V d l = (false, l :: nt)) (ht : isIn examplesTitle l = false)
    (hnt : nt = [] ∨ ∃ n, nt = [noteLine n]) {ls : List Str} (hls : ls = [l] ∨ ls = [l, linkLine base k, ['\n']]) :
    viewRun (d, false) (ls ++ nt) = ((false, false), nonBlank ls) := by
  rcases hls with rfl | rfl
  · rw [List.singleton_append, viewRun_cons_keep (keepNotes_of hn), keepExamples_false, if_neg (by rw [ht]; simp)]
    simp only
    rw [viewRun_note hnt]
    simp
  · have hk := isLink_linkLine hbase k
    have e : ([l, linkLine base k, ['\n']] ++ nt : List Str) = l :: linkLine base k :: ['\n'] :: nt := rfl
    rw [e, viewRun_cons_keep (keepNotes_of hn), keepExamples_false, if_neg (by rw [ht]; simp)]
    simp only
    rw [viewRun_cons_keep (keepNotes_of (hk.notes [])), keepExamples_false, if_neg (by rw [hk.noTitle]; simp)]
    simp only
    rw [viewRun_cons_keep (l := ['\n']) (d' := false) (by decide)]
    rw [show keepExamples false ['\n'] = (false, true) by decide]
    simp only
    rw [viewRun_note hnt]
    simp only [if_true, List.append_nil, Prod.mk.injEq, true_and]
    show nonBlank [l] ++ (nonBlank [linkLine base k] ++ nonBlank [['\n']]) = nonBlank ([l] ++ ([linkLine base k] ++ [['\n']]))
    rw [nonBlank_append, nonBlank_append]

theorem ordinary_keeps {base : Str} (hbase : ClearName base) {V : List Str} {d : Bool} {st : ExtractState}
    {l : Str} (he : st.inExamples = false) (hb : strip l ≠ [] ∨ st.skipEmpty = false)
    (ht : isIn examplesTitle l = false) (hl : isIn linkMark l = false) {nt : List Str}
    (hn : notesStep V d l = (false, l :: nt) ∧
      (nt = [] ∨ isCode l = false ∧ ∃ n, nt = [noteLine n] ∧ ∀ c ∈ n, isDigit c = true ∨ c = '_'))
    {s' : Bool × ExtractState} {o : Extracted} (hs : againStep base false V (d, st) l = some (s', o)) :
    StepKeeps base d st l s' o := by
  have hx : extractLine base st l = extractOrdinary base (st.skipping false) l := by
    have := extractLine_skip base st (k := st.skipEmpty) hb
    rw [skipping_self st rfl] at this
    rw [this, extractLine_ordinary base ht hl he]
  rw [againStep, hn.1, Option.map_eq_some_iff] at hs
  obtain ⟨⟨st2, o2⟩, hrun, hs⟩ := hs
  simp only [Bool.false_and, Bool.false_eq_true, if_false, Prod.mk.injEq] at hs
  obtain ⟨rfl, rfl⟩ := hs
  simp only at hrun
  rw [extractRun, hx, Option.bind_eq_some_iff] at hrun
  obtain ⟨⟨st1, o1⟩, hord, hrun⟩ := hrun
  obtain ⟨c1, c2, c3, c4⟩ := ordinary_cases hord
  have c1 : st1.inExamples = false := c1.trans he
  have c2 : st1.skipEmpty = false := c2
  have hntrun : extractRun base st1 nt = some (st1, ⟨nt, []⟩) := by
    rcases hn.2 with h2 | ⟨hc, n, h2, hg⟩
    · rw [h2]; rfl
    · have := extractRun_plain base (c3 hc) c1 (ls := nt) (by
        rw [h2]
        intro x hx
        simp only [List.mem_cons, List.not_mem_nil, or_false] at hx
        subst hx
        exact .inl (plain_noteLine hg))
      rw [skipping_self st1 c2] at this
      exact this
  simp only at hrun
  rw [hntrun] at hrun
  simp only [Option.map_some, Option.some.injEq, Prod.mk.injEq] at hrun
  obtain ⟨rfl, rfl⟩ := hrun
  refine ⟨o1, ?_, ?_, ?_, ?_⟩
  · rw [he, kept_yes hn.1 (e' := false) (by rw [keepLinks_false, if_neg (by rw [ht]; simp), if_neg (by rw [hl]; simp)])]
    have hcore := ordinary_core hord
    exact plainRun_single hcore
  · simp [Extracted.add]
  · rw [he, c1]
    simp only [Bool.not_false, Bool.and_true]
    apply view_links hbase hn.1 ht (k := st.counter)
    · rcases hn.2 with h | ⟨-, n, h, -⟩
      · exact .inl h
      · exact .inr ⟨n, h⟩
    · rcases c4 with ⟨-, h⟩ | ⟨-, -, h⟩
      · exact .inl h
      · exact .inr h
  · refine ⟨fun hi => ⟨?_, rfl, c1⟩, fun h => ?_⟩
    · cases h : isCode l with
      | true => rfl
      | false => rw [c3 h] at hi; simp at hi
    · rw [c2] at h; simp at h

theorem step_keeps {base : Str} (hbase : ClearName base) {V : List Str} (hV : GoodNames V)
    {d c : Bool} {st : ExtractState} {l : Str} (hl : ClearLine l)
    (hblank : isCode l = true → strip l = [] → d = true ∨ st.skipEmpty = false)
    (hap : c = true → generatedLine l = false) (hc : Collecting c d st)
    {s' : Bool × ExtractState} {o : Extracted} (hs : againStep base false V (d, st) l = some (s', o)) :
    StepKeeps base d st l s' o := by
  have hgen : st.inCode = true → notePrefix.isPrefixOf l = false ∧ strip l ≠ definitionsTitle ∧
      isIn examplesTitle l = false ∧ isIn linkMark l = false := fun hi => generatedLine_false (hap (hc.after hi).1)
  cases kind_of hl d st with
  | nil hn =>
    rw [againStep_nil base false V (hn V)] at hs
    simp only [Option.some.injEq, Prod.mk.injEq] at hs
    obtain ⟨rfl, rfl⟩ := hs
    have hi : st.inCode = false := by
      cases hi : st.inCode with
      | false => rfl
      | true =>
        exfalso
        obtain ⟨g1, g2, g3, g4⟩ := hgen hi
        have hn := hn V
        rw [(hc.after hi).2.1, notesStep, if_neg g2, if_neg (by rw [g1]; simp)] at hn
        simp at hn
    refine ⟨{}, ?_, rfl, rfl, ?_, hc.skip⟩
    · rw [kept_nil (hn V)]; rfl
    · intro h; exact absurd (hi.symm.trans h) (by simp)
  | ends he hb hend hn hn' =>
    have h1 := againStep_end base false V he hb hend (hn V) st.skipEmpty
    rw [skipping_self st rfl] at h1
    rw [h1] at hs
    simp only [Option.some.injEq, Prod.mk.injEq] at hs
    obtain ⟨rfl, rfl⟩ := hs
    have hi : st.inCode = false := by
      cases hi : st.inCode with
      | false => rfl
      | true => have := (hc.after hi).2.2; rw [he] at this; simp at this
    have hcode : isCode l = false := by
      rw [← Bool.not_eq_true]
      intro h
      rw [(hl.no_marks_code h).1] at hend
      simp at hend
    refine ⟨⟨[l], []⟩, ?_, rfl, ?_, ?_, ?_⟩
    · rw [he, kept_yes (hn V) (e' := false) (by rw [keepLinks_true, if_pos hend])]
      exact plainRun_single (ordinary_text base hi hcode)
    · rw [show (['\n'] :: ((List.range st.counter).map (exampleLine base) ++ [['\n'], l]) : List Str) =
          (['\n'] :: ((List.range st.counter).map (exampleLine base) ++ [['\n']])) ++ [l] by simp]
      rw [he, viewRun_append]
      simp only [Bool.not_true, Bool.and_false, Bool.false_and]
      rw [viewRun_examples]
      · simp only
        rw [viewRun_cons_keep (keepNotes_of (hn' V)), keepExamples_true, if_pos hend]
        simp [viewRun]
      · intro x hx
        simp only [List.mem_cons, List.mem_append, List.mem_map, List.not_mem_nil, or_false] at hx
        rcases hx with rfl | ⟨i, -, rfl⟩ | rfl
        · exact isExample_newline
        · exact isExample_line hbase i
        · exact isExample_newline
    · intro h; exact absurd (hi.symm.trans h) (by simp)
    · intro h; simp at h
  | inside he hend hd d' nt hn =>
    obtain ⟨h1, h2, h3⟩ := hn V hV
    have hi : st.inCode = false := by
      cases hi : st.inCode with
      | false => rfl
      | true => have := (hc.after hi).2.2; rw [he] at this; simp at this
    have hrun : extractRun base st (l :: nt V) = some (st.skipping (if strip l = [] then st.skipEmpty else false), {}) := by
      by_cases hb : strip l = []
      · rw [if_pos hb, h3 hb, skipping_self st rfl]
        cases hsk : st.skipEmpty with
        | true =>
          have := extractLine_dropped base st hb
          rw [skipping_self st hsk] at this
          rw [extractRun, this]
          rfl
        | false =>
          have := extractLine_inExamples base hend he
          rw [skipping_self st hsk] at this
          rw [extractRun, this]
          rfl
      · rw [if_neg hb, extractRun]
        have := (extractLine_skip base st (k := st.skipEmpty) (.inl hb)).trans (extractLine_inExamples base hend he)
        rw [skipping_self st rfl] at this
        rw [this, Option.bind_some, extractRun_inExamples base he fun x hx => h2 x hx]
        rfl
    rw [againStep] at hs
    simp only [h1, hrun, Option.map_some, Option.some.injEq, Prod.mk.injEq, Bool.false_and, Bool.false_eq_true, if_false] at hs
    obtain ⟨rfl, rfl⟩ := hs
    refine ⟨{}, ?_, rfl, ?_, ?_, ?_⟩
    · rw [he, kept_no h1 (e' := true) (by rw [keepLinks_true, if_neg (by rw [hend]; simp)])]
      rfl
    · rw [he]
      show viewRun _ [] = ((d' && !st.inExamples, st.inExamples), _)
      rw [he]
      simp [viewRun, nonBlank]
    · intro h; exact absurd (hi.symm.trans h) (by simp)
    · intro; exact hi
  | title he hd hb ht hcode hn =>
    subst hd
    have hi : st.inCode = false := by
      cases hi : st.inCode with
      | false => rfl
      | true => have := (hgen hi).2.2.1; rw [ht] at this; simp at this
    have := (extractLine_skip base st (k := st.skipEmpty) (.inl hb)).trans (extractLine_title base ht he)
    rw [skipping_self st rfl] at this
    rw [againStep_single base false V (hn V) this] at hs
    simp only [Bool.false_and, Bool.false_eq_true, if_false, Option.some.injEq, Prod.mk.injEq] at hs
    obtain ⟨rfl, rfl⟩ := hs
    refine ⟨⟨[l], []⟩, ?_, rfl, ?_, ?_, ?_⟩
    · rw [he, kept_yes (hn V) (e' := true) (by rw [keepLinks_false, if_pos ht])]
      exact plainRun_single (ordinary_text base hi hcode)
    · rw [he]
      simp only [Bool.not_false, Bool.and_true, Bool.not_true, Bool.and_false]
      rw [viewRun_cons_keep (keepNotes_of (hn V)), keepExamples_false, if_pos ht]
      simp [viewRun]
    · intro h; exact absurd (hi.symm.trans h) (by simp)
    · intro h; simp at h
  | link he hd hb ht hlk hn =>
    subst hd
    have hi : st.inCode = false := by
      cases hi : st.inCode with
      | false => rfl
      | true => have := (hgen hi).2.2.2; rw [hlk] at this; simp at this
    have := (extractLine_skip base st (k := st.skipEmpty) (.inl hb)).trans (extractLine_link base ht hlk he)
    rw [skipping_self st rfl] at this
    rw [againStep_single base false V (hn V) this] at hs
    simp only [Bool.false_and, Bool.false_eq_true, if_false, Option.some.injEq, Prod.mk.injEq] at hs
    obtain ⟨rfl, rfl⟩ := hs
    refine ⟨{}, ?_, rfl, ?_, ?_, ?_⟩
    · rw [he, kept_no (hn V) (e' := false) (by rw [keepLinks_false, if_neg (by rw [ht]; simp), if_pos hlk])]
      rfl
    · show viewRun (false && _, st.inExamples) [] = ((false && _, st.inExamples), _)
      rfl
    · intro h; exact absurd (hi.symm.trans h) (by simp)
    · intro; exact hi
  | blankLine he hd hb hq ht hlk hn =>
    subst hd
    cases hsk : st.skipEmpty with
    | true =>
      have hi := hc.skip hsk
      have := extractLine_dropped base st hb
      rw [skipping_self st hsk] at this
      rw [againStep_single base false V (hn V) this] at hs
      simp only [Bool.false_and, Bool.false_eq_true, if_false, Option.some.injEq, Prod.mk.injEq] at hs
      obtain ⟨rfl, rfl⟩ := hs
      have hcode : isCode l = false := by
        rw [← Bool.not_eq_true]
        intro hc
        rcases hblank hc hb with h | h
        · simp at h
        · rw [hsk] at h; simp at h
      refine ⟨⟨[l], []⟩, ?_, rfl, ?_, ?_, ?_⟩
      · rw [he, kept_yes (hn V) (e' := false) (by rw [keepLinks_false, if_neg (by rw [ht]; simp), if_neg (by rw [hlk]; simp)])]
        exact plainRun_single (ordinary_text base hi hcode)
      · rw [strip_eq_trimmed, trimmed_nil] at hb
        simp [viewRun, nonBlank, hb]
      · intro h; exact absurd (hi.symm.trans h) (by simp)
      · intro; exact hi
    | false => exact ordinary_keeps hbase he (.inr hsk) ht hlk (nt := []) ⟨hn V, .inl rfl⟩ hs
  | ordinary he hb ht hlk nt hn => exact ordinary_keeps hbase he (.inl hb) ht hlk (hn V hV) hs
  | definitions he hd ht' hcode ht hlk =>
    subst hd
    have hi : st.inCode = false := by
      cases hi : st.inCode with
      | false => rfl
      | true => exact absurd ht' (hgen hi).2.1
    have hb : strip l ≠ [] := by rw [ht']; decide
    have hx : extractLine base st l = some (st.skipping false, ⟨[l], []⟩) := by
      have := extractLine_skip base st (k := st.skipEmpty) (.inl hb)
      rw [skipping_self st rfl] at this
      rw [this, extractLine_ordinary base ht hlk he]
      exact ordinary_text base hi hcode
    have hrest := extractRun_plain base (st := st) hi he (ls := ['\n'] :: (V.map includeLine ++ [['\n']])) (by
      intro x hx
      simp only [List.mem_cons, List.mem_append, List.mem_map, List.not_mem_nil, or_false] at hx
      rcases hx with rfl | ⟨n, hn, rfl⟩ | rfl
      · exact .inr rfl
      · exact .inl (plain_includeLine (hV n hn))
      · exact .inr rfl)
    have hn : notesStep V false l = (true, l :: (['\n'] :: (V.map includeLine ++ [['\n']]))) := by
      rw [notesStep, if_pos ht']
    rw [againStep, hn] at hs
    simp only [extractRun, hx, Option.bind_some] at hs
    have hrest' : extractRun base (st.skipping false) (['\n'] :: (V.map includeLine ++ [['\n']])) =
      some (st.skipping false, ⟨['\n'] :: (V.map includeLine ++ [['\n']]), []⟩) := hrest
    rw [extractRun] at hrest'
    rw [hrest'] at hs
    simp only [Option.map_some, Option.some.injEq, Prod.mk.injEq, Bool.false_and, Bool.false_eq_true, if_false] at hs
    obtain ⟨rfl, rfl⟩ := hs
    refine ⟨⟨[l], []⟩, ?_, by simp [Extracted.add], ?_, ?_, ?_⟩
    · rw [he, kept_yes hn (e' := false) (by rw [keepLinks_false, if_neg (by rw [ht]; simp), if_neg (by rw [hlk]; simp)])]
      exact plainRun_single (ordinary_text base hi hcode)
    · show viewRun (false && _, st.inExamples) (l :: (['\n'] :: (V.map includeLine ++ [['\n']]))) = ((true && !st.inExamples, st.inExamples), _)
      rw [he, Bool.false_and, viewRun_cons_keep (keepNotes_of hn), keepExamples_false, if_neg (by rw [ht]; simp)]
      simp only
      rw [viewRun_definitions]
      · simp
      · intro x hx
        simp only [List.mem_cons, List.mem_append, List.mem_map, List.not_mem_nil, or_false] at hx
        rcases hx with rfl | ⟨n, hn, rfl⟩ | rfl
        · decide
        · exact strip_bracket (lit "endsect]") (lit "include before_" ++ n ++ lit ".qbk]\n") (by simp [lit])
        · decide
    · intro h; exact absurd (hi.symm.trans h) (by simp)
    · intro; exact hi

/-! ## All lines -/

theorem run_snippets {base : Str} (hbase : ClearName base) {V : List Str} (hV : GoodNames V) {ls : List Str} :
    ∀ {s s' : Bool × ExtractState} {o : Extracted} {c : Bool}, (∀ l ∈ ls, ClearLine l) → BlanksInCode c ls → Apart c ls →
    (c = true → s.1 = true ∨ s.2.skipEmpty = false) → Collecting c s.1 s.2 →
    againRun base false V s ls = some (s', o) →
    ∃ o', plainRun base s.2.core (bodyFrom (s.1, s.2.inExamples) ls) = some (s'.2.core, o') ∧ o'.files = o.files ∧
      (viewRun (s.1 && !s.2.inExamples, s.2.inExamples) o.lines).2 = nonBlank o'.lines := by
  induction ls with
  | nil =>
    intro s s' o c hl hbl hap hcs hc hs
    simp only [againRun, Option.some.injEq, Prod.mk.injEq] at hs
    obtain ⟨rfl, rfl⟩ := hs
    refine ⟨{}, ?_, rfl, rfl⟩
    obtain ⟨d, st⟩ := s
    have : bodyFrom (d, st.inExamples) [] = [] := by
      cases d <;> cases st.inExamples <;> rfl
    rw [this]
    rfl
  | cons l ls ih =>
    intro s s' o c hl hbl hap hcs hc hs
    rw [againRun, Option.bind_eq_some_iff] at hs
    obtain ⟨⟨s1, o1⟩, hs1, hs⟩ := hs
    rw [Option.map_eq_some_iff] at hs
    obtain ⟨⟨s2, o2⟩, hs2, hs⟩ := hs
    simp only [Prod.mk.injEq] at hs
    obtain ⟨rfl, rfl⟩ := hs
    obtain ⟨d, st⟩ := s
    have hblank : isCode l = true → strip l = [] → d = true ∨ st.skipEmpty = false := fun hc hb =>
      hcs (hbl.1 ((isCode_iff l).1 hc) (by rw [← trimmed_nil, ← strip_eq_trimmed]; exact hb))
    have h1 := (out_keeps (step_out hbase hV (hl l (by simp)) hblank hs1)).1
    obtain ⟨o', p1, p2, p3, p4⟩ := step_keeps hbase hV (hl l (by simp)) hblank hap.1 hc hs1
    obtain ⟨o'', q1, q2, q3⟩ := ih (fun x hx => hl x (by simp [hx])) hbl.2 hap.2
      (fun hc => code_skip hV (hl l (by simp)) hc (hblank hc) hs1) p4 hs2
    refine ⟨o'.add o'', ?_, ?_, ?_⟩
    · rw [bodyFrom_cons, plainRun_append, h1]
      simp only at p1 q1 ⊢
      rw [p1]
      simp only [Option.bind_some]
      rw [q1]
      rfl
    · simp only [Extracted.add, p2, q2]
    · rw [show (o1.add o2).lines = o1.lines ++ o2.lines from rfl, viewRun_append]
      simp only at p3 q3 ⊢
      rw [p3]
      simp only
      rw [q3]
      simp [Extracted.add, nonBlank_append]

/-! ## The section of examples -/

/-- The section of examples has the snippets before it. -/
theorem run_in_examples {base : Str} {V : List Str} (hV : GoodNames V) {x : Str} {v : List Str} {ls : List Str} :
    ∀ {d : Bool} {st : ExtractState} {s' : Bool × ExtractState} {o : Extracted}, (∀ l ∈ ls, ClearLine l) →
    st.inExamples = true → againRun base false V (d, st) ls = some (s', o) → bodyFrom (d, true) ls = x :: v →
    ∃ w, o.lines = ['\n'] :: ((List.range st.counter).map (exampleLine base) ++ ['\n'] :: x :: w) := by
  induction ls with
  | nil =>
    intro d st s' o hl he hs hb
    cases d <;> simp [bodyFrom, withoutLinks, withoutNotes] at hb
  | cons l ls ih =>
    intro d st s' o hl he hs hb
    rw [againRun, Option.bind_eq_some_iff] at hs
    obtain ⟨⟨s1, o1⟩, hs1, hs⟩ := hs
    rw [Option.map_eq_some_iff] at hs
    obtain ⟨⟨s2, o2⟩, hs2, hs⟩ := hs
    simp only [Prod.mk.injEq] at hs
    obtain ⟨rfl, rfl⟩ := hs
    rw [bodyFrom_cons] at hb
    have no : st.inExamples = false → False := fun h => by rw [he] at h; simp at h
    cases kind_of (hl l (by simp)) d st with
    | nil hn =>
      rw [againStep_nil base false V (hn V)] at hs1
      simp only [Option.some.injEq, Prod.mk.injEq] at hs1
      obtain ⟨rfl, rfl⟩ := hs1
      rw [kept_nil (hn V), specStep_drop (keepNotes_nil (hn V))] at hb
      obtain ⟨w, hw⟩ := ih (fun y hy => hl y (by simp [hy])) he hs2 hb
      exact ⟨w, by rw [Extracted.nil_add]; exact hw⟩
    | ends _ hb' hend hn hn' =>
      have h1 := againStep_end base false V he hb' hend (hn V) st.skipEmpty
      rw [skipping_self st rfl] at h1
      rw [h1] at hs1
      simp only [Option.some.injEq, Prod.mk.injEq] at hs1
      obtain ⟨rfl, rfl⟩ := hs1
      rw [kept_yes (hn V) (e' := false) (by rw [keepLinks_true, if_pos hend])] at hb
      simp only [List.cons_append, List.nil_append, List.cons.injEq] at hb
      refine ⟨o2.lines, ?_⟩
      rw [← hb.1]
      simp [Extracted.add]
    | inside _ hend hd d' nt hn =>
      obtain ⟨h1, h2, h3⟩ := hn V hV
      have hrun : extractRun base st (l :: nt V) = some (st.skipping (if strip l = [] then st.skipEmpty else false), {}) := by
        by_cases hb : strip l = []
        · rw [if_pos hb, h3 hb, skipping_self st rfl]
          cases hsk : st.skipEmpty with
          | true =>
            have := extractLine_dropped base st hb
            rw [skipping_self st hsk] at this
            rw [extractRun, this]
            rfl
          | false =>
            have := extractLine_inExamples base hend he
            rw [skipping_self st hsk] at this
            rw [extractRun, this]
            rfl
        · rw [if_neg hb, extractRun]
          have := (extractLine_skip base st (k := st.skipEmpty) (.inl hb)).trans (extractLine_inExamples base hend he)
          rw [skipping_self st rfl] at this
          rw [this, Option.bind_some, extractRun_inExamples base he fun x hx => h2 x hx]
          rfl
      rw [againStep] at hs1
      simp only [h1, hrun, Option.map_some, Option.some.injEq, Prod.mk.injEq, Bool.false_and, Bool.false_eq_true, if_false] at hs1
      obtain ⟨rfl, rfl⟩ := hs1
      have hk : keepLinks true l = (true, false) := by rw [keepLinks_true, if_neg (by rw [hend]; simp)]
      rw [kept_no h1 (e' := true) hk, specStep_keep (keepNotes_of h1), hk] at hb
      obtain ⟨w, hw⟩ := ih (fun y hy => hl y (by simp [hy])) (st := st.skipping (if strip l = [] then st.skipEmpty else false)) he hs2 hb
      exact ⟨w, by rw [Extracted.nil_add]; exact hw⟩
    | title he' => exact (no he').elim
    | link he' => exact (no he').elim
    | blankLine he' => exact (no he').elim
    | ordinary he' => exact (no he').elim
    | definitions he' => exact (no he').elim

theorem run_examples {base : Str} (hbase : ClearName base) {V : List Str} (hV : GoodNames V) {t x : Str} {v : List Str}
    (ht : isIn examplesTitle t = true) (hte : isIn (lit "endsect") t = false) {ls : List Str} :
    ∀ {s s' : Bool × ExtractState} {o : Extracted} {c : Bool} {u : List Str}, (∀ l ∈ ls, ClearLine l) → BlanksInCode c ls →
    Apart c ls → (c = true → s.1 = true ∨ s.2.skipEmpty = false) → Collecting c s.1 s.2 →
    againRun base false V s ls = some (s', o) → bodyFrom (s.1, s.2.inExamples) ls = u ++ t :: x :: v →
    ∃ st o' a w, plainRun base s.2.core u = some (st, o') ∧
      o.lines = a ++ t :: ['\n'] :: ((List.range st.counter).map (exampleLine base) ++ ['\n'] :: x :: w) := by
  induction ls with
  | nil =>
    intro s s' o c u hl hbl hap hcs hc hs hb
    obtain ⟨d, st⟩ := s
    have : bodyFrom (d, st.inExamples) [] = [] := by
      cases d <;> cases st.inExamples <;> rfl
    rw [this] at hb
    simp at hb
  | cons l ls ih =>
    intro s s' o c u hl hbl hap hcs hc hs hb
    rw [againRun, Option.bind_eq_some_iff] at hs
    obtain ⟨⟨s1, o1⟩, hs1, hs⟩ := hs
    rw [Option.map_eq_some_iff] at hs
    obtain ⟨⟨s2, o2⟩, hs2, hs⟩ := hs
    simp only [Prod.mk.injEq] at hs
    obtain ⟨rfl, rfl⟩ := hs
    obtain ⟨d, st⟩ := s
    have hblank : isCode l = true → strip l = [] → d = true ∨ st.skipEmpty = false := fun hc hb =>
      hcs (hbl.1 ((isCode_iff l).1 hc) (by rw [← trimmed_nil, ← strip_eq_trimmed]; exact hb))
    have h1 := (out_keeps (step_out hbase hV (hl l (by simp)) hblank hs1)).1
    obtain ⟨o', p1, p2, p3, p4⟩ := step_keeps hbase hV (hl l (by simp)) hblank hap.1 hc hs1
    have ih := fun u => ih (u := u) (fun x hx => hl x (by simp [hx])) hbl.2 hap.2
      (fun hc => code_skip hV (hl l (by simp)) hc (hblank hc) hs1) p4 hs2
    simp only at p1 hb ⊢
    rw [bodyFrom_cons, h1] at hb
    simp only at hb
    have hk : kept (d, st.inExamples) l = [] ∨ kept (d, st.inExamples) l = [l] := by
      rw [kept]
      split
      · split
        · exact .inr rfl
        · exact .inl rfl
      · exact .inl rfl
    rcases hk with hk | hk
    · rw [hk] at hb p1
      simp only [plainRun, Option.some.injEq, Prod.mk.injEq] at p1
      obtain ⟨st', o', a, w, h2, h3⟩ := ih u hb
      refine ⟨st', o', o1.lines ++ a, w, ?_, ?_⟩
      · rw [p1.1]; exact h2
      · simp [Extracted.add, h3]
    · rw [hk] at hb p1
      cases u with
      | cons y u =>
        simp only [List.cons_append, List.nil_append, List.cons.injEq] at hb
        obtain ⟨rfl, hb⟩ := hb
        obtain ⟨st', o'', a, w, h2, h3⟩ := ih u hb
        refine ⟨st', o'.add o'', o1.lines ++ a, w, ?_, ?_⟩
        · rw [show l :: u = [l] ++ u from rfl, plainRun_append, p1]
          simp only [Option.bind_some]
          rw [h2]
          rfl
        · simp [Extracted.add, h3]
      | nil =>
        simp only [List.cons_append, List.nil_append, List.cons.injEq] at hb
        obtain ⟨rfl, hb⟩ := hb
        have hk' : ∀ e' : Bool, keepLinks st.inExamples l = (e', false) → False := by
          intro e' h
          rw [kept, h] at hk
          simp at hk
        cases kind_of (hl l (by simp)) d st with
        | nil hn => rw [kept_nil (hn V)] at hk; simp at hk
        | ends _ hb' hend hn hn' => rw [hte] at hend; simp at hend
        | inside he hend =>
          exact (hk' true (by rw [he, keepLinks_true, if_neg (by rw [hend]; simp)])).elim
        | title he hd hb' _ hcode hn =>
          subst hd
          have := (extractLine_skip base st (k := st.skipEmpty) (.inl hb')).trans (extractLine_title base ht he)
          rw [skipping_self st rfl] at this
          rw [againStep_single base false V (hn V) this] at hs1
          simp only [Bool.false_and, Bool.false_eq_true, if_false, Option.some.injEq, Prod.mk.injEq] at hs1
          obtain ⟨rfl, rfl⟩ := hs1
          obtain ⟨w, hw⟩ := run_in_examples hV (fun y hy => hl y (by simp [hy])) rfl hs2 hb
          exact ⟨st.core, {}, [], w, rfl, by simp only [Extracted.add, hw]; rfl⟩
        | link he hd hb' ht' => rw [ht] at ht'; simp at ht'
        | blankLine he hd hb' hq ht' => rw [ht] at ht'; simp at ht'
        | ordinary he hb' ht' => rw [ht] at ht'; simp at ht'
        | definitions he hd ht'' hc ht' => rw [ht] at ht'; simp at ht'

end Metaparse.Gen
