import Verif.Lemmas.GenerateAgainAll

/-! # What the author has written is kept -/

namespace Metaparse.Gen

/-! ## The specification, line by line -/

/-- Is a line kept by `withoutNotes`, and the flag after it. -/
def keepNotes : Bool → Str → Bool × Bool
  | true, l => if trimmed l = lit "[endsect]" then (false, true) else (true, false)
  | false, l =>
      if trimmed l = lit "[section Definitions before each section]" then (true, true)
      else if isNote l then (false, false)
      else (false, true)

/-- Is a line kept by `withoutLinks`, and the flag after it. -/
def keepLinks : Bool → Str → Bool × Bool
  | true, l => if occurs (lit "endsect") l then (false, true) else (true, false)
  | false, l =>
      if occurs (lit "[section Copy-paste friendly code examples]") l then (true, true)
      else if occurs (lit "copy-paste friendly version") l then (false, false)
      else (false, true)

/-- The authored lines, from given flags. -/
def authoredFrom (f : Bool × Bool) (ls : List Str) : List Str := nonBlank (withoutLinks f.2 (withoutNotes f.1 ls))

/-- A line: the flags after it, and what is kept. -/
def specStep (f : Bool × Bool) (l : Str) : (Bool × Bool) × List Str :=
  if (keepNotes f.1 l).2 then
    (((keepNotes f.1 l).1, (keepLinks f.2 l).1), if (keepLinks f.2 l).2 then nonBlank [l] else [])
  else (((keepNotes f.1 l).1, f.2), [])

/-- Lines. -/
def specRun : Bool × Bool → List Str → (Bool × Bool) × List Str
  | f, [] => (f, [])
  | f, l :: ls => ((specRun (specStep f l).1 ls).1, (specStep f l).2 ++ (specRun (specStep f l).1 ls).2)

theorem withoutNotes_cons (d : Bool) (l : Str) (ls : List Str) :
    withoutNotes d (l :: ls) = (if (keepNotes d l).2 then [l] else []) ++ withoutNotes (keepNotes d l).1 ls := by
  cases d
  · rw [withoutNotes, keepNotes]
    split
    · rfl
    · split <;> rfl
  · rw [withoutNotes, keepNotes]
    split <;> rfl

theorem withoutLinks_cons (e : Bool) (l : Str) (ls : List Str) :
    withoutLinks e (l :: ls) = (if (keepLinks e l).2 then [l] else []) ++ withoutLinks (keepLinks e l).1 ls := by
  cases e
  · rw [withoutLinks, keepLinks]
    split
    · rfl
    · split <;> rfl
  · rw [withoutLinks, keepLinks]
    split <;> rfl

theorem authoredFrom_cons (f : Bool × Bool) (l : Str) (ls : List Str) :
    authoredFrom f (l :: ls) = (specStep f l).2 ++ authoredFrom (specStep f l).1 ls := by
  rw [authoredFrom, withoutNotes_cons, specStep]
  by_cases h : (keepNotes f.1 l).2 = true
  · rw [if_pos h, if_pos h, List.singleton_append, withoutLinks_cons]
    rw [nonBlank_append]
    by_cases h' : (keepLinks f.2 l).2 = true
    · simp only [if_pos h']; rfl
    · simp only [if_neg h']; rfl
  · rw [if_neg h, if_neg h]
    rfl

theorem specRun_eq (f : Bool × Bool) (ls : List Str) : (specRun f ls).2 = authoredFrom f ls := by
  induction ls generalizing f with
  | nil =>
    obtain ⟨d, e⟩ := f
    cases d <;> cases e <;> rfl
  | cons l ls ih => rw [specRun, authoredFrom_cons, ih]

theorem specRun_append (f : Bool × Bool) (a b : List Str) :
    specRun f (a ++ b) = ((specRun (specRun f a).1 b).1, (specRun f a).2 ++ (specRun (specRun f a).1 b).2) := by
  induction a generalizing f with
  | nil => rfl
  | cons l a ih =>
    rw [List.cons_append, specRun, specRun, ih]
    simp

theorem isNote_eq (l : Str) : isNote l = notePrefix.isPrefixOf l := by
  rw [isNote, notePrefix]

theorem keepNotes_eq (X : List Str) (d : Bool) (l : Str) :
    keepNotes d l = ((notesStep X d l).1, !(notesStep X d l).2.isEmpty) := by
  cases d
  · rw [keepNotes, notesStep, ← strip_eq_trimmed, isNote_eq,
      show lit "[section Definitions before each section]" = definitionsTitle from rfl]
    split
    · rfl
    · split <;> rfl
  · rw [keepNotes, notesStep, ← strip_eq_trimmed]
    split <;> rfl

theorem keepNotes_of {X : List Str} {d d' : Bool} {l : Str} {q : List Str} (h : notesStep X d l = (d', l :: q)) :
    keepNotes d l = (d', true) := by
  rw [keepNotes_eq X, h]; rfl

theorem keepNotes_nil {X : List Str} {d d' : Bool} {l : Str} (h : notesStep X d l = (d', [])) :
    keepNotes d l = (d', false) := by
  rw [keepNotes_eq X, h]; rfl

theorem keepLinks_true (l : Str) : keepLinks true l = if isIn (lit "endsect") l then (false, true) else (true, false) := by
  rw [keepLinks, occurs_eq]

theorem keepLinks_false (l : Str) : keepLinks false l =
    if isIn examplesTitle l then (true, true) else if isIn linkMark l then (false, false) else (false, true) := by
  rw [keepLinks, occurs_eq, occurs_eq]; rfl

/-! ## What is written for a line -/

/-- A line that is inserted after an ordinary line. -/
def Inserted (x : Str) : Prop := IsLink x ∨ x = ['\n'] ∨ ∃ n, x = noteLine n ∧ ∀ c ∈ n, isDigit c = true ∨ c = '_'

/-- What is written for a line: the flags before, and after, and the lines. -/
inductive Out (V : List Str) (d e sk : Bool) (l : Str) : Bool → Bool → List Str → Prop
  | nil (hn : notesStep V d l = (d, [])) : Out V d e sk l d e []
  | ends (he : e = true) (hb : strip l ≠ []) (hend : isIn (lit "endsect") l = true) (hn : notesStep V d l = (false, [l]))
      (hn' : notesStep V false l = (false, [l])) {pre : List Str} (hpre : ∀ x ∈ pre, IsExample x) :
      Out V d e sk l false false (pre ++ [l])
  | inside (he : e = true) (hend : isIn (lit "endsect") l = false) (hd : d = false) {d' : Bool} {nt : List Str}
      (hn : notesStep V d l = (d', l :: nt)) : Out V d e sk l d' true []
  | title (he : e = false) (hd : d = false) (ht : isIn examplesTitle l = true) (hc : isCode l = false)
      (hn : notesStep V false l = (false, [l])) : Out V d e sk l false true [l]
  | link (he : e = false) (hd : d = false) (hb : strip l ≠ []) (ht : isIn examplesTitle l = false) (hl : isIn linkMark l = true)
      (hn : notesStep V false l = (false, [l])) : Out V d e sk l false false []
  | skipped (hsk : sk = true) (he : e = false) (hd : d = false) (hb : strip l = []) (hc : isCode l = false)
      (hq : numberedHeader l = none) (ht : isIn examplesTitle l = false) (hl : isIn linkMark l = false)
      (hn : notesStep V false l = (false, [l])) : Out V d e sk l false false []
  | ordinary (he : e = false) (ht : isIn examplesTitle l = false) (hl : isIn linkMark l = false) {nt : List Str}
      (hn : notesStep V d l = (false, l :: nt)) {ins : List Str} (hins : ∀ x ∈ ins, Inserted x)
      (hnt : ∃ ks, ins = ks ++ nt ∧ ∀ x ∈ ks, IsLink x ∨ x = ['\n']) (hc : ins ≠ [] → isCode l = false) : Out V d e sk l false false (l :: ins)
  | definitions (he : e = false) (hd : d = false) (ht' : strip l = definitionsTitle) (hc : isCode l = false)
      (ht : isIn examplesTitle l = false) (hl : isIn linkMark l = false) {ins : List Str}
      (hins : ∀ x ∈ ins, strip x ≠ lit "[endsect]" ∧ isCode x = false ∧ numberedHeader x = none)
      (hincl : ∀ n ∈ V, includeLine n ∈ ins) :
      Out V d e sk l true false (l :: ins)

theorem ordinary_out {base : Str} (hbase : ClearName base) {b : Bool} {V : List Str} {d : Bool} {st : ExtractState}
    {l : Str} (he : st.inExamples = false) (hb : strip l ≠ [] ∨ st.skipEmpty = false)
    (ht : isIn examplesTitle l = false) (hl : isIn linkMark l = false) {nt : List Str}
    (hn : notesStep V d l = (false, l :: nt) ∧
      (nt = [] ∨ isCode l = false ∧ ∃ n, nt = [noteLine n] ∧ ∀ c ∈ n, isDigit c = true ∨ c = '_'))
    {s' : Bool × ExtractState} {o : Extracted} (hs : againStep base b V (d, st) l = some (s', o)) :
    Out V d st.inExamples st.skipEmpty l s'.1 s'.2.inExamples o.lines := by
  have hx : extractLine base st l = extractOrdinary base (st.skipping false) l := by
    have := extractLine_skip base st (k := st.skipEmpty) hb
    rw [skipping_self st rfl] at this
    rw [this, extractLine_ordinary base ht hl he]
  rw [againStep, hn.1, Option.map_eq_some_iff] at hs
  obtain ⟨⟨st2, o2⟩, hrun, hs⟩ := hs
  simp only [Prod.mk.injEq] at hs
  obtain ⟨rfl, rfl⟩ := hs
  simp only at hrun
  rw [extractRun, hx, Option.bind_eq_some_iff] at hrun
  obtain ⟨⟨st1, o1⟩, hord, hrun⟩ := hrun
  obtain ⟨c1, c2, c3, c4⟩ := ordinary_cases hord
  have c1 : st1.inExamples = false := c1.trans he
  have c2 : st1.skipEmpty = false := c2
  have hntrun : extractRun base st1 nt = some (st1, ⟨nt, []⟩) := by
    rcases hn.2 with h2 | ⟨hc, n, h2, hg⟩
    · rw [h2]; rfl
    · have := extractRun_plain base (c3 hc) c1 (ls := nt) (by
        rw [h2]
        intro x hx
        simp only [List.mem_cons, List.not_mem_nil, or_false] at hx
        subst hx
        exact .inl (plain_noteLine hg))
      rw [skipping_self st1 c2] at this
      exact this
  simp only at hrun
  rw [hntrun] at hrun
  simp only [Option.map_some, Option.some.injEq, Prod.mk.injEq] at hrun
  obtain ⟨rfl, rfl⟩ := hrun
  have hntins : ∀ x ∈ nt, Inserted x := by
    intro x hx
    rcases hn.2 with h2 | ⟨hc, n, h2, hg⟩
    · rw [h2] at hx; simp at hx
    · rw [h2] at hx
      simp only [List.mem_cons, List.not_mem_nil, or_false] at hx
      exact .inr (.inr ⟨n, hx, hg⟩)
  have hntc : nt ≠ [] → isCode l = false := by
    intro hne
    rcases hn.2 with h2 | ⟨hc, -⟩
    · exact absurd h2 hne
    · exact hc
  have e1 : (if (b && st1.counter != st.counter && !false) = true then { st1 with skipEmpty := true } else st1).inExamples = false := by
    split
    · exact c1
    · exact c1
  show Out V d st.inExamples st.skipEmpty l false _ (o1.lines ++ nt)
  rw [e1]
  rcases c4 with ⟨-, c5⟩ | ⟨hc, -, c5⟩
  · rw [c5]
    exact .ordinary he ht hl hn.1 hntins ⟨[], rfl, fun x hx => by simp at hx⟩ hntc
  · rw [c5]
    refine .ordinary he ht hl hn.1 (ins := linkLine base st.counter :: ['\n'] :: nt) ?_ ⟨[linkLine base st.counter, ['\n']], rfl, ?_⟩
      fun _ => hc
    rotate_left
    · intro x hx
      simp only [List.mem_cons, List.not_mem_nil, or_false] at hx
      rcases hx with rfl | rfl
      · exact .inl (isLink_linkLine hbase _)
      · exact .inr rfl
    intro x hx
    rcases List.mem_cons.1 hx with rfl | hx
    · exact .inl (isLink_linkLine hbase _)
    · rcases List.mem_cons.1 hx with rfl | hx
      · exact .inr (.inl rfl)
      · exact hntins x hx

theorem step_out {base : Str} (hbase : ClearName base) {b : Bool} {V : List Str} (hV : GoodNames V)
    {d : Bool} {st : ExtractState} {l : Str} (hl : ClearLine l)
    (hblank : isCode l = true → strip l = [] → d = true ∨ st.skipEmpty = false)
    {s' : Bool × ExtractState} {o : Extracted} (hs : againStep base b V (d, st) l = some (s', o)) :
    Out V d st.inExamples st.skipEmpty l s'.1 s'.2.inExamples o.lines := by
  cases kind_of hl d st with
  | nil hn =>
    rw [againStep_nil base b V (hn V)] at hs
    simp only [Option.some.injEq, Prod.mk.injEq] at hs
    obtain ⟨rfl, rfl⟩ := hs
    exact .nil (hn V)
  | ends he hb hend hn hn' =>
    have h1 := againStep_end base b V he hb hend (hn V) st.skipEmpty
    rw [skipping_self st rfl] at h1
    rw [h1] at hs
    simp only [Option.some.injEq, Prod.mk.injEq] at hs
    obtain ⟨rfl, rfl⟩ := hs
    rw [show (['\n'] :: ((List.range st.counter).map (exampleLine base) ++ [['\n'], l]) : List Str) =
        (['\n'] :: ((List.range st.counter).map (exampleLine base) ++ [['\n']])) ++ [l] by simp]
    refine .ends he hb hend (hn V) (hn' V) ?_
    intro x hx
    simp only [List.mem_cons, List.mem_append, List.mem_map, List.not_mem_nil, or_false] at hx
    rcases hx with rfl | ⟨i, -, rfl⟩ | rfl
    · exact isExample_newline
    · exact isExample_line hbase i
    · exact isExample_newline
  | inside he hend hd d' nt hn =>
    obtain ⟨h1, h2, h3⟩ := hn V hV
    have hrun : extractRun base st (l :: nt V) = some (st.skipping (if strip l = [] then st.skipEmpty else false), {}) := by
      by_cases hb : strip l = []
      · rw [if_pos hb, h3 hb, skipping_self st rfl]
        cases hsk : st.skipEmpty with
        | true =>
          have := extractLine_dropped base st hb
          rw [skipping_self st hsk] at this
          rw [extractRun, this]
          rfl
        | false =>
          have := extractLine_inExamples base hend he
          rw [skipping_self st hsk] at this
          rw [extractRun, this]
          rfl
      · rw [if_neg hb, extractRun]
        have := (extractLine_skip base st (k := st.skipEmpty) (.inl hb)).trans (extractLine_inExamples base hend he)
        rw [skipping_self st rfl] at this
        rw [this, Option.bind_some, extractRun_inExamples base he fun x hx => h2 x hx]
        rfl
    rw [againStep] at hs
    simp only [h1, hrun, Option.map_some, Option.some.injEq, Prod.mk.injEq] at hs
    obtain ⟨rfl, rfl⟩ := hs
    have e1 : ∀ j, (if (b && (st.skipping j).counter != st.counter && !d') = true then
        { st.skipping j with skipEmpty := true } else st.skipping j).inExamples = true := by
      intro j
      split
      · exact he
      · exact he
    simp only
    rw [e1]
    exact .inside he hend hd h1
  | title he hd hb ht hc hn =>
    subst hd
    have := (extractLine_skip base st (k := st.skipEmpty) (.inl hb)).trans (extractLine_title base ht he)
    rw [skipping_self st rfl] at this
    rw [againStep_single base b V (hn V) this] at hs
    simp only [bne_self_eq_false, Bool.and_false, Bool.false_and, Bool.false_eq_true, if_false, Option.some.injEq,
      Prod.mk.injEq] at hs
    obtain ⟨rfl, rfl⟩ := hs
    exact .title he rfl ht hc (hn V)
  | link he hd hb ht hl hn =>
    subst hd
    have := (extractLine_skip base st (k := st.skipEmpty) (.inl hb)).trans (extractLine_link base ht hl he)
    rw [skipping_self st rfl] at this
    rw [againStep_single base b V (hn V) this] at hs
    simp only [Option.some.injEq, Prod.mk.injEq] at hs
    obtain ⟨rfl, rfl⟩ := hs
    have e1 : (if (b && (st.skipping true).counter != st.counter && !false) = true then (st.skipping true).skipping true
        else st.skipping true).inExamples = false := by
      split
      · exact he
      · exact he
    simp only
    rw [e1]
    exact .link he rfl hb ht hl (hn V)
  | blankLine he hd hb hq ht hl hn =>
    subst hd
    cases hsk : st.skipEmpty with
    | true =>
      have := extractLine_dropped base st hb
      rw [skipping_self st hsk] at this
      rw [againStep_single base b V (hn V) this] at hs
      simp only [bne_self_eq_false, Bool.and_false, Bool.false_and, Bool.false_eq_true, if_false, Option.some.injEq,
        Prod.mk.injEq] at hs
      obtain ⟨rfl, rfl⟩ := hs
      simp only
      rw [he]
      have hc : isCode l = false := by
        rw [← Bool.not_eq_true]
        intro hc
        rcases hblank hc hb with h | h
        · simp at h
        · rw [hsk] at h; simp at h
      exact .skipped rfl rfl rfl hb hc hq ht hl (hn V)
    | false =>
      have := ordinary_out hbase he (.inr hsk) ht hl (nt := []) ⟨hn V, .inl rfl⟩ hs
      rw [hsk] at this
      exact this
  | ordinary he hb ht hl nt hn => exact ordinary_out hbase he (.inl hb) ht hl (hn V hV) hs
  | definitions he hd ht' hc ht hl =>
    subst hd
    have hb : strip l ≠ [] := by rw [ht']; decide
    have hx : extractLine base st l = extractOrdinary base (st.skipping false) l := by
      have := extractLine_skip base st (k := st.skipEmpty) (.inl hb)
      rw [skipping_self st rfl] at this
      rw [this, extractLine_ordinary base ht hl he]
    rw [againStep, notesStep, if_pos ht', Option.map_eq_some_iff] at hs
    obtain ⟨⟨st2, o2⟩, hrun, hs⟩ := hs
    simp only [Prod.mk.injEq] at hs
    obtain ⟨rfl, rfl⟩ := hs
    simp only at hrun
    rw [extractRun, hx, Option.bind_eq_some_iff] at hrun
    obtain ⟨⟨st1, o1⟩, hord, hrun⟩ := hrun
    obtain ⟨c1, c2, c3, c4⟩ := ordinary_cases hord
    have c1 : st1.inExamples = false := c1.trans he
    have c2 : st1.skipEmpty = false := c2
    have hrest := extractRun_plain base (c3 hc) c1 (ls := ['\n'] :: (V.map includeLine ++ [['\n']])) (by
      intro x hx
      simp only [List.mem_cons, List.mem_append, List.mem_map, List.not_mem_nil, or_false] at hx
      rcases hx with rfl | ⟨n, hn, rfl⟩ | rfl
      · exact .inr rfl
      · exact .inl (plain_includeLine (hV n hn))
      · exact .inr rfl)
    rw [skipping_self st1 c2] at hrest
    simp only at hrun
    rw [hrest] at hrun
    simp only [Option.map_some, Option.some.injEq, Prod.mk.injEq] at hrun
    obtain ⟨rfl, rfl⟩ := hrun
    have hrestl : ∀ x ∈ (['\n'] :: (V.map includeLine ++ [['\n']])),
        strip x ≠ lit "[endsect]" ∧ isCode x = false ∧ numberedHeader x = none := by
      intro x hx
      simp only [List.mem_cons, List.mem_append, List.mem_map, List.not_mem_nil, or_false] at hx
      rcases hx with rfl | ⟨n, hn, rfl⟩ | rfl
      · exact ⟨by decide, by decide, by decide⟩
      · exact ⟨strip_bracket (lit "endsect]") (lit "include before_" ++ n ++ lit ".qbk]\n") (by simp [lit]),
          (plain_includeLine (hV n hn)).notCode, (plain_includeLine (hV n hn)).neutral⟩
      · exact ⟨by decide, by decide, by decide⟩
    simp only [Bool.not_true, Bool.and_false, Bool.false_eq_true, if_false]
    rw [c1]
    show Out V false st.inExamples st.skipEmpty l true false (o1.lines ++ (['\n'] :: (V.map includeLine ++ [['\n']])))
    have hlink := isLink_linkLine hbase st.counter
    rcases c4 with ⟨-, c5⟩ | ⟨-, -, c5⟩
    · rw [c5]
      refine .definitions he rfl ht' hc ht hl (ins := ['\n'] :: (V.map includeLine ++ [['\n']])) hrestl fun n hn => ?_
      simp only [List.mem_cons, List.mem_append, List.mem_map]
      exact .inr (.inl ⟨n, hn, rfl⟩)
    · rw [c5]
      refine .definitions he rfl ht' hc ht hl
        (ins := linkLine base st.counter :: ['\n'] :: (['\n'] :: (V.map includeLine ++ [['\n']]))) ?_
        fun n hn => by
          simp only [List.mem_cons, List.mem_append, List.mem_map]
          exact .inr (.inr (.inr (.inl ⟨n, hn, rfl⟩)))
      intro x hx
      rcases List.mem_cons.1 hx with rfl | hx
      · exact ⟨hlink.notEnd, hlink.notCode, hlink.neutral⟩
      · rcases List.mem_cons.1 hx with rfl | hx
        · exact ⟨by decide, by decide, by decide⟩
        · exact hrestl x hx

/-! ## What is kept -/

theorem specStep_keep {d d' : Bool} {e : Bool} {l : Str} (h : keepNotes d l = (d', true)) :
    specStep (d, e) l = ((d', (keepLinks e l).1), if (keepLinks e l).2 then nonBlank [l] else []) := by
  simp [specStep, h]

theorem specStep_drop {d d' : Bool} {e : Bool} {l : Str} (h : keepNotes d l = (d', false)) :
    specStep (d, e) l = ((d', e), []) := by
  simp [specStep, h]

theorem specRun_definitions {ins : List Str} (h : ∀ x ∈ ins, strip x ≠ lit "[endsect]") (e : Bool) :
    specRun (true, e) ins = ((true, e), []) := by
  induction ins with
  | nil => rfl
  | cons x ins ih =>
    have hx : keepNotes true x = (true, false) := by
      rw [keepNotes, ← strip_eq_trimmed, if_neg (h x (by simp))]
    rw [specRun, specStep_drop hx, ih fun y hy => h y (by simp [hy])]
    rfl

theorem specRun_examples {pre : List Str} (h : ∀ x ∈ pre, IsExample x) : specRun (false, true) pre = ((false, true), []) := by
  induction pre with
  | nil => rfl
  | cons x pre ih =>
    have hx := h x (by simp)
    rw [specRun, specStep_keep (keepNotes_of (hx.notes [])), keepLinks_true, if_neg (by rw [hx.noEnd]; simp)]
    simp only [Bool.false_eq_true, if_false]
    rw [ih fun y hy => h y (by simp [hy])]
    rfl

theorem specRun_inserted {ins : List Str} (h : ∀ x ∈ ins, Inserted x) : specRun (false, false) ins = ((false, false), []) := by
  induction ins with
  | nil => rfl
  | cons x ins ih =>
    have hx : specStep (false, false) x = ((false, false), []) := by
      rcases h x (by simp) with hx | rfl | ⟨n, rfl, hn⟩
      · rw [specStep_keep (keepNotes_of (hx.notes [])), keepLinks_false, if_neg (by rw [hx.noTitle]; simp), if_pos hx.link]
        rfl
      · decide
      · rw [specStep_drop (keepNotes_nil (notes_noteLine n []))]
    rw [specRun, hx, ih fun y hy => h y (by simp [hy])]
    rfl

/-- What is written for a line has of it what its author has written. -/
theorem out_keeps {V : List Str} {d e sk d' e' : Bool} {l : Str} {q : List Str} (h : Out V d e sk l d' e' q) :
    specStep (d, e) l = ((d', e'), (specStep (d, e) l).2) ∧
    specRun (d && !e, e) q = ((d' && !e', e'), (specStep (d, e) l).2) := by
  cases h with
  | nil hn =>
    rw [specStep_drop (keepNotes_nil hn)]
    exact ⟨rfl, rfl⟩
  | ends he hb hend hn hn' hpre =>
    subst he
    have e1 : specStep (d, true) l = ((false, false), nonBlank [l]) := by
      rw [specStep_keep (keepNotes_of hn), keepLinks_true, if_pos hend]; rfl
    have e2 : specStep (false, true) l = ((false, false), nonBlank [l]) := by
      rw [specStep_keep (keepNotes_of hn'), keepLinks_true, if_pos hend]; rfl
    rw [e1]
    refine ⟨rfl, ?_⟩
    rw [Bool.not_true, Bool.and_false, specRun_append, specRun_examples hpre]
    simp only [specRun, e2]
    simp
  | inside he hend hd hn =>
    subst he; subst hd
    have e1 : specStep (false, true) l = ((d', true), []) := by
      rw [specStep_keep (keepNotes_of hn), keepLinks_true, if_neg (by rw [hend]; simp)]; rfl
    rw [e1]
    exact ⟨rfl, by simp [specRun]⟩
  | title he hd ht hc hn =>
    subst he; subst hd
    have e1 : specStep (false, false) l = ((false, true), nonBlank [l]) := by
      rw [specStep_keep (keepNotes_of hn), keepLinks_false, if_pos ht]; rfl
    rw [e1]
    refine ⟨rfl, ?_⟩
    simp [specRun, e1]
  | link he hd hb ht hl hn =>
    subst he; subst hd
    have e1 : specStep (false, false) l = ((false, false), []) := by
      rw [specStep_keep (keepNotes_of hn), keepLinks_false, if_neg (by rw [ht]; simp), if_pos hl]; rfl
    rw [e1]
    exact ⟨rfl, rfl⟩
  | skipped hsk he hd hb hc hq ht hl hn =>
    subst he; subst hd
    have e1 : specStep (false, false) l = ((false, false), []) := by
      rw [specStep_keep (keepNotes_of hn), keepLinks_false, if_neg (by rw [ht]; simp), if_neg (by rw [hl]; simp)]
      rw [strip_eq_trimmed, trimmed_nil] at hb
      simp [nonBlank, hb]
    rw [e1]
    exact ⟨rfl, rfl⟩
  | ordinary he ht hl hn hins hnt hc =>
    rename_i nt ins
    subst he
    have e1 : specStep (d, false) l = ((false, false), nonBlank [l]) := by
      rw [specStep_keep (keepNotes_of hn), keepLinks_false, if_neg (by rw [ht]; simp), if_neg (by rw [hl]; simp)]
      rfl
    rw [e1]
    refine ⟨rfl, ?_⟩
    rw [Bool.not_false, Bool.and_true, specRun, e1]
    simp only
    rw [specRun_inserted hins]
    simp
  | definitions he hd ht' hc ht hl hins hincl =>
    subst he; subst hd
    have e1 : specStep (false, false) l = ((true, false), nonBlank [l]) := by
      have : keepNotes false l = (true, true) := by
        rw [keepNotes, ← strip_eq_trimmed, ht']
        rfl
      rw [specStep_keep this, keepLinks_false, if_neg (by rw [ht]; simp), if_neg (by rw [hl]; simp)]
      rfl
    rw [e1]
    refine ⟨rfl, ?_⟩
    rw [Bool.not_false, Bool.and_true, specRun, e1]
    simp only
    rw [specRun_definitions fun x hx => (hins x hx).1]
    simp

theorem run_keeps {base : Str} (hbase : ClearName base) {b : Bool} {V : List Str} (hV : GoodNames V) {ls : List Str} :
    ∀ {s s' : Bool × ExtractState} {o : Extracted} {c : Bool}, (∀ l ∈ ls, ClearLine l) → BlanksInCode c ls →
    (c = true → s.1 = true ∨ s.2.skipEmpty = false) → againRun base b V s ls = some (s', o) →
    authoredFrom (s.1 && !s.2.inExamples, s.2.inExamples) o.lines = authoredFrom (s.1, s.2.inExamples) ls := by
  induction ls with
  | nil =>
    intro s s' o c hl hbl hcs hs
    simp only [againRun, Option.some.injEq, Prod.mk.injEq] at hs
    obtain ⟨rfl, rfl⟩ := hs
    rw [← specRun_eq, ← specRun_eq]
    rfl
  | cons l ls ih =>
    intro s s' o c hl hbl hcs hs
    rw [againRun, Option.bind_eq_some_iff] at hs
    obtain ⟨⟨s1, o1⟩, hs1, hs⟩ := hs
    rw [Option.map_eq_some_iff] at hs
    obtain ⟨⟨s2, o2⟩, hs2, hs⟩ := hs
    simp only [Prod.mk.injEq] at hs
    obtain ⟨rfl, rfl⟩ := hs
    obtain ⟨d, st⟩ := s
    have hblank : isCode l = true → strip l = [] → d = true ∨ st.skipEmpty = false := fun hc hb =>
      hcs (hbl.1 ((isCode_iff l).1 hc) (by rw [← trimmed_nil, ← strip_eq_trimmed]; exact hb))
    obtain ⟨h1, h2⟩ := out_keeps (step_out hbase hV (hl l (by simp)) hblank hs1)
    have h3 := ih (fun x hx => hl x (by simp [hx])) hbl.2
      (fun hc => code_skip hV (hl l (by simp)) hc (hblank hc) hs1) hs2
    rw [← specRun_eq, ← specRun_eq, specRun, show (o1.add o2).lines = o1.lines ++ o2.lines from rfl, specRun_append]
    simp only
    rw [h2, h1]
    simp only
    rw [specRun_eq, specRun_eq, h3]

end Metaparse.Gen
