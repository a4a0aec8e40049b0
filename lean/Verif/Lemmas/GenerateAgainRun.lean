import Verif.Lemmas.GenerateAgainStep

/-! # The second run -/

namespace Metaparse.Gen

/-! ## Parsing what is inserted -/

/-- Lines that mean nothing to `parse_md`. -/
def Quiet (ls : List Str) : Prop := ∀ l ∈ ls, isCode l = false ∧ numberedHeader l = none

theorem parseLine_quiet {l : Str} (h : isCode l = false) (h' : numberedHeader l = none) (p : ParseState) :
    parseLine p l = ({ p with inCpp := false }, {}) := by
  rw [parseLine, if_neg (by rw [h]; simp), h']

theorem parse_quiet {ls : List Str} (h : Quiet ls) {p : ParseState} (hp : p.inCpp = false) :
    parseLoop p ls = {} ∧ endState p ls = p := by
  induction ls with
  | nil => exact ⟨rfl, rfl⟩
  | cons l ls ih =>
    have hl := h l (by simp)
    have e : ({ p with inCpp := false } : ParseState) = p := by cases p; cases hp; rfl
    obtain ⟨h1, h2⟩ := ih fun x hx => h x (by simp [hx])
    rw [parseLoop, endState, parseLine_quiet hl.1 hl.2, e]
    exact ⟨by simp [h1], h2⟩

theorem parseLine_inCpp {l : Str} (h : isCode l = false) (p : ParseState) : (parseLine p l).1.inCpp = false := by
  rw [parseLine, if_neg (by rw [h]; simp)]
  cases numberedHeader l <;> rfl

/-- The same for `parse_md`; `k`, `k'`: blank lines are skipped before and after. -/
def SameParse (k k' : Bool) (q q' : List Str) : Prop :=
  ∀ p : ParseState, (k = true → p.inCpp = false) →
    parseLoop p q' = parseLoop p q ∧ endState p q' = endState p q ∧ (k' = true → (endState p q).inCpp = false)

theorem SameParse.refl (k : Bool) (q : List Str) : SameParse k false q q :=
  fun _ _ => ⟨rfl, rfl, fun h => by simp at h⟩

theorem SameParse.nil (k : Bool) : SameParse k k [] [] := fun _ h => ⟨rfl, rfl, h⟩

theorem SameParse.cons (k k' : Bool) {l : Str} (h : isCode l = false) {q q' : List Str} (hq : Quiet q) (hq' : Quiet q') :
    SameParse k k' (l :: q) (l :: q') := by
  intro p _
  have hi := parseLine_inCpp h p
  obtain ⟨h1, h2⟩ := parse_quiet hq hi
  obtain ⟨h3, h4⟩ := parse_quiet hq' hi
  rw [parseLoop, parseLoop, endState, endState]
  simp only [h1, h2, h3, h4]
  exact ⟨trivial, trivial, fun _ => hi⟩

/-! ## Steps -/

/-- The state of the second run; `k`: it skips blank lines. -/
def second (s : Bool × ExtractState) (k : Bool) : Bool × ExtractState := (s.1 && !s.2.inExamples, s.2.skipping k)

/-- The state of the run that skips blank lines after links. -/
def third (s : Bool × ExtractState) (k : Bool) : Bool × ExtractState := (s.1, s.2.skipping (s.2.skipEmpty || k))

/-- Blank lines may be skipped in the second run only outside of code. -/
structure Again (s : Bool × ExtractState) (k : Bool) : Prop where
  notCode : k = true → s.2.inCode = false
  notExamples : k = true → s.2.inExamples = false

theorem Again.no (s : Bool × ExtractState) : Again s false := ⟨fun h => by simp at h, fun h => by simp at h⟩

/-- A line that was read in the first run from the state `s` to `s'`, and what was written for it, in the second
run. -/
def StepGood (base : Str) (V W : List Str) (l : Str) (s : Bool × ExtractState) (k : Bool) (s' : Bool × ExtractState)
    (o : Extracted) : Prop :=
  ∃ k' o', againRun base false W (second s k) o.lines = some (second s' k', o') ∧
    againStep base true W (third s k) l = some (third s' k', o') ∧ o'.files = o.files ∧ Again s' k' ∧
    SameParse k k' o.lines o'.lines ∧ (V = W → nonBlank o'.lines = nonBlank o.lines)

theorem third_false (s : Bool × ExtractState) : third s false = s := by
  rw [third, Bool.or_false]
  rfl

theorem againStep_nil (base : Str) (b : Bool) (W : List Str) {d : Bool} {l : Str} (h : notesStep W d l = (d, []))
    (st : ExtractState) : againStep base b W (d, st) l = some ((d, st), {}) := by
  rw [againStep]
  simp only [h, extractRun, Option.map_some]
  simp

/-- A line that is dropped by the first loop. -/
theorem good_nil {base : Str} {V W : List Str} {l : Str} {s : Bool × ExtractState} {k : Bool} (h : Again s k)
    (hn : notesStep W s.1 l = (s.1, [])) : StepGood base V W l s k s {} := by
  refine ⟨k, {}, rfl, ?_, rfl, h, SameParse.nil k, fun _ => rfl⟩
  exact againStep_nil base true W hn _

/-! ## Runs over inserted lines -/

theorem againRun_definitions (base : Str) (W : List Str) (st : ExtractState) {ls : List Str}
    (h : ∀ l ∈ ls, strip l ≠ lit "[endsect]") : againRun base false W (true, st) ls = some ((true, st), {}) := by
  induction ls with
  | nil => rfl
  | cons l ls ih =>
    rw [againRun, againStep_nil base false W (by rw [notesStep, if_neg (h l (by simp))]), Option.bind_some,
      ih fun x hx => h x (by simp [hx])]
    rfl

theorem extractRun_inExamples (base : Str) {st : ExtractState} (he : st.inExamples = true) {ls : List Str}
    (h : ∀ l ∈ ls, isIn (lit "endsect") l = false) :
    extractRun base (st.skipping false) ls = some (st.skipping false, {}) := by
  induction ls with
  | nil => rfl
  | cons l ls ih =>
    rw [extractRun, extractLine_inExamples base (h l (by simp)) he, Option.bind_some,
      ih fun x hx => h x (by simp [hx])]
    rfl

theorem againStep_single (base : Str) (b : Bool) (W : List Str) {d d' : Bool} {l : Str} {st st' : ExtractState}
    {o : Extracted} (h : notesStep W d l = (d', [l])) (h' : extractLine base st l = some (st', o)) :
    againStep base b W (d, st) l = some ((d', if b && st'.counter != st.counter && !d' then st'.skipping true else st'), o) := by
  rw [againStep]
  simp only [h, extractRun, h', Option.bind_some, Option.map_some, Extracted.add_nil]
  rfl

theorem againRun_examples (base : Str) (W : List Str) {st : ExtractState} (he : st.inExamples = true) {ls : List Str}
    (h : ∀ l ∈ ls, IsExample l) :
    againRun base false W (false, st.skipping false) ls = some ((false, st.skipping false), {}) := by
  induction ls with
  | nil => rfl
  | cons l ls ih =>
    have hl := h l (by simp)
    rw [againRun, againStep_single base false W (hl.notes W) (extractLine_inExamples base hl.noEnd he),
      Option.bind_some]
    simp only [Bool.false_and, Bool.false_eq_true, if_false]
    rw [ih fun x hx => h x (by simp [hx])]
    rfl

theorem extractRun_plain (base : Str) {st : ExtractState} (hi : st.inCode = false) (he : st.inExamples = false)
    {ls : List Str} (h : ∀ l ∈ ls, Plain l ∨ l = ['\n']) :
    extractRun base (st.skipping false) ls = some (st.skipping false, ⟨ls, []⟩) := by
  induction ls with
  | nil => rfl
  | cons l ls ih =>
    have hl : extractLine base (st.skipping false) l = some (st.skipping false, ⟨[l], []⟩) := by
      rcases h l (by simp) with h | rfl
      · exact extractLine_plain base h hi he false
      · exact extractLine_newline base hi he
    rw [extractRun, hl, Option.bind_some]
    simp only
    rw [ih fun x hx => h x (by simp [hx])]
    rfl

/-! ## The cases -/

theorem againStep_end (base : Str) (b : Bool) (V : List Str) {d : Bool} {st : ExtractState} {l : Str}
    (he : st.inExamples = true) (hb : strip l ≠ []) (hend : isIn (lit "endsect") l = true)
    (hn : notesStep V d l = (false, [l])) (k : Bool) :
    againStep base b V (d, st.skipping k) l = some ((false, { st with inExamples := false, skipEmpty := false }),
      ⟨['\n'] :: ((List.range st.counter).map (exampleLine base) ++ [['\n'], l]), []⟩) := by
  have h' : extractLine base (st.skipping k) l = _ :=
    (extractLine_skip base st (.inl hb)).trans (extractLine_end base hend he)
  rw [againStep_single base b V hn h']
  simp [ExtractState.skipping]

/-- The end of the section of examples. -/
theorem good_end {base : Str} (hbase : ClearName base) {b : Bool} {V W : List Str} {d : Bool} {st : ExtractState} {l : Str} {k : Bool}
    (h : Again (d, st) k) (he : st.inExamples = true) (hb : strip l ≠ []) (hend : isIn (lit "endsect") l = true)
    (hn : ∀ X, notesStep X d l = (false, [l])) (hn' : notesStep W false l = (false, [l]))
    {s' : Bool × ExtractState} {o : Extracted} (hs : againStep base b V (d, st) l = some (s', o)) :
    StepGood base V W l (d, st) k s' o := by
  have hk : k = false := by
    cases k with
    | false => rfl
    | true => have := h.notExamples rfl; rw [he] at this; simp at this
  subst hk
  have h1 := againStep_end base b V he hb hend (hn V) st.skipEmpty
  rw [skipping_self st rfl] at h1
  rw [h1] at hs
  simp only [Option.some.injEq, Prod.mk.injEq] at hs
  obtain ⟨rfl, rfl⟩ := hs
  refine ⟨false, ⟨['\n'] :: ((List.range st.counter).map (exampleLine base) ++ [['\n'], l]), []⟩, ?_, ?_, rfl, Again.no _, SameParse.refl _ _, fun _ => rfl⟩
  · have e : (['\n'] :: ((List.range st.counter).map (exampleLine base) ++ [['\n'], l]) : List Str) =
        (['\n'] :: ((List.range st.counter).map (exampleLine base) ++ [['\n']])) ++ [l] := by simp
    show againRun base false W _ (['\n'] :: ((List.range st.counter).map (exampleLine base) ++ [['\n'], l])) = _
    have hex : ∀ x ∈ (['\n'] :: ((List.range st.counter).map (exampleLine base) ++ [['\n']])), IsExample x := by
      intro x hx
      simp only [List.mem_cons, List.mem_append, List.mem_map, List.not_mem_nil, or_false] at hx
      rcases hx with rfl | ⟨i, -, rfl⟩ | rfl
      · exact isExample_newline
      · exact isExample_line hbase i
      · exact isExample_newline
    have e2 : second (d, st) false = (false, st.skipping false) := by simp [second, he]
    rw [e, e2, againRun_append, againRun_examples base W he hex, Option.bind_some]
    simp only [againRun]
    rw [againStep_end base false W he hb hend hn' false]
    simp [Extracted.add, second, ExtractState.skipping]
  · rw [third_false]
    have h1 := againStep_end base true W he hb hend (hn W) st.skipEmpty
    rw [skipping_self st rfl] at h1
    rw [h1, third_false]

/-- What is in the section of examples is dropped. -/
theorem good_inExamples {base : Str} {b : Bool} {V W : List Str} {d d' : Bool} {st : ExtractState} {l : Str} {k : Bool}
    (h : Again (d, st) k) (he : st.inExamples = true) (nt : List Str → List Str)
    (hn : ∀ X, X = V ∨ X = W → notesStep X d l = (d', l :: nt X) ∧ (∀ x ∈ l :: nt X, isIn (lit "endsect") x = false) ∧
      (strip l = [] → nt X = []))
    {s' : Bool × ExtractState} {o : Extracted} (hs : againStep base b V (d, st) l = some (s', o)) :
    StepGood base V W l (d, st) k s' o := by
  have hk : k = false := by
    cases k with
    | false => rfl
    | true => have := h.notExamples rfl; rw [he] at this; simp at this
  subst hk
  have key : ∀ b X, X = V ∨ X = W → againStep base b X (d, st) l =
      some ((d', st.skipping (if strip l = [] then st.skipEmpty else false)), {}) := by
    intro b X hX
    obtain ⟨h1, h2, h3⟩ := hn X hX
    have hrun : extractRun base st (l :: nt X) = some (st.skipping (if strip l = [] then st.skipEmpty else false), {}) := by
      by_cases hb : strip l = []
      · rw [if_pos hb, h3 hb, skipping_self st rfl]
        cases hsk : st.skipEmpty with
        | true =>
          have := extractLine_dropped base st hb
          rw [skipping_self st hsk] at this
          rw [extractRun, this]
          rfl
        | false =>
          have := extractLine_inExamples base (h2 l (by simp)) he
          rw [skipping_self st hsk] at this
          rw [extractRun, this]
          rfl
      · rw [if_neg hb, extractRun]
        have := (extractLine_skip base st (k := st.skipEmpty) (.inl hb)).trans (extractLine_inExamples base (h2 l (by simp)) he)
        rw [skipping_self st rfl] at this
        rw [this, Option.bind_some, extractRun_inExamples base he fun x hx => h2 x (by simp [hx])]
        rfl
    rw [againStep]
    simp only [h1, hrun, Option.map_some]
    simp [ExtractState.skipping]
  rw [key b V (.inl rfl)] at hs
  simp only [Option.some.injEq, Prod.mk.injEq] at hs
  obtain ⟨rfl, rfl⟩ := hs
  refine ⟨false, {}, ?_, ?_, rfl, Again.no _, SameParse.nil _, fun _ => rfl⟩
  · simp [againRun, second, ExtractState.skipping, he]
  · rw [third_false, third_false]
    exact key true W (.inr rfl)

/-- The title of the section of examples. -/
theorem good_title {base : Str} {b : Bool} {V W : List Str} {st : ExtractState} {l : Str} {k : Bool}
    (he : st.inExamples = false) (hb : strip l ≠ []) (ht : isIn examplesTitle l = true)
    (hn : ∀ X, notesStep X false l = (false, [l]))
    {s' : Bool × ExtractState} {o : Extracted} (hs : againStep base b V (false, st) l = some (s', o)) :
    StepGood base V W l (false, st) k s' o := by
  have key : ∀ b X k, againStep base b X (false, st.skipping k) l =
      some ((false, { st with inExamples := true, skipEmpty := false }), ⟨[l], []⟩) := by
    intro b X k
    rw [againStep_single base b X (hn X) ((extractLine_skip base st (.inl hb)).trans (extractLine_title base ht he))]
    simp [ExtractState.skipping]
  have h1 := key b V st.skipEmpty
  rw [skipping_self st rfl] at h1
  rw [h1] at hs
  simp only [Option.some.injEq, Prod.mk.injEq] at hs
  obtain ⟨rfl, rfl⟩ := hs
  refine ⟨false, ⟨[l], []⟩, ?_, ?_, rfl, Again.no _, SameParse.refl _ _, fun _ => rfl⟩
  · simp only [againRun]
    rw [show second (false, st) k = (false, st.skipping k) from rfl, key false W k]
    simp [second, ExtractState.skipping, Extracted.add]
  · rw [show third (false, st) k = (false, st.skipping (st.skipEmpty || k)) from rfl, key true W]
    rw [third_false]

/-- A link in the text. -/
theorem good_link {base : Str} {b : Bool} {V W : List Str} {st : ExtractState} {l : Str} {k : Bool}
    (h : Again (false, st) k) (he : st.inExamples = false) (hb : strip l ≠ []) (ht : isIn examplesTitle l = false)
    (hl : isIn linkMark l = true) (hn : ∀ X, notesStep X false l = (false, [l]))
    {s' : Bool × ExtractState} {o : Extracted} (hs : againStep base b V (false, st) l = some (s', o)) :
    StepGood base V W l (false, st) k s' o := by
  have key : ∀ b X k, againStep base b X (false, st.skipping k) l = some ((false, st.skipping true), {}) := by
    intro b X k
    rw [againStep_single base b X (hn X) ((extractLine_skip base st (.inl hb)).trans (extractLine_link base ht hl he))]
    simp [ExtractState.skipping]
  have h1 := key b V st.skipEmpty
  rw [skipping_self st rfl] at h1
  rw [h1] at hs
  simp only [Option.some.injEq, Prod.mk.injEq] at hs
  obtain ⟨rfl, rfl⟩ := hs
  refine ⟨k, {}, ?_, ?_, rfl, ⟨h.notCode, h.notExamples⟩, SameParse.nil _, fun _ => rfl⟩
  · rfl
  · rw [show third (false, st) k = (false, st.skipping (st.skipEmpty || k)) from rfl, key true W]
    simp [third, ExtractState.skipping]

/-- A blank line that is skipped in both runs. -/
theorem good_skipped {base : Str} {b : Bool} {V W : List Str} {st : ExtractState} {l : Str} {k : Bool}
    (h : Again (false, st) k) (hb : strip l = []) (hsk : st.skipEmpty = true)
    (hn : ∀ X, notesStep X false l = (false, [l]))
    {s' : Bool × ExtractState} {o : Extracted} (hs : againStep base b V (false, st) l = some (s', o)) :
    StepGood base V W l (false, st) k s' o := by
  have key : ∀ b X, againStep base b X (false, st.skipping true) l = some ((false, st.skipping true), {}) := by
    intro b X
    rw [againStep_single base b X (hn X) (extractLine_dropped base st hb)]
    simp [ExtractState.skipping]
  have h1 := key b V
  rw [skipping_self st hsk] at h1
  rw [h1] at hs
  simp only [Option.some.injEq, Prod.mk.injEq] at hs
  obtain ⟨rfl, rfl⟩ := hs
  refine ⟨k, {}, rfl, ?_, rfl, h, SameParse.nil _, fun _ => rfl⟩
  rw [show third (false, st) k = (false, st.skipping true) by simp [third, hsk]]
  exact key true W

/-- A blank line that is skipped in the second run. -/
theorem good_blank {base : Str} {b : Bool} {V W : List Str} {st : ExtractState} {l : Str}
    (h : Again (false, st) true) (hb : strip l = []) (hsk : st.skipEmpty = false) (hc : isCode l = false)
    (hq : numberedHeader l = none) (ht : isIn examplesTitle l = false) (hl : isIn linkMark l = false)
    (hn : ∀ X, notesStep X false l = (false, [l]))
    {s' : Bool × ExtractState} {o : Extracted} (hs : againStep base b V (false, st) l = some (s', o)) :
    StepGood base V W l (false, st) true s' o := by
  have hi := h.notCode rfl
  have he := h.notExamples rfl
  simp only at hi he
  have hx : extractLine base (st.skipping false) l = some (st.skipping false, ⟨[l], []⟩) := by
    rw [extractLine_ordinary base ht hl he]
    simp [extractOrdinary, ExtractState.skipping, hi, hc]
  rw [skipping_self st hsk] at hx
  rw [againStep_single base b V (hn V) hx] at hs
  simp only [bne_self_eq_false, Bool.and_false, Bool.false_and, Bool.false_eq_true, if_false, Option.some.injEq,
    Prod.mk.injEq] at hs
  obtain ⟨rfl, rfl⟩ := hs
  have key : ∀ b, againStep base b W (false, st.skipping true) l = some ((false, st.skipping true), {}) := by
    intro b
    rw [againStep_single base b W (hn W) (extractLine_dropped base st hb)]
    simp [ExtractState.skipping]
  refine ⟨true, {}, ?_, ?_, rfl, h, ?_, fun _ => ?_⟩
  · simp only [againRun]
    rw [show second (false, st) true = (false, st.skipping true) from rfl, key false]
    rfl
  · rw [show third (false, st) true = (false, st.skipping true) by simp [third]]
    exact key true
  · intro p hp
    have hp := hp rfl
    obtain ⟨h1, h2⟩ := parse_quiet (ls := [l]) (p := p) (fun x hx => by
      simp only [List.mem_cons, List.not_mem_nil, or_false] at hx
      subst hx
      exact ⟨hc, hq⟩) hp
    exact ⟨by rw [h1]; rfl, by rw [h2]; rfl, fun _ => by rw [h2]; exact hp⟩
  · rw [strip_eq_trimmed, trimmed_nil] at hb
    simp [nonBlank, hb]

/-- An ordinary line, perhaps with a note after it. -/
theorem good_ordinary {base : Str} (hbase : ClearName base) {b : Bool} {V W : List Str} {d : Bool} {st : ExtractState}
    {l : Str} {k : Bool} (he : st.inExamples = false) (hb : strip l ≠ [] ∨ st.skipEmpty = false ∧ k = false)
    (ht : isIn examplesTitle l = false) (hl : isIn linkMark l = false) (nt : List Str → List Str)
    (hn : ∀ X, X = V ∨ X = W → notesStep X d l = (false, l :: nt X) ∧
      (nt X = [] ∨ isCode l = false ∧ ∃ n, nt X = [noteLine n] ∧ ∀ c ∈ n, isDigit c = true ∨ c = '_'))
    {s' : Bool × ExtractState} {o : Extracted} (hs : againStep base b V (d, st) l = some (s', o)) :
    StepGood base V W l (d, st) k s' o := by
  have hx : ∀ j, j = st.skipEmpty ∨ j = k ∨ j = (st.skipEmpty || k) →
      extractLine base (st.skipping j) l = extractOrdinary base (st.skipping false) l := by
    intro j hj
    rw [extractLine_skip base st, extractLine_ordinary base ht hl he]
    rcases hb with hb | ⟨h1, h2⟩
    · exact .inl hb
    · right
      rcases hj with rfl | rfl | rfl
      · exact h1
      · exact h2
      · rw [h1, h2]; rfl
  cases hord : extractOrdinary base (st.skipping false) l with
  | none =>
    exfalso
    have h1 := hx st.skipEmpty (.inl rfl)
    rw [skipping_self st rfl, hord] at h1
    rw [againStep, (hn V (.inl rfl)).1] at hs
    simp [extractRun, h1] at hs
  | some r =>
    obtain ⟨st1, o1⟩ := r
    obtain ⟨c1, c2, c3, c4⟩ := ordinary_cases hord
    have c1 : st1.inExamples = false := c1.trans he
    have c2 : st1.skipEmpty = false := c2
    have c4 : (st1.counter = st.counter ∧ o1.lines = [l]) ∨
      (isCode l = false ∧ st1.counter = st.counter + 1 ∧ o1.lines = [l, linkLine base st.counter, ['\n']]) := c4
    have step : ∀ b X j, X = V ∨ X = W → (j = st.skipEmpty ∨ j = k ∨ j = (st.skipEmpty || k)) →
        againStep base b X (d, st.skipping j) l =
          some ((false, if b && st1.counter != st.counter then st1.skipping true else st1), o1.add ⟨nt X, []⟩) := by
      intro b X j hX hj
      obtain ⟨h1, h2⟩ := hn X hX
      have hrun : extractRun base (st.skipping j) (l :: nt X) = some (st1, o1.add ⟨nt X, []⟩) := by
        rw [extractRun, hx j hj, hord, Option.bind_some]
        simp only
        rcases h2 with h2 | ⟨hc, n, h2, hg⟩
        · rw [h2]; rfl
        · have := extractRun_plain base (c3 hc) c1 (ls := nt X) (by
            rw [h2]
            intro x hx
            simp only [List.mem_cons, List.not_mem_nil, or_false] at hx
            subst hx
            exact .inl (plain_noteLine hg))
          rw [skipping_self st1 c2] at this
          rw [this]
          rfl
      rw [againStep]
      simp only [h1, hrun, Option.map_some]
      simp [ExtractState.skipping]
    have hnt : ∀ X, X = V ∨ X = W → Quiet (nt X) := by
      intro X hX
      rcases (hn X hX).2 with h2 | ⟨-, n, h2, hg⟩
      · rw [h2]; intro x hx; simp at hx
      · rw [h2]
        intro x hx
        simp only [List.mem_cons, List.not_mem_nil, or_false] at hx
        subst hx
        exact ⟨(plain_noteLine hg).notCode, (plain_noteLine hg).neutral⟩
    have hdrop : ∀ st2, againRun base false W (false, st2) (nt V) = some ((false, st2), {}) := by
      intro st2
      rcases (hn V (.inl rfl)).2 with h2 | ⟨-, n, h2, -⟩
      · rw [h2]; rfl
      · rw [h2, againRun, againStep_nil base false W (notes_noteLine n W)]
        rfl
    have h1 := step b V st.skipEmpty (.inl rfl) (.inl rfl)
    rw [skipping_self st rfl] at h1
    rw [h1] at hs
    simp only [Option.some.injEq, Prod.mk.injEq] at hs
    obtain ⟨rfl, rfl⟩ := hs
    have hsec : second (d, st) k = (d, st.skipping k) := by simp [second, he]
    have hthird : third (d, st) k = (d, st.skipping (st.skipEmpty || k)) := rfl
    rcases c4 with ⟨c4, c5⟩ | ⟨hc, c4, c5⟩
    · -- nothing inserted
      have hcnt : (st1.counter != st.counter) = false := by rw [c4]; simp
      simp only [hcnt, Bool.and_false, Bool.false_eq_true, if_false] at step ⊢
      refine ⟨false, o1.add ⟨nt W, []⟩, ?_, ?_, by simp [Extracted.add], Again.no _, ?_, fun e => by subst e; rfl⟩
      · rw [hsec, show (o1.add ⟨nt V, []⟩).lines = l :: nt V by simp [Extracted.add, c5], againRun,
          step false W k (.inr rfl) (.inr (.inl rfl)), Option.bind_some]
        simp only
        rw [hdrop]
        simp [second, c1, skipping_self st1 c2, Extracted.add_nil]
      · rw [hthird, step true W _ (.inr rfl) (.inr (.inr rfl)), third_false]
      · rw [show (o1.add ⟨nt V, []⟩).lines = l :: nt V by simp [Extracted.add, c5],
          show (o1.add ⟨nt W, []⟩).lines = l :: nt W by simp [Extracted.add, c5]]
        by_cases hc : isCode l = false
        · exact SameParse.cons k false hc (hnt V (.inl rfl)) (hnt W (.inr rfl))
        · have : ∀ X, X = V ∨ X = W → nt X = [] := by
            intro X hX
            rcases (hn X hX).2 with h2 | ⟨h2, -⟩
            · exact h2
            · exact absurd h2 hc
          rw [this V (.inl rfl), this W (.inr rfl)]
          exact SameParse.refl _ _
    · -- the end of a snippet
      have hcnt : (st1.counter != st.counter) = true := by rw [c4]; simp
      have hlink := isLink_linkLine hbase st.counter
      simp only [hcnt, Bool.and_true] at step ⊢
      refine ⟨true, o1.add ⟨nt W, []⟩, ?_, ?_, by simp [Extracted.add], ⟨fun _ => ?_, fun _ => ?_⟩, ?_, fun e => by subst e; rfl⟩
      · rw [hsec, show (o1.add ⟨nt V, []⟩).lines = l :: linkLine base st.counter :: ['\n'] :: nt V by simp [Extracted.add, c5],
          againRun, step false W k (.inr rfl) (.inr (.inl rfl)), Option.bind_some]
        simp only [Bool.false_eq_true, if_false]
        have e1 : againStep base false W (false, st1) (linkLine base st.counter) = some ((false, st1.skipping true), {}) := by
          have := extractLine_link base (st := st1) hlink.noTitle hlink.link c1
          rw [skipping_self st1 c2] at this
          rw [againStep_single base false W (hlink.notes W) this]
          rfl
        have e2 : againStep base false W (false, st1.skipping true) ['\n'] = some ((false, st1.skipping true), {}) := by
          rw [againStep_single base false W (isExample_newline.notes W) (extractLine_dropped base st1 (by decide))]
          rfl
        rw [againRun, e1, Option.bind_some]
        simp only
        rw [againRun, e2, Option.bind_some]
        simp only
        rw [hdrop]
        simp only [Option.map_some, Extracted.nil_add, Extracted.add_nil]
        cases b <;> simp [second, ExtractState.skipping]
      · rw [hthird, step true W _ (.inr rfl) (.inr (.inr rfl))]
        cases b <;> simp [third, ExtractState.skipping]
      · cases b
        · exact c3 hc
        · exact c3 hc
      · cases b
        · exact c1
        · exact c1
      · rw [show (o1.add ⟨nt V, []⟩).lines = l :: linkLine base st.counter :: ['\n'] :: nt V by simp [Extracted.add, c5],
          show (o1.add ⟨nt W, []⟩).lines = l :: linkLine base st.counter :: ['\n'] :: nt W by simp [Extracted.add, c5]]
        have hq : ∀ X, X = V ∨ X = W → Quiet (linkLine base st.counter :: ['\n'] :: nt X) := by
          intro X hX x hx
          rcases List.mem_cons.1 hx with rfl | hx
          · exact ⟨hlink.notCode, hlink.neutral⟩
          · rcases List.mem_cons.1 hx with rfl | hx
            · exact ⟨by decide, by decide⟩
            · exact hnt X hX x hx
        exact SameParse.cons k true hc (hq V (.inl rfl)) (hq W (.inr rfl))

/-- The title of the section of definitions. -/
theorem good_definitions {base : Str} (hbase : ClearName base) {b : Bool} {V W : List Str} (hV : GoodNames V) (hW : GoodNames W)
    {st : ExtractState} {l : Str} {k : Bool} (he : st.inExamples = false) (hd : strip l = definitionsTitle)
    (hc : isCode l = false) (ht : isIn examplesTitle l = false) (hl : isIn linkMark l = false)
    {s' : Bool × ExtractState} {o : Extracted} (hs : againStep base b V (false, st) l = some (s', o)) :
    StepGood base V W l (false, st) k s' o := by
  have hb : strip l ≠ [] := by rw [hd]; decide
  have hx : ∀ j, extractLine base (st.skipping j) l = extractOrdinary base (st.skipping false) l := by
    intro j
    rw [extractLine_skip base st (.inl hb), extractLine_ordinary base ht hl he]
  cases hord : extractOrdinary base (st.skipping false) l with
  | none =>
    exfalso
    have h1 := hx st.skipEmpty
    rw [skipping_self st rfl, hord] at h1
    rw [againStep, notesStep, if_pos hd] at hs
    simp [extractRun, h1] at hs
  | some r =>
    obtain ⟨st1, o1⟩ := r
    obtain ⟨c1, c2, c3, c4⟩ := ordinary_cases hord
    have c1 : st1.inExamples = false := c1.trans he
    have c2 : st1.skipEmpty = false := c2
    have c4 : (st1.counter = st.counter ∧ o1.lines = [l]) ∨
      (isCode l = false ∧ st1.counter = st.counter + 1 ∧ o1.lines = [l, linkLine base st.counter, ['\n']]) := c4
    have hgood : ∀ X, X = V ∨ X = W → GoodNames X := by rintro X (rfl | rfl) <;> assumption
    have step : ∀ b X j, X = V ∨ X = W →
        againStep base b X (false, st.skipping j) l =
          some ((true, st1), o1.add ⟨['\n'] :: (X.map includeLine ++ [['\n']]), []⟩) := by
      intro b X j hX
      have hrun : extractRun base (st.skipping j) (l :: ['\n'] :: (X.map includeLine ++ [['\n']])) =
          some (st1, o1.add ⟨['\n'] :: (X.map includeLine ++ [['\n']]), []⟩) := by
        rw [extractRun, hx j, hord, Option.bind_some]
        simp only
        have := extractRun_plain base (c3 hc) c1 (ls := ['\n'] :: (X.map includeLine ++ [['\n']])) (by
          intro x hx
          simp only [List.mem_cons, List.mem_append, List.mem_map, List.not_mem_nil, or_false] at hx
          rcases hx with rfl | ⟨n, hn, rfl⟩ | rfl
          · exact .inr rfl
          · exact .inl (plain_includeLine (hgood X hX n hn))
          · exact .inr rfl)
        rw [skipping_self st1 c2] at this
        rw [this]
        rfl
      rw [againStep, notesStep, if_pos hd]
      simp only [hrun, Option.map_some]
      simp
    have h1 := step b V st.skipEmpty (.inl rfl)
    rw [skipping_self st rfl] at h1
    rw [h1] at hs
    simp only [Option.some.injEq, Prod.mk.injEq] at hs
    obtain ⟨rfl, rfl⟩ := hs
    have hnend : ∀ n, strip (includeLine n) ≠ lit "[endsect]" := fun n =>
      strip_bracket (lit "endsect]") (lit "include before_" ++ n ++ lit ".qbk]\n") (by simp [lit])
    have hq : ∀ X, X = V ∨ X = W → Quiet (['\n'] :: (X.map includeLine ++ [['\n']])) := by
      intro X hX x hx
      simp only [List.mem_cons, List.mem_append, List.mem_map, List.not_mem_nil, or_false] at hx
      rcases hx with rfl | ⟨n, hn, rfl⟩ | rfl
      · exact ⟨by decide, by decide⟩
      · exact ⟨(plain_includeLine (hgood X hX n hn)).notCode, (plain_includeLine (hgood X hX n hn)).neutral⟩
      · exact ⟨by decide, by decide⟩
    have hlink := isLink_linkLine hbase st.counter
    obtain ⟨ins, hins, hins1, hins2⟩ : ∃ ins, o1.lines = l :: ins ∧ (∀ x ∈ ins, strip x ≠ lit "[endsect]") ∧ Quiet ins := by
      rcases c4 with ⟨-, c5⟩ | ⟨-, -, c5⟩
      · exact ⟨[], c5, fun x hx => by simp at hx, fun x hx => by simp at hx⟩
      · refine ⟨_, c5, ?_, ?_⟩
        · intro x hx
          simp only [List.mem_cons, List.not_mem_nil, or_false] at hx
          rcases hx with rfl | rfl
          · exact hlink.notEnd
          · decide
        · intro x hx
          simp only [List.mem_cons, List.not_mem_nil, or_false] at hx
          rcases hx with rfl | rfl
          · exact ⟨hlink.notCode, hlink.neutral⟩
          · exact ⟨by decide, by decide⟩
    refine ⟨false, o1.add ⟨['\n'] :: (W.map includeLine ++ [['\n']]), []⟩, ?_, ?_, by simp [Extracted.add], Again.no _, ?_, fun e => by subst e; rfl⟩
    · rw [show second (false, st) k = (false, st.skipping k) from rfl,
        show (o1.add ⟨['\n'] :: (V.map includeLine ++ [['\n']]), []⟩).lines = l :: (ins ++ ['\n'] :: (V.map includeLine ++ [['\n']])) by
          simp [Extracted.add, hins],
        againRun, step false W k (.inr rfl), Option.bind_some]
      simp only
      rw [againRun_definitions base W st1]
      · simp [second, c1, skipping_self st1 c2, Extracted.add_nil]
      · intro x hx
        simp only [List.mem_cons, List.mem_append, List.mem_map, List.not_mem_nil, or_false] at hx
        rcases hx with hx | rfl | ⟨n, -, rfl⟩ | rfl
        · exact hins1 x hx
        · decide
        · exact hnend n
        · decide
    · rw [show third (false, st) k = (false, st.skipping (st.skipEmpty || k)) from rfl, step true W _ (.inr rfl), third_false]
    · rw [show (o1.add ⟨['\n'] :: (V.map includeLine ++ [['\n']]), []⟩).lines = l :: (ins ++ ['\n'] :: (V.map includeLine ++ [['\n']])) by
          simp [Extracted.add, hins],
        show (o1.add ⟨['\n'] :: (W.map includeLine ++ [['\n']]), []⟩).lines = l :: (ins ++ ['\n'] :: (W.map includeLine ++ [['\n']])) by
          simp [Extracted.add, hins]]
      have : ∀ X, X = V ∨ X = W → Quiet (ins ++ ['\n'] :: (X.map includeLine ++ [['\n']])) := by
        intro X hX x hx
        rcases List.mem_append.1 hx with hx | hx
        · exact hins2 x hx
        · exact hq X hX x hx
      exact SameParse.cons k false hc (this V (.inl rfl)) (this W (.inr rfl))

end Metaparse.Gen
