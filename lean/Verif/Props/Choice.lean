import Verif.Lemmas.Lists
import Verif.Lemmas.Position
import Verif.Lemmas.Check
/-!
# `one_of`

C19 (ordered choice), C20 (the reported error), C21 (every alternative is evaluated).
-/

namespace Metaparse

variable {I : Type} {E : Env I}

/-- Every alternative produces an outcome (accepts or rejects). -/
def AllFinish (E : Env I) (ps : List P) (s : I) (pos : Pos) : Prop :=
  ∀ p ∈ ps, ∃ r, run E p s pos = .ok r

/-- The alternative `p` is the first of `ps` that accepts. -/
def FirstAccepting (E : Env I) (ps : List P) (s : I) (pos : Pos) (v : Val) (s' : I) (pos' : Pos) :
    Prop :=
  ∃ before p after, ps = before ++ p :: after ∧
    (∀ q ∈ before, ∃ m e, Rejects E q s pos m e) ∧ Accepts E p s pos v s' pos'

/-- Every alternative rejects. -/
def AllReject (E : Env I) (ps : List P) (s : I) (pos : Pos) : Prop :=
  ∀ p ∈ ps, ∃ m e, Rejects E p s pos m e

/-- `e` is the furthest among `pos` and the error positions of the alternatives, and if it is beyond
`pos`, then `m` is the message of the last alternative failing there. -/
structure Furthest (E : Env I) (ps : List P) (s : I) (pos : Pos) (m : Msg) (e : Pos) : Prop where
  notBeforeStart : e.less pos = false
  furthest : ∀ p ∈ ps, ∀ m' e', Rejects E p s pos m' e' → e.less e' = false
  reached : e = pos ∨ ∃ p ∈ ps, ∃ m', Rejects E p s pos m' e
  lastThere : e ≠ pos → ∃ before p after, ps = before ++ p :: after ∧ Rejects E p s pos m e ∧
    ∀ q ∈ after, ∀ m' e', Rejects E q s pos m' e' → e'.less e = true

/-! ### The two implementations -/

theorem oneOf11_spec (s : I) (pos : Pos) : ∀ (ps : List P) (r : Res I),
    Comb.oneOf11 (ps.map (run E)) s pos = .ok r →
      AllFinish E ps s pos ∧
      match r with
      | .acc v s' pos' => FirstAccepting E ps s pos v s' pos'
      | .rej m e => AllReject E ps s pos ∧ Furthest E ps s pos m e ∧
          (e = pos → m = .noneOfTheExpectedCasesFound) := by
  intro ps
  induction ps with
  | nil =>
    intro r h
    cases h
    refine ⟨by simp [AllFinish], by simp [AllReject], ⟨Pos.less_irrefl pos, by simp, .inl rfl,
      fun h => absurd rfl h⟩, fun _ => rfl⟩
  | cons p ps ih =>
    intro r h
    simp only [List.map, Comb.oneOf11, Out.bind_eq_ok] at h
    obtain ⟨r1, h1, r2, h2, h⟩ := h
    obtain ⟨hall, hr2⟩ := ih r2 h2
    have hall' : AllFinish E (p :: ps) s pos := by
      intro q hq
      rcases List.mem_cons.1 hq with rfl | hq
      · exact ⟨_, h1⟩
      · exact hall q hq
    refine ⟨hall', ?_⟩
    cases r1 with
    | acc v s' q => cases h; exact ⟨[], p, ps, rfl, by simp, h1⟩
    | rej m1 e1 =>
      cases r2 with
      | acc v s' q =>
        cases h
        obtain ⟨b, p', a, rfl, hb, ha⟩ := hr2
        refine ⟨p :: b, p', a, rfl, ?_, ha⟩
        intro q hq
        rcases List.mem_cons.1 hq with rfl | hq
        · exact ⟨_, _, h1⟩
        · exact hb q hq
      | rej m2 e2 =>
        obtain ⟨hrej, hfar, hmsg⟩ := hr2
        have hrej' : AllReject E (p :: ps) s pos := by
          intro q hq
          rcases List.mem_cons.1 hq with rfl | hq
          · exact ⟨_, _, h1⟩
          · exact hrej q hq
        simp only at h
        split at h
        · rename_i hless
          cases h
          refine ⟨hrej', ⟨?_, ?_, ?_, ?_⟩, ?_⟩
          · cases h' : e1.less pos with
            | false => rfl
            | true =>
              have := Pos.less_trans hless h'
              rw [hfar.notBeforeStart] at this; cases this
          · intro q hq m' e' hr
            rcases List.mem_cons.1 hq with rfl | hq
            · obtain ⟨rfl, rfl⟩ := Rejects.unique (show Rejects E q s pos _ _ from h1) hr
              exact Pos.less_irrefl _
            · have := hfar.furthest q hq m' e' hr
              cases h' : e1.less e' with
              | false => rfl
              | true => rw [Pos.less_trans hless h'] at this; cases this
          · exact .inr ⟨p, List.mem_cons_self .., m1, h1⟩
          · intro _
            refine ⟨[], p, ps, rfl, h1, ?_⟩
            intro q hq m' e' hr
            have := hfar.furthest q hq m' e' hr
            rcases Pos.less_trichotomy e' e1 with h' | rfl | h'
            · exact h'
            · rw [hless] at this; cases this
            · rw [Pos.less_trans hless h'] at this; cases this
          · rintro rfl
            rw [hfar.notBeforeStart] at hless; cases hless
        · rename_i hless
          cases h
          have hless : e2.less e1 = false := by simpa using hless
          refine ⟨hrej', ⟨hfar.notBeforeStart, ?_, ?_, ?_⟩, hmsg⟩
          · intro q hq m' e' hr
            rcases List.mem_cons.1 hq with rfl | hq
            · obtain ⟨rfl, rfl⟩ := Rejects.unique (show Rejects E q s pos _ _ from h1) hr
              exact hless
            · exact hfar.furthest q hq m' e' hr
          · rcases hfar.reached with h' | ⟨q, hq, m', hr⟩
            · exact .inl h'
            · exact .inr ⟨q, List.mem_cons_of_mem _ hq, m', hr⟩
          · intro hne
            obtain ⟨b, p', a, rfl, hr, ha⟩ := hfar.lastThere hne
            exact ⟨p :: b, p', a, rfl, hr, ha⟩

/-- What the C++98 loop gives, started with the outcome `st`. -/
theorem oneOf98Loop_spec (s : I) (pos : Pos) : ∀ (done ps : List P) (st r : Res I),
    (match st with
      | .acc v s' pos' => FirstAccepting E done s pos v s' pos'
      | .rej m e => AllReject E done s pos ∧ Furthest E done s pos m e) →
    AllFinish E done s pos →
    Comb.oneOf98Loop s pos (ps.map (run E)) st = .ok r →
      AllFinish E (done ++ ps) s pos ∧
      match r with
      | .acc v s' pos' => FirstAccepting E (done ++ ps) s pos v s' pos'
      | .rej m e => AllReject E (done ++ ps) s pos ∧ Furthest E (done ++ ps) s pos m e := by
  intro done ps
  induction ps generalizing done with
  | nil =>
    intro st r hst hall h
    cases h
    simp only [List.append_nil]
    exact ⟨hall, hst⟩
  | cons p ps ih =>
    intro st r hst hall h
    simp only [List.map, Comb.oneOf98Loop, Out.bind_eq_ok] at h
    obtain ⟨r1, h1, h⟩ := h
    have hall' : AllFinish E (done ++ [p]) s pos := by
      intro q hq
      rcases List.mem_append.1 hq with hq | hq
      · exact hall q hq
      · simp only [List.mem_singleton] at hq; subst hq; exact ⟨_, h1⟩
    have := ih (done ++ [p]) (Comb.oneOf98Op st r1) r ?_ hall' h
    · simpa using this
    cases st with
    | acc v s' q =>
      obtain ⟨b, p', a, rfl, hb, ha⟩ := hst
      exact ⟨b, p', a ++ [p], by simp, hb, ha⟩
    | rej m e =>
      obtain ⟨hrej, hfar⟩ := hst
      cases r1 with
      | acc v s' q => exact ⟨done, p, [], rfl, hrej, h1⟩
      | rej m1 e1 =>
        have hrej' : AllReject E (done ++ [p]) s pos := by
          intro q hq
          rcases List.mem_append.1 hq with hq | hq
          · exact hrej q hq
          · simp only [List.mem_singleton] at hq; subst hq; exact ⟨_, _, h1⟩
        simp only [Comb.oneOf98Op]
        by_cases hless : e1.less e = true
        · simp only [if_pos hless]
          refine ⟨hrej', ⟨hfar.notBeforeStart, ?_, ?_, ?_⟩⟩
          · intro q hq m' e' hr
            rcases List.mem_append.1 hq with hq | hq
            · exact hfar.furthest q hq m' e' hr
            · simp only [List.mem_singleton] at hq; subst hq
              obtain ⟨rfl, rfl⟩ := Rejects.unique (show Rejects E q s pos _ _ from h1) hr
              exact Pos.less_asymm hless
          · rcases hfar.reached with h' | ⟨q, hq, m', hr⟩
            · exact .inl h'
            · exact .inr ⟨q, List.mem_append_left _ hq, m', hr⟩
          · intro hne
            obtain ⟨b, p', a, rfl, hr, ha⟩ := hfar.lastThere hne
            refine ⟨b, p', a ++ [p], by simp, hr, ?_⟩
            intro q hq m' e' hr'
            rcases List.mem_append.1 hq with hq | hq
            · exact ha q hq m' e' hr'
            · simp only [List.mem_singleton] at hq; subst hq
              obtain ⟨rfl, rfl⟩ := Rejects.unique (show Rejects E q s pos _ _ from h1) hr'
              exact hless
        · simp only [if_neg hless]
          have hless : e1.less e = false := by simpa using hless
          refine ⟨hrej', ⟨?_, ?_, ?_, ?_⟩⟩
          · have := hfar.notBeforeStart
            cases h' : e1.less pos with
            | false => rfl
            | true =>
              rcases Pos.less_trichotomy e e1 with h2 | rfl | h2
              · rw [Pos.less_trans h2 h'] at this; cases this
              · rw [h'] at this; cases this
              · rw [h2] at hless; cases hless
          · intro q hq m' e' hr
            rcases List.mem_append.1 hq with hq | hq
            · have := hfar.furthest q hq m' e' hr
              cases h' : e1.less e' with
              | false => rfl
              | true =>
                rcases Pos.less_trichotomy e e1 with h2 | rfl | h2
                · rw [Pos.less_trans h2 h'] at this; cases this
                · rw [h'] at this; cases this
                · rw [h2] at hless; cases hless
            · simp only [List.mem_singleton] at hq; subst hq
              obtain ⟨rfl, rfl⟩ := Rejects.unique (show Rejects E q s pos _ _ from h1) hr
              exact Pos.less_irrefl _
          · exact .inr ⟨p, by simp, m1, h1⟩
          · intro hne
            exact ⟨done, p, [], rfl, h1, by simp⟩

/-- `m` is the message of the last alternative failing at `e` or beyond. -/
def LastAt (E : Env I) (ps : List P) (s : I) (pos : Pos) (m : Msg) (e : Pos) : Prop :=
  ∃ before p after, ps = before ++ p :: after ∧ Rejects E p s pos m e ∧
    ∀ q ∈ after, ∀ m' e', Rejects E q s pos m' e' → e'.less e = true

theorem oneOf98Loop_message (s : I) (pos : Pos) : ∀ (done ps : List P) (st : Res I) (m : Msg)
    (e : Pos),
    (∀ m0 e0, st = .rej m0 e0 → LastAt E done s pos m0 e0 ∨
      (m0 = .noneOfTheExpectedCasesFound ∧ e0 = pos ∧
        ∀ p ∈ done, ∀ m' e', Rejects E p s pos m' e' → e'.less pos = true)) →
    Comb.oneOf98Loop s pos (ps.map (run E)) st = .ok (.rej m e) →
      LastAt E (done ++ ps) s pos m e ∨
      (m = .noneOfTheExpectedCasesFound ∧ e = pos ∧
        ∀ p ∈ done ++ ps, ∀ m' e', Rejects E p s pos m' e' → e'.less pos = true) := by
  intro done ps
  induction ps generalizing done with
  | nil => intro st m e hst h; cases h; simpa using hst m e rfl
  | cons p ps ih =>
    intro st m e hst h
    simp only [List.map, Comb.oneOf98Loop, Out.bind_eq_ok] at h
    obtain ⟨r1, h1, h⟩ := h
    have := ih (done ++ [p]) (Comb.oneOf98Op st r1) m e ?_ h
    · simpa using this
    intro m0 e0 heq
    cases st with
    | acc v s' q => simp [Comb.oneOf98Op] at heq
    | rej m2 e2 =>
      cases r1 with
      | acc v s' q => simp [Comb.oneOf98Op] at heq
      | rej m1 e1 =>
        simp only [Comb.oneOf98Op] at heq
        split at heq
        · rename_i hless
          cases heq
          rcases hst _ _ rfl with ⟨b, p', a, rfl, hr, ha⟩ | ⟨rfl, rfl, hd⟩
          · refine .inl ⟨b, p', a ++ [p], by simp, hr, ?_⟩
            intro q hq m' e' hr'
            rcases List.mem_append.1 hq with hq | hq
            · exact ha q hq m' e' hr'
            · simp only [List.mem_singleton] at hq; subst hq
              obtain ⟨rfl, rfl⟩ := Rejects.unique (show Rejects E q s pos _ _ from h1) hr'
              exact hless
          · refine .inr ⟨rfl, rfl, ?_⟩
            intro q hq m' e' hr'
            rcases List.mem_append.1 hq with hq | hq
            · exact hd q hq m' e' hr'
            · simp only [List.mem_singleton] at hq; subst hq
              obtain ⟨rfl, rfl⟩ := Rejects.unique (show Rejects E q s _ _ _ from h1) hr'
              exact hless
        · cases heq
          exact .inl ⟨done, p, [], rfl, h1, by simp⟩

theorem oneOf98Loop_total (s : I) (pos : Pos) : ∀ (ps : List P) (st : Res I),
    AllFinish E ps s pos → ∃ r, Comb.oneOf98Loop s pos (ps.map (run E)) st = .ok r := by
  intro ps
  induction ps with
  | nil => intro st _; exact ⟨st, rfl⟩
  | cons p ps ih =>
    intro st h
    obtain ⟨r, hr⟩ := h p (List.mem_cons_self ..)
    simp only [List.map, Comb.oneOf98Loop, hr, Out.bind_ok]
    exact ih _ fun q hq => h q (List.mem_cons_of_mem _ hq)

theorem oneOf11_total (s : I) (pos : Pos) : ∀ (ps : List P),
    AllFinish E ps s pos → ∃ r, Comb.oneOf11 (ps.map (run E)) s pos = .ok r := by
  intro ps
  induction ps with
  | nil => intro _; exact ⟨_, rfl⟩
  | cons p ps ih =>
    intro h
    obtain ⟨r1, hr1⟩ := h p (List.mem_cons_self ..)
    obtain ⟨r2, hr2⟩ := ih fun q hq => h q (List.mem_cons_of_mem _ hq)
    simp only [List.map, Comb.oneOf11, hr1, hr2, Out.bind_ok]
    cases r1 <;> cases r2 <;> simp
    split <;> simp

/-- What an outcome of `one_of` says about the alternatives. -/
def OneOfSpec (E : Env I) (ps : List P) (s : I) (pos : Pos) : Res I → Prop
  | .acc v s' pos' => FirstAccepting E ps s pos v s' pos'
  | .rej m e => AllReject E ps s pos ∧ Furthest E ps s pos m e

theorem oneOf_spec (ps : List P) (s : I) (pos : Pos) (r : Res I)
    (h : run E (.oneOf ps) s pos = .ok r) :
    AllFinish E ps s pos ∧ OneOfSpec E ps s pos r := by
  rw [run_step] at h
  simp only [step] at h
  have key : Comb.oneOf11 (ps.map (run E)) s pos = .ok r →
      AllFinish E ps s pos ∧ OneOfSpec E ps s pos r := by
    intro h
    obtain ⟨h1, h2⟩ := oneOf11_spec s pos ps r h
    refine ⟨h1, ?_⟩
    cases r with
    | acc v s' q => exact h2
    | rej m e => exact ⟨h2.1, h2.2.1⟩
  cases hstd : E.std <;> simp only [hstd] at h
  · simp only [Comb.oneOf98, List.length_map] at h
    split at h
    · have := oneOf98Loop_spec (E := E) s pos [] ps (.rej .noneOfTheExpectedCasesFound pos) r ?_ ?_ h
      · simp only [List.nil_append] at this
        refine ⟨this.1, ?_⟩
        cases r with
        | acc v s' q => exact this.2
        | rej m e => exact this.2
      · exact ⟨by simp [AllReject], ⟨Pos.less_irrefl pos, by simp, .inl rfl, fun h => absurd rfl h⟩⟩
      · simp [AllFinish]
    · cases h
  · exact key h
  · exact key h

theorem oneOf_total (ps : List P) (hs : E.SupportsOneOf ps.length) (s : I) (pos : Pos)
    (h : AllFinish E ps s pos) : ∃ r, run E (.oneOf ps) s pos = .ok r := by
  rw [run_step]
  simp only [step]
  cases hstd : E.std
  · simp only [Comb.oneOf98, List.length_map]
    rw [if_pos (hs hstd)]
    exact oneOf98Loop_total s pos ps _ h
  · exact oneOf11_total s pos ps h
  · exact oneOf11_total s pos ps h

theorem FirstAccepting.unique {ps : List P} {s : I} {pos : Pos} {v v' : Val} {s1 s1' : I}
    {q q' : Pos} (h : FirstAccepting E ps s pos v s1 q) (h' : FirstAccepting E ps s pos v' s1' q') :
    v = v' ∧ s1 = s1' ∧ q = q' := by
  obtain ⟨b, p, a, rfl, hb, ha⟩ := h
  obtain ⟨b', p', a', he, hb', ha'⟩ := h'
  induction b generalizing b' with
  | nil =>
    cases b' with
    | nil =>
      simp only [List.nil_append, List.cons.injEq] at he
      obtain ⟨rfl, rfl⟩ := he
      exact ha.unique ha'
    | cons x b' =>
      simp only [List.nil_append, List.cons_append, List.cons.injEq] at he
      obtain ⟨rfl, rfl⟩ := he
      obtain ⟨m, e, hr⟩ := hb' p (List.mem_cons_self ..)
      exact (ha.not_rejects hr).elim
  | cons x b ih =>
    cases b' with
    | nil =>
      simp only [List.nil_append, List.cons_append, List.cons.injEq] at he
      obtain ⟨rfl, rfl⟩ := he
      obtain ⟨m, e, hr⟩ := hb x (List.mem_cons_self ..)
      exact (ha'.not_rejects hr).elim
    | cons x' b' =>
      simp only [List.cons_append, List.cons.injEq] at he
      exact ih (fun q hq => hb q (List.mem_cons_of_mem _ hq)) b' he.2
        (fun q hq => hb' q (List.mem_cons_of_mem _ hq))

theorem FirstAccepting.not_allReject {ps : List P} {s : I} {pos : Pos} {v : Val} {s1 : I} {q : Pos}
    (h : FirstAccepting E ps s pos v s1 q) (h' : AllReject E ps s pos) : False := by
  obtain ⟨b, p, a, rfl, _, ha⟩ := h
  obtain ⟨m, e, hr⟩ := h' p (by simp)
  exact ha.not_rejects hr

/-! ## C19 -/

/-- `one_of` accepts iff some alternative accepts (and all of them finish), with the outcome of
the first one that accepts.  In every supported C++ standard. -/
theorem C19_oneOf_accepts (ps : List P) (hs : E.SupportsOneOf ps.length) (s : I) (pos : Pos)
    (v : Val) (s' : I) (pos' : Pos) :
    Accepts E (.oneOf ps) s pos v s' pos' ↔
      AllFinish E ps s pos ∧ FirstAccepting E ps s pos v s' pos' := by
  constructor
  · intro h; exact oneOf_spec ps s pos _ h
  · rintro ⟨hall, hf⟩
    obtain ⟨r, hr⟩ := oneOf_total ps hs s pos hall
    have := (oneOf_spec ps s pos r hr).2
    cases r with
    | acc v2 s2 q2 =>
      obtain ⟨rfl, rfl, rfl⟩ := hf.unique this
      exact hr
    | rej m e => exact (hf.not_allReject this.1).elim

/-- The second alternative accepts; the third would too. -/
example : Accepts env11 (.oneOf [P.digit, P.letter, .oneChar]) (txt "x") start (.chr (ch 'x')) []
    ⟨1, 2, ch 'x'⟩ := accepts_of_eval 20 (by decide +kernel)
example : env98.SupportsOneOf 3 ∧ env11.SupportsOneOf 300 :=
  ⟨fun _ => by decide, fun h => by cases h⟩

/-! ## C20 -/

/-- `one_of` rejects iff every alternative rejects. -/
theorem C20_oneOf_rejects_iff (ps : List P) (hs : E.SupportsOneOf ps.length) (s : I) (pos : Pos) :
    (∃ m e, Rejects E (.oneOf ps) s pos m e) ↔ AllReject E ps s pos := by
  constructor
  · rintro ⟨m, e, h⟩; exact (oneOf_spec ps s pos _ h).2.1
  · intro h
    obtain ⟨r, hr⟩ := oneOf_total ps hs s pos
      (fun p hp => let ⟨m, e, h⟩ := h p hp; ⟨_, h⟩)
    have := (oneOf_spec ps s pos r hr).2
    cases r with
    | acc v s' q => exact (this.not_allReject h).elim
    | rej m e => exact ⟨m, e, hr⟩

/-- The error reported is the furthest one, and among equals the last alternative's. -/
theorem C20_oneOf_furthest (ps : List P) (s : I) (pos : Pos) (m : Msg) (e : Pos)
    (h : Rejects E (.oneOf ps) s pos m e) : Furthest E ps s pos m e :=
  (oneOf_spec ps s pos _ h).2.2

/-- In C++11 and C++14, when no alternative got beyond the starting position the message is
`none_of_the_expected_cases_found`. -/
theorem C20_oneOf_message_at_start (hstd : E.std ≠ .cpp98) (ps : List P) (s : I) (pos : Pos)
    (m : Msg) (h : Rejects E (.oneOf ps) s pos m pos) : m = .noneOfTheExpectedCasesFound := by
  unfold Rejects at h
  rw [run_step] at h
  unfold step at h
  cases h' : E.std <;> simp only [h'] at h
  · exact absurd h' hstd
  · exact (oneOf11_spec s pos ps _ h).2.2.2 rfl
  · exact (oneOf11_spec s pos ps _ h).2.2.2 rfl

/-- In C++98 it is the message of the last alternative failing there; the message is
`none_of_the_expected_cases_found` only when all alternatives fail before the starting position (for
parsers that report honest positions: only when there is no alternative). -/
theorem C20_oneOf_message_at_start_98 (hstd : E.std = .cpp98) (ps : List P) (s : I) (pos : Pos)
    (m : Msg) (h : Rejects E (.oneOf ps) s pos m pos) :
    LastAt E ps s pos m pos ∨ (m = .noneOfTheExpectedCasesFound ∧
      ∀ p ∈ ps, ∀ m' e', Rejects E p s pos m' e' → e'.less pos = true) := by
  unfold Rejects at h
  rw [run_step] at h
  simp only [step, hstd, Comb.oneOf98, List.length_map] at h
  split at h
  · rcases oneOf98Loop_message s pos [] ps _ m pos (by rintro _ _ ⟨⟩; simp) h with h | h
    · exact .inl h
    · exact .inr ⟨h.1, h.2.2⟩
  · cases h

/-- "abx" with three keywords: rejected at the third character; "x": rejected at the start, with different messages in
C++98 and C++11. -/
example : Furthest env11 [.keyword (txt "abc") .void_, .keyword (txt "b") .void_] (txt "abx") start
    (.literalExpected (ch 'c')) ⟨1, 3, ch 'b'⟩ :=
  C20_oneOf_furthest _ _ _ _ _ (rejects_of_eval 20 (by decide +kernel))

example : AllReject env98 [P.digit, P.letter] (txt "+") start :=
  (C20_oneOf_rejects_iff _ (fun _ => by decide) _ _).1 ⟨.letterExpected, start, rejects_of_eval 20 (by decide +kernel)⟩

example {m : Msg} (h : Rejects env11 (.oneOf [P.digit, P.letter]) (txt "+") start m start) :
    m = .noneOfTheExpectedCasesFound := C20_oneOf_message_at_start (by decide) _ _ _ _ h

example : Rejects env11 (.oneOf [P.digit, P.letter]) (txt "+") start .noneOfTheExpectedCasesFound start :=
  rejects_of_eval 20 (by decide +kernel)

example : LastAt env98 [P.digit, P.letter] (txt "+") start .letterExpected start := by
  rcases C20_oneOf_message_at_start_98 (E := env98) rfl [P.digit, P.letter] (txt "+") start .letterExpected
    (rejects_of_eval 20 (by decide +kernel)) with h | ⟨h, -⟩
  · exact h
  · exact absurd h (by decide)

/-- The reported message depends on the C++ standard in use. -/
theorem C20_oneOf_message_differs :
    Rejects env11 (.oneOf [P.digit, P.letter]) (txt "!") start .noneOfTheExpectedCasesFound start ∧
    Rejects env98 (.oneOf [P.digit, P.letter]) (txt "!") start .letterExpected start :=
  ⟨rejects_of_eval 20 (by decide +kernel), rejects_of_eval 20 (by decide +kernel)⟩

/-- `"abx"` against `"abc"`, `"azz"`, `"abd"`, `"b"`: the furthest errors are those of the first and
the third, the last of these is reported. -/
example : Rejects env11 (.oneOf [.keyword (txt "abc") .void_, .keyword (txt "azz") .void_,
      .keyword (txt "abd") .void_, .keyword (txt "b") .void_]) (txt "abx") start
    (.literalExpected (ch 'd')) ⟨1, 3, ch 'b'⟩ := rejects_of_eval 20 (by decide +kernel)

/-! ## C21 -/

/-- If `one_of` produces an outcome, every alternative does; equivalently, one alternative that
does not compile or does not finish is enough for `one_of` to give nothing. -/
theorem C21_oneOf_evaluates_all (ps : List P) (s : I) (pos : Pos)
    (h : ∃ p ∈ ps, IllFormed E p s pos ∨ Diverges E p s pos) :
    IllFormed E (.oneOf ps) s pos ∨ Diverges E (.oneOf ps) s pos := by
  obtain ⟨p, hp, h⟩ := h
  have hno : ∀ r, run E (.oneOf ps) s pos ≠ .ok r := by
    intro r hr
    obtain ⟨r', hr'⟩ := (oneOf_spec ps s pos r hr).1 p hp
    rcases h with ⟨f, hf⟩ | h
    · rw [hr'] at hf; cases hf
    · unfold Diverges at h; rw [hr'] at h; cases h
  unfold IllFormed Diverges
  cases hr : run E (.oneOf ps) s pos with
  | ok r => exact (hno r hr).elim
  | ill f => exact .inl ⟨f, rfl⟩
  | deep => exact .inr rfl

/-- The first alternative accepts, but the second one overflows: no result. -/
example : run env11 (.oneOf [.oneChar, P.int_]) (txt "99999999999") start = .ill .overflow ∧
    Accepts env11 .oneChar (txt "99999999999") start (.chr (ch '9')) (txt "9999999999")
      ⟨1, 2, ch '9'⟩ :=
  ⟨ill_of_eval 30 (by decide +kernel), accepts_of_eval 30 (by decide +kernel)⟩

end Metaparse
