import Verif.Lemmas.GrammarBuild
import Verif.Props.Grammar
/-!
# Properties of grammars

C48 (a grammar behaves as its rules mean), C49 (definitions and redefinitions), C50 (which grammars
can be built).
-/

namespace Metaparse

open Grammar

variable {E : Env (List Chr)}

/-! ## C48 -/

/-- The outcome of a parser, as in `Means`. -/
def Gives (E : Env (List Chr)) (p : P) (s : List Chr) (pos : Pos) :
    Option (Val × List Chr × Pos) → Prop
  | some (v, s', pos') => Accepts E p s pos v s' pos'
  | none => ∃ m e, Rejects E p s pos m e

theorem Gives.finishes {p : P} {s : List Chr} {pos : Pos} {r : Option (Val × List Chr × Pos)}
    (h : Gives E p s pos r) : ∃ r, run E p s pos = .ok r := by
  cases r with
  | none => exact Rejects.finishes h
  | some x => exact ⟨_, h⟩

theorem gives_of_run {p : P} {s : List Chr} {pos : Pos} {r : Res (List Chr)}
    (h : run E p s pos = .ok r) : ∃ x, Gives E p s pos x := by
  cases r with
  | acc v s' pos' => exact ⟨some (v, s', pos'), h⟩
  | rej m e => exact ⟨none, m, e, h⟩

theorem gives_seq (hs : E.SupportsSequence 2) {p q : P} {s : List Chr} {pos : Pos} {r} :
    Gives E (.sequence [p, q]) s pos r ↔
      (Gives E p s pos none ∧ r = none) ∨
      ∃ v s1 pos1, Gives E p s pos (some (v, s1, pos1)) ∧
        ((Gives E q s1 pos1 none ∧ r = none) ∨
          ∃ w s2 pos2, Gives E q s1 pos1 (some (w, s2, pos2)) ∧ r = some (.seq [v, w], s2, pos2)) := by
  constructor
  · intro h
    cases r with
    | none =>
      obtain ⟨m, e, h⟩ := h
      obtain ⟨b, x, a, vs, s1, pos1, heq, hb, hx⟩ := (C22_sequence_rejects _ hs ..).1 h
      cases hb with
      | nil => cases heq; exact .inl ⟨⟨m, e, hx⟩, rfl⟩
      | cons h1 hb =>
        cases hb with
        | nil => cases heq; exact .inr ⟨_, _, _, h1, .inl ⟨⟨m, e, hx⟩, rfl⟩⟩
        | cons h2 hb =>
          simp only [List.cons_append, List.cons.injEq] at heq
          have := congrArg List.length heq.2.2
          simp at this
    | some x =>
      obtain ⟨v, s', pos'⟩ := x
      obtain ⟨vs, h12, rfl⟩ := (C22_sequence_accepts _ hs ..).1 h
      cases h12 with
      | cons h1 h =>
        cases h with
        | cons h2 h =>
          cases h
          exact .inr ⟨_, _, _, h1, .inr ⟨_, _, _, h2, rfl⟩⟩
  · rintro (⟨⟨m, e, h⟩, rfl⟩ | ⟨v, s1, pos1, h1, ⟨⟨m, e, h⟩, rfl⟩ | ⟨w, s2, pos2, h2, rfl⟩⟩)
    · exact ⟨m, e, (C22_sequence_rejects _ hs ..).2 ⟨[], _, _, [], s, pos, rfl, .nil .., h⟩⟩
    · exact ⟨m, e, (C22_sequence_rejects _ hs ..).2
        ⟨[_], _, [], _, s1, pos1, rfl, .cons h1 (.nil ..), h⟩⟩
    · exact (C22_sequence_accepts _ hs ..).2 ⟨_, .cons h1 (.cons h2 (.nil ..)), rfl⟩

theorem gives_sel (hs : E.SupportsOneOf 2) {p q : P} {s : List Chr} {pos : Pos} {r} :
    Gives E (.oneOf [p, q]) s pos r ↔
      (∃ x y, Gives E p s pos (some x) ∧ Gives E q s pos y ∧ r = some x) ∨
      (Gives E p s pos none ∧ Gives E q s pos r) := by
  constructor
  · intro h
    cases r with
    | none =>
      have h := (C20_oneOf_rejects_iff _ hs ..).1 h
      exact .inr ⟨h p (by simp), h q (by simp)⟩
    | some x =>
      obtain ⟨v, s', pos'⟩ := x
      obtain ⟨hf, b, y, a, heq, hb, hy⟩ := (C19_oneOf_accepts _ hs ..).1 h
      cases b with
      | nil =>
        cases heq
        obtain ⟨r, hr⟩ := hf q (by simp)
        obtain ⟨x, hx⟩ := gives_of_run hr
        exact .inl ⟨(v, s', pos'), _, hy, hx, rfl⟩
      | cons z b =>
        cases b with
        | nil => cases heq; exact .inr ⟨hb p (by simp), hy⟩
        | cons z' b =>
          simp only [List.cons_append, List.cons.injEq] at heq
          have := congrArg List.length heq.2.2
          simp at this
  · rintro (⟨⟨v, s', pos'⟩, y, h1, h2, rfl⟩ | ⟨h1, h2⟩)
    · refine (C19_oneOf_accepts _ hs ..).2 ⟨?_, [], p, [q], rfl, by simp, h1⟩
      intro z hz
      simp only [List.mem_cons, List.not_mem_nil, or_false] at hz
      rcases hz with rfl | rfl
      · exact ⟨_, h1⟩
      · exact h2.finishes
    · cases r with
      | none =>
        refine (C20_oneOf_rejects_iff _ hs ..).2 ?_
        intro z hz
        simp only [List.mem_cons, List.not_mem_nil, or_false] at hz
        rcases hz with rfl | rfl
        · exact h1
        · exact h2
      | some x =>
        obtain ⟨v, s', pos'⟩ := x
        refine (C19_oneOf_accepts _ hs ..).2 ⟨?_, [p], q, [], rfl, ?_, h2⟩
        · intro z hz
          simp only [List.mem_cons, List.not_mem_nil, or_false] at hz
          rcases hz with rfl | rfl
          · exact Rejects.finishes h1
          · exact h2.finishes
        · intro z hz
          simp only [List.mem_cons, List.not_mem_nil, or_false] at hz
          subst hz
          exact h1

theorem gives_action {p : P} {f : Val → Val} {s : List Chr} {pos : Pos} {r} :
    Gives E (.transform p f) s pos r ↔
      (Gives E p s pos none ∧ r = none) ∨
      ∃ v s' pos' w, Gives E p s pos (some (v, s', pos')) ∧ Acted (some f) v w ∧
        r = some (w, s', pos') := by
  constructor
  · intro h
    cases r with
    | none =>
      obtain ⟨m, e, h⟩ := h
      exact .inl ⟨⟨m, e, (C36_transform_rejects ..).1 h⟩, rfl⟩
    | some x =>
      obtain ⟨w, s', pos'⟩ := x
      obtain ⟨v, h, hf⟩ := (C36_transform_accepts ..).1 h
      exact .inr ⟨v, s', pos', w, h, .action hf, rfl⟩
  · rintro (⟨⟨m, e, h⟩, rfl⟩ | ⟨v, s', pos', w, h, ha, rfl⟩)
    · exact ⟨m, e, (C36_transform_rejects ..).2 h⟩
    · cases ha with
      | action hf => exact (C36_transform_accepts ..).2 ⟨v, h, hf⟩

theorem gives_lit (hE : E.OnText) {c : Chr} {s : List Chr} {pos : Pos} {r} :
    Gives E (P.lit c) s pos r ↔
      (s.head? ≠ some c ∧ r = none) ∨ ∃ t, s = c :: t ∧ r = some (.chr c, t, moveOver pos [c]) := by
  have hl := (C28_lit hE c).2
  constructor
  · intro h
    cases s with
    | nil =>
      cases r with
      | none => exact .inl ⟨by simp, rfl⟩
      | some x => obtain ⟨v, s', pos'⟩ := x; exact (Accepts.not_rejects h (hl.empty pos)).elim
    | cons d t =>
      by_cases hd : d = c
      · subst hd
        have ha := hl.accepts d t pos (by simp)
        cases r with
        | none => obtain ⟨m, e, h⟩ := h; exact (ha.not_rejects h).elim
        | some x =>
          obtain ⟨v, s', pos'⟩ := x
          obtain ⟨rfl, rfl, rfl⟩ := ha.unique h
          exact .inr ⟨_, rfl, rfl⟩
      · have hr := hl.other d t pos (by simpa using hd)
        cases r with
        | none => exact .inl ⟨by simpa using hd, rfl⟩
        | some x => obtain ⟨v, s', pos'⟩ := x; exact (Accepts.not_rejects h hr).elim
  · rintro (⟨h, rfl⟩ | ⟨t, rfl, rfl⟩)
    · cases s with
      | nil => exact ⟨_, _, hl.empty pos⟩
      | cons d t => exact ⟨_, _, hl.other d t pos (by simpa using h)⟩
    · exact hl.accepts c t pos (by simp)

/-- A grammar means at least what the parser built from it gives. -/
theorem means_of_gives (hE : E.OnText) (hs : E.SupportsSequence 2) (ho : E.SupportsOneOf 2)
    {R : RuleSet} {e : GExp} {p : P} (h : Builds R e p) :
    ∀ {s pos r}, Gives E p s pos r → Means R E (.exp e) s pos r := by
  have run : ∀ {e p}, (∀ {s pos r}, Gives E p s pos r → Means R E (.exp e) s pos r) →
      ∀ {s pos vs s' pos' m e'}, MaximalRun E p s pos vs s' pos' m e' →
        Means R E (.many e) s pos (some (.seq vs, s', pos')) := by
    intro e p ih s pos vs s' pos' m e' hm
    obtain ⟨hsteps, hrej⟩ := hm
    induction hsteps with
    | nil s pos => exact .manyNil (ih ⟨_, _, hrej⟩)
    | cons ha _ ih2 => exact .manyCons (ih (r := some (_, _, _)) ha) (ih2 hrej)
  induction h with
  | chr c =>
    intro s pos r h
    rcases (gives_lit hE).1 h with ⟨hc, rfl⟩ | ⟨t, rfl, rfl⟩
    · exact .noChr c pos hc
    · exact .chr c t pos
  | native hb ha =>
    intro s pos r h
    cases r with
    | none => obtain ⟨m, e, h⟩ := h; exact .noNative hb h
    | some x => exact .native hb h (ha ▸ .plain _)
  | nativeAction hb ha =>
    intro s pos r h
    rcases gives_action.1 h with ⟨⟨m, e, hp⟩, rfl⟩ | ⟨v, s', pos', w, hp, hact, rfl⟩
    · exact .noNative hb hp
    · exact .native hb hp (ha ▸ hact)
  | rule hb _ ha ih =>
    intro s pos r h
    cases r with
    | none => exact .noRule hb (ih h)
    | some x => exact .rule hb (ih h) (ha ▸ .plain _)
  | ruleAction hb _ ha ih =>
    intro s pos r h
    rcases gives_action.1 h with ⟨hp, rfl⟩ | ⟨v, s', pos', w, hp, hact, rfl⟩
    · exact .noRule hb (ih hp)
    · exact .rule hb (ih hp) (ha ▸ hact)
  | @star op e p hop _ ih =>
    intro s pos r h
    cases r with
    | none => obtain ⟨m, e, h⟩ := h; exact ((C14_repeated_rejects p s pos m e).1 h).elim
    | some x =>
      obtain ⟨v, s', pos'⟩ := x
      obtain ⟨vs, m, e', hm, rfl⟩ := (C14_repeated ..).1 h
      exact .star hop (run ih hm)
  | @plus e p _ ih =>
    intro s pos r h
    cases r with
    | none =>
      obtain ⟨m, e, h⟩ := h
      exact .noPlus (ih ⟨m, e, (C14_repeated_rejects p s pos m e).2.1 h⟩)
    | some x =>
      obtain ⟨v, s', pos'⟩ := x
      obtain ⟨vs, m, e', hne, hm, rfl⟩ := (C14_repeated1 ..).1 h
      cases vs with
      | nil => exact absurd rfl hne
      | cons v vs => exact .plus (run ih hm)
  | seq _ _ ih1 ih2 =>
    intro s pos r h
    rcases (gives_seq hs).1 h with ⟨h1, rfl⟩ | ⟨v, s1, pos1, h1, ⟨h2, rfl⟩ | ⟨w, s2, pos2, h2, rfl⟩⟩
    · exact .noSeq1 (ih1 h1)
    · exact .noSeq2 (ih1 h1) (ih2 h2)
    · exact .seq (ih1 h1) (ih2 h2)
  | sel _ _ ih1 ih2 =>
    intro s pos r h
    rcases (gives_sel ho).1 h with ⟨x, y, h1, h2, rfl⟩ | ⟨h1, h2⟩
    · exact .selFirst (ih1 h1) (ih2 h2)
    · exact .selSecond (ih1 h1) (ih2 h2)

/-- What `gives_of_means` says of each goal. -/
def GivesGoal (R : RuleSet) (E : Env (List Chr)) (s : List Chr) (pos : Pos)
    (r : Option (Val × List Chr × Pos)) : Goal → Prop
  | .exp e => ∀ p, Builds R e p → Gives E p s pos r
  | .many e => ∀ p, Builds R e p →
      ∃ vs s' pos' m e', r = some (.seq vs, s', pos') ∧ MaximalRun E p s pos vs s' pos' m e'

theorem gives_of_means (hE : E.OnText) (hs : E.SupportsSequence 2) (ho : E.SupportsOneOf 2)
    {R : RuleSet} {g : Goal} {s : List Chr} {pos : Pos} {r} (h : Means R E g s pos r) :
    GivesGoal R E s pos r g := by
  induction h with
  | chr c s pos => intro p hp; cases hp; exact (gives_lit hE).2 (.inr ⟨_, rfl, rfl⟩)
  | noChr c pos h => intro p hp; cases hp; exact (gives_lit hE).2 (.inl ⟨h, rfl⟩)
  | native hb h ha =>
    intro p hp
    cases hp with
    | native hb' ha' =>
      rw [hb] at hb'; cases hb'; rw [ha'] at ha; cases ha; exact h
    | nativeAction hb' ha' =>
      rw [hb] at hb'; cases hb'; rw [ha'] at ha
      exact gives_action.2 (.inr ⟨_, _, _, _, h, ha, rfl⟩)
    | rule hb' => rw [hb] at hb'; cases hb'
    | ruleAction hb' => rw [hb] at hb'; cases hb'
  | noNative hb h =>
    intro p hp
    cases hp with
    | native hb' ha' => rw [hb] at hb'; cases hb'; exact ⟨_, _, h⟩
    | nativeAction hb' ha' =>
      rw [hb] at hb'; cases hb'
      exact gives_action.2 (.inl ⟨⟨_, _, h⟩, rfl⟩)
    | rule hb' => rw [hb] at hb'; cases hb'
    | ruleAction hb' => rw [hb] at hb'; cases hb'
  | rule hb _ ha ih =>
    intro p hp
    cases hp with
    | native hb' _ => rw [hb] at hb'; cases hb'
    | nativeAction hb' _ => rw [hb] at hb'; cases hb'
    | rule hb' h' ha' =>
      rw [hb] at hb'; cases hb'; rw [ha'] at ha; cases ha; exact ih _ h'
    | ruleAction hb' h' ha' =>
      rw [hb] at hb'; cases hb'; rw [ha'] at ha
      exact gives_action.2 (.inr ⟨_, _, _, _, ih _ h', ha, rfl⟩)
  | noRule hb _ ih =>
    intro p hp
    cases hp with
    | native hb' _ => rw [hb] at hb'; cases hb'
    | nativeAction hb' _ => rw [hb] at hb'; cases hb'
    | rule hb' h' ha' => rw [hb] at hb'; cases hb'; exact ih _ h'
    | ruleAction hb' h' ha' =>
      rw [hb] at hb'; cases hb'
      exact gives_action.2 (.inl ⟨ih _ h', rfl⟩)
  | seq _ _ ih1 ih2 =>
    intro p hp
    cases hp with
    | seq h1 h2 =>
      exact (gives_seq hs).2 (.inr ⟨_, _, _, ih1 _ h1, .inr ⟨_, _, _, ih2 _ h2, rfl⟩⟩)
  | noSeq1 _ ih1 =>
    intro p hp
    cases hp with
    | seq h1 h2 => exact (gives_seq hs).2 (.inl ⟨ih1 _ h1, rfl⟩)
  | noSeq2 _ _ ih1 ih2 =>
    intro p hp
    cases hp with
    | seq h1 h2 => exact (gives_seq hs).2 (.inr ⟨_, _, _, ih1 _ h1, .inl ⟨ih2 _ h2, rfl⟩⟩)
  | selFirst _ _ ih1 ih2 =>
    intro p hp
    cases hp with
    | sel h1 h2 => exact (gives_sel ho).2 (.inl ⟨_, _, ih1 _ h1, ih2 _ h2, rfl⟩)
  | selSecond _ _ ih1 ih2 =>
    intro p hp
    cases hp with
    | sel h1 h2 => exact (gives_sel ho).2 (.inr ⟨ih1 _ h1, ih2 _ h2⟩)
  | manyNil _ ih =>
    intro p hp
    obtain ⟨m, e, h⟩ := ih p hp
    exact ⟨[], _, _, m, e, rfl, .nil .., h⟩
  | manyCons _ _ ih1 ih2 =>
    intro p hp
    have h1 := ih1 p hp
    obtain ⟨vs, s', pos', m, e, heq, hm⟩ := ih2 p hp
    cases heq
    exact ⟨_, _, _, m, e, rfl, .cons h1 hm.1, hm.2⟩
  | star hop _ ih =>
    intro p hp
    cases hp with
    | star _ h =>
      obtain ⟨vs, s', pos', m, e, heq, hm⟩ := ih _ h
      cases heq
      exact (C14_repeated ..).2 ⟨vs, m, e, hm, rfl⟩
    | plus h => exact absurd rfl hop
  | plus _ ih =>
    intro p hp
    cases hp with
    | star hop _ => exact absurd rfl hop
    | plus h =>
      obtain ⟨vs, s', pos', m, e, heq, hm⟩ := ih _ h
      cases heq
      exact (C14_repeated1 ..).2 ⟨_, m, e, by simp, hm, rfl⟩
  | noPlus _ ih =>
    intro p hp
    cases hp with
    | star hop _ => exact absurd rfl hop
    | plus h =>
      obtain ⟨m, e, h⟩ := ih _ h
      exact ⟨m, e, (C14_repeated_rejects _ _ _ m e).2.2 h⟩

/-- The parser built for a name accepts and rejects exactly what the rules mean, with the result they
mean. -/
theorem C48_built_parser (hE : E.OnText) (hs : E.SupportsSequence 2) (ho : E.SupportsOneOf 2)
    (G : Grammar) (n : List Chr) (p : P) (hp : G.parserOf n = .ok p) (s : List Chr) (pos : Pos) :
    (∀ v s' pos', Accepts E p s pos v s' pos' ↔
      Means G.ruleSet E (.exp (.name n)) s pos (some (v, s', pos'))) ∧
    ((∃ m e, Rejects E p s pos m e) ↔ Means G.ruleSet E (.exp (.name n)) s pos none) := by
  have hb := parserOf_eq_ok.1 hp
  refine ⟨fun v s' pos' => ⟨fun h => ?_, fun h => ?_⟩, fun h => ?_, fun h => ?_⟩
  · exact means_of_gives hE hs ho hb (r := some (v, s', pos')) h
  · exact gives_of_means hE hs ho h p hb
  · exact means_of_gives hE hs ho hb (r := none) h
  · exact gives_of_means hE hs ho h p hb

/-- The grammar itself: its parser is the one of the start symbol. -/
theorem C48_grammar {E' : Env (List Chr)} (hR : E.ParsesRules) (hE : E'.OnText)
    (hs : E'.SupportsSequence 2) (ho : E'.SupportsOneOf 2) (G : Grammar) (s : List Chr) (pos : Pos) :
    (∀ v s' pos', G.apply E E' s pos = .ok (.acc v s' pos') ↔
      ∃ n, (∃ rest, Tokens G.start [.name n] rest) ∧ (∃ p, G.parserOf n = .ok p) ∧
        Means G.ruleSet E' (.exp (.name n)) s pos (some (v, s', pos'))) ∧
    ((∃ m e, G.apply E E' s pos = .ok (.rej m e)) ↔
      ∃ n, (∃ rest, Tokens G.start [.name n] rest) ∧ (∃ p, G.parserOf n = .ok p) ∧
        Means G.ruleSet E' (.exp (.name n)) s pos none) := by
  have key : ∀ r, G.apply E E' s pos = .ok r ↔
      ∃ n, (∃ rest, Tokens G.start [.name n] rest) ∧ ∃ p, G.parserOf n = .ok p ∧
        run E' p s pos = .ok r := by
    intro r
    unfold Grammar.apply
    simp only [Out.bind_eq_ok, C46_name hR]
  refine ⟨fun v s' pos' => ?_, ?_⟩
  · rw [key]
    constructor
    · rintro ⟨n, hn, p, hp, h⟩
      exact ⟨n, hn, ⟨p, hp⟩, ((C48_built_parser hE hs ho G n p hp s pos).1 ..).1 h⟩
    · rintro ⟨n, hn, ⟨p, hp⟩, h⟩
      exact ⟨n, hn, p, hp, ((C48_built_parser hE hs ho G n p hp s pos).1 ..).2 h⟩
  · constructor
    · rintro ⟨m, e, h⟩
      obtain ⟨n, hn, p, hp, h⟩ := (key _).1 h
      exact ⟨n, hn, ⟨p, hp⟩, ((C48_built_parser hE hs ho G n p hp s pos).2).1 ⟨m, e, h⟩⟩
    · rintro ⟨n, hn, ⟨p, hp⟩, h⟩
      obtain ⟨m, e, h⟩ := ((C48_built_parser hE hs ho G n p hp s pos).2).2 h
      exact ⟨m, e, (key _).2 ⟨n, hn, p, hp, h⟩⟩

/-! ## C49 -/

theorem add_eq_ok (h : E.ParsesRules) {G G' : Grammar} {a : Addition} (ha : G.add E a = .ok G') :
    ∃ n b, a.Defines n b ∧ G'.start = G.start ∧ G'.rules = (n, b) :: G.rules ∧
      (∀ m, (∃ b', a.Defines m b') → m = n) ∧ (∀ b', a.Defines n b' → b' = b) ∧
      ((G'.actions = G.actions ∧ ∀ m f, ¬ a.SetsAction m f) ∨
        ∃ f, G'.actions = (n, f) :: G.actions ∧ ∀ m f', a.SetsAction m f' ↔ m = n ∧ f' = f) := by
  cases a with
  | rule text act =>
    simp only [Grammar.add, Grammar.rule, Out.bind_eq_ok] at ha
    obtain ⟨⟨n, e⟩, hr, ha⟩ := ha
    have hr := (C46_parseRule h ..).1 hr
    simp only [Out.ok.injEq] at ha
    subst ha
    refine ⟨n, .parsed e, ⟨e, hr, rfl⟩, ?_, ?_, ?_, ?_, ?_⟩
    · cases act <;> rfl
    · cases act <;> rfl
    · rintro m ⟨b', e', hr', rfl⟩; exact (C46_unambiguous _ _ _ _ _ hr' hr).1
    · rintro b' ⟨e', hr', rfl⟩; rw [(C46_unambiguous _ _ _ _ _ hr' hr).2]
    · cases act with
      | none => exact .inl ⟨rfl, fun m f hf => by cases hf.2⟩
      | some f =>
        refine .inr ⟨f, rfl, fun m f' => ⟨?_, ?_⟩⟩
        · rintro ⟨⟨e', hr'⟩, hf⟩
          cases hf
          exact ⟨(C46_unambiguous _ _ _ _ _ hr' hr).1, rfl⟩
        · rintro ⟨rfl, rfl⟩; exact ⟨⟨e, hr⟩, rfl⟩
  | import_ name p =>
    simp only [Grammar.add, Grammar.import_, Out.bind_eq_ok] at ha
    obtain ⟨n, hn, ha⟩ := ha
    have hn := (C46_name h ..).1 hn
    simp only [Out.ok.injEq] at ha
    subst ha
    refine ⟨n, .native p, ⟨hn, rfl⟩, rfl, rfl, ?_, ?_, .inl ⟨rfl, fun m f hf => hf⟩⟩
    · rintro m ⟨b', ⟨rest, ht⟩, rfl⟩
      obtain ⟨rest', ht'⟩ := hn
      have := (ht.one_unique ht').1
      simpa using this
    · rintro b' ⟨_, rfl⟩; rfl

theorem addAll_append (G : Grammar) (l l' : List Addition) :
    addAll E G (l ++ l') = (addAll E G l).bind fun G' => addAll E G' l' := by
  induction l generalizing G with
  | nil => rfl
  | cons a l ih =>
    simp only [List.cons_append, addAll]
    cases G.add E a with
    | ok G' => simp only [Out.bind_ok, ih]
    | ill f => rfl
    | deep => rfl

theorem lookup_cons' {β : Type} (n m : List Chr) (b : β) (l : List (List Chr × β)) :
    List.lookup m ((n, b) :: l) = if m = n then some b else List.lookup m l := by
  rw [List.lookup_cons]
  by_cases h : m = n
  · simp [h]
  · rw [if_neg h]
    have : (m == n) = false := beq_eq_false_iff_ne.2 h
    rw [this]

theorem last_snoc {α β : Type} (P : α → β → Prop) (l : List α) (a : α) (x : β) :
    (∃ before a' after, l ++ [a] = before ++ a' :: after ∧ P a' x ∧
      ∀ a'' ∈ after, ∀ y, ¬ P a'' y) ↔
    P a x ∨ ((∀ y, ¬ P a y) ∧ ∃ before a' after, l = before ++ a' :: after ∧ P a' x ∧
      ∀ a'' ∈ after, ∀ y, ¬ P a'' y) := by
  constructor
  · rintro ⟨before, a', after, heq, hp, hn⟩
    rcases List.eq_nil_or_concat after with rfl | ⟨after', z, rfl⟩
    · obtain ⟨rfl, h⟩ := List.append_inj' heq rfl
      cases h
      exact .inl hp
    · rw [List.concat_eq_append, ← List.cons_append, ← List.append_assoc] at heq
      obtain ⟨rfl, h⟩ := List.append_inj' heq rfl
      cases h
      refine .inr ⟨hn a (by simp), before, a', after', rfl, hp, fun a'' ha => hn a'' (by simp [ha])⟩
  · rintro (hp | ⟨hn, before, a', after, rfl, hp, hn'⟩)
    · exact ⟨l, a, [], rfl, hp, by simp⟩
    · refine ⟨before, a', after ++ [a], by simp, hp, ?_⟩
      intro a'' ha
      rcases List.mem_append.1 ha with ha | ha
      · exact hn' a'' ha
      · simp only [List.mem_singleton] at ha
        subst ha; exact hn

/-- After a chain of definitions, a name stands for its last definition, and its action is the last
one given for it; both are independent of everything else in the chain. -/
theorem C49_last_definition (h : E.ParsesRules) (start : List Chr) (l : List Addition) (G : Grammar)
    (hG : addAll E (.empty start) l = .ok G) (n : List Chr) :
    (∀ b, G.ruleSet.body n = some b ↔ LastDefinition l n b) ∧
    (∀ f, G.ruleSet.action n = some f ↔ LastAction l n f) := by
  generalize hk : l.length = k
  induction k generalizing l G with
  | zero =>
    obtain rfl := List.eq_nil_of_length_eq_zero hk
    cases hG
    refine ⟨fun b => ⟨fun h => (by cases h), ?_⟩, fun f => ⟨fun h => (by cases h), ?_⟩⟩
    · rintro ⟨b, a, c, h, -⟩; simp at h
    · rintro ⟨b, a, c, h, -⟩; simp at h
  | succ k ih =>
    rcases List.eq_nil_or_concat l with rfl | ⟨l, a, rfl⟩
    · simp at hk
    rw [List.concat_eq_append] at hG hk ⊢
    rw [addAll_append, Out.bind_eq_ok] at hG
    obtain ⟨G0, hG0, hG⟩ := hG
    obtain ⟨ih1, ih2⟩ := ih l G0 hG0 (by simpa using hk)
    simp only [addAll, Out.bind_eq_ok] at hG
    obtain ⟨G1, hG1, hG⟩ := hG
    cases hG
    obtain ⟨m, b0, hd, -, hrules, huniq, hb0, hact⟩ := add_eq_ok h hG1
    constructor
    · intro b
      refine Iff.trans ?_ (last_snoc (fun (a : Addition) b => a.Defines n b) l a b).symm
      show G.rules.lookup n = some b ↔ _
      rw [hrules, lookup_cons']
      by_cases hn : n = m
      · subst hn
        rw [if_pos rfl]
        constructor
        · intro h; cases h; exact .inl hd
        · rintro (h | ⟨h, -⟩)
          · rw [hb0 b h]
          · exact (h _ hd).elim
      · rw [if_neg hn]
        have hno : ∀ y, ¬ a.Defines n y := fun y hy => hn (huniq n ⟨y, hy⟩)
        constructor
        · intro hl; exact .inr ⟨hno, (ih1 b).1 hl⟩
        · rintro (h | ⟨-, h⟩)
          · exact (hno _ h).elim
          · exact (ih1 b).2 h
    · intro f
      refine Iff.trans ?_ (last_snoc (fun (a : Addition) f => a.SetsAction n f) l a f).symm
      show G.actions.lookup n = some f ↔ _
      rcases hact with ⟨hact, hno⟩ | ⟨f0, hact, hf0⟩
      · rw [hact]
        constructor
        · intro hl; exact .inr ⟨hno n, (ih2 f).1 hl⟩
        · rintro (h | ⟨-, h⟩)
          · exact (hno _ _ h).elim
          · exact (ih2 f).2 h
      · rw [hact, lookup_cons']
        by_cases hn : n = m
        · subst hn
          rw [if_pos rfl]
          constructor
          · intro h; cases h; exact .inl ((hf0 ..).2 ⟨rfl, rfl⟩)
          · rintro (h | ⟨h, -⟩)
            · rw [((hf0 ..).1 h).2]
            · exact (h _ ((hf0 ..).2 ⟨rfl, rfl⟩)).elim
        · rw [if_neg hn]
          have hno : ∀ y, ¬ a.SetsAction n y := fun y hy => hn ((hf0 ..).1 hy).1
          constructor
          · intro hl; exact .inr ⟨hno, (ih2 f).1 hl⟩
          · rintro (h | ⟨-, h⟩)
            · exact (hno _ h).elim
            · exact (ih2 f).2 h

/-- A chain compiles exactly if each of its links defines a name. -/
theorem C49_compiles (h : E.ParsesRules) (G : Grammar) (l : List Addition) :
    (∃ G', addAll E G l = .ok G') ↔ ∀ a ∈ l, ∃ n b, a.Defines n b := by
  induction l generalizing G with
  | nil => simp [addAll]
  | cons a l ih =>
    simp only [addAll, Out.bind_eq_ok, List.mem_cons, forall_eq_or_imp]
    constructor
    · rintro ⟨G', G1, h1, h2⟩
      obtain ⟨n, b, hd, -⟩ := add_eq_ok h h1
      exact ⟨⟨n, b, hd⟩, (ih G1).1 ⟨G', h2⟩⟩
    · rintro ⟨⟨n, b, hd⟩, hl⟩
      have : ∃ G1, G.add E a = .ok G1 := by
        cases a with
        | rule text act =>
          obtain ⟨e, hr, -⟩ := hd
          have hr := (C46_parseRule h ..).2 hr
          exact ⟨G.addRule n e act, by simp only [Grammar.add, Grammar.rule, hr, Out.bind_ok]⟩
        | import_ name p =>
          have hn := (C46_name h ..).2 hd.1
          exact ⟨G.addImport n p, by simp only [Grammar.add, Grammar.import_, hn, Out.bind_ok]⟩
      obtain ⟨G1, h1⟩ := this
      obtain ⟨G', h2⟩ := (ih G1).2 hl
      exact ⟨G', G1, h1, h2⟩

/-- Grammars with the same bodies and actions build the same parsers, whatever was defined before and
in whatever order. -/
theorem parserOf_congr {G G' : Grammar} (h : G.ruleSet = G'.ruleSet) (n : List Chr) (p : P) :
    G.parserOf n = .ok p ↔ G'.parserOf n = .ok p := by
  rw [parserOf_eq_ok, parserOf_eq_ok, h]

/-- Two chains whose last definitions and last actions agree are the same grammar. -/
theorem C49_order_irrelevant (h : E.ParsesRules) (E' : Env (List Chr)) (start : List Chr)
    (l l' : List Addition) (G G' : Grammar)
    (hG : addAll E (.empty start) l = .ok G) (hG' : addAll E (.empty start) l' = .ok G')
    (hd : ∀ n b, LastDefinition l n b ↔ LastDefinition l' n b)
    (ha : ∀ n f, LastAction l n f ↔ LastAction l' n f) (s : List Chr) (pos : Pos)
    (r : Res (List Chr)) : G.apply E E' s pos = .ok r ↔ G'.apply E E' s pos = .ok r := by
  have hst : ∀ (l : List Addition) (G0 G : Grammar), addAll E G0 l = .ok G → G.start = G0.start := by
    intro l
    induction l with
    | nil => intro G0 G h; cases h; rfl
    | cons a l ih =>
      intro G0 G hG
      simp only [addAll, Out.bind_eq_ok] at hG
      obtain ⟨G1, h1, h2⟩ := hG
      obtain ⟨_, _, _, hs, _⟩ := add_eq_ok h h1
      rw [ih _ _ h2, hs]
  have hR : G.ruleSet = G'.ruleSet := by
    have e1 : G.ruleSet.body = G'.ruleSet.body := by
      funext n
      apply Option.ext
      intro b
      rw [(C49_last_definition h start l G hG n).1, (C49_last_definition h start l' G' hG' n).1, hd]
    have e2 : G.ruleSet.action = G'.ruleSet.action := by
      funext n
      apply Option.ext
      intro b
      rw [(C49_last_definition h start l G hG n).2, (C49_last_definition h start l' G' hG' n).2, ha]
    cases hr : G.ruleSet; cases hr' : G'.ruleSet
    rw [hr, hr'] at e1 e2
    simp only at e1 e2
    rw [e1, e2]
  unfold Grammar.apply
  rw [hst l _ _ hG, hst l' _ _ hG']
  simp only [Out.bind_eq_ok, parserOf_congr hR]

/-! ## C50 -/

theorem Needs.snoc {R : RuleSet} {a b c : List Chr} (h : R.Needs a b) (h' : R.Uses b c) :
    R.Needs a c := by
  induction h with
  | uses h => exact .trans h (.uses h')
  | trans h _ ih => exact .trans h (ih h')

theorem Needs.append {R : RuleSet} {a b c : List Chr} (h : R.Needs a b) (h' : R.Needs b c) :
    R.Needs a c := by
  induction h with
  | uses h => exact .trans h h'
  | trans h _ ih => exact .trans h (ih h')

/-- All that is built is defined and free of cycles. -/
theorem builds_acyclic {R : RuleSet} {e : GExp} {p : P} (h : Builds R e p) :
    ∀ n ∈ e.names, ∀ m, (m = n ∨ R.Needs n m) → R.body m ≠ none ∧ ¬ R.Needs m m := by
  have native : ∀ {n p}, R.body n = some (.native p) → ∀ m, (m = n ∨ R.Needs n m) →
      R.body m ≠ none ∧ ¬ R.Needs m m := by
    intro n p hb
    have no : ∀ m, ¬ R.Needs n m := by
      intro m h
      cases h with
      | uses h => obtain ⟨e, he, _⟩ := h; rw [hb] at he; cases he
      | trans h _ => obtain ⟨e, he, _⟩ := h; rw [hb] at he; cases he
    rintro m (rfl | h)
    · exact ⟨by rw [hb]; simp, no _⟩
    · exact (no _ h).elim
  have rule : ∀ {n e}, R.body n = some (.parsed e) →
      (∀ n ∈ e.names, ∀ m, (m = n ∨ R.Needs n m) → R.body m ≠ none ∧ ¬ R.Needs m m) →
      ∀ m, (m = n ∨ R.Needs n m) → R.body m ≠ none ∧ ¬ R.Needs m m := by
    intro n e hb ih
    have below : ∀ m, R.Needs n m → R.body m ≠ none ∧ ¬ R.Needs m m := by
      intro m h
      cases h with
      | uses h =>
        obtain ⟨e', he, hm⟩ := h; rw [hb] at he; cases he
        exact ih m hm m (.inl rfl)
      | trans h h' =>
        obtain ⟨e', he, hm⟩ := h; rw [hb] at he; cases he
        exact ih _ hm m (.inr h')
    rintro m (rfl | h)
    · exact ⟨by rw [hb]; simp, fun h => (below m h).2 h⟩
    · exact below m h
  induction h with
  | chr c => intro n hn; cases hn
  | native hb _ =>
    intro n hn
    simp only [GExp.names, List.mem_singleton] at hn
    subst hn; exact native hb
  | nativeAction hb _ =>
    intro n hn
    simp only [GExp.names, List.mem_singleton] at hn
    subst hn; exact native hb
  | rule hb _ _ ih =>
    intro n hn
    simp only [GExp.names, List.mem_singleton] at hn
    subst hn; exact rule hb ih
  | ruleAction hb _ _ ih =>
    intro n hn
    simp only [GExp.names, List.mem_singleton] at hn
    subst hn; exact rule hb ih
  | star _ _ ih => exact ih
  | plus _ ih => exact ih
  | seq _ _ ih1 ih2 =>
    intro n hn
    rcases List.mem_append.1 hn with hn | hn
    · exact ih1 n hn
    · exact ih2 n hn
  | sel _ _ ih1 ih2 =>
    intro n hn
    rcases List.mem_append.1 hn with hn | hn
    · exact ih1 n hn
    · exact ih2 n hn

theorem builds_of_names {R : RuleSet} (e : GExp) (h : ∀ n ∈ e.names, ∃ p, Builds R (.name n) p) :
    ∃ p, Builds R e p := by
  induction e with
  | chr c => exact ⟨_, .chr c⟩
  | name n => exact h n (by simp [GExp.names])
  | rep op e ih =>
    obtain ⟨p, hp⟩ := ih h
    by_cases hop : op = ch '+'
    · subst hop; exact ⟨_, .plus hp⟩
    · exact ⟨_, .star hop hp⟩
  | seq a b iha ihb =>
    obtain ⟨p, hp⟩ := iha fun n hn => h n (List.mem_append.2 (.inl hn))
    obtain ⟨q, hq⟩ := ihb fun n hn => h n (List.mem_append.2 (.inr hn))
    exact ⟨_, .seq hp hq⟩
  | sel a b iha ihb =>
    obtain ⟨p, hp⟩ := iha fun n hn => h n (List.mem_append.2 (.inl hn))
    obtain ⟨q, hq⟩ := ihb fun n hn => h n (List.mem_append.2 (.inr hn))
    exact ⟨_, .sel hp hq⟩

theorem countP_lt {α : Type} {p q : α → Bool} {l : List α} (h : ∀ x ∈ l, p x = true → q x = true)
    {y : α} (hy : y ∈ l) (hpy : p y = false) (hqy : q y = true) : l.countP p < l.countP q := by
  induction l with
  | nil => cases hy
  | cons x l ih =>
    have hle : l.countP p ≤ l.countP q :=
      List.countP_mono_left fun z hz => h z (List.mem_cons_of_mem _ hz)
    rw [List.countP_cons, List.countP_cons]
    rcases List.mem_cons.1 hy with rfl | hy
    · simp only [hpy, hqy, Bool.false_eq_true, if_false, if_true]
      omega
    · have := ih (fun z hz => h z (List.mem_cons_of_mem _ hz)) hy
      by_cases hp : p x = true
      · have hq := h x (by simp) hp
        simp only [hp, hq, if_true]; omega
      · simp only [Bool.not_eq_true] at hp
        simp only [hp, Bool.false_eq_true, if_false]; omega

theorem mem_keys {β : Type} {l : List (List Chr × β)} {n : List Chr} (h : l.lookup n ≠ none) :
    n ∈ l.map (·.1) := by
  induction l with
  | nil => exact absurd rfl h
  | cons x l ih =>
    obtain ⟨m, b⟩ := x
    rw [lookup_cons'] at h
    by_cases hn : n = m
    · simp [hn]
    · rw [if_neg hn] at h
      exact List.mem_cons_of_mem _ (ih h)

open Classical in
/-- A parser can be built for a name exactly if everything it needs is defined and nothing it needs
needs itself. -/
theorem C50_buildable (G : Grammar) (n : List Chr) :
    (∃ p, G.parserOf n = .ok p) ↔
      ∀ m, (m = n ∨ G.ruleSet.Needs n m) → G.ruleSet.body m ≠ none ∧ ¬ G.ruleSet.Needs m m := by
  simp only [parserOf_eq_ok]
  constructor
  · rintro ⟨p, hp⟩
    exact builds_acyclic hp n (by simp [GExp.names])
  · intro h
    generalize hk : (G.rules.map (·.1)).countP (fun m => decide (G.ruleSet.Needs n m)) = k
    induction k using Nat.strongRecOn generalizing n with
    | _ k ih =>
      have below : ∀ e, G.ruleSet.body n = some (.parsed e) →
          ∀ m ∈ e.names, ∃ p, Builds G.ruleSet (.name m) p := by
        intro e he m hm
        have hu : G.ruleSet.Uses n m := ⟨e, he, hm⟩
        have hm' := h m (.inr (.uses hu))
        refine ih _ ?_ m ?_ rfl
        · rw [← hk]
          refine countP_lt (y := m) ?_ (mem_keys hm'.1) (by simpa using hm'.2)
            (by simpa using RuleSet.Needs.uses hu)
          intro x _ hx
          simp only [decide_eq_true_eq] at hx ⊢
          exact .trans hu hx
        · rintro m2 (rfl | hm2)
          · exact hm'
          · exact h m2 (.inr (.trans hu hm2))
      have hn := (h n (.inl rfl)).1
      cases hb : G.ruleSet.body n with
      | none => exact absurd hb hn
      | some b =>
        cases b with
        | native p =>
          cases ha : G.ruleSet.action n with
          | none => exact ⟨_, .native hb ha⟩
          | some f => exact ⟨_, .nativeAction hb ha⟩
        | parsed e =>
          obtain ⟨p, hp⟩ := builds_of_names e (below e hb)
          cases ha : G.ruleSet.action n with
          | none => exact ⟨_, .rule hb hp ha⟩
          | some f => exact ⟨_, .ruleAction hb hp ha⟩

/-- The grammar compiles for some input only if its start symbol is a name for which a parser can be
built; no input, not even one that avoids the recursive rule, is parsed otherwise. -/
theorem C50_recursive_never_compiles {E' : Env (List Chr)} (hR : E.ParsesRules) (G : Grammar)
    (n : List Chr) (hn : ∃ rest, Tokens G.start [.name n] rest) (m : List Chr)
    (hm : m = n ∨ G.ruleSet.Needs n m)
    (hbad : G.ruleSet.body m = none ∨ G.ruleSet.Needs m m) (s : List Chr) (pos : Pos)
    (r : Res (List Chr)) : G.apply E E' s pos ≠ .ok r := by
  intro h
  simp only [Grammar.apply, Out.bind_eq_ok, C46_name hR] at h
  obtain ⟨n', ⟨rest', hn'⟩, p, hp, -⟩ := h
  obtain ⟨rest, hn⟩ := hn
  have : [Tok.name n'] = [Tok.name n] := by simpa using (hn'.one_unique hn).1
  cases this
  have := (C50_buildable G n).1 ⟨p, hp⟩ m hm
  rcases hbad with h | h
  · exact this.1 h
  · exact this.2 h

/-! ## Concrete grammars -/

/-- `S ::= d+ '!'` with an action that keeps the first part, and the import of `digit` as `d`. -/
def exampleGrammar : Grammar :=
  ⟨txt "S ", [(txt "S", .parsed (.seq (.rep (ch '+') (.name (txt "d"))) (.chr (ch '!')))),
    (txt "d", .native P.digit)],
    [(txt "S", fun | .seq (v :: _) => v | v => v)]⟩

example : exampleGrammar.parserOf (txt "S") =
    .ok (.transform (.sequence [.repeated1 P.digit, P.lit (ch '!')])
      (fun | .seq (v :: _) => v | v => v)) :=
  parserOf_eq_ok.2 (.ruleAction rfl (.seq (.plus (.native rfl rfl)) (.chr _)) rfl)

theorem exampleEnv (std : Std) : (ruleEnv std).OnText ∧ (ruleEnv std).SupportsSequence 2 ∧
    (ruleEnv std).SupportsOneOf 2 :=
  ⟨rfl, fun _ => by simp only [ruleEnv]; decide, fun _ => by simp only [ruleEnv]; decide⟩

/-- C48: `12!?` means the sequence of `1` and `2`, with `?` left. -/
example : Means exampleGrammar.ruleSet (ruleEnv .cpp98) (.exp (.name (txt "S"))) (txt "12!?") start
    (some (.seq [.chr (ch '1'), .chr (ch '2')], txt "?", ⟨1, 4, ch '!'⟩)) :=
  ((C48_built_parser (exampleEnv .cpp98).1 (exampleEnv .cpp98).2.1 (exampleEnv .cpp98).2.2
    exampleGrammar (txt "S") _
    (parserOf_eq_ok.2 (.ruleAction rfl (.seq (.plus (.native rfl rfl)) (.chr _)) rfl)) _ _).1 ..).1
    (accepts_of_eval 40 (by decide +kernel))

/-- C48: the start symbol of the example is `S`, although its text has a space at the end. -/
example : Tokens exampleGrammar.start [.name (txt "S")] [] :=
  .cons (w := txt "S") (ws := txt " ") (s := []) (.name (by decide) (by decide)) (by decide) rfl
    (fun _ h => by cases h) (.nil _)

theorem example_isRule (c : Chr) (h1 : c ≠ ch '\\') (h2 : c ≠ ch '\'') :
    IsRule (txt "a::='" ++ [c] ++ txt "'") (txt "a") (.chr c) := by
  refine ⟨[.chr c], ?_, .alone (.single (.once (.chr c)))⟩
  exact .cons (w := txt "a") (ws := []) (.name (by decide) (by decide)) (by simp) rfl
      (fun _ _ => rfl)
    (.cons (w := txt "::=") (ws := []) .define (by simp) rfl (fun ⟨_, h⟩ => by cases h)
    (.cons (w := [ch '\'', c, ch '\'']) (ws := []) (s := []) (.plain _ h2 h1) (by simp) rfl
      (fun ⟨_, h⟩ => by cases h) (.nil _)))

/-- C49: `a::='x'` with an action and then `a::='y'` without one: the second rule, with the action of
the first. -/
example (f : Val → Val) :
    (∃ G, addAll (ruleEnv .cpp11) (.empty (txt "a"))
      [.rule (txt "a::='x'") (some f), .rule (txt "a::='y'") none] = .ok G) ∧
    LastDefinition [.rule (txt "a::='x'") (some f), .rule (txt "a::='y'") none] (txt "a")
      (.parsed (.chr (ch 'y'))) ∧
    LastAction [.rule (txt "a::='x'") (some f), .rule (txt "a::='y'") none] (txt "a") f := by
  have hx := example_isRule (ch 'x') (by decide) (by decide)
  have hy := example_isRule (ch 'y') (by decide) (by decide)
  refine ⟨(C49_compiles (ruleEnv_parsesRules _) _ _).2 ?_, ?_, ?_⟩
  · intro a ha
    simp only [List.mem_cons, List.not_mem_nil, or_false] at ha
    rcases ha with rfl | rfl
    · exact ⟨_, _, _, hx, rfl⟩
    · exact ⟨_, _, _, hy, rfl⟩
  · exact ⟨[_], _, [], rfl, ⟨_, hy, rfl⟩, by simp⟩
  · refine ⟨[], _, [_], rfl, ⟨⟨_, hx⟩, rfl⟩, ?_⟩
    intro a ha f' hf
    simp only [List.mem_cons, List.not_mem_nil, or_false] at ha
    subst ha
    cases hf.2

/-- C50: `S ::= 'x' S | 'y'`. -/
def recursiveGrammar : Grammar :=
  ⟨txt "S", [(txt "S", .parsed (.sel (.seq (.chr (ch 'x')) (.name (txt "S"))) (.chr (ch 'y'))))], []⟩

example (s : List Chr) (pos : Pos) (r : Res (List Chr)) :
    recursiveGrammar.apply (ruleEnv .cpp11) (ruleEnv .cpp11) s pos ≠ .ok r :=
  C50_recursive_never_compiles (ruleEnv_parsesRules _) recursiveGrammar (txt "S")
    ⟨[], .cons (w := txt "S") (ws := []) (s := []) (.name (by decide) (by decide)) (by simp) rfl
      (fun _ _ => rfl) (.nil _)⟩ (txt "S") (.inl rfl)
    (.inr (.uses ⟨_, rfl, by simp [GExp.names]⟩)) s pos r

theorem last_pair {x y : Addition} {n : List Chr} {b : RuleBody} : LastDefinition [x, y] n b ↔
    y.Defines n b ∨ (x.Defines n b ∧ ∀ b', ¬ y.Defines n b') := by
  constructor
  · rintro ⟨before, a, after, e, h1, h2⟩
    rcases before with _ | ⟨p, _ | ⟨q, r⟩⟩
    · cases e; exact .inr ⟨h1, h2 y (by simp)⟩
    · cases e; exact .inl h1
    · cases r <;> cases e
  · rintro (h | ⟨h1, h2⟩)
    · exact ⟨[x], y, [], rfl, h, by simp⟩
    · exact ⟨[], x, [y], rfl, h1, by simpa using h2⟩

/-- C49: a rule for `a` and an import as `b`, in both orders. -/
example (E' : Env (List Chr)) (G G' : Grammar)
    (hG : addAll (ruleEnv .cpp11) (.empty (txt "a")) [.rule (txt "a::='x'") none, .import_ (txt "b") P.digit] = .ok G)
    (hG' : addAll (ruleEnv .cpp11) (.empty (txt "a")) [.import_ (txt "b") P.digit, .rule (txt "a::='x'") none] = .ok G')
    (s : List Chr) (pos : Pos) (r : Res (List Chr)) :
    G.apply (ruleEnv .cpp11) E' s pos = .ok r ↔ G'.apply (ruleEnv .cpp11) E' s pos = .ok r := by
  have hx := example_isRule (ch 'x') (by decide) (by decide)
  have hb : Tokens (txt "b") [.name (txt "b")] [] :=
    .cons (w := txt "b") (ws := []) (s := []) (.name (by decide) (by decide)) (by simp) rfl (fun _ _ => rfl) (.nil _)
  refine C49_order_irrelevant (ruleEnv_parsesRules _) E' _ _ _ G G' hG hG' ?_ ?_ s pos r
  · have no : ∀ n b b', Addition.Defines (.rule (txt "a::='x'") none) n b →
        ¬ Addition.Defines (.import_ (txt "b") P.digit) n b' := by
      rintro n b b' ⟨e, h, -⟩ ⟨⟨rest, h'⟩, -⟩
      have h1 := (C46_unambiguous _ _ _ _ _ hx h).1
      have h2 := (C46_name (ruleEnv_parsesRules .cpp11) _ _).2 ⟨_, hb⟩
      rw [(C46_name (ruleEnv_parsesRules .cpp11) _ _).2 ⟨_, h'⟩] at h2
      cases h1; cases h2
    intro n b
    rw [last_pair, last_pair]
    constructor
    · rintro (h | ⟨h, -⟩)
      · exact .inr ⟨h, fun b' h' => no _ _ _ h' h⟩
      · exact .inl h
    · rintro (h | ⟨h, -⟩)
      · exact .inr ⟨h, fun b' h' => no _ _ _ h h'⟩
      · exact .inl h
  · have no : ∀ n f, ¬ Addition.SetsAction (.rule (txt "a::='x'") none) n f := fun n f h => nomatch h.2
    have no' : ∀ n f, ¬ Addition.SetsAction (.import_ (txt "b") P.digit) n f := fun n f h => h
    intro n f
    constructor <;>
    · rintro ⟨before, a, after, e, h, -⟩
      have : a ∈ before ++ a :: after := by simp
      rw [← e] at this
      simp only [List.mem_cons, List.not_mem_nil, or_false] at this
      rcases this with rfl | rfl
      · first | exact absurd h (no _ _) | exact absurd h (no' _ _)
      · first | exact absurd h (no _ _) | exact absurd h (no' _ _)

/-- … and both chains compile. -/
example : (∃ G, addAll (ruleEnv .cpp11) (.empty (txt "a")) [.rule (txt "a::='x'") none, .import_ (txt "b") P.digit] = .ok G) ∧
    ∃ G, addAll (ruleEnv .cpp11) (.empty (txt "a")) [.import_ (txt "b") P.digit, .rule (txt "a::='x'") none] = .ok G := by
  have hx := example_isRule (ch 'x') (by decide) (by decide)
  have hb : Tokens (txt "b") [.name (txt "b")] [] :=
    .cons (w := txt "b") (ws := []) (s := []) (.name (by decide) (by decide)) (by simp) rfl (fun _ _ => rfl) (.nil _)
  constructor <;> refine (C49_compiles (ruleEnv_parsesRules _) _ _).2 ?_ <;>
  · intro a ha
    simp only [List.mem_cons, List.not_mem_nil, or_false] at ha
    rcases ha with rfl | rfl
    · first | exact ⟨_, _, _, hx, rfl⟩ | exact ⟨_, _, ⟨_, hb⟩, rfl⟩
    · first | exact ⟨_, _, _, hx, rfl⟩ | exact ⟨_, _, ⟨_, hb⟩, rfl⟩

/-- C48: the whole grammar of the example. -/
example : exampleGrammar.apply (ruleEnv .cpp98) (ruleEnv .cpp11) (txt "12!?") start =
    .ok (.acc (.seq [.chr (ch '1'), .chr (ch '2')]) (txt "?") ⟨1, 4, ch '!'⟩) := by
  have hp : exampleGrammar.parserOf (txt "S") = .ok _ :=
    parserOf_eq_ok.2 (.ruleAction rfl (.seq (.plus (.native rfl rfl)) (.chr _)) rfl)
  refine ((C48_grammar (ruleEnv_parsesRules .cpp98) (exampleEnv .cpp11).1 (exampleEnv .cpp11).2.1
    (exampleEnv .cpp11).2.2 exampleGrammar (txt "12!?") start).1 ..).2 ⟨txt "S", ⟨[], ?_⟩, ⟨_, hp⟩, ?_⟩
  · exact .cons (w := txt "S") (ws := txt " ") (s := []) (.name (by decide) (by decide)) (by decide) rfl
      (fun _ h => by cases h) (.nil _)
  · exact ((C48_built_parser (exampleEnv .cpp11).1 (exampleEnv .cpp11).2.1 (exampleEnv .cpp11).2.2
      exampleGrammar (txt "S") _ hp _ _).1 ..).1 (accepts_of_eval 40 (by decide +kernel))

/-- C49: what the chain `a::='x'` with an action and `a::='y'` without one makes. -/
example (f : Val → Val) (G : Grammar) (hG : addAll (ruleEnv .cpp11) (.empty (txt "a"))
      [.rule (txt "a::='x'") (some f), .rule (txt "a::='y'") none] = .ok G) :
    G.ruleSet.body (txt "a") = some (.parsed (.chr (ch 'y'))) := by
  refine ((C49_last_definition (ruleEnv_parsesRules _) _ _ G hG (txt "a")).1 _).2 ?_
  exact last_pair.2 (.inl ⟨_, example_isRule (ch 'y') (by decide) (by decide), rfl⟩)

end Metaparse
