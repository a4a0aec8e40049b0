import Verif.Lemmas.ExpressionParsers
import Verif.Lemmas.Formula
/-!
# The parsers of expressions with brackets
-/

namespace Metaparse

variable {E : Env (List Chr)} {D : Dialect} {d n : Nat}

/-- Expressions with brackets of any depth. -/
def AnyDepth (D : Dialect) (l : Nat) (t : List Chr) (e : AExp) : Prop := ∃ d, TutorialText D d l t e

theorem AnyDepth.prefixes {l : Nat} {cont : Chr → Bool} (h : ∀ d, Prefixes (TutorialText D d l) cont) :
    Prefixes (AnyDepth D l) cont where
  holds := by
    rintro t e t' e' r r' ⟨d, ht⟩ ⟨d', ht'⟩
    exact (h (max d d')).holds (ht.mono (Nat.le_max_left ..)) (ht'.mono (Nat.le_max_right ..))

theorem solid_any (D : Dialect) (l : Nat) : Solid (AnyDepth D l) := by
  rintro t e ⟨d, h⟩
  exact solid_text D d l t e h

/-- The texts in brackets. -/
def InBrackets (A : List Chr → AExp → Prop) (t : List Chr) (e : AExp) : Prop :=
  ∃ ws u ws', AllSpace ws ∧ A u e ∧ AllSpace ws' ∧ t = ch '(' :: (ws ++ (u ++ ch ')' :: ws'))

theorem text3_succ' {t : List Chr} {e : AExp} : TutorialText D (d + 1) 3 t e ↔
    NumText t e ∨ InBrackets (TutorialText D d 0) t e := text3_succ

/-- An expression in brackets. -/
abbrev brackets (p : P) : P := .middleOf Tutorial.lparenToken p Tutorial.rparenToken

theorem Env.Tutorial.lparen (h : E.Tutorial) : ReadsOp E Tutorial.lparenToken [ch '('] :=
  readsOp_token h.onText h.nth2 _

theorem Env.Tutorial.rparen (h : E.Tutorial) : ReadsOp E Tutorial.rparenToken [ch ')'] :=
  readsOp_token h.onText h.nth2 _

theorem close_stops (D : Dialect) (s : List Chr) : beginsWith (levelCont D 0) (ch ')' :: s) = false := by
  show levelCont D 0 (ch ')') = false
  unfold levelCont multChars
  cases D.div <;> decide

variable {p : P} {A A' : List Chr → AExp → Prop}

theorem OnlyReads.brackets (h : E.Tutorial) (hp : ∀ k, k < n → OnlyReads E k p (Values A)) :
    OnlyReads E n (brackets p) (Values (InBrackets A)) := by
  cases n with
  | zero =>
    intro s pos v s' pos' hn ha
    obtain ⟨v1, v3, hi⟩ := (C25_middleOf_accepts _ _ _ h.nth3 ..).1 ha
    obtain ⟨x, y, z, s1, pos1, s2, pos2, he, h1, -⟩ := hi.three
    obtain ⟨c1, hc1, ws, rfl, -⟩ := h.lparen.sound h1
    simp at hn
  | succ n =>
    refine (brackets_onlyReads h.nth3 h.lparen h.rparen (hp n (Nat.lt_succ_self n))).mono ?_
    rintro _ v ⟨ws, u, ws', rfl, hws, hws', e, k, hu, hk, rfl⟩
    exact ⟨e, k, ⟨ws, u, ws', hws, hu, hws', rfl⟩, hk, rfl⟩

theorem ReadsAll.brackets (h : E.Tutorial) {cont : Chr → Bool} (hp : ReadsAll E p (Values A) cont)
    (hc : cont (ch ')') = false) (hS : Solid A) :
    ReadsAll E (brackets p) (Values (InBrackets A)) numCont := by
  refine (brackets_readsAll h.nth3 h.lparen h.rparen hp hc ?_).mono ?_ (fun c hc => by simp [numCont, hc])
  · rintro t v ⟨e, k, he, -⟩
    exact hS t e he
  · rintro _ v ⟨e, k, ⟨ws, u, ws', hws, hu, hws', rfl⟩, hk, rfl⟩
    exact ⟨ws, u, ws', rfl, hws, hws', e, k, hu, hk, rfl⟩

theorem brackets_rejects (h : E.Tutorial) {s : List Chr} {pos : Pos} {m : Msg} {e : Pos} :
    Rejects E (brackets p) s pos m e ↔ Rejects E Tutorial.lparenToken s pos m e ∨
      (∃ v s1 pos1, Accepts E Tutorial.lparenToken s pos v s1 pos1 ∧ Rejects E p s1 pos1 m e) ∨
      ∃ v s1 pos1 w s2 pos2 m3, Accepts E Tutorial.lparenToken s pos v s1 pos1 ∧
        Accepts E p s1 pos1 w s2 pos2 ∧ Rejects E Tutorial.rparenToken s2 pos2 m3 e ∧
        m = .unpaired pos.line pos.col m3 := by
  rw [C25_middleOf_rejects _ _ _ h.nth3, ← C22_sequence_rejects [_, _] h.seq2, sequence_two_rejects h.seq2,
    or_assoc]
  refine or_congr Iff.rfl (or_congr Iff.rfl ?_)
  constructor
  · rintro ⟨vs, s2, pos2, m3, hi, hr, rfl⟩
    obtain ⟨a, b, s1, pos1, rfl, h1, h2⟩ := hi.two
    exact ⟨a, s1, pos1, b, s2, pos2, m3, h1, h2, hr, rfl⟩
  · rintro ⟨v, s1, pos1, w, s2, pos2, m3, h1, h2, hr, rfl⟩
    exact ⟨_, s2, pos2, m3, .cons h1 (.cons h2 (.nil ..)), hr, rfl⟩

theorem open_accepts (h : E.Tutorial) (hS : Solid A) {ws u : List Chr} {e : AExp} (hws : AllSpace ws) (hu : A u e)
    (r : List Chr) (pos : Pos) : ∃ pos', Accepts E Tutorial.lparenToken (ch '(' :: (ws ++ (u ++ r))) pos
      (.chr (ch '(')) (u ++ r) pos' := by
  have hs := hS u e hu
  exact h.lparen.accepts (c := ch '(') (ws := ws) (s' := u ++ r) pos (by simp) hws
    (by rw [beginsWith_append hs.2]; exact hs.1)

theorem close_not_rejects (h : E.Tutorial) {s : List Chr} {pos e : Pos} {m : Msg}
    (hr : Rejects E Tutorial.rparenToken (ch ')' :: s) pos m e) : False := by
  obtain ⟨pos', ha⟩ := h.rparen.accepts (c := ch ')') (ws := s.takeWhile spaceChar)
    (s' := s.dropWhile spaceChar) pos (by simp) (all_takeWhile _ _) (beginsWith_dropWhile _ _)
  rw [List.takeWhile_append_dropWhile] at ha
  exact ha.not_rejects hr

theorem AtLeast.brackets (h : E.Tutorial) (hp : AtLeast E p A) (hr : ∀ n, OnlyReads E n p (Values A'))
    (hA' : Prefixes A' (levelCont D 0)) (hA : ∀ t e, A t e → A' t e) (hS : Solid A') :
    AtLeast E (brackets p) (InBrackets A) := by
  have exactly : ∀ {u e r pos v s' pos'}, A u e → Accepts E p (u ++ ch ')' :: r) pos v s' pos' →
      s' = ch ')' :: r := by
    intro u e r pos v s' pos' hu ha
    have hl := hp.length hu ha
    obtain ⟨t, ht, e', k, hte, -⟩ := hr _ _ _ _ _ _ (Nat.le_refl _) ha
    have hle := (hA'.holds (hA _ _ hu) hte ht (close_stops D r)).1
    have := congrArg List.length ht
    simp only [List.length_append] at this
    exact (append_eq_of_length ht (by omega)).2.symm
  rintro t e rest pos r ⟨ws, u, ws', hws, hu, hws', rfl⟩ hrun
  have heq : ch '(' :: (ws ++ (u ++ ch ')' :: ws')) ++ rest = ch '(' :: (ws ++ (u ++ ch ')' :: (ws' ++ rest))) := by
    simp
  rw [heq] at hrun
  obtain ⟨pos1, ho⟩ := open_accepts h hS hws (hA _ _ hu) (ch ')' :: (ws' ++ rest)) pos
  cases r with
  | acc v s' pos' =>
    refine ⟨_, _, _, rfl, ?_⟩
    obtain ⟨v1, v3, hi⟩ := (C25_middleOf_accepts _ _ _ h.nth3 ..).1 hrun
    obtain ⟨x, y, z, s1, pos2, s2, pos3, he, h1, h2, h3⟩ := hi.three
    obtain ⟨-, rfl, rfl⟩ := ho.unique h1
    have := exactly hu h2
    subst this
    obtain ⟨c, -, w, hw, hws2, hb, -⟩ := h.rparen.sound h3
    simp only [List.cons.injEq] at hw
    have hpre : ws' <+: (ws' ++ rest).takeWhile spaceChar := by
      rw [List.takeWhile_append_of_pos hws']
      exact List.prefix_append _ _
    rw [hw.2, (takeWhile_append spaceChar w s' hws2 hb).1] at hpre
    have h1 := hpre.length_le
    have h2 := congrArg List.length hw.2
    simp only [List.length_append] at h2
    omega
  | rej m e' =>
    exfalso
    rcases (brackets_rejects h).1 hrun with hr | ⟨v, s1, pos1', h1, h2⟩ |
      ⟨v, s1, pos1', w, s2, pos2, m3, h1, h2, h3, -⟩
    · exact ho.not_rejects hr
    · obtain ⟨-, rfl, rfl⟩ := ho.unique h1
      exact hp.not_rejects hu h2
    · obtain ⟨-, rfl, rfl⟩ := ho.unique h1
      have := exactly hu h2
      subst this
      exact close_not_rejects h h3

theorem Decides.brackets (h : E.Tutorial) (hp : Decides E p A (levelCont D 0)) (hS : Solid A) :
    Decides E (brackets p) (InBrackets A) numCont := by
  rintro t e rest pos r ⟨ws, u, ws', hws, hu, hws', rfl⟩ hb hrun
  have heq : ch '(' :: (ws ++ (u ++ ch ')' :: ws')) ++ rest = ch '(' :: (ws ++ (u ++ ch ')' :: (ws' ++ rest))) := by
    simp
  rw [heq] at hrun
  obtain ⟨pos1, ho⟩ := open_accepts h hS hws hu (ch ')' :: (ws' ++ rest)) pos
  have hb' : beginsWith spaceChar rest = false := beginsWith_mono (fun c hc => by simp [numCont, hc]) hb
  cases r with
  | acc v s' pos' =>
    obtain ⟨v1, v3, hi⟩ := (C25_middleOf_accepts _ _ _ h.nth3 ..).1 hrun
    obtain ⟨x, y, z, s1, pos2, s2, pos3, he, h1, h2, h3⟩ := hi.three
    simp only [List.cons.injEq, and_true] at he
    obtain ⟨rfl, rfl, rfl⟩ := he
    obtain ⟨-, rfl, rfl⟩ := ho.unique h1
    obtain ⟨k, pos4, hk, hk'⟩ := hp _ _ _ _ _ hu (close_stops D _) h2
    cases hk'
    obtain ⟨pos5, hc⟩ := h.rparen.accepts (c := ch ')') (ws := ws') (s' := rest) pos3 (by simp) hws' hb'
    obtain ⟨-, rfl, rfl⟩ := hc.unique h3
    exact ⟨k, _, hk, rfl⟩
  | rej m e' =>
    exfalso
    rcases (brackets_rejects h).1 hrun with hr | ⟨v, s1, pos1', h1, h2⟩ |
      ⟨v, s1, pos1', w, s2, pos2, m3, h1, h2, h3, -⟩
    · exact ho.not_rejects hr
    · obtain ⟨-, rfl, rfl⟩ := ho.unique h1
      obtain ⟨k, pos4, hk, hk'⟩ := hp _ _ _ _ _ hu (close_stops D _) h2
      cases hk'
    · obtain ⟨-, rfl, rfl⟩ := ho.unique h1
      obtain ⟨k, pos4, hk, hk'⟩ := hp _ _ _ _ _ hu (close_stops D _) h2
      cases hk'
      exact close_not_rejects h h3

/-! ## Numbers and brackets -/

/-- Numbers and expressions in brackets. -/
def NumOr (B : List Chr → AExp → Prop) (t : List Chr) (e : AExp) : Prop := NumText t e ∨ B t e

/-- Parsers that always reject. -/
def NeverAccepts (E : Env (List Chr)) (ps : List P) : Prop :=
  ∀ p ∈ ps, ∀ s pos, ∃ m e, Rejects E p s pos m e

variable {more : List P} {b : P} {B : List Chr → AExp → Prop}

theorem OnlyReads.oneOfAll {ps : List P} (hs : E.SupportsOneOf ps.length) {L : List Chr → Val → Prop}
    (h : ∀ p ∈ ps, OnlyReads E n p L) : OnlyReads E n (.oneOf ps) L := by
  intro s pos v s' pos' hn ha
  obtain ⟨-, b, r, a, hl, -, hr⟩ := (C19_oneOf_accepts _ hs ..).1 ha
  exact h r (by rw [hl]; simp) _ _ _ _ _ hn hr

theorem OnlyReads.primary (h : E.Tutorial) (hs : E.SupportsOneOf (more.length + 2)) (hm : NeverAccepts E more)
    (hb : OnlyReads E n b (Values B)) :
    OnlyReads E n (.oneOf (Tutorial.intToken :: b :: more)) (Values (NumOr B)) := by
  refine .oneOfAll (by simpa using hs) ?_
  intro q hq
  simp only [List.mem_cons] at hq
  rcases hq with rfl | rfl | hq
  · exact (OnlyReads.num h n).mono fun t v ⟨e, k, h1, h2, h3⟩ => ⟨e, k, .inl h1, h2, h3⟩
  · exact hb.mono fun t v ⟨e, k, h1, h2, h3⟩ => ⟨e, k, .inr h1, h2, h3⟩
  · intro s pos v s' pos' _ ha
    obtain ⟨m, e, hr⟩ := hm q hq s pos
    exact absurd hr ha.not_rejects

/-- In front of brackets there is no number. -/
theorem number_rejects_open (h : E.Tutorial) {t : List Chr} {e : AExp} (ht : InBrackets A t e) (rest : List Chr)
    (pos : Pos) : Rejects E Tutorial.intToken (t ++ rest) pos .digitExpected pos := by
  obtain ⟨ws, u, ws', -, -, -, rfl⟩ := ht
  refine (number_rejects h.onText h.nth2).2 ⟨?_, rfl, rfl⟩
  simp only [List.cons_append, beginsWith]
  decide

/-- Which alternative it is. -/
theorem primary_number (h : E.Tutorial) (hs : E.SupportsOneOf (more.length + 2)) {t rest : List Chr} {e : AExp}
    {pos : Pos} {r : Res (List Chr)} (ht : NumText t e)
    (hr : run E (.oneOf (Tutorial.intToken :: b :: more)) (t ++ rest) pos = .ok r) :
    run E Tutorial.intToken (t ++ rest) pos = .ok r := by
  have hno : ∀ {m e}, ¬ Rejects E Tutorial.intToken (t ++ rest) pos m e := fun hr =>
    (AtLeast.num h).not_rejects ht hr
  cases r with
  | acc v s' pos' =>
    obtain ⟨-, b1, q, a1, hl, hrej, hq⟩ := (C19_oneOf_accepts _ (by simpa using hs) ..).1 hr
    cases b1 with
    | nil => simp only [List.nil_append, List.cons.injEq] at hl; rw [hl.1]; exact hq
    | cons q1 b1 =>
      simp only [List.cons_append, List.cons.injEq] at hl
      obtain ⟨m, e, hr⟩ := hrej q1 (by simp)
      rw [← hl.1] at hr
      exact absurd hr hno
  | rej m e =>
    obtain ⟨m, e, hr⟩ := (C20_oneOf_rejects_iff _ (by simpa using hs) ..).1 ⟨m, e, hr⟩ Tutorial.intToken
      (by simp)
    exact absurd hr hno

theorem primary_brackets (h : E.Tutorial) (hs : E.SupportsOneOf (more.length + 2)) {t rest : List Chr} {e : AExp}
    {pos : Pos} {r : Res (List Chr)} (ht : InBrackets A t e)
    (hno : ∀ {m e}, ¬ Rejects E b (t ++ rest) pos m e)
    (hr : run E (.oneOf (Tutorial.intToken :: b :: more)) (t ++ rest) pos = .ok r) :
    run E b (t ++ rest) pos = .ok r := by
  have hint := number_rejects_open h ht rest pos
  cases r with
  | acc v s' pos' =>
    obtain ⟨-, b1, q, a1, hl, hrej, hq⟩ := (C19_oneOf_accepts _ (by simpa using hs) ..).1 hr
    match b1, hl, hrej with
    | [], hl, hrej =>
      simp only [List.nil_append, List.cons.injEq] at hl
      rw [← hl.1] at hq
      exact absurd hint hq.not_rejects
    | [q1], hl, hrej =>
      simp only [List.cons_append, List.nil_append, List.cons.injEq] at hl
      rw [hl.2.1]; exact hq
    | q1 :: q2 :: b1, hl, hrej =>
      simp only [List.cons_append, List.cons.injEq] at hl
      obtain ⟨m, e, hr⟩ := hrej q2 (by simp)
      rw [← hl.2.1] at hr
      exact absurd hr hno
  | rej m e =>
    obtain ⟨m, e, hr⟩ := (C20_oneOf_rejects_iff _ (by simpa using hs) ..).1 ⟨m, e, hr⟩ b (by simp)
    exact absurd hr hno

theorem AtLeast.primary (h : E.Tutorial) (hs : E.SupportsOneOf (more.length + 2))
    (hb : AtLeast E b (InBrackets A)) :
    AtLeast E (.oneOf (Tutorial.intToken :: b :: more)) (NumOr (InBrackets A)) := by
  intro t e rest pos r ht hr
  rcases ht with ht | ht
  · exact AtLeast.num h _ _ _ _ _ ht (primary_number h hs ht hr)
  · exact hb _ _ _ _ _ ht (primary_brackets h hs ht (fun hr => hb.not_rejects ht hr) hr)

theorem Decides.primary (h : E.Tutorial) (hs : E.SupportsOneOf (more.length + 2))
    (hb : Decides E b (InBrackets A) numCont) :
    Decides E (.oneOf (Tutorial.intToken :: b :: more)) (NumOr (InBrackets A)) numCont := by
  intro t e rest pos r ht hc hr
  rcases ht with ht | ht
  · exact Decides.num h _ _ _ _ _ ht hc (primary_number h hs ht hr)
  · refine hb _ _ _ _ _ ht hc (primary_brackets h hs ht (fun hr => ?_) hr)
    obtain ⟨k, pos', -, hk⟩ := hb _ _ _ _ _ ht hc hr
    cases hk

theorem ReadsAll.primary (h : E.Tutorial) (hs : E.SupportsOneOf (more.length + 2)) (hm : NeverAccepts E more)
    (hb : ReadsAll E (Metaparse.brackets p) (Values (InBrackets A)) numCont) :
    ReadsAll E (.oneOf (Tutorial.intToken :: Metaparse.brackets p :: more)) (Values (NumOr (InBrackets A))) numCont := by
  rintro t v rest pos ⟨e, k, ht, hk, rfl⟩ hc
  rcases ht with ht | ht
  · obtain ⟨pos', ha⟩ := ReadsAll.num h t _ rest pos ⟨e, k, ht, hk, rfl⟩ hc
    have hopen : beginsWith ([ch '('].contains) (t ++ rest) = false := by
      obtain ⟨n, ht, -⟩ := ht
      have := ht.begins
      cases t with
      | nil => exact absurd rfl this.2.2
      | cons c t =>
        simp only [List.cons_append, beginsWith, List.contains_cons, List.contains_nil, Bool.or_false,
          beq_eq_false_iff_ne, ne_eq]
        rintro rfl
        exact absurd this.1 (by simp only [beginsWith]; decide)
    obtain ⟨m, hrj⟩ := brackets_beginsIn (c := Tutorial.rparenToken) (p := p) h.nth3 h.lparen (t ++ rest) pos
      hopen
    refine ⟨pos', (C19_oneOf_accepts _ (by simpa using hs) ..).2 ⟨?_, [], _, _, rfl, by simp, ha⟩⟩
    intro q hq
    simp only [List.mem_cons] at hq
    rcases hq with rfl | rfl | hq
    · exact ⟨_, ha⟩
    · exact ⟨_, hrj⟩
    · obtain ⟨m, e, hr⟩ := hm q hq (t ++ rest) pos
      exact ⟨_, hr⟩
  · obtain ⟨pos', ha⟩ := hb t _ rest pos ⟨e, k, ht, hk, rfl⟩ hc
    have hint := number_rejects_open h ht rest pos
    refine ⟨pos', (C19_oneOf_accepts _ (by simpa using hs) ..).2
      ⟨?_, [Tutorial.intToken], _, _, rfl, by simpa using ⟨_, _, hint⟩, ha⟩⟩
    intro q hq
    simp only [List.mem_cons] at hq
    rcases hq with rfl | rfl | hq
    · exact ⟨_, hint⟩
    · exact ⟨_, ha⟩
    · obtain ⟨m, e, hr⟩ := hm q hq (t ++ rest) pos
      exact ⟨_, hr⟩

end Metaparse
