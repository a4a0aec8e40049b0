import Verif.Spec.MetaHs
import Verif.Lemmas.Formula
import Verif.Lemmas.GrammarTokens
/-!
# The tokens of `meta_hs`
-/

namespace Metaparse

variable {E : Env (List Chr)}

namespace Env.MetaHs

theorem nth3 (h : E.MetaHs) : E.SupportsNth 3 := h.limSequence
theorem nth2 (h : E.MetaHs) : E.SupportsNth 2 := fun e => Nat.lt_trans (by decide) (h.nth3 e)
theorem seq3 (h : E.MetaHs) : E.SupportsSequence 3 := fun e => ⟨Nat.lt_trans (by decide) (h.nth3 e), h.nth3 e⟩
theorem seq2 (h : E.MetaHs) : E.SupportsSequence 2 :=
  fun e => ⟨Nat.lt_trans (by decide) (h.nth3 e), Nat.lt_trans (by decide) (h.nth3 e)⟩
theorem oneOf4 (h : E.MetaHs) : E.SupportsOneOf 4 := h.limOneOf
theorem oneOf2 (h : E.MetaHs) : E.SupportsOneOf 2 := fun e => Nat.le_trans (by decide) (h.oneOf4 e)

end Env.MetaHs

theorem first_or_all {A R : P → Prop} : ∀ ps : List P, (∀ p ∈ ps, A p ∨ R p) →
    (∃ pre p post, ps = pre ++ p :: post ∧ (∀ q ∈ pre, R q) ∧ A p) ∨ ∀ p ∈ ps, R p
  | [], _ => .inr (by simp)
  | p :: ps, h => by
    rcases h p (by simp) with hp | hp
    · exact .inl ⟨[], p, ps, rfl, by simp, hp⟩
    · rcases first_or_all ps fun q hq => h q (by simp [hq]) with ⟨pre, q, post, rfl, h1, h2⟩ | h1
      · refine .inl ⟨p :: pre, q, post, rfl, ?_, h2⟩
        intro q hq
        rcases List.mem_cons.1 hq with rfl | hq
        · exact hp
        · exact h1 _ hq
      · refine .inr fun q hq => ?_
        rcases List.mem_cons.1 hq with rfl | hq
        · exact hp
        · exact h1 _ hq

/-- All alternatives reject where they start. -/
theorem oneOf_rejects_here {ps : List P} (hs : E.SupportsOneOf ps.length) {s : List Chr} {pos : Pos}
    (h : ∀ p ∈ ps, ∃ m, Rejects E p s pos m pos) : ∃ m, Rejects E (.oneOf ps) s pos m pos := by
  obtain ⟨m, e, hr⟩ := (C20_oneOf_rejects_iff _ hs s pos).2 fun p hp => by
    obtain ⟨m, h⟩ := h p hp
    exact ⟨m, _, h⟩
  refine ⟨m, ?_⟩
  rcases (C20_oneOf_furthest _ s pos m e hr).reached with he | ⟨p, hp, m', hp'⟩
  · rwa [he] at hr
  · obtain ⟨m'', h⟩ := h p hp
    rwa [← (h.unique hp').2] at hr

theorem sequence_rejects_first {ps : List P} {p : P} (hs : E.SupportsSequence (p :: ps).length) {s : List Chr}
    {pos e : Pos} {m : Msg} (h : Rejects E p s pos m e) : Rejects E (.sequence (p :: ps)) s pos m e :=
  (C22_sequence_rejects _ hs ..).2 ⟨[], _, _, [], s, pos, rfl, .nil .., h⟩

theorem lastOf_rejects_first {ps : List P} {p : P} (hs : E.SupportsNth (p :: ps).length) {s : List Chr}
    {pos e : Pos} {m : Msg} (h : Rejects E p s pos m e) : Rejects E (.lastOf (p :: ps)) s pos m e :=
  (C23_lastOf_rejects _ _ hs ..).2 ⟨[], _, _, [], s, pos, rfl, .nil .., h⟩

theorem lastOf_two {p q : P} (hs : E.SupportsNth 2) {s : List Chr} {pos : Pos} {v : Val} {s' : List Chr}
    {pos' : Pos} : Accepts E (.lastOf [p, q]) s pos v s' pos' ↔ ∃ a s1 pos1, Accepts E p s pos a s1 pos1 ∧
      Accepts E q s1 pos1 v s' pos' := by
  rw [C23_lastOf_accepts _ _ hs]
  constructor
  · rintro ⟨vs, hi⟩
    obtain ⟨a, b, s1, pos1, he, h1, h2⟩ := hi.two
    have he : vs ++ [v] = [a] ++ [b] := he
    obtain ⟨rfl, hv⟩ := List.append_inj' he rfl
    injection hv with hv
    subst hv
    exact ⟨_, _, _, h1, h2⟩
  · rintro ⟨a, s1, pos1, h1, h2⟩
    exact ⟨[a], .cons h1 (.cons h2 (.nil ..))⟩

theorem lastOf_three {p q r : P} (hs : E.SupportsNth 3) {s : List Chr} {pos : Pos} {v : Val} {s' : List Chr}
    {pos' : Pos} : Accepts E (.lastOf [p, q, r]) s pos v s' pos' ↔ ∃ a s1 pos1 b s2 pos2,
      Accepts E p s pos a s1 pos1 ∧ Accepts E q s1 pos1 b s2 pos2 ∧ Accepts E r s2 pos2 v s' pos' := by
  rw [C23_lastOf_accepts _ _ hs]
  constructor
  · rintro ⟨vs, hi⟩
    obtain ⟨a, b, c, s1, pos1, s2, pos2, he, h1, h2, h3⟩ := hi.three
    have he : vs ++ [v] = [a, b] ++ [c] := he
    obtain ⟨rfl, hv⟩ := List.append_inj' he rfl
    injection hv with hv
    subst hv
    exact ⟨_, _, _, _, _, _, h1, h2, h3⟩
  · rintro ⟨a, s1, pos1, b, s2, pos2, h1, h2, h3⟩
    exact ⟨[a, b], .cons h1 (.cons h2 (.cons h3 (.nil ..)))⟩

theorem lit_accepts (hE : E.OnText) {c : Chr} {s : List Chr} {pos : Pos} {v : Val} {s' : List Chr} {pos' : Pos} :
    Accepts E (.litC c) s pos v s' pos' ↔ s = c :: s' ∧ v = .chr c ∧ pos' = moveOver pos [c] := by
  rw [C28_exactly (C28_lit hE c).1]
  constructor
  · rintro ⟨d, rfl, hd, rfl, rfl⟩
    simp only [decide_eq_true_eq] at hd
    subst hd
    exact ⟨rfl, rfl, rfl⟩
  · rintro ⟨rfl, rfl, rfl⟩
    exact ⟨c, rfl, by simp, rfl, rfl⟩

theorem lit_rejects (hE : E.OnText) {c : Chr} {s : List Chr} (pos : Pos)
    (h : beginsWith (fun x => decide (x = c)) s = false) : ∃ m, Rejects E (.litC c) s pos m pos :=
  (C28_lit hE c).1.rejects s pos h

theorem lit_total (hE : E.OnText) (c : Chr) (s : List Chr) (pos : Pos) :
    (∃ s', s = c :: s') ∨ ∃ m, Rejects E (.litC c) s pos m pos := by
  cases h : beginsWith (fun x => decide (x = c)) s with
  | false => exact .inr (lit_rejects hE pos h)
  | true =>
    cases s with
    | nil => cases h
    | cons x s => simp only [beginsWith, decide_eq_true_eq] at h; subst h; exact .inl ⟨s, rfl⟩

theorem ret_accepts {x : Val} {s : List Chr} {pos : Pos} {v : Val} {s' : List Chr} {pos' : Pos} :
    Accepts E (.ret x) s pos v s' pos' ↔ s' = s ∧ v = x ∧ pos' = pos := by
  unfold Accepts
  rw [run_ret]
  simp only [Out.ok.injEq, Res.acc.injEq]
  constructor
  · rintro ⟨rfl, rfl, rfl⟩; exact ⟨rfl, rfl, rfl⟩
  · rintro ⟨rfl, rfl, rfl⟩; exact ⟨rfl, rfl, rfl⟩

/-! ## Comparisons -/

namespace MetaHs.Token

/-- The longest comparison operator at the beginning of a text, as `token::cmp` sees it. -/
def CmpAt (s : List Chr) (o s' : List Chr) : Prop :=
  s = o ++ s' ∧ (o = txt "==" ∨ o = txt "/=" ∨ o = txt "<=" ∨ o = txt ">=" ∨
    ((o = txt "<" ∨ o = txt ">") ∧ s'.head? ≠ some (ch '=')))

theorem twoChars (h : E.MetaHs) (a b : Chr) (x : Val) (s : List Chr) (pos : Pos) :
    (∃ s', s = a :: b :: s' ∧ Accepts E (.lastOf [.litC a, .litC b, .ret x]) s pos x s' (moveOver pos [a, b])) ∨
    ((¬ ∃ s', s = a :: b :: s') ∧ ∃ m e, Rejects E (.lastOf [.litC a, .litC b, .ret x]) s pos m e ∧
      (s.head? ≠ some a → e = pos)) := by
  rcases lit_total h.onText a s pos with ⟨s1, rfl⟩ | ⟨m, hr⟩
  · have h1 : Accepts E (.litC a) (a :: s1) pos (.chr a) s1 (moveOver pos [a]) :=
      (lit_accepts h.onText).2 ⟨rfl, rfl, rfl⟩
    rcases lit_total h.onText b s1 (moveOver pos [a]) with ⟨s2, rfl⟩ | ⟨m, hr⟩
    · exact .inl ⟨s2, rfl, (lastOf_three h.nth3).2 ⟨_, _, _, _, _, _, h1,
        (lit_accepts h.onText).2 ⟨rfl, rfl, rfl⟩, ret_accepts.2 ⟨rfl, rfl, rfl⟩⟩⟩
    · refine .inr ⟨?_, m, _, (C23_lastOf_rejects _ _ h.nth3 ..).2
        (.cons h1 ⟨[], _, _, [], s1, _, rfl, .nil .., hr⟩), fun hne => (hne rfl).elim⟩
      rintro ⟨s', he⟩
      simp only [List.cons.injEq, true_and] at he
      subst he
      exact ((lit_accepts h.onText).2 ⟨rfl, rfl, rfl⟩ : Accepts E (.litC b) _ _ _ _ _).not_rejects hr
  · refine .inr ⟨?_, m, _, lastOf_rejects_first h.nth3 hr, fun _ => rfl⟩
    rintro ⟨s', rfl⟩
    exact ((lit_accepts h.onText).2 ⟨rfl, rfl, rfl⟩ : Accepts E (.litC a) _ _ _ _ _).not_rejects hr

theorem always_total (hE : E.OnText) (c : Chr) (x : Val) (s : List Chr) (pos : Pos) :
    (∃ s', s = c :: s' ∧ Accepts E (.alwaysC c x) s pos x s' (moveOver pos [c])) ∨
    (s.head? ≠ some c ∧ ∃ m, Rejects E (.alwaysC c x) s pos m pos) := by
  cases s with
  | nil => exact .inr ⟨by simp, _, (C36_always_rejects ..).2 ((C28_lit hE c).1.empty pos)⟩
  | cons d s =>
    by_cases hd : d = c
    · subst hd
      exact .inl ⟨s, rfl, (C36_always_accepts ..).2 ⟨⟨_, (lit_accepts hE).2 ⟨rfl, rfl, rfl⟩⟩, rfl⟩⟩
    · exact .inr ⟨by simpa using hd, _, (C36_always_rejects ..).2 ((C28_lit hE c).1.other d s pos (by simpa using hd))⟩

/-- What follows `<` and `>`. -/
theorem withEqual (h : E.MetaHs) (a : Chr) (x y : Val) (q : P) (hq : q = .oneOf [.alwaysC (ch '=') x, .ret y] ∨
    q = .optional (.alwaysC (ch '=') x) y) (s : List Chr) (pos : Pos) :
    (∃ s', s = a :: ch '=' :: s' ∧ Accepts E (.lastOf [.litC a, q]) s pos x s' (moveOver pos [a, ch '='])) ∨
    (∃ s', s = a :: s' ∧ s'.head? ≠ some (ch '=') ∧
      Accepts E (.lastOf [.litC a, q]) s pos y s' (moveOver pos [a])) ∨
    (s.head? ≠ some a ∧ ∃ m, Rejects E (.lastOf [.litC a, q]) s pos m pos) := by
  cases s with
  | nil => exact .inr (.inr ⟨by simp, _, lastOf_rejects_first h.nth2 ((C28_lit h.onText a).1.empty pos)⟩)
  | cons d s =>
    by_cases hd : d = a
    · subst hd
      have h1 : Accepts E (.litC d) (d :: s) pos (.chr d) s (moveOver pos [d]) :=
        (lit_accepts h.onText).2 ⟨rfl, rfl, rfl⟩
      rcases always_total h.onText (ch '=') x s (moveOver pos [d]) with ⟨s', rfl, ha⟩ | ⟨hne, m, hr⟩
      · refine .inl ⟨s', rfl, (lastOf_two h.nth2).2 ⟨_, _, _, h1, ?_⟩⟩
        rcases hq with rfl | rfl
        · refine (C19_oneOf_accepts _ h.oneOf2 ..).2 ⟨?_, [], _, _, rfl, by simp, ha⟩
          intro q hq
          simp only [List.mem_cons, List.not_mem_nil, or_false] at hq
          rcases hq with rfl | rfl
          · exact ⟨_, ha⟩
          · exact ⟨_, run_ret ..⟩
        · unfold Accepts at ha ⊢
          rw [run_step]
          simp only [step, Comb.optional, ha, Out.bind_ok]
          rfl
      · refine .inr (.inl ⟨s, rfl, hne, (lastOf_two h.nth2).2 ⟨_, _, _, h1, ?_⟩⟩)
        rcases hq with rfl | rfl
        · refine (C19_oneOf_accepts _ h.oneOf2 ..).2 ⟨?_, [_], _, [], rfl, ?_, ret_accepts.2 ⟨rfl, rfl, rfl⟩⟩
          · intro q hq
            simp only [List.mem_cons, List.not_mem_nil, or_false] at hq
            rcases hq with rfl | rfl
            · exact ⟨_, hr⟩
            · exact ⟨_, run_ret ..⟩
          · intro q hq
            simp only [List.mem_cons, List.not_mem_nil, or_false] at hq
            subst hq
            exact ⟨_, _, hr⟩
        · unfold Accepts
          unfold Rejects at hr
          rw [run_step]
          simp only [step, Comb.optional, hr, Out.bind_ok]
    · exact .inr (.inr ⟨by simpa using hd, _,
        lastOf_rejects_first h.nth2 ((C28_lit h.onText a).1.other d s pos (by simpa using hd))⟩)

/-- A character with which comparison operators begin. -/
def cmpFirst (c : Chr) : Bool := [ch '=', ch '/', ch '<', ch '>'].contains c

theorem cmp_alternatives (h : E.MetaHs) (s : List Chr) (pos : Pos) :
    (∃ o s', CmpAt s o s' ∧ Accepts E (.oneOf cmpCases) s pos (.str (opName o)) s' (moveOver pos o)) ∨
    ((∀ o s', ¬ CmpAt s o s') ∧ ∃ m e, Rejects E (.oneOf cmpCases) s pos m e ∧
      (beginsWith cmpFirst s = false → e = pos)) := by
  have key : ∀ p ∈ cmpCases, (∃ o s', CmpAt s o s' ∧ Accepts E p s pos (.str (opName o)) s' (moveOver pos o)) ∨
      ∃ m e, Rejects E p s pos m e ∧ (beginsWith cmpFirst s = false → e = pos) := by
    intro p hp
    simp only [cmpCases, List.mem_cons, List.not_mem_nil, or_false] at hp
    rcases hp with rfl | rfl | rfl | rfl
    · rcases twoChars h (ch '=') (ch '=') (.str (txt ".==.")) s pos with ⟨s', rfl, ha⟩ | ⟨-, m, e, hr, he⟩
      · exact .inl ⟨txt "==", s', ⟨rfl, .inl rfl⟩, ha⟩
      · refine .inr ⟨m, e, hr, fun hb => he ?_⟩
        rintro hh
        cases s with
        | nil => cases hh
        | cons c s => simp only [List.head?_cons, Option.some.injEq] at hh; subst hh; cases hb
    · rcases twoChars h (ch '/') (ch '=') (.str (txt "./=.")) s pos with ⟨s', rfl, ha⟩ | ⟨-, m, e, hr, he⟩
      · exact .inl ⟨txt "/=", s', ⟨rfl, .inr (.inl rfl)⟩, ha⟩
      · refine .inr ⟨m, e, hr, fun hb => he ?_⟩
        rintro hh
        cases s with
        | nil => cases hh
        | cons c s => simp only [List.head?_cons, Option.some.injEq] at hh; subst hh; cases hb
    · rcases withEqual h (ch '<') (.str (txt ".<=.")) (.str (txt ".<.")) _ (.inl rfl) s pos with
        ⟨s', rfl, ha⟩ | ⟨s', rfl, hne, ha⟩ | ⟨-, m, hr⟩
      · exact .inl ⟨txt "<=", s', ⟨rfl, by simp⟩, ha⟩
      · exact .inl ⟨txt "<", s', ⟨rfl, by simp [hne]⟩, ha⟩
      · exact .inr ⟨m, _, hr, fun _ => rfl⟩
    · rcases withEqual h (ch '>') (.str (txt ".>=.")) (.str (txt ".>.")) _ (.inr rfl) s pos with
        ⟨s', rfl, ha⟩ | ⟨s', rfl, hne, ha⟩ | ⟨-, m, hr⟩
      · exact .inl ⟨txt ">=", s', ⟨rfl, by simp⟩, ha⟩
      · exact .inl ⟨txt ">", s', ⟨rfl, by simp [hne]⟩, ha⟩
      · exact .inr ⟨m, _, hr, fun _ => rfl⟩
  have hfin : AllFinish E cmpCases s pos := by
    intro p hp
    rcases key p hp with ⟨o, s', -, ha⟩ | ⟨m, e, hr, -⟩
    · exact ⟨_, ha⟩
    · exact ⟨_, hr⟩
  rcases first_or_all cmpCases key with ⟨pre, p, post, he, hpre, o, s', hc, ha⟩ | hall
  · refine .inl ⟨o, s', hc, (C19_oneOf_accepts _ h.oneOf4 ..).2 ⟨hfin, pre, p, post, he, ?_, ha⟩⟩
    intro q hq
    obtain ⟨m, e, hr, -⟩ := hpre q hq
    exact ⟨m, e, hr⟩
  · refine .inr ⟨?_, ?_⟩
    · rintro o r ⟨rfl, ho⟩
      have hno : ∀ p ∈ cmpCases, ∀ {v s' pos'}, ¬ Accepts E p (o ++ r) pos v s' pos' := by
        intro p hp v s' pos' ha
        obtain ⟨m, e, hr, -⟩ := hall p hp
        exact ha.not_rejects hr
      rcases ho with rfl | rfl | rfl | rfl | ⟨rfl | rfl, hne⟩
      · rcases twoChars h (ch '=') (ch '=') (.str (txt ".==.")) (txt "==" ++ r) pos with ⟨s', he, ha⟩ | ⟨hn, -⟩
        · exact absurd ha (hno _ (by simp [cmpCases]))
        · exact hn ⟨_, rfl⟩
      · rcases twoChars h (ch '/') (ch '=') (.str (txt "./=.")) (txt "/=" ++ r) pos with ⟨s', he, ha⟩ | ⟨hn, -⟩
        · exact absurd ha (hno _ (by simp [cmpCases]))
        · exact hn ⟨_, rfl⟩
      · rcases withEqual h (ch '<') (.str (txt ".<=.")) (.str (txt ".<.")) _ (.inl rfl) (txt "<=" ++ r) pos with
          ⟨s', he, ha⟩ | ⟨s', he, -, ha⟩ | ⟨hn, -⟩
        · exact absurd ha (hno _ (by simp [cmpCases]))
        · exact absurd ha (hno _ (by simp [cmpCases]))
        · exact hn rfl
      · rcases withEqual h (ch '>') (.str (txt ".>=.")) (.str (txt ".>.")) _ (.inr rfl) (txt ">=" ++ r) pos with
          ⟨s', he, ha⟩ | ⟨s', he, -, ha⟩ | ⟨hn, -⟩
        · exact absurd ha (hno _ (by simp [cmpCases]))
        · exact absurd ha (hno _ (by simp [cmpCases]))
        · exact hn rfl
      · rcases withEqual h (ch '<') (.str (txt ".<=.")) (.str (txt ".<.")) _ (.inl rfl) (txt "<" ++ r) pos with
          ⟨s', he, ha⟩ | ⟨s', he, -, ha⟩ | ⟨hn, -⟩
        · exact absurd ha (hno _ (by simp [cmpCases]))
        · exact absurd ha (hno _ (by simp [cmpCases]))
        · exact hn rfl
      · rcases withEqual h (ch '>') (.str (txt ".>=.")) (.str (txt ".>.")) _ (.inr rfl) (txt ">" ++ r) pos with
          ⟨s', he, ha⟩ | ⟨s', he, -, ha⟩ | ⟨hn, -⟩
        · exact absurd ha (hno _ (by simp [cmpCases]))
        · exact absurd ha (hno _ (by simp [cmpCases]))
        · exact hn rfl
    · obtain ⟨m, e, hr⟩ := (C20_oneOf_rejects_iff _ h.oneOf4 s pos).2 fun p hp => by
        obtain ⟨m, e, hr, -⟩ := hall p hp
        exact ⟨m, e, hr⟩
      refine ⟨m, e, hr, fun hb => ?_⟩
      rcases (C20_oneOf_furthest _ s pos m e hr).reached with he | ⟨p, hp, m', hp'⟩
      · exact he
      · obtain ⟨m'', e'', h', he⟩ := hall p hp
        rw [(hp'.unique h').2]
        exact he hb

theorem CmpAt.take {s o s' : List Chr} (h : CmpAt s o s') :
    o = s.take (if s[1]? = some (ch '=') then 2 else 1) := by
  obtain ⟨rfl, ho⟩ := h
  rcases ho with rfl | rfl | rfl | rfl | ho
  · rfl
  · rfl
  · rfl
  · rfl
  · have h1 : ∀ (c : Chr), s'.head? ≠ some (ch '=') →
        [c] = ([c] ++ s').take (if ([c] ++ s')[1]? = some (ch '=') then 2 else 1) := by
      intro c hn
      rw [if_neg]
      · rfl
      · cases s' with
        | nil => simp
        | cons d s' => simpa using hn
    rcases ho with ⟨rfl | rfl, hn⟩
    · exact h1 _ hn
    · exact h1 _ hn

theorem CmpAt.unique {s o s' o' s'' : List Chr} (h : CmpAt s o s') (h' : CmpAt s o' s'') : o = o' ∧ s' = s'' := by
  obtain rfl : o = o' := h.take.trans h'.take.symm
  exact ⟨rfl, List.append_cancel_left (h.1.symm.trans h'.1)⟩

theorem token_of {p : P} (h : E.MetaHs) {s : List Chr} {pos : Pos} {v : Val} {ws r : List Chr} {pos1 : Pos}
    (ha : Accepts E p s pos v (ws ++ r) pos1) (hw : AllSpace ws) (hr : beginsWith spaceChar r = false) :
    Accepts E (.token p) s pos v r (moveOver pos1 ws) :=
  (C29_token_accepts h.onText h.nth2 ..).2 ⟨ws, pos1, ha, hw, hr, rfl⟩

end MetaHs.Token

/-! ## Operators -/

open MetaHs in
/-- The parsers of the operators. -/
def hsOps : Nat → P
  | 0 => Token.cmp
  | 1 => .oneOf [Token.plus, Token.minus]
  | _ => .oneOf [Token.mult, Token.div]

/-- What the operators begin with. -/
def opFirst : Nat → Chr → Bool
  | 0 => MetaHs.Token.cmpFirst
  | 1 => [ch '+', ch '-'].contains
  | _ => [ch '*', ch '/'].contains

namespace MetaHs.Token

theorem opToken_total (h : E.MetaHs) (c : Chr) (x : Val) (s : List Chr) (pos : Pos) :
    (∃ s', s = c :: s' ∧ ∀ ws r, s' = ws ++ r → AllSpace ws → beginsWith spaceChar r = false →
      Accepts E (.token (.alwaysC c x)) s pos x r (moveOver pos (c :: ws))) ∨
    (s.head? ≠ some c ∧ ∃ m, Rejects E (.token (.alwaysC c x)) s pos m pos) := by
  rcases always_total h.onText c x s pos with ⟨s', rfl, ha⟩ | ⟨hn, m, hr⟩
  · refine .inl ⟨s', rfl, ?_⟩
    rintro ws r rfl hw hr
    exact token_of (pos1 := moveOver pos [c]) h ha hw hr
  · exact .inr ⟨hn, m, (C29_token_rejects h.onText h.nth2 ..).2 hr⟩

theorem opPair_total (h : E.MetaHs) (a b : Chr) (hab : a ≠ b) (x y : Val) (s : List Chr) (pos : Pos) :
    (∃ s', s = a :: s' ∧ ∀ ws r, s' = ws ++ r → AllSpace ws → beginsWith spaceChar r = false →
      Accepts E (.oneOf [.token (.alwaysC a x), .token (.alwaysC b y)]) s pos x r (moveOver pos (a :: ws))) ∨
    (∃ s', s = b :: s' ∧ ∀ ws r, s' = ws ++ r → AllSpace ws → beginsWith spaceChar r = false →
      Accepts E (.oneOf [.token (.alwaysC a x), .token (.alwaysC b y)]) s pos y r (moveOver pos (b :: ws))) ∨
    (beginsWith [a, b].contains s = false ∧
      ∃ m, Rejects E (.oneOf [.token (.alwaysC a x), .token (.alwaysC b y)]) s pos m pos) := by
  rcases opToken_total h a x s pos with ⟨s', rfl, ha⟩ | ⟨hn, m, hr⟩
  · refine .inl ⟨s', rfl, ?_⟩
    rcases opToken_total h b y (a :: s') pos with ⟨s'', he, -⟩ | ⟨-, m, hr⟩
    · exact (hab (List.cons.inj he).1).elim
    · rintro ws r rfl hw hs
      have ha := ha ws r rfl hw hs
      refine (C19_oneOf_accepts _ h.oneOf2 ..).2 ⟨?_, [], _, _, rfl, by simp, ha⟩
      intro q hq
      simp only [List.mem_cons, List.not_mem_nil, or_false] at hq
      rcases hq with rfl | rfl
      · exact ⟨_, ha⟩
      · exact ⟨_, hr⟩
  · rcases opToken_total h b y s pos with ⟨s', rfl, ha⟩ | ⟨hn', m', hr'⟩
    · refine .inr (.inl ⟨s', rfl, ?_⟩)
      rintro ws r rfl hw hs
      have ha := ha ws r rfl hw hs
      refine (C19_oneOf_accepts _ h.oneOf2 ..).2 ⟨?_, [_], _, [], rfl, ?_, ha⟩
      · intro q hq
        simp only [List.mem_cons, List.not_mem_nil, or_false] at hq
        rcases hq with rfl | rfl
        · exact ⟨_, hr⟩
        · exact ⟨_, ha⟩
      · intro q hq
        simp only [List.mem_cons, List.not_mem_nil, or_false] at hq
        subst hq
        exact ⟨_, _, hr⟩
    · refine .inr (.inr ⟨?_, ?_⟩)
      · cases s with
        | nil => rfl
        | cons c s =>
          simp only [List.head?_cons, ne_eq, Option.some.injEq] at hn hn'
          simp [beginsWith, hn, hn']
      · refine oneOf_rejects_here h.oneOf2 ?_
        intro q hq
        simp only [List.mem_cons, List.not_mem_nil, or_false] at hq
        rcases hq with rfl | rfl
        · exact ⟨_, hr⟩
        · exact ⟨_, hr'⟩

theorem split_space (s : List Chr) : ∃ ws r, s = ws ++ r ∧ AllSpace ws ∧ beginsWith spaceChar r = false :=
  ⟨s.takeWhile spaceChar, s.dropWhile spaceChar, (List.takeWhile_append_dropWhile ..).symm, all_takeWhile _ _,
    beginsWith_dropWhile _ _⟩

end MetaHs.Token

open MetaHs.Token

theorem hsOps_sound (h : E.MetaHs) {l : Nat} (hl : l < 3) {s : List Chr} {pos : Pos} {v : Val} {s' : List Chr}
    {pos' : Pos} (ha : Accepts E (hsOps l) s pos v s' pos') : ∃ o ws, s = o ++ (ws ++ s') ∧ AllSpace ws ∧
      beginsWith spaceChar s' = false ∧ (o ∈ opsAt l ∨ l = 0 ∧ o = txt "/=") ∧ v = .str (opName o) ∧
      pos' = moveOver pos (o ++ ws) := by
  match l, hl with
  | 0, _ =>
    obtain ⟨ws, pos1, ha0, hw, hs, rfl⟩ := (C29_token_accepts h.onText h.nth2 ..).1 ha
    clear ha
    have ha := ha0
    clear ha0
    rcases cmp_alternatives h s pos with ⟨o, r, hc, ha'⟩ | ⟨-, m, e, hr, -⟩
    · obtain ⟨rfl, rfl, rfl⟩ := ha.unique ha'
      refine ⟨o, ws, hc.1, hw, hs, ?_, rfl, (moveOver_append ..).symm⟩
      rcases hc.2 with rfl | rfl | rfl | rfl | ⟨rfl | rfl, -⟩ <;> simp [opsAt]
    · exact (ha.not_rejects hr).elim
  | 1, _ =>
    rcases opPair_total h (ch '+') (ch '-') (by decide) (.str (txt ".+.")) (.str (txt ".-.")) s pos with
      ⟨t, rfl, ht⟩ | ⟨t, rfl, ht⟩ | ⟨-, m, hr⟩
    · obtain ⟨ws, r, rfl, hw, hr⟩ := split_space t
      obtain ⟨rfl, rfl, rfl⟩ := ha.unique (ht ws r rfl hw hr)
      exact ⟨txt "+", ws, rfl, hw, hr, by simp [opsAt], rfl, rfl⟩
    · obtain ⟨ws, r, rfl, hw, hr⟩ := split_space t
      obtain ⟨rfl, rfl, rfl⟩ := ha.unique (ht ws r rfl hw hr)
      exact ⟨txt "-", ws, rfl, hw, hr, by simp [opsAt], rfl, rfl⟩
    · exact (ha.not_rejects hr).elim
  | 2, _ =>
    rcases opPair_total h (ch '*') (ch '/') (by decide) (.str (txt ".*.")) (.str (txt "./.")) s pos with
      ⟨t, rfl, ht⟩ | ⟨t, rfl, ht⟩ | ⟨-, m, hr⟩
    · obtain ⟨ws, r, rfl, hw, hr⟩ := split_space t
      obtain ⟨rfl, rfl, rfl⟩ := ha.unique (ht ws r rfl hw hr)
      exact ⟨txt "*", ws, rfl, hw, hr, by simp [opsAt], rfl, rfl⟩
    · obtain ⟨ws, r, rfl, hw, hr⟩ := split_space t
      obtain ⟨rfl, rfl, rfl⟩ := ha.unique (ht ws r rfl hw hr)
      exact ⟨txt "/", ws, rfl, hw, hr, by simp [opsAt], rfl, rfl⟩
    · exact (ha.not_rejects hr).elim

theorem hsOps_accepts (h : E.MetaHs) {l : Nat} (hl : l < 3) {o ws s' : List Chr} (ho : o ∈ opsAt l)
    (hw : AllSpace ws) (hs : beginsWith spaceChar s' = false) (he : (ws ++ s').head? ≠ some (ch '='))
    (pos : Pos) : Accepts E (hsOps l) (o ++ (ws ++ s')) pos (.str (opName o)) s' (moveOver pos (o ++ ws)) := by
  match l, hl with
  | 0, _ =>
    have hc : CmpAt (o ++ (ws ++ s')) o (ws ++ s') := by
      refine ⟨rfl, ?_⟩
      simp only [opsAt, List.mem_cons, List.not_mem_nil, or_false] at ho
      rcases ho with rfl | rfl | rfl | rfl | rfl
      · exact .inl rfl
      · exact .inr (.inr (.inr (.inr ⟨.inl rfl, he⟩)))
      · exact .inr (.inr (.inl rfl))
      · exact .inr (.inr (.inr (.inr ⟨.inr rfl, he⟩)))
      · exact .inr (.inr (.inr (.inl rfl)))
    rcases cmp_alternatives h (o ++ (ws ++ s')) pos with ⟨o', r, hc', ha'⟩ | ⟨hn, -⟩
    · obtain ⟨rfl, rfl⟩ := hc.unique hc'
      rw [moveOver_append]
      exact token_of h ha' hw hs
    · exact (hn _ _ hc).elim
  | 1, _ =>
    simp only [opsAt, List.mem_cons, List.not_mem_nil, or_false] at ho
    rcases opPair_total h (ch '+') (ch '-') (by decide) (.str (txt ".+.")) (.str (txt ".-.")) (o ++ (ws ++ s'))
      pos with ⟨t, ht, ha⟩ | ⟨t, ht, ha⟩ | ⟨hb, -⟩
    · rcases ho with rfl | rfl
      · exact ha ws s' (List.cons.inj ht).2.symm hw hs
      · exact absurd (List.cons.inj ht).1 (by decide)
    · rcases ho with rfl | rfl
      · exact absurd (List.cons.inj ht).1 (by decide)
      · exact ha ws s' (List.cons.inj ht).2.symm hw hs
    · rcases ho with rfl | rfl <;> cases hb
  | 2, _ =>
    simp only [opsAt, List.mem_cons, List.not_mem_nil, or_false] at ho
    rcases opPair_total h (ch '*') (ch '/') (by decide) (.str (txt ".*.")) (.str (txt "./.")) (o ++ (ws ++ s'))
      pos with ⟨t, ht, ha⟩ | ⟨t, ht, ha⟩ | ⟨hb, -⟩
    · rcases ho with rfl | rfl
      · exact ha ws s' (List.cons.inj ht).2.symm hw hs
      · exact absurd (List.cons.inj ht).1 (by decide)
    · rcases ho with rfl | rfl
      · exact absurd (List.cons.inj ht).1 (by decide)
      · exact ha ws s' (List.cons.inj ht).2.symm hw hs
    · rcases ho with rfl | rfl <;> cases hb

theorem hsOps_rejects (h : E.MetaHs) {l : Nat} (hl : l < 3) {s : List Chr} (pos : Pos)
    (hb : beginsWith (opFirst l) s = false) : ∃ m, Rejects E (hsOps l) s pos m pos := by
  match l, hl with
  | 0, _ =>
    rcases cmp_alternatives h s pos with ⟨o, s', ⟨rfl, ho⟩, -⟩ | ⟨-, m, e, hr, he⟩
    · rcases ho with rfl | rfl | rfl | rfl | ⟨rfl | rfl, -⟩ <;> cases hb
    · obtain rfl := he hb
      exact ⟨m, (C29_token_rejects h.onText h.nth2 ..).2 hr⟩
  | 1, _ =>
    rcases opPair_total h (ch '+') (ch '-') (by decide) (.str (txt ".+.")) (.str (txt ".-.")) s pos with
      ⟨t, rfl, ht⟩ | ⟨t, rfl, ht⟩ | ⟨-, m, hr⟩
    · cases hb
    · cases hb
    · exact ⟨m, hr⟩
  | 2, _ =>
    rcases opPair_total h (ch '*') (ch '/') (by decide) (.str (txt ".*.")) (.str (txt "./.")) s pos with
      ⟨t, rfl, ht⟩ | ⟨t, rfl, ht⟩ | ⟨-, m, hr⟩
    · cases hb
    · cases hb
    · exact ⟨m, hr⟩

/-! ## Words -/

theorem nameStart_nameChar {c : Chr} (h : nameStart c = true) : nameChar c = true := by
  simp only [nameStart, nameChar, Bool.or_eq_true] at *
  rcases h with h | h
  · exact .inl (.inl h)
  · exact .inr h

theorem charParser_nameStart (hE : E.OnText) (hs : E.SupportsOneOf 2) :
    ∃ m m', CharParser E (.oneOf [.letter, .litC (ch '_')]) nameStart .chr m m' := by
  have ha := C28_letter hE
  have h_ := (C28_lit hE (ch '_')).1
  have := charParser_oneOf (E := E) (val := .chr)
    (fun b : Bool => if b then P.letter else .litC (ch '_'))
    (fun b => if b then letterChar else fun c => decide (c = ch '_'))
    (fun b => if b then _ else _) (fun b => if b then _ else _)
    (by
      intro b
      cases b
      · exact h_
      · exact ha) [true, false] hs
  refine ⟨_, _, CharParser.congr this fun c => ?_⟩
  rw [Bool.eq_iff_iff]
  simp [nameStart]

theorem leftFold_nextLetter (a w : List Chr) :
    leftFold nextLetter (.str a) (w.map .chr) = .ok (.str (a ++ w)) := by
  induction w generalizing a with
  | nil => simp [leftFold]
  | cons c w ih =>
    have : (nextLetter (.str a) (.chr c)).force = .ok (.str (a ++ [c])) := rfl
    simp only [List.map_cons, leftFold, this, Out.bind_ok, ih, List.append_assoc, List.singleton_append]

theorem word_accepts (h : E.MetaHs) {w r : List Chr} (pos : Pos) (hs : beginsWith nameStart w = true)
    (hw : ∀ c ∈ w, nameChar c = true) (hr : beginsWith nameChar r = false) :
    Accepts E word (w ++ r) pos (.str w) r (moveOver pos w) := by
  cases w with
  | nil => cases hs
  | cons c w =>
    obtain ⟨m, m', h1⟩ := charParser_nameStart h.onText h.oneOf2
    obtain ⟨m2, m2', h2⟩ := charParser_name h.onText h.oneOf2
    obtain ⟨m3, h3⟩ := h2.maximalRun w r (moveOver pos [c]) (fun d hd => hw d (by simp [hd])) hr
    refine (C18_foldl_reject_incomplete_start_with_parser ..).2 ⟨.str [c], _, _, _, m3, .str [c],
      (C36_transform_accepts ..).2 ⟨_, h1.accepts c (w ++ r) pos hs, rfl⟩, h3, rfl, ?_⟩
    exact leftFold_nextLetter [c] w

theorem word_rejects (h : E.MetaHs) {s : List Chr} (pos : Pos) (hs : beginsWith nameStart s = false) :
    ∃ m, Rejects E word s pos m pos := by
  obtain ⟨m, m', h1⟩ := charParser_nameStart h.onText h.oneOf2
  obtain ⟨m, hr⟩ := h1.rejects s pos hs
  exact ⟨m, (C18_foldl_reject_incomplete_start_with_parser_rejects ..).2 (.inl ((C36_transform_rejects ..).2 hr))⟩

theorem notKeyword_iff (w : List Chr) : ∃ b, notKeyword keywords (.str w) = .ok b ∧
    (b = true ↔ w ≠ txt "if" ∧ w ≠ txt "then" ∧ w ≠ txt "else") := by
  refine ⟨_, rfl, ?_⟩
  simp [keywords, and_assoc]

/-- `token::name` -/
theorem name_total (h : E.MetaHs) (s : List Chr) (pos : Pos) :
    (beginsWith nameStart s = false ∧ ∃ m, Rejects E name s pos m pos) ∨
    ∃ w r, s = w ++ r ∧ beginsWith nameStart w = true ∧ (∀ c ∈ w, nameChar c = true) ∧
      beginsWith nameChar r = false ∧
      ((w = txt "if" ∨ w = txt "then" ∨ w = txt "else") ∧ (∃ m, Rejects E name s pos m pos) ∨
        IsName w ∧ ∀ ws r', r = ws ++ r' → AllSpace ws → beginsWith spaceChar r' = false →
          Accepts E name s pos (.str w) r' (moveOver pos (w ++ ws))) := by
  cases hb : beginsWith nameStart s with
  | false =>
    obtain ⟨m, hr⟩ := word_rejects h pos hb
    exact .inl ⟨rfl, m, (C29_token_rejects h.onText h.nth2 ..).2 ((C38_acceptWhen_rejects ..).2 (.inl hr))⟩
  | true =>
    refine .inr ⟨s.takeWhile nameChar, s.dropWhile nameChar, (List.takeWhile_append_dropWhile ..).symm, ?_,
      all_takeWhile _ _, beginsWith_dropWhile _ _, ?_⟩
    · cases s with
      | nil => cases hb
      | cons c s => rw [List.takeWhile_cons_of_pos (nameStart_nameChar hb)]; exact hb
    · have hs : beginsWith nameStart (s.takeWhile nameChar) = true := by
        cases s with
        | nil => cases hb
        | cons c s => rw [List.takeWhile_cons_of_pos (nameStart_nameChar hb)]; exact hb
      have ha := word_accepts h pos hs (all_takeWhile nameChar s) (beginsWith_dropWhile nameChar s)
      rw [List.takeWhile_append_dropWhile] at ha
      obtain ⟨b, hk, hb'⟩ := notKeyword_iff (s.takeWhile nameChar)
      cases b with
      | true =>
        obtain ⟨h1, h2, h3⟩ := hb'.1 rfl
        refine .inr ⟨⟨hs, all_takeWhile _ _, h1, h2, h3⟩, ?_⟩
        intro ws r' he hw hr
        rw [moveOver_append]
        refine token_of h ((C38_acceptWhen_accepts ..).2 ⟨?_, hk⟩) hw hr
        rw [← he]
        exact ha
      | false =>
        refine .inl ⟨?_, keywordsAreNotAllowed, (C29_token_rejects h.onText h.nth2 ..).2
          ((C38_acceptWhen_rejects ..).2 (.inr ⟨_, _, _, ha, hk, rfl, rfl⟩))⟩
        apply Classical.byContradiction
        intro hn
        have hn' := (not_or.1 hn).2
        exact absurd (hb'.2 ⟨(not_or.1 hn).1, (not_or.1 hn').1, (not_or.1 hn').2⟩) (by simp)

theorem name_accepts (h : E.MetaHs) {w ws r : List Chr} (pos : Pos) (hw : IsName w) (hws : AllSpace ws)
    (hn : beginsWith nameChar (ws ++ r) = false) (hr : beginsWith spaceChar r = false) :
    Accepts E name (w ++ (ws ++ r)) pos (.str w) r (moveOver pos (w ++ ws)) := by
  obtain ⟨b, hk, hb⟩ := notKeyword_iff w
  rw [hb.2 ⟨hw.notIf, hw.notThen, hw.notElse⟩] at hk
  rw [moveOver_append]
  exact token_of h ((C38_acceptWhen_accepts ..).2 ⟨word_accepts h pos hw.starts hw.chars hn, hk⟩) hws hr

theorem name_sound (h : E.MetaHs) {s : List Chr} {pos : Pos} {v : Val} {s' : List Chr} {pos' : Pos}
    (ha : Accepts E name s pos v s' pos') : ∃ w ws, s = w ++ (ws ++ s') ∧ IsName w ∧ AllSpace ws ∧
      beginsWith nameChar (ws ++ s') = false ∧ beginsWith spaceChar s' = false ∧ v = .str w ∧
      pos' = moveOver pos (w ++ ws) := by
  rcases name_total h s pos with ⟨-, m, hr⟩ | ⟨w, r, rfl, hs, hc, hn, ⟨-, m, hr⟩ | ⟨hw, hall⟩⟩
  · exact (ha.not_rejects hr).elim
  · exact (ha.not_rejects hr).elim
  · obtain ⟨ws, r', rfl, hws, hr⟩ := split_space r
    obtain ⟨rfl, rfl, rfl⟩ := ha.unique (hall ws r' rfl hws hr)
    exact ⟨w, ws, rfl, hw, hws, hn, hr, rfl, rfl⟩

/-- `name` rejects a text that begins with a keyword, and one that does not begin like a name. -/
theorem name_rejects (h : E.MetaHs) {s : List Chr} (pos : Pos) (hs : beginsWith nameStart s = false ∨
    s.takeWhile nameChar ∈ keywords) : ∃ m, Rejects E name s pos m pos := by
  rcases name_total h s pos with ⟨-, hr⟩ | ⟨w, r, rfl, hs', hc, hn, ⟨-, hr⟩ | ⟨hw, hall⟩⟩
  · exact hr
  · exact hr
  · exfalso
    rcases hs with hs | hs
    · rw [beginsWith_append (by rintro rfl; cases hs'), hs'] at hs
      cases hs
    · rw [(takeWhile_append nameChar w r hc hn).1] at hs
      simp only [keywords, List.mem_cons, List.not_mem_nil, or_false] at hs
      rcases hs with hs | hs | hs
      · exact hw.notIf hs
      · exact hw.notThen hs
      · exact hw.notElse hs

/-- A text at which `name` rejects and that begins with a keyword: the keyword is the whole word. -/
theorem keyword_ends (h : E.MetaHs) {k r : List Chr} {pos : Pos} {m : Msg} {e : Pos}
    (hk : k = txt "then" ∨ k = txt "else") (hr : Rejects E name (k ++ r) pos m e) :
    beginsWith nameChar r = false := by
  have hk1 : ∀ c ∈ k, nameChar c = true := by rcases hk with rfl | rfl <;> decide
  have hk2 : beginsWith nameStart k = true := by rcases hk with rfl | rfl <;> decide
  have hk3 : k ≠ [] := by rcases hk with rfl | rfl <;> decide
  rcases name_total h (k ++ r) pos with ⟨hs, -⟩ | ⟨w, r', he, hs', hc, hn, ⟨hw, -⟩ | ⟨hw, hall⟩⟩
  · rw [beginsWith_append hk3, hk2] at hs
    cases hs
  · have h1 : k <+: w ∨ w <+: k := List.prefix_or_prefix_of_prefix (l₃ := k ++ r) ⟨r, rfl⟩ ⟨r', he.symm⟩
    obtain rfl : w = k := by
      rcases hk with rfl | rfl <;> rcases hw with rfl | rfl | rfl <;> first | rfl | (exfalso; revert h1; decide)
    rw [List.append_cancel_left he]
    exact hn
  · obtain ⟨ws, r'', rfl, hws, hr'⟩ := split_space r'
    exact ((hall ws r'' rfl hws hr').not_rejects hr).elim

/-! ## Keywords, numbers and brackets -/

theorem keywordToken_accepts (h : E.MetaHs) {k : List Chr} {s : List Chr} {pos : Pos} {v : Val} {s' : List Chr}
    {pos' : Pos} : Accepts E (.token (.keyword k .void_)) s pos v s' pos' ↔ ∃ ws, s = k ++ (ws ++ s') ∧
      AllSpace ws ∧ beginsWith spaceChar s' = false ∧ v = .void_ ∧ pos' = moveOver pos (k ++ ws) := by
  rw [C29_token_accepts h.onText h.nth2]
  constructor
  · rintro ⟨ws, pos1, ha, hw, hs, rfl⟩
    obtain ⟨rfl, rfl, rfl⟩ := (C27_keyword_accepts h.onText ..).1 ha
    exact ⟨ws, rfl, hw, hs, rfl, (moveOver_append ..).symm⟩
  · rintro ⟨ws, rfl, hw, hs, rfl, rfl⟩
    exact ⟨ws, moveOver pos k, (C27_keyword_accepts h.onText ..).2 ⟨rfl, rfl, rfl⟩, hw, hs, moveOver_append ..⟩

theorem keywordToken_rejects (h : E.MetaHs) {c : Chr} {k : List Chr} {s : List Chr} (pos : Pos)
    (hs : s.head? ≠ some c) : ∃ m, Rejects E (.token (.keyword (c :: k) .void_)) s pos m pos :=
  ⟨_, (C29_token_rejects h.onText h.nth2 ..).2 ((C27_keyword_rejects h.onText ..).2
    ⟨[], c, k, s, rfl, rfl, hs, rfl, rfl⟩)⟩

theorem litToken_accepts (h : E.MetaHs) {c : Chr} {s : List Chr} {pos : Pos} {v : Val} {s' : List Chr}
    {pos' : Pos} : Accepts E (.token (.litC c)) s pos v s' pos' ↔ ∃ ws, s = c :: (ws ++ s') ∧
      AllSpace ws ∧ beginsWith spaceChar s' = false ∧ v = .chr c ∧ pos' = moveOver pos (c :: ws) := by
  rw [C29_token_accepts h.onText h.nth2]
  constructor
  · rintro ⟨ws, pos1, ha, hw, hs, rfl⟩
    obtain ⟨rfl, rfl, rfl⟩ := (lit_accepts h.onText).1 ha
    exact ⟨ws, rfl, hw, hs, rfl, rfl⟩
  · rintro ⟨ws, rfl, hw, hs, rfl, rfl⟩
    exact ⟨ws, moveOver pos [c], (lit_accepts h.onText).2 ⟨rfl, rfl, rfl⟩, hw, hs, rfl⟩

theorem litToken_rejects (h : E.MetaHs) {c : Chr} {s : List Chr} (pos : Pos)
    (hs : s.head? ≠ some c) : ∃ m, Rejects E (.token (.litC c)) s pos m pos := by
  rcases lit_total h.onText c s pos with ⟨s', rfl⟩ | ⟨m, hr⟩
  · exact (hs rfl).elim
  · exact ⟨m, (C29_token_rejects h.onText h.nth2 ..).2 hr⟩

theorem hsInt_accepts (h : E.MetaHs) {s : List Chr} {pos : Pos} {v : Val} {s' : List Chr}
    {pos' : Pos} : Accepts E int_ s pos v s' pos' ↔ ∃ w ws, s = w ++ (ws ++ s') ∧ w ≠ [] ∧
      (∀ c ∈ w, digitChar c = true) ∧ decimal w ≤ 2147483647 ∧ AllSpace ws ∧
      beginsWith digitChar (ws ++ s') = false ∧ beginsWith spaceChar s' = false ∧ v = .int (decimal w) ∧
      pos' = moveOver pos (w ++ ws) := by
  rw [int_, C29_token_accepts h.onText h.nth2]
  constructor
  · rintro ⟨ws, pos1, ha, hw, hs, rfl⟩
    obtain ⟨w, rfl, h1, h2, h3, rfl, h4, rfl⟩ := (C30_int_accepts h.onText ..).1 ha
    exact ⟨w, ws, rfl, h1, h2, h4, hw, h3, hs, rfl, (moveOver_append ..).symm⟩
  · rintro ⟨w, ws, rfl, h1, h2, h4, hw, h3, hs, rfl, rfl⟩
    exact ⟨ws, moveOver pos w, (C30_int_accepts h.onText ..).2 ⟨w, rfl, h1, h2, h3, rfl, h4, rfl⟩, hw, hs,
      moveOver_append ..⟩

theorem hsInt_rejects (h : E.MetaHs) {s : List Chr} (pos : Pos) (hs : beginsWith digitChar s = false) :
    ∃ m, Rejects E int_ s pos m pos :=
  ⟨_, (C29_token_rejects h.onText h.nth2 ..).2 ((C30_int_rejects h.onText ..).2 ⟨hs, rfl, rfl⟩)⟩

end Metaparse
