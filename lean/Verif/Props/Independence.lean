import Verif.Lemmas.Sim
import Verif.Spec.Agreement
import Verif.Lemmas.Subparsers
import Verif.Props.Chars
import Verif.Props.Positions
/-!
# What the outcome of a parse does not depend on

C08 (starting position), C09 (implementation), C45 (representation of the input).
-/

namespace Metaparse

/-! ## C08 -/

/-- The simulation between two starting positions. -/
def shiftSim {E : Env (List Chr)} (hE : E.IgnoresPositions) : Sim E E where
  X o := o.s1 = o.s2
  D o o' := o'.s1 = o'.s2 ∧ ∃ c, o.s1 = c ++ o'.s1 ∧ o'.p1 = moveOver o.p1 c ∧
    o'.p2 = moveOver o.p2 c
  R o e e' := ∃ c t, o.s1 = c ++ t ∧ e = moveOver o.p1 c ∧ e' = moveOver o.p2 c
  M := Msg.SameButPositions
  reach_ok := fun _ h => h.1
  reach_refl := fun h => ⟨h, [], rfl, rfl, rfl⟩
  reach_trans := by
    rintro o o' o'' _ ⟨_, c, h1, h2, h3⟩ ⟨h, d, k1, k2, k3⟩
    exact ⟨h, c ++ d, by rw [h1, k1, List.append_assoc], by rw [k2, h2, moveOver_append],
      by rw [k3, h3, moveOver_append]⟩
  err_here := fun {o} _ => ⟨[], o.s1, rfl, rfl, rfl⟩
  err_later := by
    rintro o o' e e' _ ⟨_, c, h1, h2, h3⟩ ⟨d, t, k1, k2, k3⟩
    exact ⟨c ++ d, t, by rw [h1, k1, List.append_assoc], by rw [k2, h2, moveOver_append],
      by rw [k3, h3, moveOver_append]⟩
  less := by
    rintro o e e' f f' _ ⟨c, t, h1, rfl, rfl⟩ ⟨d, u, k1, rfl, rfl⟩
    rw [Bool.eq_iff_iff, less_moveOver_iff _ k1 h1, less_moveOver_iff _ k1 h1]
  equalTo := by
    rintro o e e' _ ⟨c, t, h1, rfl, rfl⟩
    rw [Bool.eq_iff_iff, Pos.equalTo_iff, Pos.equalTo_iff, moveOver_eq_self, moveOver_eq_self]
  msg_refl := .refl
  msg_unpaired := fun _ h => .unpaired _ _ _ _ h
  isEmpty := by rintro o h; rw [show o.s1 = o.s2 from h]
  char := by
    rintro ⟨s1, p1, s2, p2⟩ h
    cases (show s1 = s2 from h)
    have hin : E.input = listInput := hE.onText
    rw [hin]
    cases s1 with
    | nil => exact ⟨.refl _, [], [], rfl, rfl, rfl⟩
    | cons c s => exact ⟨rfl, rfl, [c], rfl, rfl, rfl⟩
  native := by
    rintro i ⟨s1, p1, s2, p2⟩ h
    cases (show s1 = s2 from h)
    have h := hE.native i s1 p1 p2
    simp only
    revert h
    generalize E.native i s1 p1 = a
    generalize E.native i s1 p2 = b
    rintro (⟨v, hs⟩ | ⟨hm, hs⟩ | f | _)
    · exact ⟨rfl, rfl, _, hs, rfl, rfl⟩
    · exact ⟨hm, _, _, hs, rfl, rfl⟩
    · rfl
    · trivial
  onError := by
    rintro k o m m' e e' _ hm hR
    rcases hE.onError k m m' e e' hm with ⟨n, n', hn, h1, h2⟩ | ⟨f, h1, h2⟩
    · rw [h1, h2]; exact ⟨hn, hR⟩
    · rw [h1, h2]; rfl
  rules := fun _ => rfl
  std := .inl Iff.rfl

theorem shift_ok {E : Env (List Chr)} (hE : E.IgnoresPositions) {p : P}
    (hp : p.Every P.MsgIgnoresPositions) : (shiftSim hE).Ok p := by
  refine hp.mono fun q hq => ?_
  cases q with
  | transformErrorMessage p f =>
    intro m m' hm
    have := hq m m' hm
    revert this
    generalize f m = a
    generalize f m' = b
    rintro (h | f | _)
    · exact h
    · rfl
    · trivial
  | oneOfC cs => exact .inl ⟨rfl, rfl⟩
  | oneCharExceptC cs => exact .inl ⟨rfl, rfl⟩
  | _ => first | exact Iff.rfl | exact trivial

/-- C08: the outcomes at two positions are the same up to the shift. -/
theorem C08_position_independent {E : Env (List Chr)} (hE : E.IgnoresPositions)
    (hrules : ∀ i, (E.rules i).Every P.MsgIgnoresPositions) (p : P)
    (hp : p.Every P.MsgIgnoresPositions) (s : List Chr) (pos pos' : Pos) :
    SameShifted s pos pos' (run E p s pos) (run E p s pos') := by
  have h := Sim.run_same (shiftSim hE) (fun i => shift_ok hE (hrules i)) p (shift_ok hE hp)
    ⟨s, pos, s, pos'⟩ rfl
  rcases Sim.Same.cases h with ⟨h1, h2⟩ | ⟨f, h1, h2⟩ |
    ⟨v, s1, q1, s2, q2, h1, h2, hs, c, k1, k2, k3⟩ | ⟨m, m', e, e', h1, h2, hm, c, t, k1, k2, k3⟩
  · rw [show run E p s pos = _ from h1, show run E p s pos' = _ from h2]
    exact .deep
  · rw [show run E p s pos = _ from h1, show run E p s pos' = _ from h2]
    exact .ill f
  · cases (show s1 = s2 from hs)
    rw [show run E p s pos = _ from h1, show run E p s pos' = _ from h2, show q1 = _ from k2,
      show q2 = _ from k3]
    exact .acc v k1
  · rw [show run E p s pos = _ from h1, show run E p s pos' = _ from h2, show e = _ from k2,
      show e' = _ from k3]
    exact .rej hm k1

/-- Acceptance does not depend on the starting position. -/
theorem C08_accepts {E : Env (List Chr)} (hE : E.IgnoresPositions)
    (hrules : ∀ i, (E.rules i).Every P.MsgIgnoresPositions) (p : P)
    (hp : p.Every P.MsgIgnoresPositions) (s : List Chr) (pos pos' : Pos) (v : Val)
    (rest : List Chr) (q : Pos) (h : Accepts E p s pos v rest q) :
    ∃ consumed, s = consumed ++ rest ∧ q = moveOver pos consumed ∧
      Accepts E p s pos' v rest (moveOver pos' consumed) := by
  have := C08_position_independent hE hrules p hp s pos pos'
  rw [show run E p s pos = _ from h] at this
  generalize hx : run E p s pos' = x at this
  cases this with
  | acc v hs => exact ⟨_, hs, rfl, hx⟩

/-- Rejection does not depend on the starting position, and the errors are after the same
characters. -/
theorem C08_rejects {E : Env (List Chr)} (hE : E.IgnoresPositions)
    (hrules : ∀ i, (E.rules i).Every P.MsgIgnoresPositions) (p : P)
    (hp : p.Every P.MsgIgnoresPositions) (s : List Chr) (pos pos' : Pos) (m : Msg) (e : Pos)
    (h : Rejects E p s pos m e) :
    ∃ seen rest m', s = seen ++ rest ∧ e = moveOver pos seen ∧ m.SameButPositions m' ∧
      Rejects E p s pos' m' (moveOver pos' seen) := by
  have := C08_position_independent hE hrules p hp s pos pos'
  rw [show run E p s pos = _ from h] at this
  generalize hx : run E p s pos' = x at this
  cases this with
  | rej hm hs => exact ⟨_, _, _, hs, rfl, hm, hx⟩

/-- A parse does not compile, or does not finish, at one position iff it does so at every other. -/
theorem C08_compiles {E : Env (List Chr)} (hE : E.IgnoresPositions)
    (hrules : ∀ i, (E.rules i).Every P.MsgIgnoresPositions) (p : P)
    (hp : p.Every P.MsgIgnoresPositions) (s : List Chr) (pos pos' : Pos) :
    (IllFormed E p s pos ↔ IllFormed E p s pos') ∧ (Diverges E p s pos ↔ Diverges E p s pos') := by
  have := C08_position_independent hE hrules p hp s pos pos'
  unfold IllFormed Diverges
  generalize run E p s pos = a at this
  generalize run E p s pos' = b at this
  cases this <;> simp

/-- The environment `envUser` has a parser and an error function of the user and a recursive parser,
and satisfies the hypotheses. -/
theorem envUser_messages : ∀ i, (envUser.rules i).Every P.MsgIgnoresPositions := by
  intro i
  simp [envUser, P.litC, P.every_iff, P.EveryL, P.parts, P.MsgIgnoresPositions]

theorem envUser_ignoresPositions : envUser.IgnoresPositions where
  onText := rfl
  native := by
    intro i s pos pos'
    rcases s with _ | ⟨c, _ | ⟨d, t⟩⟩
    · exact .rej (c := []) (t := []) (.refl _) rfl
    · exact .rej (c := []) (t := [c]) (.refl _) rfl
    · exact .acc (c := [c, d]) (t := t) _ rfl
  onError := fun k _ _ _ _ _ => .inl ⟨.user k, .user k, .refl _, rfl, rfl⟩

theorem env11_ignoresPositions : env11.IgnoresPositions where
  onText := rfl
  native := fun _ s _ _ => .rej (c := []) (t := s) (.refl _) rfl
  onError := fun _ m m' _ _ h => .inl ⟨m, m', h, rfl, rfl⟩

/-- A message function that replaces every message and one that keeps it. -/
example : P.MsgIgnoresPositions (.transformErrorMessage .oneChar fun _ => .ok (.user 3)) ∧
    P.MsgIgnoresPositions (.transformErrorMessage .oneChar fun m => .ok m) :=
  ⟨fun _ _ _ => .ok (.refl _), fun _ _ h => .ok h⟩

example : Rejects env11 (.middleOf (P.litC (ch '(')) .oneChar (P.litC (ch ')'))) (txt "(a]") start
      (.unpaired 1 1 (.literalExpected (ch ')'))) ⟨1, 3, ch 'a'⟩ ∧
    Rejects env11 (.middleOf (P.litC (ch '(')) .oneChar (P.litC (ch ')'))) (txt "(a]") ⟨7, 9, 0⟩
      (.unpaired 7 9 (.literalExpected (ch ')'))) ⟨7, 11, ch 'a'⟩ :=
  ⟨rejects_of_eval 20 (by decide +kernel), rejects_of_eval 20 (by decide +kernel)⟩

/-- Without the hypothesis on the user's parsers the property is false: a parser that looks at the
column. -/
theorem C08_needs_hypothesis : ∃ (E : Env (List Chr)) (p : P), E.OnText ∧
    Accepts E p [] start .void_ [] start ∧ ¬ ∃ v s q, Accepts E p [] ⟨1, 2, 0⟩ v s q := by
  refine ⟨{ env11 with native := fun _ s pos =>
    if pos.col = 1 then .ok (.acc .void_ s pos) else .ok (.rej (.user 0) pos) }, .native 0, rfl, ?_, ?_⟩
  · exact accepts_of_eval 2 (by decide +kernel)
  · rintro ⟨v, s, q, h⟩
    exact h.not_rejects (rejects_of_eval (m := .user 0) (pos' := ⟨1, 2, 0⟩) 2 (by decide +kernel))

/-! ## Simulations that keep positions (C09, C45) -/

/-- The simulation between two environments whose inputs hold the same characters. -/
def sameSim {I : Type} {E : Env I} {T : Env (List Chr)} (Rep : I → List Chr → Prop)
    (M : Msg → Msg → Prop) (hM : ∀ m, M m m) (hM' : ∀ l c m m', M m m' → M (.unpaired l c m) (.unpaired l c m'))
    (hRep : Represents E.input Rep) (hT : T.OnText) (hrules : ∀ i, E.rules i = T.rules i)
    (hstd : (E.std = .cpp98 ↔ T.std = .cpp98) ∨ ∀ m m', M m m')
    (hnative : ∀ i {s t} pos, Rep s t → SameIn Rep (E.native i s pos) (T.native i t pos))
    (hError : ∀ k m m' pos, M m m' →
      (∃ v s t q, Rep s t ∧ E.onError k m pos = .ok (.acc v s q) ∧ T.onError k m' pos = .ok (.acc v t q)) ∨
      (∃ n n' q, M n n' ∧ E.onError k m pos = .ok (.rej n q) ∧ T.onError k m' pos = .ok (.rej n' q)) ∨
      (∃ f, E.onError k m pos = .ill f ∧ T.onError k m' pos = .ill f) ∨
      (E.onError k m pos = .deep ∧ T.onError k m' pos = .deep)) :
    Sim E T where
  X o := Rep o.s1 o.s2 ∧ o.p1 = o.p2
  D _ o' := Rep o'.s1 o'.s2 ∧ o'.p1 = o'.p2
  R _ e e' := e = e'
  M := M
  reach_ok := fun _ h => h
  reach_refl := fun h => h
  reach_trans := fun _ _ h => h
  err_here := fun h => h.2
  err_later := fun _ _ h => h
  less := by rintro o e e' f f' _ rfl rfl; rfl
  equalTo := by rintro o e e' ⟨_, h⟩ rfl; rw [h]
  msg_refl := hM
  msg_unpaired := by rintro o m m' ⟨_, h⟩ hm; rw [h]; exact hM' _ _ _ _ hm
  isEmpty := by
    rintro ⟨s1, p1, s2, p2⟩ ⟨h, _⟩
    rw [show T.input = listInput from hT]
    cases s2 with
    | nil => exact hRep.nil h
    | cons c t => exact (hRep.cons h).1
  char := by
    rintro ⟨s1, p1, s2, p2⟩ ⟨h, hp⟩
    cases (show p1 = p2 from hp)
    rw [show T.input = listInput from hT]
    cases s2 with
    | nil =>
      simp only [Comb.oneChar, hRep.nil h]
      exact ⟨hM _, rfl⟩
    | cons c t =>
      obtain ⟨h1, h2, s', h3, h4⟩ := hRep.cons h
      simp only [Comb.oneChar, h1, h2, h3]
      exact ⟨rfl, h4, rfl⟩
  native := by
    rintro i ⟨s1, p1, s2, p2⟩ ⟨h, hp⟩
    cases (show p1 = p2 from hp)
    have := hnative i p1 h
    simp only at this ⊢
    revert this
    generalize E.native i s1 p1 = a
    generalize T.native i s2 p1 = b
    rintro (⟨v, q, hr⟩ | ⟨m, q⟩ | f | _)
    · exact ⟨rfl, hr, rfl⟩
    · exact ⟨hM _, rfl⟩
    · rfl
    · trivial
  onError := by
    rintro k o m m' e e' _ hm rfl
    rcases hError k m m' e hm with ⟨v, s, t, q, hr, h1, h2⟩ | ⟨n, n', q, hn, h1, h2⟩ | ⟨f, h1, h2⟩ |
      ⟨h1, h2⟩
    · rw [h1, h2]; exact ⟨rfl, hr, rfl⟩
    · rw [h1, h2]; exact ⟨hn, rfl⟩
    · rw [h1, h2]; rfl
    · rw [h1, h2]; trivial
  rules := hrules
  std := hstd

/-! ## C45 -/

/-- C45: parsing in any representation of the input is parsing the list of its characters. -/
theorem C45_representation {I : Type} {E : Env I} {T : Env (List Chr)}
    {Rep : I → List Chr → Prop} (hRep : Represents E.input Rep) (hT : T.OnText)
    (hET : SameUpToInput E T Rep) (p : P) (s : I) (t : List Chr) (hst : Rep s t) (pos : Pos) :
    SameIn Rep (run E p s pos) (run T p t pos) := by
  let S : Sim E T := sameSim Rep Eq (fun _ => rfl) (by rintro _ _ _ _ rfl; rfl) hRep hT hET.rules
    (.inl (by rw [hET.std])) hET.native (by
      rintro k m _ pos rfl
      have := hET.onError k m pos
      revert this
      generalize E.onError k m pos = a
      generalize T.onError k m pos = b
      rintro (⟨v, q, hr⟩ | ⟨m, q⟩ | f | _)
      · exact .inl ⟨_, _, _, _, hr, rfl, rfl⟩
      · exact .inr (.inl ⟨_, _, _, rfl, rfl, rfl⟩)
      · exact .inr (.inr (.inl ⟨_, rfl, rfl⟩))
      · exact .inr (.inr (.inr ⟨rfl, rfl⟩)))
  have hok : ∀ p, S.Ok p := P.every_of_forall fun p => by
    cases p with
    | transformErrorMessage p f =>
      rintro m _ rfl
      cases f m <;> first | trivial | rfl
    | oneOfC cs => exact .inl ⟨hET.std, hET.limOneOf⟩
    | oneCharExceptC cs => exact .inl ⟨hET.std, hET.limOneCharExcept⟩
    | _ =>
      first
      | exact trivial
      | simp only [Sim.Local, Env.SupportsSequence, Env.SupportsOneOf, Env.SupportsNth, hET.std,
          hET.limSequence, hET.limOneOf]
  have h := Sim.run_same S (fun i => hok _) p (hok p) ⟨s, pos, t, pos⟩ ⟨hst, rfl⟩
  rcases Sim.Same.cases h with ⟨h1, h2⟩ | ⟨f, h1, h2⟩ | ⟨v, s1, q1, s2, q2, h1, h2, hs, hq⟩ |
    ⟨m, m', e, e', h1, h2, hm, he⟩
  · rw [show run E p s pos = _ from h1, show run T p t pos = _ from h2]; exact .deep
  · rw [show run E p s pos = _ from h1, show run T p t pos = _ from h2]; exact .ill f
  · rw [show run E p s pos = _ from h1, show run T p t pos = _ from h2, show q1 = q2 from hq]
    exact .acc v q2 hs
  · rw [show run E p s pos = _ from h1, show run T p t pos = _ from h2, show e = e' from he,
      show m = m' from hm]
    exact .rej m' e'

/-- An input holds at most one list of characters. -/
theorem Represents.unique {I : Type} {inp : Input I} {Rep : I → List Chr → Prop}
    (h : Represents inp Rep) : ∀ {t t' : List Chr} {s : I}, Rep s t → Rep s t' → t = t' := by
  intro t
  induction t with
  | nil =>
    intro t' s h1 h2
    cases t' with
    | nil => rfl
    | cons c t' =>
      have := (h.nil h1).symm.trans (h.cons h2).1
      cases this
  | cons c t ih =>
    intro t' s h1 h2
    cases t' with
    | nil =>
      have := (h.nil h2).symm.trans (h.cons h1).1
      cases this
    | cons c' t' =>
      obtain ⟨_, f1, s1, k1, r1⟩ := h.cons h1
      obtain ⟨_, f2, s2, k2, r2⟩ := h.cons h2
      have e1 := f1.symm.trans f2
      have e2 := k1.symm.trans k2
      cases e1
      cases e2
      rw [ih r1 r2]

/-- Acceptance in the other representation, spelled out. -/
theorem C45_accepts {I : Type} {E : Env I} {T : Env (List Chr)}
    {Rep : I → List Chr → Prop} (hRep : Represents E.input Rep) (hT : T.OnText)
    (hET : SameUpToInput E T Rep) (p : P) (s : I) (t : List Chr) (hst : Rep s t) (pos : Pos)
    (v : Val) (t' : List Chr) (q : Pos) :
    Accepts T p t pos v t' q ↔ ∃ s', Rep s' t' ∧ Accepts E p s pos v s' q := by
  have h := C45_representation hRep hT hET p s t hst pos
  unfold Accepts
  generalize run E p s pos = a at h
  generalize run T p t pos = b at h
  constructor
  · rintro rfl
    cases h with
    | acc v q hr => exact ⟨_, hr, rfl⟩
  · rintro ⟨s', hr, rfl⟩
    cases h with
    | acc v q hr' => rw [hRep.unique hr hr']

/-- Rejection in the other representation, spelled out. -/
theorem C45_rejects {I : Type} {E : Env I} {T : Env (List Chr)}
    {Rep : I → List Chr → Prop} (hRep : Represents E.input Rep) (hT : T.OnText)
    (hET : SameUpToInput E T Rep) (p : P) (s : I) (t : List Chr) (hst : Rep s t) (pos : Pos)
    (m : Msg) (q : Pos) : Rejects T p t pos m q ↔ Rejects E p s pos m q := by
  have h := C45_representation hRep hT hET p s t hst pos
  unfold Rejects
  generalize run E p s pos = a at h
  generalize run T p t pos = b at h
  cases h <;> simp

/-- An input given by a whole text and the number of characters before the current place (an
iterator range over a fixed sequence). -/
def rangeInput : Input (List Chr × Nat) where
  isEmpty s := .ok (decide (s.1.length ≤ s.2))
  front s := match s.1[s.2]? with
    | some c => .ok c
    | none => .ill .noSpecialisation
  popFront s := .ok (s.1, s.2 + 1)

/-- It is a representation of the input. -/
theorem rangeInput_represents : Represents rangeInput fun s t => s.1.drop s.2 = t where
  nil := by
    intro s h
    simp only [rangeInput, List.drop_eq_nil_iff] at h ⊢
    simp [h]
  cons := by
    intro s c t h
    have hl : s.2 < s.1.length := by
      rcases Nat.lt_or_ge s.2 s.1.length with h' | h'
      · exact h'
      · rw [List.drop_eq_nil_of_le h'] at h; cases h
    rw [List.drop_eq_getElem_cons hl] at h
    cases h
    refine ⟨?_, ?_, _, rfl, rfl⟩
    · simp only [rangeInput, Out.ok.injEq, decide_eq_false_iff_not]; omega
    · simp only [rangeInput, List.getElem?_eq_getElem hl]

theorem range_sameUpToInput : SameUpToInput { input := rangeInput } env11 fun s t => s.1.drop s.2 = t where
  std := rfl
  limSequence := rfl
  limOneOf := rfl
  limOneCharExcept := rfl
  rules := fun _ => rfl
  native := fun _ _ _ _ _ => .rej _ _
  onError := fun _ _ _ => .rej _ _

example : (([1, 2, 3] : List Chr), 1).1.drop 1 = ([2, 3] : List Chr) := rfl

/-! ## C09 -/

theorem list_represents : Represents listInput fun s t => s = t where
  nil := by rintro s rfl; rfl
  cons := by rintro s c t rfl; exact ⟨rfl, rfl, t, rfl, rfl⟩

/-- One character parser behaves in the same way in both environments, except for messages. -/
theorem CharParser.same {E E' : Env (List Chr)} {p p' : P} {cls : Chr → Bool} {val : Chr → Val}
    {m0 m1 m0' m1' : Msg} (h : CharParser E p cls val m0 m1) (h' : CharParser E' p' cls val m0' m1')
    (s : List Chr) (pos : Pos) : SameButMessage (run E p s pos) (run E' p' s pos) := by
  cases s with
  | nil =>
    rw [show run E p [] pos = _ from h.empty pos, show run E' p' [] pos = _ from h'.empty pos]
    exact .rej _ _ _
  | cons c s =>
    cases hc : cls c with
    | true =>
      rw [show run E p _ pos = _ from h.accepts c s pos hc,
        show run E' p' _ pos = _ from h'.accepts c s pos hc]
      exact .acc _ _ _
    | false =>
      rw [show run E p _ pos = _ from h.other c s pos hc,
        show run E' p' _ pos = _ from h'.other c s pos hc]
      exact .rej _ _ _

/-- C09: a parser within the limits of C++98 has the same outcome in all implementations, except
for the messages. -/
theorem C09_same_but_message {E : Env (List Chr)} (hE : E.OnText)
    (herr : E.ErrorsIgnoreMessages) (hrules : ∀ i, (E.rules i).Every (P.Portable E)) (p : P)
    (hp : p.Every (P.Portable E)) (std std' : Std) (s : List Chr) (pos : Pos) :
    SameButMessage (run { E with std := std } p s pos) (run { E with std := std' } p s pos) := by
  let S : Sim { E with std := std } { E with std := std' } :=
    sameSim (fun s t => s = t) (fun _ _ => True) (fun _ => trivial) (fun _ _ _ _ _ => trivial)
      (by rw [show E.input = listInput from hE]; exact list_represents) hE (fun _ => rfl)
      (.inr fun _ _ => trivial)
      (by
        rintro i s _ pos rfl
        show SameIn _ (E.native i s pos) (E.native i s pos)
        rcases E.native i s pos with (⟨v, s', q⟩ | ⟨m, q⟩) | f | _
        · exact .acc _ _ rfl
        · exact .rej _ _
        · exact .ill _
        · exact .deep)
      (by
        intro k m m' pos _
        have := herr k m m' pos
        revert this
        show SameButMessage (E.onError k m pos) (E.onError k m' pos) → _
        simp only
        generalize E.onError k m pos = a
        generalize E.onError k m' pos = b
        rintro (⟨v, s, q⟩ | ⟨m, m', q⟩ | f | _)
        · exact .inl ⟨_, _, _, _, rfl, rfl, rfl⟩
        · exact .inr (.inl ⟨_, _, _, trivial, rfl, rfl⟩)
        · exact .inr (.inr (.inl ⟨_, rfl, rfl⟩))
        · exact .inr (.inr (.inr ⟨rfl, rfl⟩)))
  have conv : ∀ (o : Place (List Chr) (List Chr)) (a b : Out (Res (List Chr))),
      SameButMessage a b → S.Same o a b := by
    rintro o a b (⟨v, s, q⟩ | ⟨m, m', q⟩ | f | _)
    · exact ⟨rfl, rfl, rfl⟩
    · exact ⟨trivial, rfl⟩
    · rfl
    · trivial
  have hok : ∀ p, P.Every (P.Portable E) p → S.Ok p := by
    intro p hp
    refine hp.mono fun q hq => ?_
    cases q with
    | transformErrorMessage p f =>
      rintro m m' _
      obtain ⟨n, hn⟩ := hq m
      obtain ⟨n', hn'⟩ := hq m'
      rw [hn, hn']
      trivial
    | oneOfC cs =>
      refine .inr fun o hX => conv _ _ _ ?_
      obtain ⟨hs, hpos⟩ := hX
      rw [show o.s1 = o.s2 from hs, show o.p1 = o.p2 from hpos]
      exact CharParser.same (C28_one_of_c (E := { E with std := std }) hE cs fun _ => hq)
        (C28_one_of_c (E := { E with std := std' }) hE cs fun _ => hq) _ _
    | oneCharExceptC cs =>
      refine .inr fun o hX => conv _ _ _ ?_
      obtain ⟨hs, hpos⟩ := hX
      rw [show o.s1 = o.s2 from hs, show o.p1 = o.p2 from hpos]
      exact CharParser.same (C28_one_char_except (E := { E with std := std }) hE cs fun _ => hq)
        (C28_one_char_except (E := { E with std := std' }) hE cs fun _ => hq) _ _
    | sequence ps => exact ⟨fun _ _ => hq, fun _ _ => hq⟩
    | oneOf ps => exact ⟨fun _ _ => hq, fun _ _ => hq⟩
    | nthOfC n ps => exact ⟨fun _ _ => hq, fun _ _ => hq⟩
    | lastOf ps => exact ⟨fun _ _ => hq, fun _ _ => hq⟩
    | middleOf _ _ _ => exact ⟨fun _ _ => hq, fun _ _ => hq⟩
    | _ => exact trivial
  have h := Sim.run_same S (fun i => hok _ (hrules i)) p (hok p hp) ⟨s, pos, s, pos⟩ ⟨rfl, rfl⟩
  rcases Sim.Same.cases h with ⟨h1, h2⟩ | ⟨f, h1, h2⟩ | ⟨v, s1, q1, s2, q2, h1, h2, hs, hq⟩ |
    ⟨m, m', e, e', h1, h2, hm, he⟩ <;> simp only at h1 h2 <;> rw [h1, h2]
  · exact .deep
  · exact .ill f
  · rw [show q1 = q2 from hq, show s1 = s2 from hs]
    exact .acc v s2 q2
  · rw [show e = e' from he]
    exact .rej m m' e'

/-- The accepted inputs, results, remaining inputs and positions are the same. -/
theorem C09_same_language {E : Env (List Chr)} (hE : E.OnText)
    (herr : E.ErrorsIgnoreMessages) (hrules : ∀ i, (E.rules i).Every (P.Portable E)) (p : P)
    (hp : p.Every (P.Portable E)) (std std' : Std) (s : List Chr) (pos : Pos) (v : Val)
    (s' : List Chr) (pos' : Pos) :
    Accepts { E with std := std } p s pos v s' pos' ↔
      Accepts { E with std := std' } p s pos v s' pos' := by
  have h := C09_same_but_message hE herr hrules p hp std std' s pos
  unfold Accepts
  generalize run { E with std := std } p s pos = a at h
  generalize run { E with std := std' } p s pos = b at h
  cases h <;> simp

/-- The error positions are the same. -/
theorem C09_same_error_position {E : Env (List Chr)} (hE : E.OnText)
    (herr : E.ErrorsIgnoreMessages) (hrules : ∀ i, (E.rules i).Every (P.Portable E)) (p : P)
    (hp : p.Every (P.Portable E)) (std std' : Std) (s : List Chr) (pos : Pos) (e : Pos) :
    (∃ m, Rejects { E with std := std } p s pos m e) ↔
      ∃ m, Rejects { E with std := std' } p s pos m e := by
  have h := C09_same_but_message hE herr hrules p hp std std' s pos
  unfold Rejects
  generalize run { E with std := std } p s pos = a at h
  generalize run { E with std := std' } p s pos = b at h
  cases h <;> simp

/-- The C++11 and C++14 implementations agree in everything, messages included, without
restriction. -/
theorem C09_cpp11_cpp14 {E : Env (List Chr)} (hE : E.OnText) (p : P) (s : List Chr) (pos : Pos) :
    run { E with std := .cpp11 } p s pos = run { E with std := .cpp14 } p s pos := by
  have same : ∀ (a : Out (Res (List Chr))), SameIn (fun s t => s = t) a a := by
    rintro ((⟨v, s', q⟩ | ⟨m, q⟩) | f | _)
    · exact .acc _ _ rfl
    · exact .rej _ _
    · exact .ill _
    · exact .deep
  let S : Sim { E with std := .cpp11 } { E with std := .cpp14 } :=
    sameSim (fun s t => s = t) Eq (fun _ => rfl) (by rintro _ _ _ _ rfl; rfl)
      (by rw [show E.input = listInput from hE]; exact list_represents) hE (fun _ => rfl)
      (.inl (by simp)) (by rintro i s _ pos rfl; exact same _)
      (by
        rintro k m _ pos rfl
        show _ ∨ _ ∨ _ ∨ (E.onError k m pos = _ ∧ _)
        simp only
        generalize E.onError k m pos = a
        rcases a with (⟨v, s', q⟩ | ⟨m, q⟩) | f | _
        · exact .inl ⟨_, _, _, _, rfl, rfl, rfl⟩
        · exact .inr (.inl ⟨_, _, _, rfl, rfl, rfl⟩)
        · exact .inr (.inr (.inl ⟨_, rfl, rfl⟩))
        · exact .inr (.inr (.inr ⟨rfl, rfl⟩)))
  have conv : ∀ (o : Place (List Chr) (List Chr)) (a b : Out (Res (List Chr))),
      a = b → S.Same o a b := by
    rintro o a _ rfl
    rcases a with (⟨v, s', q⟩ | ⟨m, q⟩) | f | _
    · exact ⟨rfl, rfl, rfl⟩
    · exact ⟨rfl, rfl⟩
    · rfl
    · trivial
  have hchar : ∀ {p : P} {cls : Chr → Bool} {val : Chr → Val} {m0 m1 : Msg},
      CharParser { E with std := .cpp11 } p cls val m0 m1 →
      CharParser { E with std := .cpp14 } p cls val m0 m1 → ∀ s pos,
      run { E with std := .cpp11 } p s pos = run { E with std := .cpp14 } p s pos := by
    intro p cls val m0 m1 h h' s pos
    cases s with
    | nil => exact (h.empty pos).trans (h'.empty pos).symm
    | cons c s =>
      cases hc : cls c with
      | true => exact (h.accepts c s pos hc).trans (h'.accepts c s pos hc).symm
      | false => exact (h.other c s pos hc).trans (h'.other c s pos hc).symm
  have hok : ∀ p, S.Ok p := P.every_of_forall fun p => by
    cases p with
    | transformErrorMessage p f =>
      rintro m _ rfl
      cases f m <;> first | trivial | rfl
    | oneOfC cs =>
      refine .inr fun o hX => conv _ _ _ ?_
      obtain ⟨hs, hpos⟩ := hX
      rw [show o.s1 = o.s2 from hs, show o.p1 = o.p2 from hpos]
      exact hchar (C28_one_of_c (E := { E with std := .cpp11 }) hE cs (by simp))
        (C28_one_of_c (E := { E with std := .cpp14 }) hE cs (by simp)) _ _
    | oneCharExceptC cs =>
      refine .inr fun o hX => conv _ _ _ ?_
      obtain ⟨hs, hpos⟩ := hX
      rw [show o.s1 = o.s2 from hs, show o.p1 = o.p2 from hpos]
      exact hchar (C28_one_char_except (E := { E with std := .cpp11 }) hE cs (by simp))
        (C28_one_char_except (E := { E with std := .cpp14 }) hE cs (by simp)) _ _
    | _ =>
      first
      | exact trivial
      | simp [Sim.Local, Env.SupportsSequence, Env.SupportsOneOf, Env.SupportsNth]
  have h := Sim.run_same S (fun i => hok _) p (hok p) ⟨s, pos, s, pos⟩ ⟨rfl, rfl⟩
  rcases Sim.Same.cases h with ⟨h1, h2⟩ | ⟨f, h1, h2⟩ | ⟨v, s1, q1, s2, q2, h1, h2, hs, hq⟩ |
    ⟨m, m', e, e', h1, h2, hm, he⟩ <;> simp only at h1 h2 <;> rw [h1, h2]
  · rw [show q1 = q2 from hq, show s1 = s2 from hs]
  · rw [show e = e' from he, show m = m' from hm]

/-- The messages of `one_of` and `one_of_c` are different in C++98. -/
theorem C09_messages_differ :
    (Rejects env11 (.oneOf [P.digit, P.letter]) (txt "!") start .noneOfTheExpectedCasesFound start ∧
      Rejects env98 (.oneOf [P.digit, P.letter]) (txt "!") start .letterExpected start) ∧
    (Rejects env11 (.oneOfC [ch 'a', ch 'b']) (txt "!") start .noneOfTheExpectedCasesFound start ∧
      Rejects env98 (.oneOfC [ch 'a', ch 'b']) (txt "!") start (.literalExpected (ch 'b')) start) :=
  ⟨⟨rejects_of_eval 20 (by decide +kernel), rejects_of_eval 20 (by decide +kernel)⟩,
    ⟨rejects_of_eval 20 (by decide +kernel), rejects_of_eval 20 (by decide +kernel)⟩⟩

/-- Beyond the limits the implementations do not agree: `sequence` of five parsers (the default of
`BOOST_METAPARSE_LIMIT_SEQUENCE_SIZE`) compiles in C++11 only. -/
theorem C09_beyond_limits :
    Accepts env11 (.sequence (List.replicate 5 .oneChar)) (txt "abcde") start
      (.seq [.chr (ch 'a'), .chr (ch 'b'), .chr (ch 'c'), .chr (ch 'd'), .chr (ch 'e')]) []
      ⟨1, 6, ch 'e'⟩ ∧
    IllFormed env98 (.sequence (List.replicate 5 .oneChar)) (txt "abcde") start :=
  ⟨accepts_of_eval 20 (by decide +kernel), _, ill_of_eval (f := .noSpecialisation) 20 (by decide +kernel)⟩

/-- A grammar of lists of numbers, within the limits. -/
example : P.Every (P.Portable env11) (P.foldlStartWithParser
    (.lastOf [P.litC (ch ','), P.digit]) (.oneOf [P.digit, .oneOfC (txt "xyz")])
    fun a b => .seq [a, b]) := by
  simp [P.every_iff, P.EveryL, P.parts, P.Portable, env11, P.digit, P.litC, txt]
example : env11.ErrorsIgnoreMessages := fun _ m m' pos => .rej m m' pos

/-- C08: a parser with a recursive parser, a parser of the user and an error function of the user, moved elsewhere. -/
def userParser : P := .sequence [.ref 0, .native 5, .transformError (P.litC (ch '!')) 3]

theorem userParser_messages : userParser.Every P.MsgIgnoresPositions := by
  simp [userParser, P.litC, P.every_iff, P.EveryL, P.parts, P.MsgIgnoresPositions]

example : ∃ consumed, txt "aabxy!?" = consumed ++ txt "?" ∧ Accepts envUser userParser (txt "aabxy!?") ⟨7, 9, 0⟩
    (.seq [.chr (ch 'b'), .int 5, .chr (ch '!')]) (txt "?") (moveOver ⟨7, 9, 0⟩ consumed) := by
  obtain ⟨c, h1, -, h2⟩ := C08_accepts envUser_ignoresPositions envUser_messages userParser userParser_messages
    (txt "aabxy!?") start ⟨7, 9, 0⟩ (.seq [.chr (ch 'b'), .int 5, .chr (ch '!')]) (txt "?") ⟨1, 7, ch '!'⟩ (accepts_of_eval 30 (by decide +kernel))
  exact ⟨c, h1, h2⟩

example : ∃ seen rest m', txt "abxy?" = seen ++ rest ∧ Rejects envUser userParser (txt "abxy?") ⟨7, 9, 0⟩ m'
    (moveOver ⟨7, 9, 0⟩ seen) := by
  obtain ⟨seen, rest, m', h1, -, -, h2⟩ := C08_rejects envUser_ignoresPositions envUser_messages userParser
    userParser_messages (txt "abxy?") start ⟨7, 9, 0⟩ (.user 3) ⟨1, 5, ch 'y'⟩
    (rejects_of_eval 30 (by decide +kernel))
  exact ⟨seen, rest, m', h1, h2⟩

/-- C45: the same parse of the text and of a range in the middle of a longer text. -/
example : ∃ s', s'.1.drop s'.2 = txt "z" ∧
    Accepts { input := rangeInput } (.repeated P.digit) (txt "xy12z", 2) start
      (.seq [.chr (ch '1'), .chr (ch '2')]) s' ⟨1, 3, ch '2'⟩ :=
  (C45_accepts rangeInput_represents (T := env11) rfl range_sameUpToInput (.repeated P.digit) (txt "xy12z", 2) (txt "12z") rfl
    start _ _ _).1 (accepts_of_eval 20 (by decide +kernel))

/-- C09: `1+2` is the same number with both standards, and `+` fails at the same place. -/
def portableParser : P := P.foldlStartWithParser (.lastOf [P.litC (ch '+'), P.digit]) P.digit fun a b => .seq [a, b]

theorem portableParser_portable : portableParser.Every (P.Portable env11) := by
  simp [portableParser, P.every_iff, P.EveryL, P.parts, P.Portable, env11, P.digit, P.litC]

example : Accepts { env11 with std := .cpp98 } portableParser (txt "1+2") start
    (.seq [.chr (ch '1'), .chr (ch '2')]) [] ⟨1, 4, ch '2'⟩ :=
  (C09_same_language (E := env11) rfl (fun _ m m' pos => .rej m m' pos)
    (fun _ => by simp [env11, P.every_iff, P.EveryL, P.parts, P.Portable]) portableParser portableParser_portable
    .cpp11 .cpp98 _ _ _ _ _).1 (accepts_of_eval 30 (by decide +kernel))

example : ∃ m, Rejects { env11 with std := .cpp98 } portableParser (txt "+") start m start :=
  (C09_same_error_position (E := env11) rfl (fun _ m m' pos => .rej m m' pos)
    (fun _ => by simp [env11, P.every_iff, P.EveryL, P.parts, P.Portable]) portableParser portableParser_portable
    .cpp11 .cpp98 _ _ _).1 ⟨_, rejects_of_eval (m := .digitExpected) 30 (by decide +kernel)⟩

example (s : List Chr) : SameShifted s start ⟨7, 9, 0⟩ (run envUser userParser s start) (run envUser userParser s ⟨7, 9, 0⟩) :=
  C08_position_independent envUser_ignoresPositions envUser_messages userParser userParser_messages s _ _

example (p : P) : SameIn (fun s t => s.1.drop s.2 = t) (run { input := rangeInput } p (txt "xy12z", 2) start)
    (run env11 p (txt "12z") start) :=
  C45_representation rangeInput_represents (T := env11) rfl range_sameUpToInput p (txt "xy12z", 2) (txt "12z") rfl start

example (s : List Chr) : SameButMessage (run { env11 with std := .cpp98 } portableParser s start)
    (run { env11 with std := .cpp14 } portableParser s start) :=
  C09_same_but_message (E := env11) rfl (fun _ m m' pos => .rej m m' pos)
    (fun _ => by simp [env11, P.every_iff, P.EveryL, P.parts, P.Portable]) portableParser portableParser_portable .cpp98 .cpp14 s start

/-- `one_of_c` is another template in C++14. -/
example (s : List Chr) : run { envUser with std := .cpp11 } (.oneOfC (txt "xyz")) s start =
    run { envUser with std := .cpp14 } (.oneOfC (txt "xyz")) s start := C09_cpp11_cpp14 (E := envUser) rfl _ s start

end Metaparse
