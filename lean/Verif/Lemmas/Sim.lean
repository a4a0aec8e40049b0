import Verif.Lemmas.Lists
import Verif.Lemmas.Position
import Verif.Spec.Subparsers
/-!
# Relating parsing in two environments

Two environments, possibly with different input types, starting positions or implementations; a
relation between the places in the inputs is kept by every parser expression.
-/

namespace Metaparse

variable {I1 I2 : Type}

/-- A place in each of the two inputs. -/
structure Place (I1 I2 : Type) where
  s1 : I1
  p1 : Pos
  s2 : I2
  p2 : Pos

/-- What is related: places (`X`), where a parse gets to from a place (`D`), where it reports errors
(`R`), messages (`M`). -/
structure SimData (I1 I2 : Type) where
  X : Place I1 I2 → Prop
  D : Place I1 I2 → Place I1 I2 → Prop
  R : Place I1 I2 → Pos → Pos → Prop
  M : Msg → Msg → Prop

/-- Related outcomes of parsing from place `o`, where the first one may have run out of depth. -/
def SimData.Rel (S : SimData I1 I2) (o : Place I1 I2) : Out (Res I1) → Out (Res I2) → Prop
  | .deep, _ => True
  | .ill f, .ill g => f = g
  | .ok (.acc v s1 q1), .ok (.acc w s2 q2) => v = w ∧ S.D o ⟨s1, q1, s2, q2⟩
  | .ok (.rej m e), .ok (.rej m' e') => S.M m m' ∧ S.R o e e'
  | _, _ => False

/-- Related outcomes of parsing from place `o`; both may diverge. -/
def SimData.Same (S : SimData I1 I2) (o : Place I1 I2) : Out (Res I1) → Out (Res I2) → Prop
  | .deep, .deep => True
  | .ill f, .ill g => f = g
  | .ok (.acc v s1 q1), .ok (.acc w s2 q2) => v = w ∧ S.D o ⟨s1, q1, s2, q2⟩
  | .ok (.rej m e), .ok (.rej m' e') => S.M m m' ∧ S.R o e e'
  | _, _ => False

/-- Related evaluations of message functions. -/
def SimData.RelMsg (S : SimData I1 I2) : Out Msg → Out Msg → Prop
  | .deep, .deep => True
  | .ill f, .ill g => f = g
  | .ok m, .ok m' => S.M m m'
  | _, _ => False

/-- The relation is a simulation as far as single steps are concerned. -/
structure Sim (E1 : Env I1) (E2 : Env I2) extends SimData I1 I2 where
  reach_ok : ∀ {o o'}, X o → D o o' → X o'
  reach_refl : ∀ {o}, X o → D o o
  reach_trans : ∀ {o o' o''}, X o → D o o' → D o' o'' → D o o''
  err_here : ∀ {o}, X o → R o o.p1 o.p2
  err_later : ∀ {o o' e e'}, X o → D o o' → R o' e e' → R o e e'
  less : ∀ {o e e' f f'}, X o → R o e e' → R o f f' → f.less e = f'.less e'
  equalTo : ∀ {o e e'}, X o → R o e e' → o.p1.equalTo e = o.p2.equalTo e'
  msg_refl : ∀ m, M m m
  msg_unpaired : ∀ {o m m'}, X o → M m m' →
    M (.unpaired o.p1.line o.p1.col m) (.unpaired o.p2.line o.p2.col m')
  isEmpty : ∀ {o}, X o → E1.input.isEmpty o.s1 = E2.input.isEmpty o.s2
  char : ∀ {o}, X o →
    toSimData.Same o (Comb.oneChar E1.input o.s1 o.p1) (Comb.oneChar E2.input o.s2 o.p2)
  native : ∀ i {o}, X o → toSimData.Same o (E1.native i o.s1 o.p1) (E2.native i o.s2 o.p2)
  onError : ∀ k {o m m' e e'}, X o → M m m' → R o e e' →
    toSimData.Same o (E1.onError k m e) (E2.onError k m' e')
  rules : ∀ i, E1.rules i = E2.rules i
  /-- messages only have to be related where the implementations differ in them -/
  std : (E1.std = .cpp98 ↔ E2.std = .cpp98) ∨ ∀ m m', M m m'

namespace Sim

variable {E1 : Env I1} {E2 : Env I2} (S : Sim E1 E2)

/-- The condition on a single layer of a parser expression. -/
def Local : P → Prop
  | .transformErrorMessage _ f => ∀ m m', S.M m m' → S.RelMsg (f m) (f m')
  | .sequence ps => E1.SupportsSequence ps.length ↔ E2.SupportsSequence ps.length
  | .oneOf ps => E1.SupportsOneOf ps.length ↔ E2.SupportsOneOf ps.length
  | .nthOfC _ ps => E1.SupportsNth ps.length ↔ E2.SupportsNth ps.length
  | .lastOf ps => E1.SupportsNth ps.length ↔ E2.SupportsNth ps.length
  | .middleOf _ _ _ => E1.SupportsNth 3 ↔ E2.SupportsNth 3
  | .oneOfC cs => (E1.std = E2.std ∧ E1.limOneOf = E2.limOneOf) ∨
      ∀ o, S.X o → S.Same o (run E1 (.oneOfC cs) o.s1 o.p1) (run E2 (.oneOfC cs) o.s2 o.p2)
  | .oneCharExceptC cs => (E1.std = E2.std ∧ E1.limOneCharExcept = E2.limOneCharExcept) ∨
      ∀ o, S.X o →
        S.Same o (run E1 (.oneCharExceptC cs) o.s1 o.p1) (run E2 (.oneCharExceptC cs) o.s2 o.p2)
  | _ => True

variable {S}

theorem rel_deep (o : Place I1 I2) (b : Out (Res I2)) : S.Rel o .deep b := by
  unfold SimData.Rel; trivial

theorem Same.rel {S : SimData I1 I2} {o : Place I1 I2} {a : Out (Res I1)} {b : Out (Res I2)}
    (h : S.Same o a b) : S.Rel o a b := by
  rcases a with (⟨v, s1, q1⟩ | ⟨m, e⟩) | f | _ <;> rcases b with (⟨w, s2, q2⟩ | ⟨m', e'⟩) | g | _ <;>
    first | exact h | trivial

theorem Rel.cases {o : Place I1 I2} {a : Out (Res I1)} {b : Out (Res I2)} (h : S.Rel o a b) :
    a = .deep ∨ (∃ f, a = .ill f ∧ b = .ill f) ∨
    (∃ v s1 q1 s2 q2, a = .ok (.acc v s1 q1) ∧ b = .ok (.acc v s2 q2) ∧
      S.D o ⟨s1, q1, s2, q2⟩) ∨
    (∃ m m' e e', a = .ok (.rej m e) ∧ b = .ok (.rej m' e') ∧ S.M m m' ∧ S.R o e e') := by
  rcases a with (⟨v, s1, q1⟩ | ⟨m, e⟩) | f | _ <;> rcases b with (⟨w, s2, q2⟩ | ⟨m', e'⟩) | g | _ <;>
    simp only [SimData.Rel] at h
  · obtain ⟨rfl, h⟩ := h
    exact .inr (.inr (.inl ⟨_, _, _, _, _, rfl, rfl, h⟩))
  · exact .inr (.inr (.inr ⟨_, _, _, _, rfl, rfl, h.1, h.2⟩))
  · subst h; exact .inr (.inl ⟨_, rfl, rfl⟩)
  all_goals exact .inl rfl

theorem rel_acc {o : Place I1 I2} {v : Val} {s1 : I1} {q1 : Pos} {s2 : I2} {q2 : Pos}
    (h : S.D o ⟨s1, q1, s2, q2⟩) : S.Rel o (.ok (.acc v s1 q1)) (.ok (.acc v s2 q2)) := ⟨rfl, h⟩

theorem rel_rej {o : Place I1 I2} {m m' : Msg} {e e' : Pos} (h : S.M m m') (h' : S.R o e e') :
    S.Rel o (.ok (.rej m e)) (.ok (.rej m' e')) := ⟨h, h'⟩

theorem rel_ill (o : Place I1 I2) (f : Fault) : S.Rel o (.ill f) (.ill f) := rfl

theorem Rel.bind {o o' : Place I1 I2} {a : Out (Res I1)} {b : Out (Res I2)}
    {f : Res I1 → Out (Res I1)} {g : Res I2 → Out (Res I2)} (h : S.Rel o a b)
    (hacc : ∀ v s1 q1 s2 q2, S.D o ⟨s1, q1, s2, q2⟩ →
      S.Rel o' (f (.acc v s1 q1)) (g (.acc v s2 q2)))
    (hrej : ∀ m m' e e', S.M m m' → S.R o e e' → S.Rel o' (f (.rej m e)) (g (.rej m' e'))) :
    S.Rel o' (a.bind f) (b.bind g) := by
  rcases Rel.cases h with rfl | ⟨f, rfl, rfl⟩ | ⟨v, s1, q1, s2, q2, rfl, rfl, hA⟩ |
    ⟨m, m', e, e', rfl, rfl, hm, hR⟩
  · exact rel_deep ..
  · exact rel_ill ..
  · exact hacc _ _ _ _ _ hA
  · exact hrej _ _ _ _ hm hR

theorem Rel.bind_same {α : Type} {o : Place I1 I2} (x : Out α) {f : α → Out (Res I1)}
    {g : α → Out (Res I2)} (h : ∀ a, S.Rel o (f a) (g a)) : S.Rel o (x.bind f) (x.bind g) := by
  cases x with
  | ok a => exact h a
  | ill f => exact rel_ill ..
  | deep => exact rel_deep ..

theorem Rel.later {o o' : Place I1 I2} {a : Out (Res I1)} {b : Out (Res I2)} (hX : S.X o)
    (hD : S.D o o') (h : S.Rel o' a b) : S.Rel o a b := by
  rcases Rel.cases h with rfl | ⟨f, rfl, rfl⟩ | ⟨v, s1, q1, s2, q2, rfl, rfl, hA⟩ |
    ⟨m, m', e, e', rfl, rfl, hm, hR⟩
  · exact rel_deep ..
  · exact rel_ill ..
  · exact rel_acc (S.reach_trans hX hD hA)
  · exact rel_rej hm (S.err_later hX hD hR)

/-- `f` and `g` are related at every related place. -/
def SemRel (S : Sim E1 E2) (f : Sem I1) (g : Sem I2) : Prop :=
  ∀ o, S.X o → S.Rel o (f o.s1 o.p1) (g o.s2 o.p2)

/-- Two lists of parsers, related one by one. -/
inductive ListRel (S : Sim E1 E2) : List (Sem I1) → List (Sem I2) → Prop
  | nil : ListRel S [] []
  | cons {f : Sem I1} {g : Sem I2} {fs : List (Sem I1)} {gs : List (Sem I2)} :
      SemRel S f g → ListRel S fs gs → ListRel S (f :: fs) (g :: gs)

theorem ListRel.length {fs : List (Sem I1)} {gs : List (Sem I2)} (h : ListRel S fs gs) :
    fs.length = gs.length := by
  induction h with
  | nil => rfl
  | cons _ _ ih => simp [ih]

theorem listRel_map {rec1 : P → Sem I1} {rec2 : P → Sem I2} (ps : List P)
    (h : ∀ p ∈ ps, SemRel S (rec1 p) (rec2 p)) : ListRel S (ps.map rec1) (ps.map rec2) := by
  induction ps with
  | nil => exact .nil
  | cons p ps ih =>
    exact .cons (h p (List.mem_cons_self ..)) (ih fun q hq => h q (List.mem_cons_of_mem _ hq))

theorem chain_rel {fs : List (Sem I1)} {gs : List (Sem I2)} (h : ListRel S fs gs)
    (k : List Val → Val) : ∀ o, S.X o →
      S.Rel o ((chain fs o.s1 o.p1).bind fun r => .ok (r.toRes k))
        ((chain gs o.s2 o.p2).bind fun r => .ok (r.toRes k)) := by
  induction h generalizing k with
  | nil => intro o hX; exact rel_acc (S.reach_refl hX)
  | @cons f g fs gs hfg _ ih =>
    intro o hX
    simp only [chain, Out.bind_assoc]
    refine Rel.bind (hfg o hX) ?_ ?_
    · intro v s1 q1 s2 q2 hD
      have := ih (fun vs => k (v :: vs)) _ (S.reach_ok hX hD)
      have e1 : ∀ {I : Type} (r : ChainRes I),
          (r.cons v).toRes k = r.toRes (fun vs => k (v :: vs)) := by
        intro I r; cases r <;> rfl
      simp only [Out.bind_assoc, Out.bind_ok, e1]
      exact Rel.later hX hD this
    · intro m m' e e' hm hR
      exact rel_rej hm hR

theorem oneOf11_rel {fs : List (Sem I1)} {gs : List (Sem I2)} (h : ListRel S fs gs) :
    SemRel S (Comb.oneOf11 fs) (Comb.oneOf11 gs) := by
  induction h with
  | nil => intro o hX; exact rel_rej (S.msg_refl _) (S.err_here hX)
  | cons hfg _ ih =>
    intro o hX
    simp only [Comb.oneOf11]
    refine Rel.bind (hfg o hX) ?_ ?_
    · intro v s1 q1 s2 q2 hD
      refine Rel.bind (ih o hX) ?_ ?_
      · intro v' s1' q1' s2' q2' hD'
        exact rel_acc hD
      · intro m m' e e' hm hR
        exact rel_acc hD
    · intro m m' e e' hm hR
      refine Rel.bind (ih o hX) ?_ ?_
      · intro v' s1' q1' s2' q2' hD'
        exact rel_acc hD'
      · intro n n' f f' hn hR'
        simp only [S.less hX hR hR']
        split
        · exact rel_rej hm hR
        · exact rel_rej hn hR'

theorem oneOf98Loop_rel {fs : List (Sem I1)} {gs : List (Sem I2)} (h : ListRel S fs gs) :
    ∀ o, S.X o → ∀ st st', S.Rel o (.ok st) (.ok st') →
      S.Rel o (Comb.oneOf98Loop o.s1 o.p1 fs st) (Comb.oneOf98Loop o.s2 o.p2 gs st') := by
  induction h with
  | nil => intro o hX st st' h; exact h
  | cons hfg _ ih =>
    intro o hX st st' h
    simp only [Comb.oneOf98Loop]
    rcases Rel.cases h with h1 | ⟨f, h1, _⟩ | ⟨v, s1, q1, s2, q2, h1, h2, hD⟩ |
      ⟨m, m', e, e', h1, h2, hm, hR⟩ <;> cases h1
    · cases h2
      refine Rel.bind (hfg o hX) ?_ ?_
      · intro _ _ _ _ _ _; exact ih o hX _ _ (rel_acc hD)
      · intro _ _ _ _ _ _; exact ih o hX _ _ (rel_acc hD)
    · cases h2
      refine Rel.bind (hfg o hX) ?_ ?_
      · intro _ _ _ _ _ hD; exact ih o hX _ _ (rel_acc hD)
      · intro n n' f f' hn hR'
        refine ih o hX _ _ ?_
        simp only [Comb.oneOf98Op, S.less hX hR hR']
        split
        · exact rel_rej hm hR
        · exact rel_rej hn hR'

end Sim

/-! ## The two implementations of `one_of` agree up to messages -/

/-- Forget the message of a rejection. -/
def forgetMsg {I : Type} : Out (Res I) → Out (Res I)
  | .ok (.rej _ e) => .ok (.rej (.user 0) e)
  | r => r

/-- Forget the message of a rejection. -/
def Res.forget {I : Type} : Res I → Res I
  | .rej _ e => .rej (.user 0) e
  | r => r

theorem forgetMsg_ok {I : Type} (r : Res I) : forgetMsg (.ok r) = .ok r.forget := by cases r <;> rfl

theorem op_assoc {I : Type} (a b c : Res I) :
    Comb.oneOf98Op (Comb.oneOf98Op a b) c = Comb.oneOf98Op a (Comb.oneOf98Op b c) := by
  rcases a with _ | ⟨m1, e1⟩ <;> rcases b with _ | ⟨m2, e2⟩ <;> rcases c with _ | ⟨m3, e3⟩ <;>
    simp only [Comb.oneOf98Op]
  · by_cases h : e2.less e1 = true <;> simp [h]
  · have key : e3.less e2 = false → e2.less e1 = false → e3.less e1 = false := by
      intro h1 h2
      rw [Bool.eq_false_iff, Ne, Pos.less_iff] at *
      omega
    by_cases h : e2.less e1 = true <;> by_cases h' : e3.less e2 = true <;>
      by_cases h'' : e3.less e1 = true <;> simp [h, h', h'']
    · exact absurd (Pos.less_trans h' h) h''
    · exact absurd (key (by simpa using h') (by simpa using h)) (by simp [h''])

theorem oneOf11_op {I : Type} (p : Sem I) (ps : List (Sem I)) (s : I) (pos : Pos) :
    Comb.oneOf11 (p :: ps) s pos = (p s pos).bind fun r1 =>
      (Comb.oneOf11 ps s pos).bind fun r2 => .ok (Comb.oneOf98Op r1 r2) := by
  simp only [Comb.oneOf11]
  cases p s pos with
  | deep => rfl
  | ill f => rfl
  | ok r1 =>
    cases Comb.oneOf11 ps s pos with
    | deep => rfl
    | ill f => rfl
    | ok r2 =>
      cases r1 <;> cases r2 <;> simp only [Out.bind_ok, Comb.oneOf98Op]
      split <;> rfl

theorem oneOf98Loop_op {I : Type} (s : I) (pos : Pos) : ∀ (ps : List (Sem I)) (a b : Res I),
    Comb.oneOf98Loop s pos ps (Comb.oneOf98Op a b) =
      (Comb.oneOf98Loop s pos ps b).bind fun r => .ok (Comb.oneOf98Op a r) := by
  intro ps
  induction ps with
  | nil => intro a b; rfl
  | cons p ps ih =>
    intro a b
    simp only [Comb.oneOf98Loop, Out.bind_assoc]
    cases p s pos with
    | deep => rfl
    | ill f => rfl
    | ok r => simp only [Out.bind_ok, op_assoc, ih]

theorem forget_op_start {I : Type} (m : Msg) (pos : Pos) (r : Res I) :
    (Comb.oneOf98Op (.rej m pos) r).forget = (Comb.oneOf98Op r (.rej m pos)).forget := by
  cases r with
  | acc v s q => rfl
  | rej m' e =>
    simp only [Comb.oneOf98Op]
    rcases Pos.less_trichotomy e pos with h | rfl | h
    · simp [h, Pos.less_asymm h, Res.forget]
    · simp [Pos.less_irrefl, Res.forget]
    · simp [h, Pos.less_asymm h, Res.forget]

theorem oneOf_forget {I : Type} (m : Msg) (s : I) (pos : Pos) : ∀ (ps : List (Sem I)) (b : Res I),
    forgetMsg (Comb.oneOf98Loop s pos ps (Comb.oneOf98Op (.rej m pos) b)) =
      forgetMsg ((Comb.oneOf11 ps s pos).bind fun r => .ok (Comb.oneOf98Op b r)) := by
  intro ps
  induction ps with
  | nil =>
    intro b
    simp only [Comb.oneOf98Loop, Comb.oneOf11, Comb.fail, Out.bind_ok, forgetMsg_ok]
    rw [forget_op_start]
    cases b with
    | acc v s q => rfl
    | rej m' e => simp only [Comb.oneOf98Op]; split <;> rfl
  | cons p ps ih =>
    intro b
    rw [oneOf11_op]
    simp only [Comb.oneOf98Loop, Out.bind_assoc]
    cases p s pos with
    | deep => rfl
    | ill f => rfl
    | ok r =>
      simp only [Out.bind_ok, op_assoc]
      rw [ih]
      congr 1
      cases Comb.oneOf11 ps s pos with
      | deep => rfl
      | ill f => rfl
      | ok r2 => simp only [Out.bind_ok, op_assoc]

/-- The C++98 and C++11 implementations of `one_of` agree up to the message. -/
theorem oneOf98_oneOf11 {I : Type} (m : Msg) (ps : List (Sem I)) (s : I) (pos : Pos) :
    forgetMsg (Comb.oneOf98Loop s pos ps (.rej m pos)) = forgetMsg (Comb.oneOf11 ps s pos) := by
  cases ps with
  | nil => rfl
  | cons p ps =>
    rw [oneOf11_op]
    simp only [Comb.oneOf98Loop]
    cases p s pos with
    | deep => rfl
    | ill f => rfl
    | ok r => simp only [Out.bind_ok]; exact oneOf_forget m s pos ps r

namespace Sim

variable {E1 : Env I1} {E2 : Env I2} {S : Sim E1 E2}

/-- Where all messages are related, only the outcomes without messages matter. -/
theorem rel_of_forget (hM : ∀ m m', S.M m m') {o : Place I1 I2} {a a' : Out (Res I1)}
    {b b' : Out (Res I2)} (h1 : forgetMsg a = forgetMsg a') (h2 : forgetMsg b = forgetMsg b')
    (h : S.Rel o a b) : S.Rel o a' b' := by
  have : ∀ {I : Type} (x : Out (Res I)), (∃ v s q, x = .ok (.acc v s q)) ∨
      (∃ m e, x = .ok (.rej m e)) ∨ (∃ f, x = .ill f) ∨ x = .deep := by
    intro I x
    rcases x with (⟨v, s, q⟩ | ⟨m, e⟩) | f | _
    · exact .inl ⟨v, s, q, rfl⟩
    · exact .inr (.inl ⟨m, e, rfl⟩)
    · exact .inr (.inr (.inl ⟨f, rfl⟩))
    · exact .inr (.inr (.inr rfl))
  rcases Rel.cases h with rfl | ⟨f, rfl, rfl⟩ | ⟨v, s1, q1, s2, q2, rfl, rfl, hD⟩ |
    ⟨m, m', e, e', rfl, rfl, hm, hR⟩
  · rcases this a' with ⟨_, _, _, rfl⟩ | ⟨_, _, rfl⟩ | ⟨_, rfl⟩ | rfl <;> simp [forgetMsg] at h1
    exact rel_deep ..
  · rcases this a' with ⟨_, _, _, rfl⟩ | ⟨_, _, rfl⟩ | ⟨_, rfl⟩ | rfl <;> simp [forgetMsg] at h1
    subst h1
    rcases this b' with ⟨_, _, _, rfl⟩ | ⟨_, _, rfl⟩ | ⟨_, rfl⟩ | rfl <;> simp [forgetMsg] at h2
    subst h2
    exact rel_ill ..
  · rcases this a' with ⟨_, _, _, rfl⟩ | ⟨_, _, rfl⟩ | ⟨_, rfl⟩ | rfl <;> simp [forgetMsg] at h1
    obtain ⟨rfl, rfl, rfl⟩ := h1
    rcases this b' with ⟨_, _, _, rfl⟩ | ⟨_, _, rfl⟩ | ⟨_, rfl⟩ | rfl <;> simp [forgetMsg] at h2
    obtain ⟨rfl, rfl, rfl⟩ := h2
    exact rel_acc hD
  · rcases this a' with ⟨_, _, _, rfl⟩ | ⟨_, _, rfl⟩ | ⟨_, rfl⟩ | rfl <;> simp [forgetMsg] at h1
    subst h1
    rcases this b' with ⟨_, _, _, rfl⟩ | ⟨_, _, rfl⟩ | ⟨_, rfl⟩ | rfl <;> simp [forgetMsg] at h2
    subst h2
    exact rel_rej (hM _ _) hR

end Sim

/-! ## Normal forms of the variadic parsers -/

section Forms

variable {I : Type} (E : Env I)

/-- `sequence` for the standard in use. -/
def seqSem (fs : List (Sem I)) : Sem I := match E.std with
  | .cpp98 => Comb.sequence98 E.limSequence fs
  | _ => Comb.sequence11 fs

/-- `one_of` for the standard in use. -/
def oneOfSem (fs : List (Sem I)) : Sem I := match E.std with
  | .cpp98 => Comb.oneOf98 E.limOneOf fs
  | _ => Comb.oneOf11 fs

/-- `last_of` for the standard in use. -/
def lastSem (fs : List (Sem I)) : Sem I := match E.std with
  | .cpp98 => Comb.lastOf98 E.limSequence fs
  | _ => Comb.lastOf11 fs

variable {E}

theorem seqSem_supported {fs : List (Sem I)} (h : E.SupportsSequence fs.length) (s : I)
    (pos : Pos) : seqSem E fs s pos = (chain fs s pos).bind fun r => .ok (r.toRes .seq) := by
  unfold seqSem
  cases hs : E.std with
  | cpp98 =>
    simp only [Comb.sequence98, if_pos (h hs)]
    simpa using sequence98Loop_chain fs [] s pos
  | cpp11 => exact sequence11_chain fs s pos
  | cpp14 => exact sequence11_chain fs s pos

theorem seqSem_unsupported {fs : List (Sem I)} (h : ¬ E.SupportsSequence fs.length) (s : I)
    (pos : Pos) : seqSem E fs s pos = .ill .noSpecialisation := by
  unfold seqSem
  unfold Env.SupportsSequence at h
  cases hs : E.std with
  | cpp98 =>
    have : ¬ (1 < E.limSequence ∧ fs.length < E.limSequence) := fun h' => h fun _ => h'
    simp only [Comb.sequence98, if_neg this]
  | cpp11 => simp [hs] at h
  | cpp14 => simp [hs] at h

theorem nthOf_form (n : Int) {fs : List (Sem I)} (h : E.SupportsNth fs.length) :
    (0 ≤ n ∧ n < (fs.length : Int)) ∧ (∀ s pos, Comb.nthOf E n fs s pos =
      (chain fs s pos).bind fun r => .ok (r.toRes (pick n.toNat))) ∨
    ¬ (0 ≤ n ∧ n < (fs.length : Int)) ∧ (∀ s pos, Comb.nthOf E n fs s pos =
      .ok (.rej (.indexOutOfRange 0 ((fs.length : Int) - 1) n) pos)) := by
  by_cases hn : 0 ≤ n ∧ n < (fs.length : Int)
  · refine .inl ⟨hn, fun s pos => ?_⟩
    have := nthOf_chain E fs n.toNat (by omega) h s pos
    rwa [Int.toNat_of_nonneg hn.1] at this
  · refine .inr ⟨hn, fun s pos => ?_⟩
    unfold Comb.nthOf
    have h11 : Comb.nthOf11 n fs s pos =
        .ok (.rej (.indexOutOfRange 0 ((fs.length : Int) - 1) n) pos) := by
      cases fs with
      | nil => rfl
      | cons f fs => simp only [Comb.nthOf11, if_neg hn]; rfl
    cases hs : E.std with
    | cpp98 => simp only [Comb.nthOf98, if_pos (h hs), if_neg hn]; rfl
    | cpp11 => exact h11
    | cpp14 => exact h11

theorem nthOf_unsupported (n : Int) {fs : List (Sem I)} (h : ¬ E.SupportsNth fs.length) (s : I)
    (pos : Pos) : Comb.nthOf E n fs s pos = .ill .noSpecialisation := by
  unfold Comb.nthOf
  unfold Env.SupportsNth at h
  cases hs : E.std with
  | cpp98 =>
    have : ¬ (fs.length < E.limSequence) := fun h' => h fun _ => h'
    simp only [Comb.nthOf98, if_neg this]
  | cpp11 => simp [hs] at h
  | cpp14 => simp [hs] at h

theorem lastSem_cons (f : Sem I) (fs : List (Sem I)) :
    lastSem E (f :: fs) = Comb.nthOf E (((f :: fs).length : Int) - 1) (f :: fs) := by
  unfold lastSem Comb.nthOf
  cases hs : E.std with
  | cpp98 => rfl
  | cpp11 =>
    simp only [Comb.lastOf11, Comb.nthOf11]
    rw [if_pos]
    simp only [List.length_cons]
    omega
  | cpp14 =>
    simp only [Comb.lastOf11, Comb.nthOf11]
    rw [if_pos]
    simp only [List.length_cons]
    omega

end Forms

namespace Sim

variable {E1 : Env I1} {E2 : Env I2} {S : Sim E1 E2}

theorem seq_rel {fs : List (Sem I1)} {gs : List (Sem I2)} (h : ListRel S fs gs)
    (hs : E1.SupportsSequence fs.length ↔ E2.SupportsSequence fs.length) :
    SemRel S (seqSem E1 fs) (seqSem E2 gs) := by
  intro o hX
  rw [h.length] at hs
  by_cases h1 : E1.SupportsSequence fs.length
  · rw [h.length] at h1
    rw [seqSem_supported (by rw [h.length]; exact h1), seqSem_supported (hs.1 h1)]
    exact chain_rel h _ o hX
  · rw [h.length] at h1
    rw [seqSem_unsupported (by rw [h.length]; exact h1), seqSem_unsupported (fun h' => h1 (hs.2 h'))]
    exact rel_ill ..

theorem nth_rel (n : Int) {fs : List (Sem I1)} {gs : List (Sem I2)} (h : ListRel S fs gs)
    (hs : E1.SupportsNth fs.length ↔ E2.SupportsNth fs.length) :
    SemRel S (Comb.nthOf E1 n fs) (Comb.nthOf E2 n gs) := by
  intro o hX
  by_cases h1 : E1.SupportsNth fs.length
  · have h2 := hs.1 h1
    rw [h.length] at h2
    rcases nthOf_form n h1 with ⟨k1, e1⟩ | ⟨k1, e1⟩ <;>
      rcases nthOf_form n h2 with ⟨k2, e2⟩ | ⟨k2, e2⟩
    · rw [e1, e2]; exact chain_rel h _ o hX
    · rw [h.length] at k1; exact absurd k1 k2
    · rw [h.length] at k1; exact absurd k2 k1
    · rw [e1, e2, h.length]; exact rel_rej (S.msg_refl _) (S.err_here hX)
  · have h2 : ¬ E2.SupportsNth gs.length := by rw [← h.length]; exact fun h' => h1 (hs.2 h')
    rw [nthOf_unsupported n h1, nthOf_unsupported n h2]
    exact rel_ill ..

theorem last_rel {fs : List (Sem I1)} {gs : List (Sem I2)} (h : ListRel S fs gs)
    (hs : E1.SupportsNth fs.length ↔ E2.SupportsNth fs.length) :
    SemRel S (lastSem E1 fs) (lastSem E2 gs) := by
  cases h with
  | @cons f g fs gs hfg h =>
    rw [lastSem_cons, lastSem_cons]
    have := nth_rel (((f :: fs).length : Int) - 1) (.cons hfg h) hs
    simpa [h.length] using this
  | nil =>
    intro o hX
    unfold lastSem
    have key : ∀ {I : Type} (lim : Nat), Comb.lastOf98 lim ([] : List (Sem I)) =
        if 0 < lim then Comb.fail (.indexOutOfRange 0 (-1) (-1)) else fun _ _ => .ill .noSpecialisation := by
      intro I lim
      simp [Comb.lastOf98, Comb.nthOf98]
    simp only [Env.SupportsNth, List.length_nil] at hs
    rcases S.std with hstd | hM
    · by_cases h1 : E1.std = .cpp98
      · have h2 := hstd.1 h1
        simp only [h1, h2, key, forall_const] at hs ⊢
        by_cases h0 : 0 < E1.limSequence
        · rw [if_pos h0, if_pos (hs.1 h0)]; exact rel_rej (S.msg_refl _) (S.err_here hX)
        · rw [if_neg h0, if_neg fun h' => h0 (hs.2 h')]; exact rel_ill ..
      · have h2 : E2.std ≠ .cpp98 := fun h' => h1 (hstd.2 h')
        have : ∀ {I : Type} {E : Env I}, E.std ≠ .cpp98 →
            lastSem E [] = Comb.fail (.indexOutOfRange 0 (-1) 0) := by
          intro I E hE; unfold lastSem; cases h : E.std <;> first | exact absurd h hE | rfl
        show S.Rel o (lastSem E1 [] _ _) (lastSem E2 [] _ _)
        rw [this h1, this h2]
        exact rel_rej (S.msg_refl _) (S.err_here hX)
    · have : ∀ {I : Type} {E : Env I}, (E.std = .cpp98 → 0 < E.limSequence) →
          ∃ m, lastSem E ([] : List (Sem I)) = Comb.fail m := by
        intro I E hE
        unfold lastSem
        cases h : E.std with
        | cpp98 => simp only [key, if_pos (hE h)]; exact ⟨_, rfl⟩
        | cpp11 => exact ⟨_, rfl⟩
        | cpp14 => exact ⟨_, rfl⟩
      show S.Rel o (lastSem E1 [] _ _) (lastSem E2 [] _ _)
      by_cases h1 : E1.std = .cpp98 → 0 < E1.limSequence
      · obtain ⟨m, e1⟩ := this h1
        obtain ⟨m', e2⟩ := this (hs.1 h1)
        rw [e1, e2]
        exact rel_rej (hM _ _) (S.err_here hX)
      · have h2 : ¬ (E2.std = .cpp98 → 0 < E2.limSequence) := fun h' => h1 (hs.2 h')
        simp only [Classical.not_imp] at h1 h2
        unfold lastSem
        simp only [h1.1, h2.1, key, if_neg h1.2, if_neg h2.2]
        exact rel_ill ..

theorem oneOf_rel {fs : List (Sem I1)} {gs : List (Sem I2)} (h : ListRel S fs gs)
    (hs : E1.SupportsOneOf fs.length ↔ E2.SupportsOneOf fs.length) :
    SemRel S (oneOfSem E1 fs) (oneOfSem E2 gs) := by
  intro o hX
  have f98 : ∀ {I : Type} {E : Env I} {fs : List (Sem I)}, E.std = .cpp98 →
      E.SupportsOneOf fs.length → ∀ s pos, oneOfSem E fs s pos =
        Comb.oneOf98Loop s pos fs (.rej .noneOfTheExpectedCasesFound pos) := by
    intro I E fs h1 h2 s pos
    unfold oneOfSem
    simp only [h1, Comb.oneOf98, if_pos (h2 h1)]
  have f11 : ∀ {I : Type} {E : Env I} {fs : List (Sem I)}, E.std ≠ .cpp98 →
      ∀ s pos, oneOfSem E fs s pos = Comb.oneOf11 fs s pos := by
    intro I E fs h1 s pos
    unfold oneOfSem
    cases h : E.std <;> first | exact absurd h h1 | rfl
  have fill : ∀ {I : Type} {E : Env I} {fs : List (Sem I)}, ¬ E.SupportsOneOf fs.length →
      ∀ s pos, oneOfSem E fs s pos = .ill .noSpecialisation := by
    intro I E fs h s pos
    unfold Env.SupportsOneOf at h
    simp only [Classical.not_imp] at h
    unfold oneOfSem
    simp only [h.1, Comb.oneOf98, if_neg h.2]
  by_cases h1 : E1.SupportsOneOf fs.length
  · have h2 := hs.1 h1
    rw [h.length] at h2
    rcases S.std with hstd | hM
    · by_cases k1 : E1.std = .cpp98
      · rw [f98 k1 h1, f98 (hstd.1 k1) h2]
        exact oneOf98Loop_rel h o hX _ _ (rel_rej (S.msg_refl _) (S.err_here hX))
      · rw [f11 k1, f11 (fun h' => k1 (hstd.2 h'))]
        exact oneOf11_rel h o hX
    · have e : ∀ {I : Type} {E : Env I} {fs : List (Sem I)}, E.SupportsOneOf fs.length →
          ∀ s pos, forgetMsg (Comb.oneOf11 fs s pos) = forgetMsg (oneOfSem E fs s pos) := by
        intro I E fs h s pos
        by_cases k : E.std = .cpp98
        · rw [f98 k h, oneOf98_oneOf11]
        · rw [f11 k]
      exact rel_of_forget hM (e h1 _ _) (e h2 _ _) (oneOf11_rel h o hX)
  · have h2 : ¬ E2.SupportsOneOf gs.length := by rw [← h.length]; exact fun h' => h1 (hs.2 h')
    rw [fill h1, fill h2]
    exact rel_ill ..

end Sim

namespace Sim

variable {E1 : Env I1} {E2 : Env I2} {S : Sim E1 E2}

/-- Every part of the parser satisfies the local condition. -/
def Ok (S : Sim E1 E2) (p : P) : Prop := p.Every S.Local

theorem Ok.part {p q : P} (h : S.Ok p) (hq : q ∈ p.parts) : S.Ok q := by
  cases h with | mk _ h => exact h q hq

theorem Ok.here {p : P} (h : S.Ok p) : S.Local p := by
  cases h with | mk h _ => exact h

theorem ok_oneChar : S.Ok .oneChar := .mk trivial (by simp [P.parts])

theorem ok_acceptWhen {p : P} (h : S.Ok p) (f : Val → Out Bool) (m : Msg) :
    S.Ok (.acceptWhen p f m) :=
  .mk trivial fun q hq => by simp only [P.parts, List.mem_singleton] at hq; subst hq; exact h

theorem ok_litC (c : Chr) : S.Ok (P.litC c) := by
  refine ok_acceptWhen (P.Every.mk (p := .changeErrorMessage .oneChar _) trivial fun q hq => ?_) _ _
  simp only [P.parts, List.mem_singleton] at hq
  subst hq
  exact ok_oneChar

theorem transformErrorMessage_rel {f : Sem I1} {g : Sem I2} (h : SemRel S f g)
    {k k' : Msg → Out Msg} (o : Place I1 I2) (hX : S.X o)
    (hk : ∀ m m', S.M m m' → S.RelMsg (k m) (k' m')) :
    S.Rel o (Comb.transformErrorMessage f k o.s1 o.p1) (Comb.transformErrorMessage g k' o.s2 o.p2) := by
  refine Rel.bind (h o hX) ?_ ?_
  · intro v s1 q1 s2 q2 hD; exact rel_acc hD
  · intro m m' e e' hm hR
    have := hk m m' hm
    simp only
    revert this
    cases k m <;> cases k' m' <;> simp only [SimData.RelMsg] <;> intro this
    · exact rel_rej this hR
    · exact this.elim
    · exact this.elim
    · exact this.elim
    · subst this; exact rel_ill ..
    · exact this.elim
    · exact this.elim
    · exact this.elim
    · exact rel_deep ..

/-- One layer of instantiation keeps the relation. -/
theorem step_rel (hrules : ∀ i, S.Ok (E1.rules i)) (n : Nat)
    (ih : ∀ p, S.Ok p → SemRel S (eval E1 n p) (run E2 p)) (p : P) (hp : S.Ok p) :
    SemRel S (eval E1 (n + 1) p) (run E2 p) := by
  intro o hX
  have hl := hp.here
  have later : ∀ {q : P} {v : Val} {s1 : I1} {q1 : Pos} {s2 : I2} {q2 : Pos}, S.Ok q →
      S.D o ⟨s1, q1, s2, q2⟩ → S.Rel o (eval E1 n q s1 q1) (run E2 q s2 q2) := by
    intro q v s1 q1 s2 q2 hq hD
    exact Rel.later hX hD (ih q hq ⟨s1, q1, s2, q2⟩ (S.reach_ok hX hD))
  have cross : ∀ q, q = p →
      (∀ o, S.X o → S.Same o (run E1 q o.s1 o.p1) (run E2 q o.s2 o.p2)) →
      S.Rel o (eval E1 (n + 1) p o.s1 o.p1) (run E2 p o.s2 o.p2) := by
    rintro q rfl h
    by_cases hd : eval E1 (n + 1) q o.s1 o.p1 = .deep
    · rw [hd]; exact rel_deep ..
    · have := run_eq_of_eval (E := E1) (n := n + 1) (p := q) (s := o.s1) (pos := o.p1) rfl hd
      rw [← this]
      exact Same.rel (h o hX)
  have e2 := run_step E2 p o.s2 o.p2
  rw [e2]
  have mapRel : ∀ ps : List P, (∀ q ∈ ps, S.Ok q) →
      ListRel S (ps.map (eval E1 n)) (ps.map (run E2)) :=
    fun ps h => listRel_map ps fun q hq => ih q (h q hq)
  show S.Rel o (step E1 (eval E1 n) p o.s1 o.p1) _
  cases p with
  | oneChar => exact Same.rel (S.char hX)
  | empty v =>
    simp only [step, Comb.empty, S.isEmpty hX]
    refine Rel.bind_same _ fun b => ?_
    cases b
    · exact rel_rej (S.msg_refl _) (S.err_here hX)
    · exact rel_acc (S.reach_refl hX)
  | fail m => exact rel_rej (S.msg_refl _) (S.err_here hX)
  | ret v => exact rel_acc (S.reach_refl hX)
  | native i => exact Same.rel (S.native i hX)
  | ref i =>
    simp only [step, ← S.rules i]
    exact ih _ (hrules i) o hX
  | acceptWhen p pred m =>
    refine Rel.bind (ih p (hp.part (by simp [P.parts])) o hX) ?_ ?_
    · intro v s1 q1 s2 q2 hD
      refine Rel.bind_same _ fun b => ?_
      cases b
      · exact rel_rej (S.msg_refl _) (S.err_here hX)
      · exact rel_acc hD
    · intro m m' e e' hm hR; exact rel_rej hm hR
  | changeErrorMessage p m =>
    refine Rel.bind (ih p (hp.part (by simp [P.parts])) o hX) ?_ ?_
    · intro v s1 q1 s2 q2 hD; exact rel_acc hD
    · intro _ _ e e' hm hR; exact rel_rej (S.msg_refl _) (S.err_here hX)
  | transformErrorMessage p f =>
    exact transformErrorMessage_rel (ih p (hp.part (by simp [P.parts]))) o hX hl
  | transformError p k =>
    refine Rel.bind (ih p (hp.part (by simp [P.parts])) o hX) ?_ ?_
    · intro v s1 q1 s2 q2 hD; exact rel_acc hD
    · intro _ _ e e' hm hR; exact Same.rel (S.onError k hX hm hR)
  | transform p f =>
    refine Rel.bind (ih p (hp.part (by simp [P.parts])) o hX) ?_ ?_
    · intro v s1 q1 s2 q2 hD
      exact Rel.bind_same _ fun w => rel_acc hD
    · intro _ _ e e' hm hR; exact rel_rej hm hR
  | always p v =>
    refine Rel.bind (ih p (hp.part (by simp [P.parts])) o hX) ?_ ?_
    · intro _ s1 q1 s2 q2 hD; exact rel_acc hD
    · intro _ _ e e' hm hR; exact rel_rej hm hR
  | lookAhead p =>
    refine Rel.bind (ih p (hp.part (by simp [P.parts])) o hX) ?_ ?_
    · intro _ s1 q1 s2 q2 hD; exact rel_acc (S.reach_refl hX)
    · intro _ _ e e' hm hR; exact rel_rej hm hR
  | except p v m =>
    refine Rel.bind (ih p (hp.part (by simp [P.parts])) o hX) ?_ ?_
    · intro _ s1 q1 s2 q2 hD; exact rel_rej (S.msg_refl _) (S.err_here hX)
    · intro _ _ e e' hm hR; exact rel_acc (S.reach_refl hX)
  | optional p d =>
    refine Rel.bind (ih p (hp.part (by simp [P.parts])) o hX) ?_ ?_
    · intro _ s1 q1 s2 q2 hD; exact rel_acc hD
    · intro _ _ e e' hm hR; exact rel_acc (S.reach_refl hX)
  | if_ p t f =>
    refine Rel.bind (ih p (hp.part (by simp [P.parts])) o hX) ?_ ?_
    · intro _ s1 q1 s2 q2 hD; exact rel_acc (S.reach_refl hX)
    · intro _ _ e e' hm hR; exact rel_acc (S.reach_refl hX)
  | failAtFirstCharExpected p =>
    refine Rel.bind (ih p (hp.part (by simp [P.parts])) o hX) ?_ ?_
    · intro _ s1 q1 s2 q2 hD; exact rel_rej (S.msg_refl _) (S.err_here hX)
    · intro _ _ e e' hm hR
      simp only [S.equalTo hX hR]
      split
      · exact rel_acc (S.reach_refl hX)
      · exact rel_rej hm hR
  | foldl p st op =>
    refine Rel.bind (ih p (hp.part (by simp [P.parts])) o hX) ?_ ?_
    · intro v s1 q1 s2 q2 hD
      refine Rel.bind_same _ fun x => later (v := v) ?_ hD
      exact .mk trivial fun q hq => hp.part hq
    · intro _ _ e e' hm hR
      exact Rel.bind_same _ fun x => rel_acc (S.reach_refl hX)
  | foldlRejectIncomplete p st op =>
    refine Rel.bind (ih p (hp.part (by simp [P.parts])) o hX) ?_ ?_
    · intro v s1 q1 s2 q2 hD
      refine Rel.bind_same _ fun x => later (v := v) ?_ hD
      exact .mk trivial fun q hq => hp.part hq
    · intro _ _ e e' hm hR
      simp only [S.equalTo hX hR]
      split
      · exact Rel.bind_same _ fun x => rel_acc (S.reach_refl hX)
      · exact rel_rej hm hR
  | foldlStartWithParser p sp op =>
    refine Rel.bind (ih sp (hp.part (by simp [P.parts])) o hX) ?_ ?_
    · intro v s1 q1 s2 q2 hD
      refine later (v := v) ?_ hD
      exact .mk trivial fun q hq => hp.part (by simp only [P.parts, List.mem_cons] at hq ⊢; simp_all)
    · intro _ _ e e' hm hR; exact rel_rej hm hR
  | foldlRejectIncompleteStartWithParser p sp op =>
    refine Rel.bind (ih sp (hp.part (by simp [P.parts])) o hX) ?_ ?_
    · intro v s1 q1 s2 q2 hD
      refine later (v := v) ?_ hD
      exact .mk trivial fun q hq => hp.part (by simp only [P.parts, List.mem_cons] at hq ⊢; simp_all)
    · intro _ _ e e' hm hR; exact rel_rej hm hR
  | foldrStartWithParser p sp op =>
    refine Rel.bind (ih p (hp.part (by simp [P.parts])) o hX) ?_ ?_
    · intro v s1 q1 s2 q2 hD
      refine Rel.bind (later (v := v) hp hD) ?_ ?_
      · intro w t1 r1 t2 r2 hD2
        exact Rel.bind_same _ fun x => rel_acc hD2
      · intro _ _ e e' hm hR; exact rel_rej hm hR
    · intro _ _ e e' hm hR
      exact ih sp (hp.part (by simp [P.parts])) o hX
  | ifAccepts p q =>
    refine Rel.bind (ih p (hp.part (by simp [P.parts])) o hX) ?_ ?_
    · intro _ s1 q1 s2 q2 hD; exact ih q (hp.part (by simp [P.parts])) o hX
    · intro _ _ e e' hm hR; exact rel_rej hm hR
  | sequence ps =>
    exact seq_rel (mapRel ps fun q hq => hp.part hq) (by simpa [Local] using hl) o hX
  | oneOf ps =>
    exact oneOf_rel (mapRel ps fun q hq => hp.part hq) (by simpa [Local] using hl) o hX
  | nthOfC k ps =>
    exact nth_rel k (mapRel ps fun q hq => hp.part hq) (by simpa [Local] using hl) o hX
  | lastOf ps =>
    exact last_rel (mapRel ps fun q hq => hp.part hq) (by simpa [Local] using hl) o hX
  | middleOf p1 p2 p3 =>
    have h1 := ih p1 (hp.part (by simp [P.parts]))
    have h2 := ih p2 (hp.part (by simp [P.parts]))
    have h3 := ih p3 (hp.part (by simp [P.parts]))
    refine nth_rel 1 (fs := [_, _, _]) (gs := [_, _, _]) (.cons h1 (.cons h2 (.cons ?_ .nil))) hl o hX
    intro o' hX'
    exact transformErrorMessage_rel h3 o' hX' fun m m' hm => S.msg_unpaired hX hm
  | iterate k p accum =>
    simp only [step, Comb.iterate]
    by_cases hk : k = 0
    · simp only [if_pos hk]; exact rel_acc (S.reach_refl hX)
    · simp only [if_neg hk]
      refine Rel.bind (ih p (hp.part (by simp [P.parts])) o hX) ?_ ?_
      · intro v s1 q1 s2 q2 hD
        exact later (v := v) (.mk trivial fun q hq => hp.part hq) hD
      · intro _ _ e e' hm hR; exact rel_rej hm hR
  | keyword kw v =>
    cases kw with
    | nil => exact rel_acc (S.reach_refl hX)
    | cons c cs =>
      refine Rel.bind (ih _ (ok_litC c) o hX) ?_ ?_
      · intro w s1 q1 s2 q2 hD
        exact later (v := w) (.mk trivial (by simp [P.parts])) hD
      · intro _ _ e e' hm hR; exact rel_rej hm hR
  | oneOfC cs =>
    rcases hl with ⟨hs, hlim⟩ | h
    · simp only [step, hs, hlim]
      cases hstd : E2.std with
      | cpp98 =>
        simp only
        split
        · refine ih _ (.mk ?_ ?_) o hX
          · simp only [Local, Env.SupportsOneOf, hs, hlim]
          · intro q hq
            simp only [P.parts, List.mem_map] at hq
            obtain ⟨c, _, rfl⟩ := hq
            exact ok_litC c
        · exact rel_ill ..
      | cpp11 => exact ih _ (ok_acceptWhen ok_oneChar _ _) o hX
      | cpp14 => exact ih _ (ok_acceptWhen ok_oneChar _ _) o hX
    · rw [← e2]; exact cross _ rfl h
  | oneCharExceptC cs =>
    rcases hl with ⟨hs, hlim⟩ | h
    · simp only [step, hs, hlim]
      cases hstd : E2.std with
      | cpp98 =>
        simp only
        split
        · exact ih _ (ok_acceptWhen ok_oneChar _ _) o hX
        · exact rel_ill ..
      | cpp11 => exact ih _ (ok_acceptWhen ok_oneChar _ _) o hX
      | cpp14 => exact ih _ (ok_acceptWhen ok_oneChar _ _) o hX
    · rw [← e2]; exact cross _ rfl h

theorem eval_rel (hrules : ∀ i, S.Ok (E1.rules i)) (n : Nat) :
    ∀ p, S.Ok p → SemRel S (eval E1 n p) (run E2 p) := by
  induction n with
  | zero => intro p _ o _; exact rel_deep ..
  | succ n ih => exact step_rel hrules n ih

/-- A place with the two inputs exchanged. -/
def _root_.Metaparse.Place.swap (o : Place I1 I2) : Place I2 I1 := ⟨o.s2, o.p2, o.s1, o.p1⟩

/-- The relation with the two inputs exchanged. -/
def swapData (S : SimData I1 I2) : SimData I2 I1 where
  X o := S.X o.swap
  D o o' := S.D o.swap o'.swap
  R o e e' := S.R o.swap e' e
  M m m' := S.M m' m

theorem Same.swap {S : SimData I1 I2} {o : Place I2 I1} {a : Out (Res I1)} {b : Out (Res I2)}
    (h : S.Same o.swap a b) : (swapData S).Same o b a := by
  rcases a with (⟨v, s1, q1⟩ | ⟨m, e⟩) | f | _ <;> rcases b with (⟨w, s2, q2⟩ | ⟨m', e'⟩) | g | _ <;>
    first
    | exact ⟨h.1.symm, h.2⟩
    | exact h
    | exact (show f = g from h).symm

/-- A simulation with the two inputs exchanged. -/
def swap (S : Sim E1 E2) : Sim E2 E1 where
  toSimData := swapData S.toSimData
  reach_ok := fun h h' => S.reach_ok h h'
  reach_refl := fun h => S.reach_refl h
  reach_trans := fun h h' h'' => S.reach_trans h h' h''
  err_here := fun h => S.err_here h
  err_later := fun h h' h'' => S.err_later h h' h''
  less := fun h h' h'' => (S.less h h' h'').symm
  equalTo := fun h h' => (S.equalTo h h').symm
  msg_refl := S.msg_refl
  msg_unpaired := fun h h' => S.msg_unpaired h h'
  isEmpty := fun h => (S.isEmpty h).symm
  char := fun h => Same.swap (S.char h)
  native := fun i _ h => Same.swap (S.native i h)
  onError := fun k _ _ _ _ _ h h' h'' => Same.swap (S.onError k h h' h'')
  rules := fun i => (S.rules i).symm
  std := by
    rcases S.std with h | h
    · exact .inl h.symm
    · exact .inr fun m m' => h m' m

theorem Ok.swap {S : Sim E1 E2} {p : P} (h : S.Ok p) : S.swap.Ok p := by
  unfold Ok at *
  induction h with
  | @mk p h1 _ ih =>
    refine .mk ?_ ih
    cases p with
    | transformErrorMessage p f =>
      intro m m' hm
      have := h1 m' m hm
      revert this
      cases f m <;> cases f m' <;> intro this <;>
        first | exact this | exact (show _ = _ from this).symm
    | oneOfC cs =>
      rcases h1 with ⟨h, h'⟩ | h
      · exact .inl ⟨h.symm, h'.symm⟩
      · exact .inr fun o hX => Same.swap (h o.swap hX)
    | oneCharExceptC cs =>
      rcases h1 with ⟨h, h'⟩ | h
      · exact .inl ⟨h.symm, h'.symm⟩
      · exact .inr fun o hX => Same.swap (h o.swap hX)
    | _ => first | exact Iff.symm h1 | exact trivial

/-- The outcomes of parsing from related places are related. -/
theorem run_same (S : Sim E1 E2) (hrules : ∀ i, S.Ok (E1.rules i)) (p : P) (hp : S.Ok p)
    (o : Place I1 I2) (hX : S.X o) : S.Same o (run E1 p o.s1 o.p1) (run E2 p o.s2 o.p2) := by
  have key : ∀ {J1 J2 : Type} {F1 : Env J1} {F2 : Env J2} (T : Sim F1 F2)
      (_ : ∀ i, T.Ok (F1.rules i)) (_ : T.Ok p) (o : Place J1 J2) (_ : T.X o),
      T.Rel o (run F1 p o.s1 o.p1) (run F2 p o.s2 o.p2) := by
    intro J1 J2 F1 F2 T hr hp o hX
    obtain ⟨n, hn⟩ := exists_eval F1 p o.s1 o.p1
    rw [← hn]
    exact eval_rel hr n p hp o hX
  have h := key S hrules hp o hX
  have h' := key S.swap (fun i => by rw [← S.rules i]; exact (hrules i).swap) hp.swap o.swap hX
  rcases Rel.cases h with h1 | ⟨f, h1, h2⟩ | ⟨v, s1, q1, s2, q2, h1, h2, hD⟩ |
    ⟨m, m', e, e', h1, h2, hm, hR⟩
  · rcases Rel.cases h' with h2 | ⟨f, _, h2⟩ | ⟨v, s1, q1, s2, q2, _, h2, hD⟩ |
      ⟨m, m', e, e', _, h2, hm, hR⟩
    · have h2 : run E2 p o.s2 o.p2 = .deep := h2
      rw [h1, h2]; trivial
    all_goals
      have h2 := h1.symm.trans h2
      cases h2
  · rw [h1, h2]; rfl
  · rw [h1, h2]; exact ⟨rfl, hD⟩
  · rw [h1, h2]; exact ⟨hm, hR⟩

theorem Same.cases {S : SimData I1 I2} {o : Place I1 I2} {a : Out (Res I1)} {b : Out (Res I2)}
    (h : S.Same o a b) : (a = .deep ∧ b = .deep) ∨ (∃ f, a = .ill f ∧ b = .ill f) ∨
    (∃ v s1 q1 s2 q2, a = .ok (.acc v s1 q1) ∧ b = .ok (.acc v s2 q2) ∧
      S.D o ⟨s1, q1, s2, q2⟩) ∨
    (∃ m m' e e', a = .ok (.rej m e) ∧ b = .ok (.rej m' e') ∧ S.M m m' ∧ S.R o e e') := by
  rcases a with (⟨v, s1, q1⟩ | ⟨m, e⟩) | f | _ <;> rcases b with (⟨w, s2, q2⟩ | ⟨m', e'⟩) | g | _ <;>
    simp only [SimData.Same] at h
  · obtain ⟨rfl, h⟩ := h
    exact .inr (.inr (.inl ⟨_, _, _, _, _, rfl, rfl, h⟩))
  · exact .inr (.inr (.inr ⟨_, _, _, _, rfl, rfl, h.1, h.2⟩))
  · subst h; exact .inr (.inl ⟨_, rfl, rfl⟩)
  · exact .inl ⟨rfl, rfl⟩

end Sim

end Metaparse
