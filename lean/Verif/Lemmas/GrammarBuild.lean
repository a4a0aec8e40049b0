import Verif.Spec.GrammarMeaning
import Verif.Props.Choice
import Verif.Props.Sequences
import Verif.Props.Folds
import Verif.Props.Chars
import Verif.Props.Wrappers
import Verif.Lemmas.GrammarTokens
/-!
# Building the parser of a name
-/

namespace Metaparse

namespace Grammar

/-- The parser of an expression, as a relation. -/
inductive Builds (R : RuleSet) : GExp → P → Prop
  | chr (c : Chr) : Builds R (.chr c) (P.lit c)
  | native {n : List Chr} {p : P} : R.body n = some (.native p) → R.action n = none →
      Builds R (.name n) p
  | nativeAction {n : List Chr} {p : P} {f : Val → Val} : R.body n = some (.native p) →
      R.action n = some f → Builds R (.name n) (.transform p f)
  | rule {n : List Chr} {e : GExp} {p : P} : R.body n = some (.parsed e) → Builds R e p →
      R.action n = none → Builds R (.name n) p
  | ruleAction {n : List Chr} {e : GExp} {p : P} {f : Val → Val} : R.body n = some (.parsed e) →
      Builds R e p → R.action n = some f → Builds R (.name n) (.transform p f)
  | star {op : Chr} {e : GExp} {p : P} : op ≠ ch '+' → Builds R e p →
      Builds R (.rep op e) (P.repeated p)
  | plus {e : GExp} {p : P} : Builds R e p → Builds R (.rep (ch '+') e) (P.repeated1 p)
  | seq {a b : GExp} {p q : P} : Builds R a p → Builds R b q →
      Builds R (.seq a b) (.sequence [p, q])
  | sel {a b : GExp} {p q : P} : Builds R a p → Builds R b q → Builds R (.sel a b) (.oneOf [p, q])

theorem builds_instantiate {G : Grammar} {get : List Chr → Out P}
    (hget : ∀ n p, get n = .ok p → Builds G.ruleSet (.name n) p) {e : GExp} :
    ∀ {p}, instantiate get e = .ok p → Builds G.ruleSet e p := by
  induction e with
  | chr c => intro p h; cases h; exact .chr c
  | name n => intro p h; exact hget n p h
  | rep op e ih =>
    intro p h
    simp only [instantiate, Out.bind_eq_ok] at h
    obtain ⟨q, hq, h⟩ := h
    by_cases hop : op = ch '+'
    · subst hop; cases h; exact .plus (ih hq)
    · rw [if_neg hop] at h; cases h; exact .star hop (ih hq)
  | seq a b iha ihb =>
    intro p h
    simp only [instantiate, Out.bind_eq_ok] at h
    obtain ⟨q, hq, r, hr, h⟩ := h
    cases h
    exact .seq (iha hq) (ihb hr)
  | sel a b iha ihb =>
    intro p h
    simp only [instantiate, Out.bind_eq_ok] at h
    obtain ⟨q, hq, r, hr, h⟩ := h
    cases h
    exact .sel (iha hq) (ihb hr)

theorem builds_of_getParser {G : Grammar} : ∀ {k : Nat} {n : List Chr} {p : P},
    getParser G k n = .ok p → Builds G.ruleSet (.name n) p := by
  intro k
  induction k with
  | zero => intro n p h; cases h
  | succ k ih =>
    intro n p h
    unfold getParser at h
    cases hb : G.rules.lookup n with
    | none => rw [hb] at h; cases h
    | some b =>
      rw [hb] at h
      have hb : G.ruleSet.body n = some b := hb
      cases b with
      | native q =>
        simp only [Out.ok.injEq] at h
        subst h
        unfold withAction
        cases ha : G.actions.lookup n with
        | none => exact .native hb ha
        | some f => exact .nativeAction hb ha
      | parsed e =>
        simp only [Out.bind_eq_ok] at h
        obtain ⟨q, hq, h⟩ := h
        have hq := builds_instantiate (fun n p h => ih h) hq
        simp only [Out.ok.injEq] at h
        subst h
        unfold withAction
        cases ha : G.actions.lookup n with
        | none => exact .rule hb hq ha
        | some f => exact .ruleAction hb hq ha

theorem instantiate_mono {get get' : List Chr → Out P} {e : GExp}
    (h : ∀ n ∈ e.names, ∀ p, get n = .ok p → get' n = .ok p) :
    ∀ {p}, instantiate get e = .ok p → instantiate get' e = .ok p := by
  induction e with
  | chr c => intro p hp; exact hp
  | name n => intro p hp; exact h n (by simp [GExp.names]) p hp
  | rep op e ih =>
    intro p hp
    simp only [instantiate, Out.bind_eq_ok] at hp ⊢
    obtain ⟨q, hq, hp⟩ := hp
    exact ⟨q, ih h hq, hp⟩
  | seq a b iha ihb =>
    intro p hp
    simp only [instantiate, Out.bind_eq_ok] at hp ⊢
    obtain ⟨q, hq, r, hr, hp⟩ := hp
    exact ⟨q, iha (fun n hn => h n (by simp [GExp.names, hn])) hq, r,
      ihb (fun n hn => h n (by simp [GExp.names, hn])) hr, hp⟩
  | sel a b iha ihb =>
    intro p hp
    simp only [instantiate, Out.bind_eq_ok] at hp ⊢
    obtain ⟨q, hq, r, hr, hp⟩ := hp
    exact ⟨q, iha (fun n hn => h n (by simp [GExp.names, hn])) hq, r,
      ihb (fun n hn => h n (by simp [GExp.names, hn])) hr, hp⟩

theorem getParser_mono {G : Grammar} : ∀ {k : Nat} {n : List Chr} {p : P},
    getParser G k n = .ok p → getParser G (k + 1) n = .ok p := by
  intro k
  induction k with
  | zero => intro n p h; cases h
  | succ k ih =>
    intro n p h
    unfold getParser at h ⊢
    cases hb : G.rules.lookup n with
    | none => rw [hb] at h; cases h
    | some b =>
      rw [hb] at h
      cases b with
      | native q => exact h
      | parsed e =>
        simp only [Out.bind_eq_ok] at h ⊢
        obtain ⟨q, hq, h⟩ := h
        exact ⟨q, instantiate_mono (fun n _ p => ih) hq, h⟩

theorem getParser_mono_le {G : Grammar} {k k' : Nat} (hk : k ≤ k') {n : List Chr} {p : P}
    (h : getParser G k n = .ok p) : getParser G k' n = .ok p := by
  induction hk with
  | refl => exact h
  | step _ ih => exact getParser_mono ih

theorem getParser_of_builds {G : Grammar} {e : GExp} {p : P} (h : Builds G.ruleSet e p) :
    ∃ k, instantiate (getParser G k) e = .ok p := by
  have up : ∀ {k k' e p}, k ≤ k' → instantiate (getParser G k) e = .ok p →
      instantiate (getParser G k') e = .ok p := fun hk h =>
    instantiate_mono (fun n _ p => getParser_mono_le hk) h
  induction h with
  | chr c => exact ⟨0, rfl⟩
  | @native n p hb ha =>
    refine ⟨1, ?_⟩
    have hb : G.rules.lookup n = _ := hb
    have ha : G.actions.lookup n = _ := ha
    simp [instantiate, getParser, hb, withAction, ha]
  | @nativeAction n p f hb ha =>
    refine ⟨1, ?_⟩
    have hb : G.rules.lookup n = _ := hb
    have ha : G.actions.lookup n = _ := ha
    simp [instantiate, getParser, hb, withAction, ha]
  | @rule n e p hb _ ha ih =>
    obtain ⟨k, hk⟩ := ih
    refine ⟨k + 1, ?_⟩
    have hb : G.rules.lookup n = _ := hb
    have ha : G.actions.lookup n = _ := ha
    simp [instantiate, getParser, hb, withAction, ha, hk]
  | @ruleAction n e p f hb _ ha ih =>
    obtain ⟨k, hk⟩ := ih
    refine ⟨k + 1, ?_⟩
    have hb : G.rules.lookup n = _ := hb
    have ha : G.actions.lookup n = _ := ha
    simp [instantiate, getParser, hb, withAction, ha, hk]
  | star hop _ ih =>
    obtain ⟨k, hk⟩ := ih
    exact ⟨k, by simp [instantiate, hk, hop]⟩
  | plus _ ih =>
    obtain ⟨k, hk⟩ := ih
    exact ⟨k, by simp [instantiate, hk]⟩
  | seq _ _ iha ihb =>
    obtain ⟨k, hk⟩ := iha
    obtain ⟨k', hk'⟩ := ihb
    exact ⟨max k k', by
      simp [instantiate, up (Nat.le_max_left k k') hk, up (Nat.le_max_right k k') hk']⟩
  | sel _ _ iha ihb =>
    obtain ⟨k, hk⟩ := iha
    obtain ⟨k', hk'⟩ := ihb
    exact ⟨max k k', by
      simp [instantiate, up (Nat.le_max_left k k') hk, up (Nat.le_max_right k k') hk']⟩

theorem Builds.unique {R : RuleSet} {e : GExp} {p : P} (h : Builds R e p) :
    ∀ {q}, Builds R e q → p = q := by
  induction h with
  | chr c => intro q h; cases h; rfl
  | native hb ha =>
    intro q h
    cases h <;> simp_all
  | nativeAction hb ha =>
    intro q h
    cases h <;> simp_all
  | rule hb _ ha ih =>
    intro q h
    cases h with
    | native hb' _ => rw [hb] at hb'; cases hb'
    | nativeAction hb' _ => rw [hb] at hb'; cases hb'
    | rule hb' h' _ => rw [hb] at hb'; cases hb'; exact ih h'
    | ruleAction _ _ ha' => rw [ha] at ha'; cases ha'
  | ruleAction hb _ ha ih =>
    intro q h
    cases h with
    | native hb' _ => rw [hb] at hb'; cases hb'
    | nativeAction hb' _ => rw [hb] at hb'; cases hb'
    | rule _ _ ha' => rw [ha] at ha'; cases ha'
    | ruleAction hb' h' ha' =>
      rw [hb] at hb'; cases hb'
      rw [ha] at ha'; cases ha'
      rw [ih h']
  | star hop _ ih =>
    intro q h
    cases h with
    | star _ h' => rw [ih h']
    | plus _ => exact absurd rfl hop
  | plus _ ih =>
    intro q h
    cases h with
    | star hop _ => exact absurd rfl hop
    | plus h' => rw [ih h']
  | seq _ _ iha ihb =>
    intro q h
    cases h with
    | seq h1 h2 => rw [iha h1, ihb h2]
  | sel _ _ iha ihb =>
    intro q h
    cases h with
    | sel h1 h2 => rw [iha h1, ihb h2]

theorem instantiate_ill_mono {get get' : List Chr → Out P} {e : GExp}
    (h : ∀ n p, get n = .ok p → get' n = .ok p) (hill : ∀ n f, get n = .ill f → get' n = .ill f) :
    ∀ {f}, instantiate get e = .ill f → instantiate get' e = .ill f := by
  induction e with
  | chr c => intro f hf; cases hf
  | name n => intro f hf; exact hill n f hf
  | rep op e ih =>
    intro f hf
    simp only [instantiate, Out.bind_eq_ill] at hf ⊢
    rcases hf with hf | ⟨_, _, hf⟩
    · exact .inl (ih hf)
    · cases hf
  | seq a b iha ihb =>
    intro f hf
    simp only [instantiate, Out.bind_eq_ill] at hf ⊢
    rcases hf with hf | ⟨q, hq, hf | ⟨_, _, hf⟩⟩
    · exact .inl (iha hf)
    · exact .inr ⟨q, instantiate_mono (fun n _ => h n) hq, .inl (ihb hf)⟩
    · cases hf
  | sel a b iha ihb =>
    intro f hf
    simp only [instantiate, Out.bind_eq_ill] at hf ⊢
    rcases hf with hf | ⟨q, hq, hf | ⟨_, _, hf⟩⟩
    · exact .inl (iha hf)
    · exact .inr ⟨q, instantiate_mono (fun n _ => h n) hq, .inl (ihb hf)⟩
    · cases hf

theorem getParser_ill_mono {G : Grammar} : ∀ {k : Nat} {n : List Chr} {f : Fault},
    getParser G k n = .ill f → getParser G (k + 1) n = .ill f := by
  intro k
  induction k with
  | zero => intro n f h; cases h
  | succ k ih =>
    intro n f h
    unfold getParser at h ⊢
    cases hb : G.rules.lookup n with
    | none => rw [hb] at h; exact h
    | some b =>
      rw [hb] at h
      cases b with
      | native q => cases h
      | parsed e =>
        simp only [Out.bind_eq_ill] at h ⊢
        rcases h with h | ⟨_, _, h⟩
        · exact .inl (instantiate_ill_mono (fun _ _ => getParser_mono) (fun _ _ => ih) h)
        · cases h

theorem getParser_ill_ok {G : Grammar} {k k' : Nat} {n : List Chr} {f : Fault} {p : P}
    (h : getParser G k n = .ill f) (h' : getParser G k' n = .ok p) : False := by
  have hill : ∀ j, getParser G (k + j) n = .ill f := by
    intro j
    induction j with
    | zero => exact h
    | succ j ih => exact getParser_ill_mono ih
  have := getParser_mono_le (Nat.le_add_left k' k) h'
  rw [hill k'] at this
  cases this

/-- The limit gives a parser iff there is one. -/
theorem parserOf_eq_ok {G : Grammar} {n : List Chr} {p : P} :
    G.parserOf n = .ok p ↔ Builds G.ruleSet (.name n) p := by
  constructor
  · intro h
    unfold parserOf at h
    split at h
    · exact builds_of_getParser h
    · cases h
  · intro h
    obtain ⟨k, hk⟩ := getParser_of_builds h
    have hk : getParser G k n = .ok p := hk
    unfold parserOf
    have hex : ∃ n_1, G.getParser n_1 n ≠ .deep := ⟨k, by rw [hk]; simp⟩
    rw [dif_pos hex]
    have hc := hex.choose_spec
    cases hr : G.getParser hex.choose n with
    | deep => exact absurd hr hc
    | ok q =>
      rw [builds_of_getParser hr |>.unique h]
    | ill f =>
      exfalso
      exact getParser_ill_ok hr hk

end Grammar

end Metaparse
