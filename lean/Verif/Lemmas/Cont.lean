import Verif.Model.Parser
/-!
# `run` satisfies the equation `run = step run`

`step` is monotone and continuous for the flat order on `Out` in which `deep` is below everything.
-/

namespace Metaparse

/-- `a ⊑ b`: `a` is `deep` or equal to `b`. -/
def Out.le {α : Type} (a b : Out α) : Prop := a = .deep ∨ a = b

theorem Out.le_refl {α : Type} (a : Out α) : Out.le a a := Or.inr rfl

theorem Out.le_trans {α : Type} {a b c : Out α} (h : Out.le a b) (h' : Out.le b c) : Out.le a c := by
  rcases h with h | h
  · exact Or.inl h
  · subst h; exact h'

variable {I : Type}

/-- A chain of parser meanings, each below the next. -/
def Chain (F : Nat → P → Sem I) : Prop :=
  ∀ n p s pos, Out.le (F n p s pos) (F (n + 1) p s pos)

theorem Chain.le {F : Nat → P → Sem I} (h : Chain F) {m n : Nat} (hmn : m ≤ n) (p : P) (s : I)
    (pos : Pos) : Out.le (F m p s pos) (F n p s pos) := by
  induction hmn with
  | refl => exact Out.le_refl _
  | step _ ih => exact Out.le_trans ih (h _ _ _ _)

/-- `G` is the limit of the chain `F`. -/
def IsLim (F : Nat → P → Sem I) (G : P → Sem I) : Prop :=
  ∀ p s pos, (∀ n, Out.le (F n p s pos) (G p s pos)) ∧
    (∃ n, F n p s pos = G p s pos)

/-- `T` commutes with limits of chains (stated for flat domains). -/
def Cont {β : Type} (T : (P → Sem I) → Out β) : Prop :=
  ∀ F G, Chain F → IsLim F G →
    (∀ n, Out.le (T (F n)) (T (F (n + 1)))) ∧ (∀ n, Out.le (T (F n)) (T G)) ∧
    (∃ n, T (F n) = T G)

theorem Cont.const {β : Type} (x : Out β) : Cont (I := I) fun _ => x :=
  fun _ _ _ _ => ⟨fun _ => Out.le_refl _, fun _ => Out.le_refl _, 0, rfl⟩

theorem Cont.query (p : P) (s : I) (pos : Pos) : Cont fun f => f p s pos := by
  intro F G hF hG
  exact ⟨fun n => hF n p s pos, (hG p s pos).1, (hG p s pos).2⟩

theorem Out.le_bind {α β : Type} {a b : Out α} {f g : α → Out β} (h : Out.le a b)
    (h' : ∀ x, Out.le (f x) (g x)) : Out.le (a.bind f) (b.bind g) := by
  rcases h with h | h
  · subst h; exact Or.inl rfl
  · subst h
    cases a with
    | ok x => exact h' x
    | ill f => exact Out.le_refl _
    | deep => exact Out.le_refl _

/-- A monotone sequence in a flat domain that reaches its bound stays there. -/
theorem le_of_chain {β : Type} {t : Nat → Out β} (h : ∀ n, Out.le (t n) (t (n + 1))) {m n : Nat}
    (hmn : m ≤ n) : Out.le (t m) (t n) := by
  induction hmn with
  | refl => exact Out.le_refl _
  | step _ ih => exact Out.le_trans ih (h _)

theorem Cont.bind {α β : Type} {T : (P → Sem I) → Out α} {U : α → (P → Sem I) → Out β}
    (hT : Cont T) (hU : ∀ a, Cont (U a)) : Cont fun f => (T f).bind fun a => U a f := by
  intro F G hF hG
  obtain ⟨t1, t2, n, hn⟩ := hT F G hF hG
  refine ⟨fun n => Out.le_bind (t1 n) fun a => (hU a F G hF hG).1 n,
    fun n => Out.le_bind (t2 n) fun a => (hU a F G hF hG).2.1 n, ?_⟩
  cases hg : T G with
  | ok a =>
    obtain ⟨u1, u2, m, hm⟩ := hU a F G hF hG
    refine ⟨max n m, ?_⟩
    have h1 : T (F (max n m)) = .ok a := by
      rcases le_of_chain t1 (Nat.le_max_left n m) with h | h
      · rw [hn, hg] at h; cases h
      · rw [← h, hn, hg]
    have h2 : U a (F (max n m)) = U a G := by
      rcases le_of_chain u1 (Nat.le_max_right n m) with h | h
      · rcases u2 (max n m) with h' | h'
        · rw [← hm, h]; exact h'
        · exact h'
      · rw [← h, hm]
    show (T _).bind _ = (T G).bind _
    rw [h1, hg]; exact h2
  | ill f => exact ⟨n, by simp only [hn, hg, Out.bind_ill]⟩
  | deep => exact ⟨n, by simp only [hn, hg, Out.bind_deep]⟩

/-- The list combinators are continuous when their components are. -/
theorem cont_sequence11 (ps : List P) : ∀ (s : I) (pos : Pos),
    Cont fun f => Comb.sequence11 (ps.map f) s pos := by
  induction ps with
  | nil => intro s pos; exact Cont.const _
  | cons p ps ih =>
    intro s pos
    refine Cont.bind (Cont.query p s pos) fun r => ?_
    cases r with
    | rej m q => exact Cont.const _
    | acc v s' q =>
      refine Cont.bind (ih s' q) fun r => ?_
      cases r <;> exact Cont.const _

theorem cont_sequence98Loop (ps : List P) : ∀ (st : Res I),
    Cont fun f => Comb.sequence98Loop (ps.map f) st := by
  induction ps with
  | nil => intro st; exact Cont.const _
  | cons p ps ih =>
    intro st
    cases st with
    | rej m q => exact ih _
    | acc v s' q =>
      refine Cont.bind (Cont.const _) fun l => ?_
      refine Cont.bind ?_ fun r => ih r
      refine Cont.bind (Cont.query p s' q) fun r => ?_
      cases r <;> exact Cont.const _

theorem cont_oneOf11 (ps : List P) (s : I) (pos : Pos) :
    Cont fun f => Comb.oneOf11 (ps.map f) s pos := by
  induction ps with
  | nil => exact Cont.const _
  | cons p ps ih =>
    refine Cont.bind (Cont.query p s pos) fun r => ?_
    refine Cont.bind ih fun r' => ?_
    exact Cont.const _

theorem cont_oneOf98Loop (ps : List P) (s : I) (pos : Pos) : ∀ st : Res I,
    Cont fun f => Comb.oneOf98Loop s pos (ps.map f) st := by
  induction ps with
  | nil => intro st; exact Cont.const _
  | cons p ps ih =>
    intro st
    refine Cont.bind (Cont.query p s pos) fun r => ?_
    exact ih _

theorem cont_skipRemaining (v : Val) (ps : List P) : ∀ (s : I) (pos : Pos),
    Cont fun f => Comb.skipRemaining v (ps.map f) s pos := by
  induction ps with
  | nil => intro s pos; exact Cont.const _
  | cons p ps ih =>
    intro s pos
    refine Cont.bind (Cont.query p s pos) fun r => ?_
    cases r with
    | rej m q => exact Cont.const _
    | acc v s' q => exact ih _ _

theorem cont_nthGo11 (ps : List P) : ∀ (n : Int) (s : I) (pos : Pos),
    Cont fun f => Comb.nthGo11 n (ps.map f) s pos := by
  induction ps with
  | nil => intro n s pos; exact Cont.const _
  | cons p ps ih =>
    intro n s pos
    refine Cont.bind (Cont.query p s pos) fun r => ?_
    cases r with
    | rej m q => exact Cont.const _
    | acc v s' q =>
      by_cases h : n = 0
      · simp only [h, if_true]; exact cont_skipRemaining v ps s' q
      · simp only [h, if_false]; exact ih _ _ _

theorem cont_skipSeq98 (ps : List P) : ∀ (st : Res I),
    Cont fun f => Comb.skipSeq98 (ps.map f) st := by
  induction ps with
  | nil => intro st; exact Cont.const _
  | cons p ps ih =>
    intro st
    cases st with
    | rej m q => exact ih _
    | acc v s' q =>
      refine Cont.bind (Cont.query p s' q) fun r => ?_
      cases r <;> exact ih _

theorem cont_nthGo98 (ps : List P) : ∀ (n : Int) (s : I) (pos : Pos),
    Cont fun f => Comb.nthGo98 n (ps.map f) s pos := by
  induction ps with
  | nil => intro n s pos; exact Cont.const _
  | cons p ps ih =>
    intro n s pos
    by_cases h : n = 0
    · simp only [List.map, Comb.nthGo98, h, if_true]
      exact Cont.bind (Cont.query p s pos) fun r => cont_skipSeq98 ps r
    · simp only [List.map, Comb.nthGo98, h, if_false]
      refine Cont.bind (Cont.query p s pos) fun r => ?_
      cases r with
      | rej m q => exact Cont.const _
      | acc v s' q => exact ih _ _ _

theorem cont_nthOf11 (ps : List P) (n : Int) (s : I) (pos : Pos) :
    Cont fun f => Comb.nthOf11 n (ps.map f) s pos := by
  cases ps with
  | nil => exact Cont.const _
  | cons p ps =>
    simp only [List.map, Comb.nthOf11, List.length_cons, List.length_map]
    by_cases h : 0 ≤ n ∧ n < ((ps.length + 1 : Nat) : Int)
    · simp only [if_pos h]; exact cont_nthGo11 (p :: ps) n s pos
    · simp only [if_neg h]; exact Cont.const _

theorem cont_nthOf98 (limit : Nat) (ps : List P) (n : Int) (s : I) (pos : Pos) :
    Cont fun f => Comb.nthOf98 limit n (ps.map f) s pos := by
  simp only [Comb.nthOf98, List.length_map]
  by_cases h' : ps.length < limit
  · simp only [if_pos h']
    by_cases h : 0 ≤ n ∧ n < (ps.length : Int)
    · simp only [if_pos h]; exact cont_nthGo98 ps n s pos
    · simp only [if_neg h]; exact Cont.const _
  · simp only [if_neg h']; exact Cont.const _

theorem cont_lastOf11 (ps : List P) (s : I) (pos : Pos) :
    Cont fun f => Comb.lastOf11 (ps.map f) s pos := by
  cases ps with
  | nil => exact Cont.const _
  | cons p ps =>
    simp only [List.map, Comb.lastOf11, List.length_cons, List.length_map]
    exact cont_nthGo11 (p :: ps) _ s pos

theorem cont_middleOf (E : Env I) (p1 p2 p3 : P) (s : I) (pos : Pos) :
    Cont fun f => Comb.middleOf E (f p1) (f p2) (f p3) s pos := by
  have h11 : Cont fun f => Comb.nthOf11 1 [f p1, f p2,
      Comb.transformErrorMessage (f p3) fun m => .ok (.unpaired pos.line pos.col m)] s pos := by
    simp only [Comb.nthOf11, List.length_cons, List.length_nil]
    have hc : (0 : Int) ≤ 1 ∧ (1 : Int) < ((0 + 1 + 1 + 1 : Nat) : Int) := by decide
    simp only [if_pos hc]
    refine Cont.bind (Cont.query p1 s pos) fun r => ?_
    cases r with
    | rej m q => exact Cont.const _
    | acc v s' q =>
      show Cont fun f => (f p2 s' q).bind _
      refine Cont.bind (Cont.query p2 s' q) fun r => ?_
      cases r with
      | rej m q => exact Cont.const _
      | acc v s' q =>
        show Cont fun f => ((f p3 s' q).bind _).bind _
        refine Cont.bind (Cont.bind (Cont.query p3 s' q) fun r => ?_) fun r => ?_
        · cases r <;> exact Cont.const _
        · cases r <;> exact Cont.const _
  have h98 : Cont fun f => Comb.nthOf98 E.limSequence 1 [f p1, f p2,
      Comb.transformErrorMessage (f p3) fun m => .ok (.unpaired pos.line pos.col m)] s pos := by
    simp only [Comb.nthOf98, List.length_cons, List.length_nil]
    by_cases hl : 0 + 1 + 1 + 1 < E.limSequence
    · simp only [if_pos hl]
      have hc : (0 : Int) ≤ 1 ∧ (1 : Int) < ((0 + 1 + 1 + 1 : Nat) : Int) := by decide
      simp only [if_pos hc]
      refine Cont.bind (Cont.query p1 s pos) fun r => ?_
      cases r with
      | rej m q => exact Cont.const _
      | acc v s' q =>
        show Cont fun f => (f p2 s' q).bind _
        refine Cont.bind (Cont.query p2 s' q) fun r => ?_
        cases r with
        | rej m q => exact Cont.const _
        | acc v s' q =>
          show Cont fun f => ((f p3 s' q).bind _).bind _
          refine Cont.bind (Cont.bind (Cont.query p3 s' q) fun r => ?_) fun r => ?_
          · cases r <;> exact Cont.const _
          · cases r <;> exact Cont.const _
    · simp only [if_neg hl]; exact Cont.const _
  unfold Comb.middleOf Comb.nthOf
  cases E.std
  · exact h98
  · exact h11
  · exact h11

/-- One layer of instantiation is continuous in the parsers it mentions. -/
theorem cont_step (E : Env I) (p : P) (s : I) (pos : Pos) : Cont fun f => step E f p s pos := by
  cases p with
  | oneChar => exact Cont.const _
  | empty v => exact Cont.const _
  | fail m => exact Cont.const _
  | ret v => exact Cont.const _
  | native i => exact Cont.const _
  | ref i => exact Cont.query _ _ _
  | acceptWhen p pred m =>
    refine Cont.bind (Cont.query p s pos) fun r => ?_
    cases r <;> exact Cont.const _
  | changeErrorMessage p m =>
    refine Cont.bind (Cont.query p s pos) fun r => ?_
    cases r <;> exact Cont.const _
  | transformErrorMessage p f =>
    refine Cont.bind (Cont.query p s pos) fun r => ?_
    cases r <;> exact Cont.const _
  | transformError p k =>
    refine Cont.bind (Cont.query p s pos) fun r => ?_
    cases r <;> exact Cont.const _
  | transform p f =>
    refine Cont.bind (Cont.query p s pos) fun r => ?_
    cases r <;> exact Cont.const _
  | always p v =>
    refine Cont.bind (Cont.query p s pos) fun r => ?_
    cases r <;> exact Cont.const _
  | lookAhead p =>
    refine Cont.bind (Cont.query p s pos) fun r => ?_
    cases r <;> exact Cont.const _
  | except p v m =>
    refine Cont.bind (Cont.query p s pos) fun r => ?_
    cases r <;> exact Cont.const _
  | optional p d =>
    refine Cont.bind (Cont.query p s pos) fun r => ?_
    cases r <;> exact Cont.const _
  | if_ p t f =>
    refine Cont.bind (Cont.query p s pos) fun r => ?_
    cases r <;> exact Cont.const _
  | failAtFirstCharExpected p =>
    refine Cont.bind (Cont.query p s pos) fun r => ?_
    cases r <;> exact Cont.const _
  | foldl p st op =>
    refine Cont.bind (Cont.query p s pos) fun r => ?_
    cases r with
    | rej m q => exact Cont.const _
    | acc v s' q => exact Cont.bind (Cont.const _) fun x => Cont.query _ _ _
  | foldlRejectIncomplete p st op =>
    refine Cont.bind (Cont.query p s pos) fun r => ?_
    cases r with
    | rej m q => exact Cont.const _
    | acc v s' q => exact Cont.bind (Cont.const _) fun x => Cont.query _ _ _
  | foldlStartWithParser p sp op =>
    refine Cont.bind (Cont.query sp s pos) fun r => ?_
    cases r with
    | rej m q => exact Cont.const _
    | acc v s' q => exact Cont.query _ _ _
  | foldlRejectIncompleteStartWithParser p sp op =>
    refine Cont.bind (Cont.query sp s pos) fun r => ?_
    cases r with
    | rej m q => exact Cont.const _
    | acc v s' q => exact Cont.query _ _ _
  | foldrStartWithParser p sp op =>
    refine Cont.bind (Cont.query p s pos) fun r => ?_
    cases r with
    | rej m q => exact Cont.query _ _ _
    | acc v s' q =>
      refine Cont.bind (Cont.query _ _ _) fun r => ?_
      cases r <;> exact Cont.const _
  | ifAccepts p q =>
    refine Cont.bind (Cont.query p s pos) fun r => ?_
    cases r with
    | rej m q => exact Cont.const _
    | acc v s' q => exact Cont.query _ _ _
  | sequence ps =>
    have h1 := cont_sequence11 ps s pos
    have h2 : Cont fun f => Comb.sequence98 E.limSequence (ps.map f) s pos := by
      simp only [Comb.sequence98, List.length_map]
      by_cases h : 1 < E.limSequence ∧ ps.length < E.limSequence
      · simp only [if_pos h]; exact cont_sequence98Loop ps _
      · simp only [if_neg h]; exact Cont.const _
    simp only [step]
    cases E.std <;> assumption
  | oneOf ps =>
    have h1 := cont_oneOf11 ps s pos
    have h2 : Cont fun f => Comb.oneOf98 E.limOneOf (ps.map f) s pos := by
      simp only [Comb.oneOf98, List.length_map]
      by_cases h : ps.length ≤ E.limOneOf
      · simp only [if_pos h]; exact cont_oneOf98Loop ps s pos _
      · simp only [if_neg h]; exact Cont.const _
    simp only [step]
    cases E.std <;> assumption
  | nthOfC n ps =>
    have h1 := cont_nthOf11 ps n s pos
    have h2 := cont_nthOf98 E.limSequence ps n s pos
    simp only [step, Comb.nthOf]
    cases E.std <;> assumption
  | lastOf ps =>
    have h1 := cont_lastOf11 ps s pos
    have h2 : Cont fun f => Comb.lastOf98 E.limSequence (ps.map f) s pos := by
      simp only [Comb.lastOf98, List.length_map]
      exact cont_nthOf98 E.limSequence ps _ s pos
    simp only [step]
    cases E.std <;> assumption
  | middleOf p1 p2 p3 => exact cont_middleOf E p1 p2 p3 s pos
  | iterate n p accum =>
    simp only [step, Comb.iterate]
    by_cases h : n = 0
    · simp only [if_pos h]; exact Cont.const _
    · simp only [if_neg h]
      refine Cont.bind (Cont.query p s pos) fun r => ?_
      cases r with
      | rej m q => exact Cont.const _
      | acc v s' q => exact Cont.query _ _ _
  | keyword kw v =>
    cases kw with
    | nil => exact Cont.const _
    | cons c cs =>
      refine Cont.bind (Cont.query _ s pos) fun r => ?_
      cases r with
      | rej m q => exact Cont.const _
      | acc v s' q => exact Cont.query _ _ _
  | oneOfC cs =>
    simp only [step]
    cases E.std with
    | cpp98 =>
      by_cases h : cs.length < E.limOneOf
      · simp only [if_pos h]; exact Cont.query _ _ _
      · simp only [if_neg h]; exact Cont.const _
    | cpp11 => exact Cont.query _ _ _
    | cpp14 => exact Cont.query _ _ _
  | oneCharExceptC cs =>
    simp only [step]
    cases E.std with
    | cpp98 =>
      by_cases h : cs.length < E.limOneCharExcept
      · simp only [if_pos h]; exact Cont.query _ _ _
      · simp only [if_neg h]; exact Cont.const _
    | cpp11 => exact Cont.query _ _ _
    | cpp14 => exact Cont.query _ _ _

/-- Monotonicity of one layer, for arbitrary meanings of the mentioned parsers. -/
theorem step_mono (E : Env I) (f g : P → Sem I) (h : ∀ p s pos, Out.le (f p s pos) (g p s pos))
    (p : P) (s : I) (pos : Pos) : Out.le (step E f p s pos) (step E g p s pos) := by
  have := (cont_step E p s pos) (fun n => if n = 0 then f else g) g
    (by
      intro n p s pos
      by_cases hn : n = 0
      · simp [hn]; exact h p s pos
      · simp [hn]; exact Out.le_refl _)
    (by
      intro p s pos
      refine ⟨fun n => ?_, 1, by simp⟩
      by_cases hn : n = 0
      · simp [hn]; exact h p s pos
      · simp [hn]; exact Out.le_refl _)
  have h0 := this.2.1 0
  simpa using h0

theorem eval_chain (E : Env I) : Chain (eval E) := by
  intro n
  induction n with
  | zero => intro p s pos; exact Or.inl rfl
  | succ n ih => intro p s pos; exact step_mono E _ _ ih p s pos

theorem run_isLim (E : Env I) : IsLim (eval E) (run E) := by
  intro p s pos
  unfold run
  split
  · rename_i h
    have hs := Classical.choose_spec h
    refine ⟨fun n => ?_, _, rfl⟩
    rcases Nat.le_total n (Classical.choose h) with hle | hle
    · exact (eval_chain E).le hle p s pos
    · rcases (eval_chain E).le hle p s pos with h' | h'
      · exact absurd h' hs
      · exact Or.inr h'.symm
  · rename_i h
    have h' : ∀ n, eval E n p s pos = .deep := fun n => Classical.byContradiction fun hn => h ⟨n, hn⟩
    exact ⟨fun n => Or.inl (h' n), 0, h' 0⟩

/-- If some depth suffices, its outcome is the outcome. -/
theorem run_eq_of_eval {E : Env I} {n : Nat} {p : P} {s : I} {pos : Pos} {x : Out (Res I)}
    (h : eval E n p s pos = x) (hx : x ≠ .deep) : run E p s pos = x := by
  rcases (run_isLim E p s pos).1 n with h' | h'
  · exact absurd (h.symm.trans h') hx
  · rw [← h', h]

theorem run_ok_of_eval {E : Env I} {p : P} {s : I} {pos : Pos} {r : Res I} (n : Nat)
    (h : eval E n p s pos = .ok r) : run E p s pos = .ok r :=
  run_eq_of_eval h (by simp)

theorem exists_eval (E : Env I) (p : P) (s : I) (pos : Pos) :
    ∃ n, eval E n p s pos = run E p s pos := (run_isLim E p s pos).2

/-- The defining equation of the outcome: one layer of instantiation, then the outcomes of the
parsers mentioned in it. -/
theorem run_step (E : Env I) (p : P) (s : I) (pos : Pos) :
    run E p s pos = step E (run E) p s pos := by
  obtain ⟨_, h2, n, hn⟩ := cont_step E p s pos (eval E) (run E) (eval_chain E) (run_isLim E)
  have hn' : eval E (n + 1) p s pos = step E (run E) p s pos := hn
  by_cases hd : step E (run E) p s pos = .deep
  · rw [hd]
    obtain ⟨m, hm⟩ := exists_eval E p s pos
    rw [← hm]
    rcases eval_chain E m p s pos with h | h
    · exact h
    · rw [h]
      rcases h2 m with h' | h'
      · exact h'
      · exact (h'.trans hd)
  · exact run_eq_of_eval hn' hd

end Metaparse
