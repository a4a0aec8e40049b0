import Verif.Lemmas.MayBeEmpty
import Verif.Lemmas.Check
/-!
# C10: well-formed systems of parsers finish
-/

namespace Metaparse

/-! ## Well-formed systems finish -/

/-- In a well-formed system of (mutually recursive) parsers, applying a parser whose repetitions
consume finishes on every input, from every position: it accepts, rejects or gives a compile error. -/
theorem C10_well_formed_finishes {E : Env (List Chr)} (hE : E.WellFormed) {p : P} (hp : p.Sound E)
    (s : List Chr) (pos : Pos) : ¬ Diverges E p s pos :=
  fin_all hE (s.length + 1) s (Nat.lt_succ_self _) p hp pos

/-- The same for the parsers of the system itself. -/
theorem C10_rules_finish {E : Env (List Chr)} (hE : E.WellFormed) (i : Nat) (s : List Chr)
    (pos : Pos) : ¬ Diverges E (.ref i) s pos :=
  C10_well_formed_finishes hE
    (P.Every.mk (p := .ref i) ⟨trivial, trivial⟩ (fun q hq => by cases hq)) s pos

/-- Well-formedness can be checked from the structure of the parsers: it suffices to give, for each
parser of the user, whether it may accept without consuming (`N`, `NN`) and a rank (`rank`) that
decreases from a parser to the parsers it may call before consuming. -/
theorem C10_checkable {E : Env (List Chr)} (hE : E.Honest) (hU : E.UserFinishes)
    (N NN : Nat → Bool) (rank : Nat → Nat)
    (hN : ∀ i, (E.rules i).mayBeEmpty N NN = true → N i = true)
    (hNN : ∀ i, NN i = false → ∀ s pos v s' pos',
      E.native i s pos = .ok (.acc v s' pos') → s'.length < s.length)
    (hrep : ∀ i, (E.rules i).repeatsOk N NN = true)
    (hfun : ∀ i, (E.rules i).Every P.FunctionsFinish)
    (hrank : ∀ i, ∀ j ∈ (E.rules i).leftRefs N NN, rank j < rank i) : E.WellFormed where
  honest := hE
  finishes := hU
  sound := fun i => repeatsOk_sound hE hN hNN _ (hrep i) (hfun i)
  noLeftRecursion := by
    refine Subrelation.wf ?_ (InvImage.wf rank Nat.lt_wfRel.wf)
    intro j i h
    exact hrank i j (leftCalls_leftRefs hE hN hNN h)

/-- Nested brackets around a digit, and lists of such: two mutually recursive parsers,
`item = digit | '(' list ')'` and `list = item*`. -/
def nestedEnv : Env (List Chr) :=
  { env11 with
    rules := fun
      | 0 => .oneOf [.digit, .middleOf (.litC (ch '(')) (.ref 1) (.litC (ch ')'))]
      | 1 => .repeated (.ref 0)
      | _ => .fail (.user 0) }

theorem nestedEnv_wellFormed : nestedEnv.WellFormed := by
  refine C10_checkable (N := fun i => i == 1) (NN := fun _ => false) (rank := fun i => i)
    ⟨rfl, env11_honest.native, env11_honest.onError⟩ ⟨by simp [nestedEnv, env11], by simp [nestedEnv, env11]⟩
    ?_ ?_ ?_ ?_ ?_
  · rintro (_ | _ | i) h
    · exact h
    · rfl
    · cases h
  · intro i _ s pos v s' pos' h; cases h
  · rintro (_ | _ | i) <;> rfl
  · rintro (_ | _ | i)
    · simp [nestedEnv, P.every_iff, P.EveryL, P.parts, P.FunctionsFinish, P.digit, P.litC, isDigit,
        inRangeC, isCharC, Out.bind_eq_deep, Val.value_ne_deep]
    · simp [nestedEnv, P.every_iff, P.EveryL, P.parts, P.FunctionsFinish, P.repeated]
    · simp [nestedEnv, P.every_iff, P.EveryL, P.parts, P.FunctionsFinish]
  · rintro (_ | _ | i) j hj
    · simp [nestedEnv, P.leftRefs, P.leftRefs.alts, P.litC, P.digit, P.mayBeEmpty] at hj
    · simp [nestedEnv, P.leftRefs, P.repeated] at hj; subst hj; decide
    · simp [nestedEnv, P.leftRefs] at hj

example (s : List Chr) (pos : Pos) : ¬ Diverges nestedEnv (.ref 1) s pos :=
  C10_rules_finish nestedEnv_wellFormed 1 s pos

example : Accepts nestedEnv (.ref 1) (txt "1(23())") start
    (.seq [.chr (ch '1'), .seq [.chr (ch '2'), .chr (ch '3'), .seq []]]) [] ⟨1, 8, ch ')'⟩ :=
  accepts_of_eval 30 (by decide +kernel)

/-! ## Ill-formed ones do not

The conditions are needed: repeating a parser that accepts without consuming, and left recursion,
never finish. -/

/-- Folding over a parser where it accepts without consuming never finishes, as long as the
operation itself gives no error (`Good` describes the states that occur). -/
theorem C10_folding_empty_diverges {E : Env (List Chr)} {p : P} {s : List Chr} {pos : Pos}
    {v : Val} (h : Accepts E p s pos v s pos) {op : Val → Val → Val} (Good : Val → Prop)
    (hop : ∀ x, Good x → ∃ y, (op x v).force = .ok y ∧ Good y) {st : Val}
    (hst : ∃ y, st.force = .ok y ∧ Good y) : Diverges E (.foldl p st op) s pos := by
  have key : ∀ n (st : Val), (∃ y, st.force = .ok y ∧ Good y) →
      eval E n (.foldl p st op) s pos = .deep := by
    intro n
    induction n with
    | zero => intro st _; rfl
    | succ n ih =>
      rintro st ⟨y, hy, hg⟩
      simp only [eval, step, Comb.foldl]
      rcases (run_isLim E p s pos).1 n with e | e
      · rw [e]; rfl
      · rw [e, show run E p s pos = _ from h]
        simp only [Out.bind, hy]
        exact ih _ (hop y hg)
  obtain ⟨n, e⟩ := exists_eval E (.foldl p st op) s pos
  rw [key n st hst] at e
  exact e.symm

/-- The left fold of a parser that reads nothing, from any number, with an operation that always gives a number. -/
example : Diverges env98 (.foldl (.ret (.int 1)) (.int 0) fun a _ => a) (txt "a") start :=
  C10_folding_empty_diverges (v := .int 1) (accepts_of_eval 10 (by decide +kernel)) (fun v => v = .int 0)
    (fun x hx => ⟨_, by rw [hx]; rfl, rfl⟩) ⟨_, rfl, rfl⟩

/-- `repeated` of a parser never finishes where the parser accepts without consuming. -/
theorem C10_repeating_empty_diverges {E : Env (List Chr)} {p : P} {s : List Chr} {pos : Pos}
    {v : Val} (h : Accepts E p s pos v s pos) : Diverges E (.repeated p) s pos := by
  refine C10_folding_empty_diverges h (fun x => ∃ l, x = .seq l) ?_ ⟨_, rfl, [], rfl⟩
  rintro _ ⟨l, rfl⟩
  exact ⟨_, rfl, _, rfl⟩

/-- A parser that begins by calling itself never finishes, on any input. -/
theorem C10_left_recursion_diverges {E : Env (List Chr)} {i : Nat} (h : FirstCalls E (E.rules i) i)
    (s : List Chr) (pos : Pos) : Diverges E (.ref i) s pos := by
  have key : ∀ n, ∀ m ≤ n, eval E m (.ref i) s pos = .deep := by
    intro n
    induction n with
    | zero => intro m hm; cases Nat.le_zero.1 hm; rfl
    | succ n ih =>
      intro m hm
      cases m with
      | zero => rfl
      | succ m => exact firstCalls_deep n h ih m (by omega)
  obtain ⟨n, e⟩ := exists_eval E (.ref i) s pos
  rw [key n n (Nat.le_refl _)] at e
  exact e.symm

/-- A left recursive rule, `e = e '+' digit | digit`. -/
def leftEnv : Env (List Chr) :=
  { env11 with
    rules := fun _ => .oneOf [.sequence [.ref 0, .litC (ch '+'), .digit], .digit] }

example (s : List Chr) (pos : Pos) : Diverges leftEnv (.ref 0) s pos :=
  C10_left_recursion_diverges
    (.oneOf _ (by intro h; cases h) (.sequence _ (by intro h; cases h) (.ref 0))) s pos

example : Diverges env11 (.repeated (.optional .digit .void_)) (txt "a") start :=
  C10_repeating_empty_diverges (accepts_of_eval (v := .void_) 10 (by decide +kernel))

/-- Two of the nested ones, one after the other. -/
example (s : List Chr) (pos : Pos) : ¬ Diverges nestedEnv (.sequence [.ref 1, .ref 1]) s pos :=
  C10_well_formed_finishes nestedEnv_wellFormed (by first | decide | simp [P.Sound, P.every_iff, P.EveryL, P.parts, P.RepeatsConsume, P.FunctionsFinish]) s pos

end Metaparse
