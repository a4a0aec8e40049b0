import Verif.Lemmas.Contexts
import Verif.Lemmas.Check
import Verif.Props.Reference
/-!
# Equivalent parsers can be used in place of each other (C57)
-/

namespace Metaparse

variable {I : Type} {E : Env I}

/-- A parser is its behaviour: an expression with `q` in the place of the user's parser number `h`
(everywhere, also in the definitions of the parser classes) behaves as if parser `h` was a class written
by hand that behaves as `q`. -/
theorem C57_compositional (h : Nat) (q C : P) (s : I) (pos : Pos) :
    run (E.fillRules h q) (fill h q C) s pos =
      run (E.withNative h (run (E.fillRules h q) q)) C s pos := run_fill C s pos

/-- Equivalent parsers can be used in place of each other in every parser expression. -/
theorem C57_congruence (h : Nat) (hE : ∀ i, (E.rules i).Every (P.NotHole h)) (p q : P)
    (heq : Equivalent E p q) (C : P) : Equivalent E (fill h p C) (fill h q C) := by
  have key : ∀ r : P, run E (fill h r C) = run (E.withNative h (run E r)) C := by
    intro r
    have := run_fill (E := E) (h := h) (q := r) C
    rw [fillRules_of_notHole hE] at this
    exact funext fun s => funext fun pos => this s pos
  intro s pos
  rw [key p, key q, show run E p = run E q from funext fun s => funext fun pos => heq s pos]

/-- Also in the definitions of the parser classes of the program, recursive or not, if the parser that is
put in only uses classes in whose definitions nothing is replaced. -/
theorem C57_replace_everywhere (h : Nat) (K : Classes) (p q : P)
    (hK : ∀ i, K.parsers i → (E.rules i).Every (P.NotHole h) ∧ (E.rules i).Every (P.Uses K))
    (hq : q.Every (P.Uses K)) (heq : Equivalent (E.fillRules h p) p q) (C : P) (s : I) (pos : Pos) :
    run (E.fillRules h q) (fill h q C) s pos = run (E.fillRules h p) (fill h p C) s pos := by
  have hsh : K.Shared (E.fillRules h p) (E.fillRules h q) := by
    refine ⟨rfl, rfl, rfl, rfl, rfl, fun i hi => ?_, fun _ _ => rfl, fun _ _ => rfl⟩
    have h1 : ∀ r : P, (E.fillRules h r).rules i = E.rules i := fun r => fill_of_notHole _ (hK i hi).1
    rw [h1, h1]
    exact ⟨rfl, (hK i hi).2⟩
  have : run (E.fillRules h q) q = run (E.fillRules h p) p := by
    funext s pos
    rw [heq s pos, run_modular hsh q hq s pos]
  rw [run_fill, run_fill, this]

/-- Whatever classes the parser that is put in uses, there is the same outcome or none (the parser can
become infinitely recursive, see `C57_unrestricted_refuted`). -/
theorem C57_replacement_sound (h : Nat) (p q : P) (hq : q.Every (P.NotHole h))
    (heq : Equivalent (E.fillRules h p) p q) (C : P) (s : I) (pos : Pos) :
    Diverges (E.fillRules h q) (fill h q C) s pos ∨
      run (E.fillRules h q) (fill h q C) s pos = run (E.fillRules h p) (fill h p C) s pos :=
  run_fill_le hq heq C s pos

/-- Parser 0 is the hole. -/
def holeEnv : Env (List Chr) := { env11 with rules := fun _ => .native 7 }

/-- A class can not be used in place of its own definition, although it is equivalent to it. -/
theorem C57_unrestricted_refuted : ∃ (E : Env (List Chr)) (h : Nat) (p q : P),
    Equivalent (E.fillRules h p) p q ∧
    (∀ s pos, Diverges (E.fillRules h q) (fill h q (.ref 0)) s pos) ∧
    (∀ s pos, ∃ r, run (E.fillRules h p) (fill h p (.ref 0)) s pos = .ok r) := by
  have hr : ∀ s pos, run (holeEnv.fillRules 7 .oneChar) (.ref 0) s pos =
      run (holeEnv.fillRules 7 .oneChar) .oneChar s pos := by
    intro s pos
    rw [run_step]
    show run _ ((holeEnv.fillRules 7 .oneChar).rules 0) s pos = _
    rfl
  refine ⟨holeEnv, 7, .oneChar, .ref 0, fun s pos => (hr s pos).symm, fun s pos => ?_, fun s pos => ?_⟩
  · have : ∀ n, eval (holeEnv.fillRules 7 (.ref 0)) n (.ref 0) s pos = .deep := by
      intro n
      induction n with
      | zero => rfl
      | succ n ih => exact ih
    obtain ⟨n, hn⟩ := exists_eval (holeEnv.fillRules 7 (.ref 0)) (.ref 0) s pos
    exact hn.symm.trans (this n)
  · show ∃ r, run (holeEnv.fillRules 7 .oneChar) (.ref 0) s pos = .ok r
    rw [hr]
    have ht : (holeEnv.fillRules 7 .oneChar).OnText := rfl
    cases s with
    | nil => exact ⟨_, run_oneChar_nil ht pos⟩
    | cons c s => exact ⟨_, run_oneChar_cons ht c s pos⟩

/-- For example `always` can be replaced by its documented meaning deep inside a parser. -/
example (t : Val) : Equivalent env11
    (P.repeated (.oneOf [.sequence [P.digit, .always P.letter t], P.space]))
    (P.repeated (.oneOf [.sequence [P.digit, .lastOf [P.letter, .ret t]], P.space])) :=
  C57_congruence (E := env11) 0 (fun _ => .mk trivial (by simp [P.parts, env11])) _ _
    (C56_always (by intro h; cases h) P.letter t)
    (P.repeated (.oneOf [.sequence [P.digit, .native 0], P.space]))

/-- Parser 0 is the hole in brackets, or a character: the recursive parser with `always` in its
definition replaced. -/
example (t : Val) (s : List Chr) (pos : Pos) :
    run (Env.fillRules { env11 with rules := fun _ => .oneOf [.sequence [.ref 0, .native 3], .native 3] } 3
        (Reference.always P.letter t)) (.ref 0) s pos =
    run (Env.fillRules { env11 with rules := fun _ => .oneOf [.sequence [.ref 0, .native 3], .native 3] } 3
        (.always P.letter t)) (.ref 0) s pos :=
  C57_replace_everywhere 3 ⟨fun _ => False, fun _ => False, fun _ => False⟩ (.always P.letter t)
    (Reference.always P.letter t) (fun _ h => h.elim)
    (by simp [Reference.always, P.letter, P.every_iff, P.EveryL, P.Uses, P.parts])
    (C56_always (by intro h; cases h) P.letter t) (.ref 0) s pos

/-- A class that uses the replaced parser and itself. -/
example (t : Val) (s : List Chr) (pos : Pos) :
    let E : Env (List Chr) := { env11 with rules := fun _ => .oneOf [.sequence [.native 3, .ref 0], .native 3] }
    Diverges (E.fillRules 3 (Reference.always P.letter t)) (.ref 0) s pos ∨
      run (E.fillRules 3 (Reference.always P.letter t)) (.ref 0) s pos =
        run (E.fillRules 3 (.always P.letter t)) (.ref 0) s pos :=
  C57_replacement_sound 3 (.always P.letter t) (Reference.always P.letter t)
    (by simp [Reference.always, P.every_iff, P.EveryL, P.parts, P.NotHole, P.letter])
    (C56_always (by intro h; cases h) P.letter t) (.ref 0) s pos

end Metaparse
