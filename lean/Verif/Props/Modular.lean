import Verif.Lemmas.Modular
import Verif.Lemmas.Check
/-!
# Parsers do not interfere with each other (C55)
-/

namespace Metaparse

/-- The outcome of a parser depends only on the definitions of the classes it uses, directly or through
other parsers: whatever else is defined or redefined in the program does not matter. -/
theorem C55_modular {I : Type} {K : Classes} {E E' : Env I} (h : K.Shared E E') (p : P)
    (hp : p.Every (P.Uses K)) (s : I) (pos : Pos) : run E p s pos = run E' p s pos :=
  run_modular h p hp s pos

/-- A parser that uses no class of the user at all gives the same in every program. -/
theorem C55_closed {I : Type} {E : Env I} (p : P)
    (hp : p.Every (P.Uses ⟨fun _ => False, fun _ => False, fun _ => False⟩)) (s : I) (pos : Pos)
    (rules : Nat → P) (native : Nat → Sem I) (onError : Nat → Msg → Pos → Out (Res I)) :
    run { E with rules := rules, native := native, onError := onError } p s pos = run E p s pos :=
  run_modular (K := ⟨fun _ => False, fun _ => False, fun _ => False⟩)
    (E := { E with rules := rules, native := native, onError := onError }) (E' := E)
    ⟨rfl, rfl, rfl, rfl, rfl, fun _ h => h.elim, fun _ h => h.elim, fun _ h => h.elim⟩ p hp s pos

/-- Parser 0 is "parser 1 in brackets, or a character"; parser 1 is parser 0. -/
def bracketsEnv (other : P) : Env (List Chr) :=
  { env11 with rules := fun
      | 0 => .oneOf [.middleOf (.litC (ch '(')) (.ref 1) (.litC (ch ')')), .litC (ch 'x')]
      | 1 => .ref 0
      | _ => other }

/-- What parser 2 is does not matter to parser 0, which uses parser 1. -/
example (other : P) (s : List Chr) (pos : Pos) :
    run (bracketsEnv other) (.ref 0) s pos = run (bracketsEnv .oneChar) (.ref 0) s pos := by
  refine C55_modular (K := ⟨fun i => i < 2, fun _ => False, fun _ => False⟩) (E := bracketsEnv other)
    (E' := bracketsEnv .oneChar)
    ⟨rfl, rfl, rfl, rfl, rfl, ?_, fun _ h => h.elim, fun _ h => h.elim⟩ _ ?_ s pos
  · rintro (_ | _ | i) hi
    · refine ⟨rfl, P.Every.mk (p := .oneOf _) trivial fun q hq => ?_⟩
      simp only [P.parts, List.mem_cons, List.not_mem_nil, or_false] at hq
      rcases hq with rfl | rfl
      · refine P.Every.mk (Q := P.Uses _) (p := .middleOf _ _ _) trivial fun q hq => ?_
        simp only [P.parts, List.mem_cons, List.not_mem_nil, or_false] at hq
        rcases hq with rfl | rfl | rfl
        · exact every_litC _
        · exact P.Every.mk (p := .ref 1) (show 1 < 2 by decide) (by simp [P.parts])
        · exact every_litC _
      · exact every_litC _
    · exact ⟨rfl, P.Every.mk (p := .ref 0) (show 0 < 2 by decide) (by simp [P.parts])⟩
    · exact absurd hi (by show ¬ i + 1 + 1 < 2; omega)
  · exact P.Every.mk (p := .ref 0) (show 0 < 2 by decide) (by simp [P.parts])

example : Accepts (bracketsEnv (.fail (.user 0))) (.ref 0) (txt "((x))") start (.chr (ch 'x')) []
    ⟨1, 6, ch ')'⟩ := accepts_of_eval 40 (by decide +kernel)

/-- The classes a parser does use do matter: parser 2 does. -/
example : Rejects (bracketsEnv (.fail (.user 0))) (.ref 2) (txt "x") start (.user 0) start ∧
    Accepts (bracketsEnv .oneChar) (.ref 2) (txt "x") start (.chr (ch 'x')) [] ⟨1, 2, ch 'x'⟩ :=
  ⟨rejects_of_eval 10 (by decide +kernel), accepts_of_eval 10 (by decide +kernel)⟩

/-- The hypothesis of `C55_closed` holds of the parsers of the library that do not take parsers of the
user, e.g. of `lit_c<'x'>`. -/
example : P.Every (P.Uses ⟨fun _ => False, fun _ => False, fun _ => False⟩) (.litC (ch 'x')) :=
  every_litC _

end Metaparse
