import Verif.Lemmas.Modular
import Verif.Props.Termination
/-!
# Programs with one class finish
-/

namespace Metaparse

variable {E : Env (List Chr)}

/-- Only the classes `cls` are used, and no parsers that are not made of the library's. -/
def onlyClasses (cls : Nat → Prop) : Classes := ⟨cls, fun _ => False, fun _ => False⟩

/-- The classes of the program replaced by `R`. -/
def Env.withClass (E : Env (List Chr)) (R : P) : Env (List Chr) :=
  { E with rules := fun _ => R, native := fun _ _ pos => .ok (.rej (.user 0) pos),
           onError := fun _ m pos => .ok (.rej m pos) }

theorem Env.withClass_honest (h : E.OnText) (R : P) : (E.withClass R).Honest where
  onText := h
  native := by
    intro i s pos r hr
    cases hr
    exact ⟨[], s, rfl, rfl⟩
  onError := by
    intro k m pos r hr
    cases hr
    exact ⟨m, rfl⟩

/-- A parser that uses only the class `R` runs as if there were no other class. -/
theorem run_withClass {p R : P} {cls : Nat → Prop} (hR : ∀ i, cls i → E.rules i = R)
    (hu : p.Every (P.Uses (onlyClasses cls))) (huR : R.Every (P.Uses (onlyClasses cls))) (s : List Chr)
    (pos : Pos) : run E p s pos = run (E.withClass R) p s pos :=
  run_modular (K := onlyClasses cls) (E := E) (E' := E.withClass R)
    ⟨rfl, rfl, rfl, rfl, rfl, by
      intro i hi
      rw [hR i hi]
      exact ⟨rfl, huR⟩, fun _ h => h.elim, fun _ h => h.elim⟩ p hu s pos

/-- A parser that uses only the class `R`, where both never repeat a parser that accepts nothing, and `R` does
not begin with itself, always finishes. -/
theorem finishes_of_class_sound (h : E.OnText) {p R : P} {cls : Nat → Prop} (hR : ∀ i, cls i → E.rules i = R)
    (hu : p.Every (P.Uses (onlyClasses cls))) (huR : R.Every (P.Uses (onlyClasses cls)))
    (hp : p.Sound (E.withClass R)) (hpR : R.Sound (E.withClass R))
    (hl : R.leftRefs (fun _ => true) (fun _ => false) = []) (s : List Chr) (pos : Pos) :
    run E p s pos ≠ .deep := by
  have hN : ∀ i, ((E.withClass R).rules i).mayBeEmpty (fun _ => true) (fun _ => false) = true →
      true = true := fun _ _ => rfl
  have hNN : ∀ i : Nat, false = false → ∀ s pos v s' pos',
      (E.withClass R).native i s pos = .ok (.acc v s' pos') → s'.length < s.length := by
    intro i _ s pos v s' pos' h; cases h
  have hwf : (E.withClass R).WellFormed :=
    { honest := E.withClass_honest h R
      finishes := ⟨by simp [Env.withClass], by simp [Env.withClass]⟩
      sound := fun _ => hpR
      noLeftRecursion := by
        refine ⟨fun i => ⟨i, fun j hj => ?_⟩⟩
        have := leftCalls_leftRefs (E.withClass_honest h R) (N := fun _ => true) (NN := fun _ => false) hN hNN hj
        rw [show (E.withClass R).rules i = R from rfl, hl] at this
        cases this }
  have hfin := C10_well_formed_finishes hwf hp s pos
  have heq := run_withClass (E := E) hR hu huR s pos
  rw [heq]
  exact hfin

/-- A parser that uses only the class `R`, where both never repeat a parser that may accept nothing, and
`R` does not begin with itself, always finishes. -/
theorem finishes_of_check (h : E.OnText) {p R : P} {cls : Nat → Prop} (hR : ∀ i, cls i → E.rules i = R)
    (hu : p.Every (P.Uses (onlyClasses cls))) (huR : R.Every (P.Uses (onlyClasses cls)))
    (hf : p.Every P.FunctionsFinish) (hfR : R.Every P.FunctionsFinish)
    (hr : p.repeatsOk (fun _ => true) (fun _ => false) = true)
    (hrR : R.repeatsOk (fun _ => true) (fun _ => false) = true)
    (hl : R.leftRefs (fun _ => true) (fun _ => false) = []) (s : List Chr) (pos : Pos) :
    run E p s pos ≠ .deep := by
  have hN : ∀ i, ((E.withClass R).rules i).mayBeEmpty (fun _ => true) (fun _ => false) = true →
      true = true := fun _ _ => rfl
  have hNN : ∀ i : Nat, false = false → ∀ s pos v s' pos',
      (E.withClass R).native i s pos = .ok (.acc v s' pos') → s'.length < s.length := by
    intro i _ s pos v s' pos' h; cases h
  exact finishes_of_class_sound h hR hu huR
    (repeatsOk_sound (E.withClass_honest h R) (N := fun _ => true) (NN := fun _ => false) hN hNN p hr hf)
    (repeatsOk_sound (E.withClass_honest h R) (N := fun _ => true) (NN := fun _ => false) hN hNN R hrR hfR) hl s pos

/-- A parser without classes that never repeats a parser that may accept nothing always finishes. -/
theorem finishes_of_sound (h : E.OnText) {p : P} (hu : p.Every (P.Uses (onlyClasses fun _ => False)))
    (hp : p.Sound (E.withClass .oneChar)) (s : List Chr) (pos : Pos) : run E p s pos ≠ .deep := by
  have hN : ∀ i, ((E.withClass .oneChar).rules i).mayBeEmpty (fun _ => true) (fun _ => false) = true →
      true = true := fun _ _ => rfl
  have hNN : ∀ i : Nat, false = false → ∀ s pos v s' pos',
      (E.withClass .oneChar).native i s pos = .ok (.acc v s' pos') → s'.length < s.length := by
    intro i _ s pos v s' pos' h; cases h
  have hwf : (E.withClass .oneChar).WellFormed :=
    C10_checkable (N := fun _ => true) (NN := fun _ => false) (rank := fun i => i)
      (E.withClass_honest h _) ⟨by simp [Env.withClass], by simp [Env.withClass]⟩ hN hNN
      (fun _ => rfl) (fun _ => by
        simp [Env.withClass, P.every_iff, P.EveryL, P.parts, P.FunctionsFinish]) (fun i j hj => by cases hj)
  have heq := run_modular (K := onlyClasses fun _ => False) (E := E) (E' := E.withClass .oneChar)
    ⟨rfl, rfl, rfl, rfl, rfl, fun _ h => h.elim, fun _ h => h.elim, fun _ h => h.elim⟩ p hu s pos
  rw [heq]
  exact C10_well_formed_finishes hwf hp s pos

/-- The same for `build_parser`. -/
theorem buildParser_finishes {p : P} {s : List Chr} (h : run E p s start ≠ .deep) :
    buildParser E p s ≠ .deep := by
  unfold buildParser
  intro hd
  rcases Out.bind_eq_deep.1 hd with hd | ⟨r, hr, hd⟩
  · exact h hd
  · cases r <;> cases hd

/-- What is neither accepted nor goes on forever is a compile error. -/
theorem ill_iff_of_finishes {α : Type} {o : Out α} (h : o ≠ .deep) {Q : α → Prop}
    (h' : ∀ v, o = .ok v ↔ Q v) : (∃ f, o = .ill f) ↔ ¬ ∃ v, Q v := by
  cases ho : o with
  | ok v =>
    constructor
    · rintro ⟨f, hf⟩; cases hf
    · intro hn; exact absurd ⟨v, (h' v).1 ho⟩ hn
  | ill f =>
    refine ⟨fun _ => ?_, fun _ => ⟨f, rfl⟩⟩
    rintro ⟨v, hv⟩
    have := (h' v).2 hv
    rw [ho] at this; cases this
  | deep => exact absurd ho h

end Metaparse
