import Verif.Spec.Modular
import Verif.Lemmas.Cont
import Verif.Lemmas.Subparsers
/-!
# The outcome of a parser depends only on the classes it uses
-/

namespace Metaparse

variable {I : Type} {E E' : Env I} {K : Classes}

theorem every_oneChar : P.Every (P.Uses K) .oneChar := .mk trivial (by simp [P.parts])

theorem every_acceptWhen (f : Val → Out Bool) (m : Msg) :
    P.Every (P.Uses K) (.acceptWhen .oneChar f m) :=
  P.Every.mk (p := .acceptWhen .oneChar f m) trivial (by
    intro q hq; simp only [P.parts, List.mem_singleton] at hq; subst hq; exact every_oneChar)

theorem every_litC (c : Chr) : P.Every (P.Uses K) (P.litC c) := by
  unfold P.litC
  refine P.Every.mk (Q := P.Uses K) (p := .acceptWhen _ _ _) trivial fun q hq => ?_
  simp only [P.parts, List.mem_singleton] at hq
  subst hq
  refine P.Every.mk (Q := P.Uses K) (p := .changeErrorMessage _ _) trivial fun q hq => ?_
  simp only [P.parts, List.mem_singleton] at hq
  subst hq
  exact every_oneChar

theorem step_modular (h : K.Shared E E') {rec rec' : P → Sem I}
    (hrec : ∀ p, p.Every (P.Uses K) → rec p = rec' p) (p : P) (hp : p.Every (P.Uses K)) :
    step E rec p = step E' rec' p := by
  have hmap : ∀ ps : List P, (∀ q ∈ ps, q.Every (P.Uses K)) → ps.map rec = ps.map rec' :=
    fun ps h => List.map_congr_left fun q hq => hrec q (h q hq)
  have hpart := fun q (hq : q ∈ p.parts) => hrec q (hp.part hq)
  cases p with
  | oneChar => simp only [step, h.input]
  | empty v => simp only [step, h.input]
  | fail m => rfl
  | ret v => rfl
  | foldl p st op =>
    simp only [step, hpart p (by simp [P.parts])]
    have : (fun st' => rec (.foldl p st' op)) = fun st' => rec' (.foldl p st' op) :=
      funext fun st' => hrec _ (P.Every.mk (p := .foldl p st' op) trivial
        fun q hq => hp.part (by simpa [P.parts] using hq))
    rw [this]
  | foldlRejectIncomplete p st op =>
    simp only [step, hpart p (by simp [P.parts])]
    have : (fun st' => rec (.foldlRejectIncomplete p st' op))
        = fun st' => rec' (.foldlRejectIncomplete p st' op) :=
      funext fun st' => hrec _ (P.Every.mk (p := .foldlRejectIncomplete p st' op) trivial
        fun q hq => hp.part (by simpa [P.parts] using hq))
    rw [this]
  | foldlStartWithParser p sp op =>
    simp only [step, hpart sp (by simp [P.parts])]
    have : (fun st' => rec (.foldl p st' op)) = fun st' => rec' (.foldl p st' op) :=
      funext fun st' => hrec _ (P.Every.mk (p := .foldl p st' op) trivial
        fun q hq => hp.part (by simp only [P.parts, List.mem_singleton] at hq; simp [P.parts, hq]))
    rw [this]
  | foldlRejectIncompleteStartWithParser p sp op =>
    simp only [step, hpart sp (by simp [P.parts])]
    have : (fun st' => rec (.foldlRejectIncomplete p st' op))
        = fun st' => rec' (.foldlRejectIncomplete p st' op) :=
      funext fun st' => hrec _ (P.Every.mk (p := .foldlRejectIncomplete p st' op) trivial
        fun q hq => hp.part (by simp only [P.parts, List.mem_singleton] at hq; simp [P.parts, hq]))
    rw [this]
  | foldrStartWithParser p sp op =>
    simp only [step, hpart p (by simp [P.parts]), hpart sp (by simp [P.parts]), hrec _ hp]
  | iterate n p accum =>
    simp only [step, hpart p (by simp [P.parts])]
    have : (fun a => rec (.iterate (n - 1) p a)) = fun a => rec' (.iterate (n - 1) p a) :=
      funext fun a => hrec _ (P.Every.mk (p := .iterate (n - 1) p a) trivial
        fun q hq => hp.part (by simpa [P.parts] using hq))
    rw [this]
  | transformError p k =>
    simp only [step, hpart p (by simp [P.parts]), h.errors k hp.here]
  | ifAccepts p q =>
    simp only [step, hpart p (by simp [P.parts]), hpart q (by simp [P.parts])]
  | sequence ps => simp only [step, h.std, h.limSequence, hmap ps fun q hq => hp.part hq]
  | oneOf ps => simp only [step, h.std, h.limOneOf, hmap ps fun q hq => hp.part hq]
  | nthOfC n ps =>
    simp only [step, hmap ps fun q hq => hp.part hq, Comb.nthOf, h.std, h.limSequence]
  | lastOf ps => simp only [step, h.std, h.limSequence, hmap ps fun q hq => hp.part hq]
  | middleOf p1 p2 p3 =>
    simp only [step, hpart p1 (by simp [P.parts]), hpart p2 (by simp [P.parts]),
      hpart p3 (by simp [P.parts])]
    have : Comb.nthOf E = Comb.nthOf E' := by
      funext n fs
      simp only [Comb.nthOf, h.std, h.limSequence]
    unfold Comb.middleOf
    rw [this]
  | keyword kw v =>
    cases kw with
    | nil => rfl
    | cons c cs =>
      simp only [step, hrec _ (every_litC c), hrec (.keyword cs v) (.mk trivial (by simp [P.parts]))]
  | oneOfC cs =>
    have hl : P.Every (P.Uses K) (.oneOf (cs.map P.litC)) :=
      P.Every.mk (p := .oneOf _) trivial fun q hq => by
        simp only [P.parts, List.mem_map] at hq
        obtain ⟨c, -, rfl⟩ := hq
        exact every_litC c
    simp only [step, h.std, h.limOneOf, hrec _ (every_acceptWhen _ _), hrec _ hl]
  | oneCharExceptC cs =>
    simp only [step, h.std, h.limOneCharExcept, hrec _ (every_acceptWhen _ _)]
  | ref i =>
    obtain ⟨h1, h2⟩ := h.parsers i hp.here
    simp only [step, ← h1, hrec _ h2]
  | native i => exact h.natives i hp.here
  | _ => simp only [step, hpart _ (List.mem_singleton.2 rfl)]

theorem eval_modular (h : K.Shared E E') : ∀ n p, p.Every (P.Uses K) → eval E n p = eval E' n p := by
  intro n
  induction n with
  | zero => intro p _; rfl
  | succ n ih => intro p hp; exact step_modular h ih p hp

open Classical in
/-- As in `run`. -/
noncomputable def limit (f : Nat → Out (Res I)) : Out (Res I) :=
  if h : ∃ n, f n ≠ .deep then f (Classical.choose h) else .deep

theorem run_modular (h : K.Shared E E') (p : P) (hp : p.Every (P.Uses K)) (s : I) (pos : Pos) :
    run E p s pos = run E' p s pos := by
  have h1 : run E p s pos = limit fun n => eval E n p s pos := rfl
  have h2 : run E' p s pos = limit fun n => eval E' n p s pos := rfl
  rw [h1, h2]
  congr 1
  exact funext fun n => by rw [eval_modular h n p hp]

end Metaparse
