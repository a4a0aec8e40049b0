import Verif.Spec.Contexts
import Verif.Lemmas.Cont
import Verif.Lemmas.Subparsers
import Verif.Lemmas.Modular
/-!
# Lemmas about replacing parsers
-/

namespace Metaparse

variable {I : Type} {E : Env I} {h : Nat} {q : P}

theorem fillL_eq_map (ps : List P) : fillL h q ps = ps.map (fill h q) := by
  induction ps with
  | nil => rw [fillL]; rfl
  | cons p ps ih => rw [fillL, ih]; rfl

theorem fill_litC (c : Chr) : fill h q (P.litC c) = P.litC c := by
  unfold P.litC
  simp only [fill]

theorem fill_of_notHole (p : P) (hp : p.Every (P.NotHole h)) : fill h q p = p := by
  induction p using P.partsInduction with
  | _ p ih =>
    have ih : ∀ r ∈ p.parts, fill h q r = r := fun r hr => ih r hr (hp.part hr)
    have hl : ∀ ps : List P, (∀ r ∈ ps, fill h q r = r) → fillL h q ps = ps := by
      intro ps hps
      rw [fillL_eq_map]
      exact (List.map_congr_left hps).trans (List.map_id ps)
    cases p with
    | native i => rw [fill, if_neg (show i ≠ h from hp.here)]
    | sequence ps => rw [fill, hl ps ih]
    | oneOf ps => rw [fill, hl ps ih]
    | nthOfC n ps => rw [fill, hl ps ih]
    | lastOf ps => rw [fill, hl ps ih]
    | _ => simp only [fill] <;> simp only [P.parts, List.mem_cons, List.not_mem_nil, or_false,
             forall_eq_or_imp, forall_eq] at ih <;> simp only [ih]

/-- One layer of the expression with the hole filled. -/
theorem step_fill (f : Sem I) (rec : P → Sem I) (p : P) (hp : p ≠ .native h) :
    step (E.fillRules h q) rec (fill h q p) = step (E.withNative h f) (fun r => rec (fill h q r)) p := by
  have hm : ∀ ps : List P, (fillL h q ps).map rec = ps.map fun r => rec (fill h q r) := by
    intro ps
    rw [fillL_eq_map, List.map_map]; rfl
  cases p with
  | native i =>
    have hi : i ≠ h := fun hi => hp (by rw [hi])
    simp only [fill, if_neg hi, step, Env.fillRules, Env.withNative]
  | keyword kw v =>
    cases kw with
    | nil => rfl
    | cons c cs => simp only [fill, step, fill_litC]
  | oneOfC cs =>
    have : fillL h q (cs.map P.litC) = cs.map P.litC := by
      rw [fillL_eq_map, List.map_map]
      exact List.map_congr_left fun c _ => fill_litC c
    simp only [fill, step, this]
    rfl
  | _ =>
    simp only [fill, step, hm, Env.fillRules, Env.withNative] <;> rfl

theorem Out.le_antisymm {α : Type} {a b : Out α} (h1 : Out.le a b) (h2 : Out.le b a) : a = b := by
  rcases h1 with rfl | h1
  · rcases h2 with h2 | h2 <;> exact h2.symm
  · exact h1

theorem fill_hole : fill h q (.native h) = q := by rw [fill, if_pos rfl]

theorem eval_le_run (n : Nat) (p : P) (s : I) (pos : Pos) : Out.le (eval E n p s pos) (run E p s pos) := by
  rcases Classical.em (eval E n p s pos = .deep) with hd | hd
  · exact .inl hd
  · exact .inr (run_eq_of_eval rfl hd).symm

theorem run_le {E' : Env I} {p p' : P} {s : I} {pos : Pos}
    (hle : ∀ n, Out.le (eval E n p s pos) (run E' p' s pos)) :
    Out.le (run E p s pos) (run E' p' s pos) := by
  obtain ⟨n, hn⟩ := exists_eval E p s pos
  rw [← hn]
  exact hle n

/-- The hole may as well be a parser of the user that behaves as the parser put into it. -/
theorem run_fill (C : P) (s : I) (pos : Pos) :
    run (E.fillRules h q) (fill h q C) s pos =
      run (E.withNative h (run (E.fillRules h q) q)) C s pos := by
  refine Out.le_antisymm (run_le fun n => ?_) (run_le fun n => ?_)
  · induction n generalizing C s pos with
    | zero => exact .inl rfl
    | succ n ih =>
      rcases Classical.em (C = .native h) with rfl | hC
      · rw [fill_hole, run_step]
        show Out.le _ ((E.withNative h _).native h s pos)
        rw [show (E.withNative h (run (E.fillRules h q) q)).native h = run (E.fillRules h q) q from
          if_pos rfl]
        exact eval_le_run _ _ _ _
      · rw [run_step]
        show Out.le (step (E.fillRules h q) (eval (E.fillRules h q) n) (fill h q C) s pos) _
        rw [step_fill _ _ _ hC]
        exact step_mono _ _ _ (fun p s pos => ih p s pos) C s pos
  · induction n generalizing C s pos with
    | zero => exact .inl rfl
    | succ n ih =>
      rcases Classical.em (C = .native h) with rfl | hC
      · rw [fill_hole]
        exact .inr (congrFun (congrFun (show (E.withNative h (run (E.fillRules h q) q)).native h = _ from
          if_pos rfl) s) pos)
      · rw [run_step (E.fillRules h q), step_fill _ _ _ hC]
        exact step_mono _ _ _ (fun p s pos => ih p s pos) C s pos

/-- Putting an equivalent parser in place of a parser in all definitions: the outcome is the same, or
there is none any more. -/
theorem run_fill_le {p : P} (hq : q.Every (P.NotHole h))
    (heq : Equivalent (E.fillRules h p) p q) (C : P) (s : I) (pos : Pos) :
    Out.le (run (E.fillRules h q) (fill h q C) s pos) (run (E.fillRules h p) (fill h p C) s pos) := by
  refine run_le fun n => ?_
  induction n generalizing C s pos with
  | zero => exact .inl rfl
  | succ n ih =>
    have key : ∀ C : P, C ≠ .native h → Out.le (eval (E.fillRules h q) (n + 1) (fill h q C) s pos)
        (run (E.fillRules h p) (fill h p C) s pos) := by
      intro C hC
      rw [run_step (E.fillRules h p), step_fill (E.native h) _ _ hC]
      show Out.le (step (E.fillRules h q) (eval (E.fillRules h q) n) (fill h q C) s pos) _
      rw [step_fill (E.native h) _ _ hC]
      exact step_mono _ _ _ (fun p s pos => ih p s pos) C s pos
    rcases Classical.em (C = .native h) with rfl | hC
    · have h1 : q ≠ .native h := fun hqh => (show h ≠ h from by rw [hqh] at hq; exact hq.here) rfl
      have := key q h1
      rw [fill_of_notHole q hq, fill_of_notHole q hq] at this
      rw [fill_hole, fill_hole, heq s pos]
      exact this
    · exact key C hC

theorem fillRules_of_notHole (hE : ∀ i, (E.rules i).Every (P.NotHole h)) : E.fillRules h q = E := by
  have : (fun i => fill h q (E.rules i)) = E.rules := funext fun i => fill_of_notHole _ (hE i)
  unfold Env.fillRules
  rw [this]

end Metaparse
