import Verif.Spec.Depth
import Verif.Spec.Fold
import Verif.Lemmas.Depth
import Verif.Props.Termination
import Verif.Props.Folds
/-!
# C78: the depth of instantiation is linear in the length of the text
-/

namespace Metaparse

variable {E : Env (List Chr)}

theorem exists_common {Q : Nat → Nat → Prop} (hm : ∀ j a b, a ≤ b → Q j a → Q j b) :
    ∀ N, (∀ j, j < N → ∃ c, Q j c) → ∃ c, ∀ j, j < N → Q j c := by
  intro N
  induction N with
  | zero => intro _; exact ⟨0, fun j h => by omega⟩
  | succ N ih =>
    intro h
    obtain ⟨a, ha⟩ := ih fun j hj => h j (by omega)
    obtain ⟨b, hb⟩ := h N (by omega)
    refine ⟨a + b, fun j hj => ?_⟩
    by_cases e : j = N
    · subst e; exact hm _ _ _ (by omega) hb
    · exact hm _ _ _ (by omega) (ha j (by omega))

/-- With the depth `B` for each character, and everything on shorter texts fitting, the parsers of the user fit in a
depth that does not depend on `B`. -/
theorem fits_rules (hE : E.WellFormed) (hF : E.FinitelyManyRules) (i : Nat) :
    ∃ c, ∀ (M : Nat) (s : List Chr), (∀ t : List Chr, t.length < s.length → ∀ p : P, p.Sound E →
      Fits E (p.nesting + M) p t) → Fits E (c + M) (.ref i) s := by
  obtain ⟨N, hN⟩ := hF
  induction i using hE.noLeftRecursion.induction with
  | _ i ih =>
  let Q : Nat → Nat → Prop := fun j c => ∀ k, LeftCalls E (E.rules i) k → E.rules k = E.rules j →
    ∀ (M : Nat) (s : List Chr), (∀ t : List Chr, t.length < s.length → ∀ p : P, p.Sound E →
      Fits E (p.nesting + M) p t) → Fits E (c + M) (.ref k) s
  have hm : ∀ j a b, a ≤ b → Q j a → Q j b := fun j a b hab h k hk e M s hs =>
    (h k hk e M s hs).mono (by omega)
  obtain ⟨c, hc⟩ := exists_common hm N (by
    intro j _
    by_cases hj : ∃ k, LeftCalls E (E.rules i) k ∧ E.rules k = E.rules j
    · obtain ⟨k, hk, e⟩ := hj
      obtain ⟨c, hc⟩ := ih k hk
      refine ⟨c + 1, fun k' _ e' M s hs pos => ?_⟩
      have := (hc M s hs).mono (m := c + M + 1) (by omega) pos
      rw [show c + 1 + M = c + M + 1 by omega]
      show eval E (c + M) (E.rules k') s pos ≠ .deep
      rw [e', ← e]
      exact this
    · exact ⟨0, fun k hk e => absurd ⟨k, hk, e⟩ hj⟩)
  refine ⟨(E.rules i).nesting + (c + 1) + 1, fun M s hs pos => ?_⟩
  have := fits_parts hE.honest hE.finishes s (M := M) (K := c + 1 + M) (by omega) hs (E.rules i) (hE.sound i)
    fun k hk => by
      obtain ⟨j, hj, e⟩ := hN k
      exact (hc j hj k hk e M s hs).mono (by omega)
  rw [show (E.rules i).nesting + (c + 1) + 1 + M = ((E.rules i).nesting + (c + 1 + M)) + 1 by omega]
  exact this pos

theorem fits_all (hE : E.WellFormed) (hF : E.FinitelyManyRules) :
    ∃ B, ∀ (n : Nat) (s : List Chr), s.length < n → ∀ p : P, p.Sound E → Fits E (p.nesting + B * (s.length + 1)) p s := by
  obtain ⟨N, hN⟩ := hF
  let Q : Nat → Nat → Prop := fun j c => ∀ k, E.rules k = E.rules j →
    ∀ (M : Nat) (s : List Chr), (∀ t : List Chr, t.length < s.length → ∀ p : P, p.Sound E →
      Fits E (p.nesting + M) p t) → Fits E (c + M) (.ref k) s
  have hm : ∀ j a b, a ≤ b → Q j a → Q j b := fun j a b hab h k e M s hs =>
    (h k e M s hs).mono (by omega)
  obtain ⟨c, hc⟩ := exists_common hm N (by
    intro j _
    obtain ⟨c, hc⟩ := fits_rules hE ⟨N, hN⟩ j
    refine ⟨c + 1, fun k e M s hs pos => ?_⟩
    have := (hc M s hs).mono (m := c + M + 1) (by omega) pos
    rw [show c + 1 + M = c + M + 1 by omega]
    show eval E (c + M) (E.rules k) s pos ≠ .deep
    rw [e]
    exact this)
  refine ⟨c + 1, fun n => ?_⟩
  induction n with
  | zero => intro s h; omega
  | succ n ih =>
    intro s hs p hp
    have hshort : ∀ t : List Chr, t.length < s.length → ∀ p : P, p.Sound E →
        Fits E (p.nesting + (c + 1) * s.length) p t := fun t ht p hp =>
      (ih t (by omega) p hp).mono (by have := Nat.mul_le_mul_left (c + 1) ht; simp only [Nat.succ_eq_add_one] at this; omega)
    refine fits_parts hE.honest hE.finishes s (M := (c + 1) * s.length) (by rw [Nat.mul_add]; omega) hshort p hp
      fun i _ => ?_
    obtain ⟨j, hj, e⟩ := hN i
    exact (hc j hj i e _ s hshort).mono (by rw [Nat.mul_add]; omega)

/-- In a well-formed system every parser has a number `c` such that the depth `c * (n + 1)` suffices for all texts of
`n` characters. -/
theorem C78_linear (hE : E.WellFormed) (hF : E.FinitelyManyRules) {p : P} (hp : p.Sound E) :
    ∃ c, ∀ (s : List Chr) (pos : Pos) (n : Nat), c * (s.length + 1) ≤ n → Suffices E n p s pos := by
  obtain ⟨B, hB⟩ := fits_all hE hF
  refine ⟨p.nesting + B, fun s pos n hn => ?_⟩
  have h := ((hB (s.length + 1) s (by omega) p hp).mono (m := n) (by
    rw [Nat.add_mul] at hn
    have := Nat.mul_le_mul_left p.nesting (show 1 ≤ s.length + 1 by omega)
    omega)) pos
  have e := run_eq_of_eval rfl h
  exact ⟨e.symm, fun hd => h (e.symm.trans hd)⟩

/-- A repetition needs a depth that is greater than the number of elements. -/
theorem C78_repetition {I : Type} {E : Env I} {p : P} {s s' : I} {pos pos' : Pos} {vs : List Val}
    (h : Steps E p s pos vs s' pos') (st : Val) (op : Val → Val → Val) (n : Nat) (hn : n ≤ vs.length) (r : Res I) :
    eval E n (.foldl p st op) s pos ≠ .ok r ∧ eval E n (.foldlRejectIncomplete p st op) s pos ≠ .ok r := by
  induction h generalizing st n with
  | nil s pos => cases Nat.le_zero.1 hn; exact ⟨by simp [eval], by simp [eval]⟩
  | cons ha _ ih =>
    cases n with
    | zero => exact ⟨by simp [eval], by simp [eval]⟩
    | succ n =>
      have hn : n ≤ _ := Nat.le_of_succ_le_succ hn
      refine ⟨fun h => ?_, fun h => ?_⟩
      · obtain ⟨x, hx, h⟩ := Out.bind_eq_ok.1 h
        have hx := run_eq_of_eval hx (by simp)
        rw [show run E p _ _ = _ from ha] at hx
        cases hx
        obtain ⟨y, _, h⟩ := Out.bind_eq_ok.1 h
        exact (ih _ n hn).1 h
      · obtain ⟨x, hx, h⟩ := Out.bind_eq_ok.1 h
        have hx := run_eq_of_eval hx (by simp)
        rw [show run E p _ _ = _ from ha] at hx
        cases hx
        obtain ⟨y, _, h⟩ := Out.bind_eq_ok.1 h
        exact (ih _ n hn).2 h

/-- The same for the right fold. -/
theorem C78_right_fold {I : Type} {E : Env I} {p : P} {s s' : I} {pos pos' : Pos} {vs : List Val}
    (h : Steps E p s pos vs s' pos') (sp : P) (op : Val → Val → Val) (n : Nat) (hn : n ≤ vs.length) (r : Res I) :
    eval E n (.foldrStartWithParser p sp op) s pos ≠ .ok r := by
  induction h generalizing n r with
  | nil s pos => cases Nat.le_zero.1 hn; simp [eval]
  | cons ha _ ih =>
    cases n with
    | zero => simp [eval]
    | succ n =>
      intro h
      obtain ⟨x, hx, h⟩ := Out.bind_eq_ok.1 h
      have hx := run_eq_of_eval hx (by simp)
      rw [show run E p _ _ = _ from ha] at hx
      cases hx
      obtain ⟨y, hy, _⟩ := Out.bind_eq_ok.1 h
      exact ih n (Nat.le_of_succ_le_succ hn) y hy

/-- No depth suffices for all texts: for every limit of the compiler there is a text of as many digits that
`repeated<digit>` accepts, but not within the limit. -/
theorem C78_no_limit (hE : E.OnText) (pos : Pos) (n : Nat) :
    ∃ s : List Chr, s.length = n ∧ (∃ v pos', Accepts E (.repeated .digit) s pos v [] pos') ∧
      ¬ Suffices E n (.repeated .digit) s pos := by
  let s := List.replicate n (ch '7')
  obtain ⟨m, hm⟩ := (charParser_digit hE).maximalRun s [] pos
    (fun c hc => by rw [(List.mem_replicate.1 hc).2]; rfl) rfl
  rw [List.append_nil] at hm
  have hacc := (C14_repeated (E := E) .digit s pos _ [] _).2 ⟨_, _, _, hm, rfl⟩
  refine ⟨s, List.length_replicate, ⟨_, _, hacc⟩, fun h => ?_⟩
  exact (C78_repetition hm.1 _ _ n (by simp [s]) _).1 (h.1.trans hacc)

/-- The lists of digits in nested brackets. -/
example : ∃ c, ∀ (s : List Chr) (pos : Pos) (n : Nat), c * (s.length + 1) ≤ n → Suffices nestedEnv n (.ref 1) s pos := by
  refine C78_linear nestedEnv_wellFormed ⟨3, ?_⟩ (.mk ⟨trivial, trivial⟩ fun q hq => by cases hq)
  rintro (_ | _ | i)
  · exact ⟨0, by omega, rfl⟩
  · exact ⟨1, by omega, rfl⟩
  · exact ⟨2, by omega, rfl⟩

example : ∃ s : List Chr, s.length = 900 ∧ ¬ Suffices env11 900 (.repeated .digit) s start := by
  obtain ⟨s, h, _, h'⟩ := C78_no_limit (E := env11) rfl start 900
  exact ⟨s, h, h'⟩

/-- `foldr` over three letters needs more than three levels. -/
example : eval env11 3 (.foldrStartWithParser (.litC (ch 'a')) (.ret (.int 0)) fun x _ => x) (txt "aaa") start
    ≠ .ok (.acc (.int 0) [] ⟨1, 4, ch 'a'⟩) := by
  have h := (charParser_litC (E := env11) rfl (ch 'a')).maximalRun (txt "aaa") [] start
    (by intro c hc; simp [txt] at hc; subst hc; rfl) rfl
  obtain ⟨m, hm⟩ := h
  exact C78_right_fold hm.1 _ _ 3 (by decide) _

/-- So does `foldl`, whatever the state is. -/
example (st : Val) (op : Val → Val → Val) (r : Res (List Chr)) :
    eval env11 3 (.foldl (.litC (ch 'a')) st op) (txt "aaab") start ≠ .ok r := by
  obtain ⟨m, hm⟩ := (charParser_litC (E := env11) rfl (ch 'a')).maximalRun (txt "aaa") (txt "b") start
    (by intro c hc; simp [txt] at hc; subst hc; rfl) rfl
  exact (C78_repetition hm.1 st op 3 (by decide) r).1

end Metaparse
