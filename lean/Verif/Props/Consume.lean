import Verif.Props.Termination
import Verif.Props.Folds
/-!
# C10, continued: repetitions of at least one element consume
-/

namespace Metaparse

variable {E : Env (List Chr)}

theorem Steps.length_le (hE : E.Honest) {p : P} {s : List Chr} {pos : Pos} {vs : List Val}
    {s' : List Chr} {pos' : Pos} (h : Steps E p s pos vs s' pos') : s'.length ≤ s.length := by
  induction h with
  | nil => exact Nat.le_refl _
  | cons ha _ ih =>
    obtain ⟨c, rfl, -⟩ := Accepts.honest hE ha
    rw [List.length_append]; omega

/-- A run of at least one element of a parser that consumes, consumes. -/
theorem Steps.consumes (hE : E.Honest) {p : P} (hp : ¬ Nullable E p) {s : List Chr} {pos : Pos}
    {vs : List Val} {s' : List Chr} {pos' : Pos} (h : Steps E p s pos vs s' pos') (hne : vs ≠ []) :
    s'.length < s.length := by
  cases h with
  | nil => exact absurd rfl hne
  | cons ha hs =>
    rcases shorter_or_nullable hE ha with h | ⟨-, h⟩
    · exact Nat.lt_of_le_of_lt (hs.length_le hE) h
    · exact absurd h hp

theorem MaximalRun.nonempty {p : P} {s s0 : List Chr} {pos pos0 : Pos} {v0 : Val}
    (ha : Accepts E p s pos v0 s0 pos0) {vs : List Val} {s' : List Chr} {pos' e : Pos} {m : Msg}
    (h : MaximalRun E p s pos vs s' pos' m e) : vs ≠ [] := by
  rintro rfl
  obtain ⟨hs, hr⟩ := h
  cases hs
  exact ha.not_rejects hr

/-- If a parser never accepts without consuming, neither do its repetitions that ask for at least one
element: these can be repeated again. -/
theorem C10_fold1_consumes (hE : E.Honest) (h2 : E.SupportsNth 2) {p : P} (hp : ¬ Nullable E p) (st : Val)
    (op : Val → Val → Val) :
    ¬ Nullable E (P.foldl1 p st op) ∧ ¬ Nullable E (P.foldlRejectIncomplete1 p st op) ∧
    ¬ Nullable E (P.foldr1 p st op) ∧ ¬ Nullable E (P.foldrRejectIncomplete1 p st op) ∧
    ¬ Nullable E (P.repeated1 p) ∧ ¬ Nullable E (P.repeatedRejectIncomplete1 p) := by
  have key : ∀ q r : P,
      (∀ s pos v s' pos', Accepts E q s pos v s' pos' → ∃ v0 s0 pos0, Accepts E p s pos v0 s0 pos0) →
      (∀ s pos v0 s0 pos0, Accepts E p s pos v0 s0 pos0 → run E q s pos = run E r s pos) →
      (∀ s pos v s' pos', Accepts E r s pos v s' pos' → ∃ vs m e, MaximalRun E p s pos vs s' pos' m e) →
      ¬ Nullable E q := by
    rintro q r h1 h2 h3 ⟨s, pos, v, pos', hq⟩
    obtain ⟨v0, s0, pos0, ha⟩ := h1 _ _ _ _ _ hq
    unfold Accepts at hq
    rw [h2 _ _ _ _ _ ha] at hq
    obtain ⟨vs, m, e, hm⟩ := h3 _ _ _ _ _ hq
    exact Nat.lt_irrefl _ (hm.1.consumes hE hp (MaximalRun.nonempty ha hm))
  have first : ∀ r : P, ∀ s pos v s' pos', Accepts E (.ifAccepts p r) s pos v s' pos' →
      ∃ v0 s0 pos0, Accepts E p s pos v0 s0 pos0 := by
    intro r s pos v s' pos' h
    unfold Accepts at h
    rw [run_ifAccepts] at h
    rcases outcome E p s pos with ⟨v0, s0, pos0, ha⟩ | ⟨m', e', hr⟩ | ⟨f, hf⟩ | hd
    · exact ⟨_, _, _, ha⟩
    · rw [hr] at h; cases h
    · rw [hf] at h; cases h
    · rw [hd] at h; cases h
  have hl : ∀ st op, ¬ Nullable E (P.foldl1 p st op) := fun st op =>
    key _ (.foldl p st op) (first _) (fun s pos _ _ _ ha => (C13_foldl1 p st op s pos).2 _ _ _ ha)
      (fun _ _ _ _ _ h => by
        obtain ⟨vs, m, e, x, hm, -⟩ := (C12_foldl_accepts ..).1 h
        exact ⟨vs, m, e, hm⟩)
  have hlr : ∀ st op, ¬ Nullable E (P.foldlRejectIncomplete1 p st op) := fun st op =>
    key _ (.foldlRejectIncomplete p st op) (first _)
      (fun s pos _ _ _ ha => ((C13_reject_incomplete1 p st op s pos).2 _ _ _ ha).1)
      (fun _ _ _ _ _ h => by
        obtain ⟨vs, m, x, hm, -⟩ := (C16_foldl_reject_incomplete_accepts ..).1 h
        exact ⟨vs, m, _, hm⟩)
  refine ⟨hl _ _, hlr _ _, ?_, ?_, hl _ _, hlr _ _⟩
  · exact key _ (P.foldr p st op) (first _) (fun s pos _ _ _ ha => (C13_foldr1 p st op s pos).2 _ _ _ ha)
      (fun _ _ _ _ _ h => by
        obtain ⟨vs, m, e, hm, -⟩ := (C15_foldr_accepts ..).1 h
        exact ⟨vs, m, e, hm⟩)
  · exact key _ (P.foldrRejectIncomplete p st op) (first _)
      (fun s pos _ _ _ ha => ((C13_reject_incomplete1 p st op s pos).2 _ _ _ ha).2)
      (fun _ _ _ _ _ h => by
        obtain ⟨vs, m, hm, -⟩ := (C16_foldr_reject_incomplete_accepts h2 ..).1 h
        exact ⟨vs, m, _, hm⟩)

/-- In particular `repeated<repeated1<p>>` finishes (while `repeated<repeated<p>>` does not, C11). -/
theorem C10_nested_repetition_finishes (hE : E.WellFormed) (h2 : E.SupportsNth 2) {p : P} (hs : p.Sound E)
    (hp : ¬ Nullable E p) (s : List Chr) (pos : Pos) :
    ¬ Diverges E (P.repeated (P.repeated1 p)) s pos := by
  refine C10_well_formed_finishes hE ?_ s pos
  have h1 := (C10_fold1_consumes hE.honest h2 hp .void_ (fun a _ => a)).2.2.2.2.1
  refine .mk ⟨h1, trivial⟩ fun q hq => ?_
  simp only [P.repeated, P.parts, List.mem_cons, List.not_mem_nil, or_false] at hq
  subst hq
  refine .mk ⟨trivial, trivial⟩ fun q hq => ?_
  simp only [P.parts, P.repeated1, P.foldl1, List.mem_cons, List.not_mem_nil, or_false] at hq
  rcases hq with rfl | rfl
  · exact hs
  · refine .mk ⟨hp, trivial⟩ fun q hq => ?_
    simp only [P.parts, List.mem_cons, List.not_mem_nil, or_false] at hq
    subst hq
    exact hs

theorem digit_not_nullable (h : E.OnText) : ¬ Nullable E P.digit := by
  rintro ⟨s, pos, v, pos', ha⟩
  obtain ⟨c, hc, -⟩ := (C28_exactly (C28_digit h) ..).1 ha
  exact absurd (congrArg List.length hc) (by simp)

theorem env11_wellFormed : env11.WellFormed := by
  refine C10_checkable (N := fun _ => false) (NN := fun _ => false) (rank := fun i => i)
    env11_honest ⟨by simp [env11], by simp [env11]⟩ ?_ ?_ ?_ ?_ ?_
  · intro i h; cases h
  · intro i _ s pos v s' pos' h; cases h
  · intro i; rfl
  · intro i
    simp [env11, P.every_iff, P.EveryL, P.parts, P.FunctionsFinish]
  · intro i j hj
    simp [env11, P.leftRefs] at hj

example (s : List Chr) (pos : Pos) : ¬ Diverges env11 (P.repeated (P.repeated1 P.digit)) s pos :=
  C10_nested_repetition_finishes env11_wellFormed (by intro h; cases h)
    (by simp [P.Sound, P.every_iff, P.EveryL, P.parts, P.FunctionsFinish, P.RepeatsConsume, P.digit,
      isDigit, inRangeC, Out.bind_eq_deep, Val.value_ne_deep])
    (digit_not_nullable env11_onText) s pos

example : Accepts env11 (P.repeated (P.repeated1 P.digit)) (txt "12x") start
    (.seq [.seq [.chr (ch '1'), .chr (ch '2')]]) (txt "x") ⟨1, 3, ch '2'⟩ :=
  accepts_of_eval 30 (by decide +kernel)

/-- One digit or more is never nothing. -/
example : ¬ Nullable env98 (P.repeated1 P.digit) ∧ ¬ Nullable env98 (P.foldrRejectIncomplete1 P.digit (.int 0) fun s _ => s) :=
  have h := C10_fold1_consumes env98_honest (fun _ => by decide) (digit_not_nullable env98_onText) (.int 0) fun s _ => s
  ⟨h.2.2.2.2.1, h.2.2.2.1⟩

end Metaparse
