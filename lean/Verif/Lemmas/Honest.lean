import Verif.Lemmas.Invariant
import Verif.Lemmas.Position
import Verif.Spec.Honest
/-!
# Honest environments give honest parsers
-/

namespace Metaparse

/-- The invariant of texts. -/
def textInv {E : Env (List Chr)} (hE : E.Honest) : PathInv E where
  A s pos s' pos' := ∃ c, s = c ++ s' ∧ pos' = moveOver pos c
  R s pos pos' := ∃ c t, s = c ++ t ∧ pos' = moveOver pos c
  refl s pos := ⟨[], rfl, rfl⟩
  trans := by
    rintro s pos s1 pos1 s2 pos2 ⟨c, rfl, rfl⟩ ⟨d, rfl, rfl⟩
    exact ⟨c ++ d, by simp, by rw [moveOver_append]⟩
  here s pos := ⟨[], s, rfl, rfl⟩
  later := by
    rintro s pos s1 pos1 q ⟨c, rfl, rfl⟩ ⟨d, t, rfl, rfl⟩
    exact ⟨c ++ d, t, by simp, by rw [moveOver_append]⟩
  char := by
    intro s c s' pos _ h1 h2
    rw [show E.input = listInput from hE.onText] at h1 h2
    cases s with
    | nil => cases h1
    | cons x s => cases h1; cases h2; exact ⟨[_], rfl, rfl⟩
  native := by
    intro i s pos r h
    have := hE.native i s pos r h
    cases r <;> exact this
  onError := by
    intro k m s pos q r h h'
    obtain ⟨m', rfl⟩ := hE.onError k m q r h'
    exact h

theorem honest_run {E : Env (List Chr)} (hE : E.Honest) {p : P} {s : List Chr} {pos : Pos}
    {r : Res (List Chr)} (h : run E p s pos = .ok r) : r.HonestAt s pos := by
  have := (textInv hE).good_run p s pos r h
  cases r <;> exact this

theorem Accepts.honest {E : Env (List Chr)} (hE : E.Honest) {p : P} {s : List Chr} {pos : Pos}
    {v : Val} {s' : List Chr} {pos' : Pos} (h : Accepts E p s pos v s' pos') :
    ∃ c, s = c ++ s' ∧ pos' = moveOver pos c := honest_run hE h

theorem Rejects.honest {E : Env (List Chr)} (hE : E.Honest) {p : P} {s : List Chr} {pos : Pos}
    {m : Msg} {pos' : Pos} (h : Rejects E p s pos m pos') :
    ∃ c t, s = c ++ t ∧ pos' = moveOver pos c := honest_run hE h

theorem env11_honest : env11.Honest where
  onText := rfl
  native := by rintro i s pos r h; cases h; exact ⟨[], s, rfl, rfl⟩
  onError := by rintro i s pos r h; cases h; exact ⟨_, rfl⟩

theorem env98_honest : env98.Honest where
  onText := rfl
  native := by rintro i s pos r h; cases h; exact ⟨[], s, rfl, rfl⟩
  onError := by rintro i s pos r h; cases h; exact ⟨_, rfl⟩

end Metaparse
