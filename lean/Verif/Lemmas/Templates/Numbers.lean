import Verif.Spec.Templates
import Verif.Lemmas.Cont
/-!
# Numbers with and without bounds
-/

namespace Metaparse.Tmpl

open Metaparse (Val Msg Pos Res P Env eval step run nextDigit intC run_isLim run_eq_of_eval)

theorem nextDigit_cases (a b : Val) : nextDigit a b = nextDigitZ a b ∨ ∃ f, nextDigit a b = .bad f := by
  unfold nextDigit nextDigitZ
  cases a.value with
  | deep => exact .inl rfl
  | ill f => exact .inl rfl
  | ok x =>
      cases b.value with
      | deep => exact .inl rfl
      | ill f => exact .inl rfl
      | ok d =>
          simp only [Out.bind_ok]
          unfold intC
          split
          · simp only [Out.bind_ok]
            split
            · exact .inl rfl
            · exact .inr ⟨_, rfl⟩
          · exact .inr ⟨_, rfl⟩

variable {I : Type} {E : Env I}

theorem foldl_bad {n : Nat} {p : P} {f : Fault} {op : Val → Val → Val} {s : I} {pos : Pos} {r : Res I} :
    eval E n (.foldl p (.bad f) op) s pos ≠ .ok r := by
  cases n with
  | zero => exact fun h => by cases h
  | succ n =>
      intro h
      simp only [eval, step, Comb.foldl, Val.force] at h
      cases hx : eval E n p s pos with
      | deep => rw [hx] at h; cases h
      | ill g => rw [hx] at h; cases h
      | ok y => rw [hx] at h; cases y <;> cases h

theorem foldl_nextDigit {n : Nat} {p : P} : ∀ {st : Val} {s : I} {pos : Pos} {r : Res I},
    eval E n (.foldl p st nextDigit) s pos = .ok r → eval E n (.foldl p st nextDigitZ) s pos = .ok r := by
  induction n with
  | zero => intro st s pos r h; cases h
  | succ n ih =>
      intro st s pos r h
      simp only [eval, step, Comb.foldl] at h ⊢
      cases hx : eval E n p s pos with
      | deep => rw [hx] at h; cases h
      | ill g => rw [hx] at h; cases h
      | ok y =>
          rw [hx] at h
          cases y with
          | rej m q => exact h
          | acc x t q =>
              simp only [Out.bind_ok] at h ⊢
              cases hf : st.force with
              | deep => rw [hf] at h; cases h
              | ill g => rw [hf] at h; cases h
              | ok a =>
                  rw [hf] at h
                  simp only [Out.bind_ok] at h ⊢
                  rcases nextDigit_cases a x with e | ⟨f, e⟩
                  · rw [e] at h; exact ih h
                  · rw [e] at h; exact absurd h foldl_bad

theorem int_eval {n : Nat} {s : I} {pos : Pos} {r : Res I} (h : eval E n P.int_ s pos = .ok r) :
    eval E n intZ s pos = .ok r := by
  cases n with
  | zero => cases h
  | succ n =>
      simp only [P.int_, intZ, P.foldl1, eval, step, Comb.ifAccepts] at h ⊢
      cases hx : eval E n P.digitVal s pos with
      | deep => rw [hx] at h; cases h
      | ill g => rw [hx] at h; cases h
      | ok y =>
          rw [hx] at h
          cases y with
          | rej m q => exact h
          | acc x t q => exact foldl_nextDigit h

theorem int_run {s : I} {pos : Pos} {r : Res I} (h : run E P.int_ s pos = .ok r) : run E intZ s pos = .ok r := by
  obtain ⟨n, hn⟩ := Metaparse.exists_eval E P.int_ s pos
  exact Metaparse.run_ok_of_eval n (int_eval (hn.trans h))

end Metaparse.Tmpl
