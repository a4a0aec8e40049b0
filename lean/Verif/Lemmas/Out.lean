import Verif.Lemmas.Cont
import Verif.Spec.Outcome
/-!
# Small facts about outcomes
-/

namespace Metaparse

theorem Out.bind_eq_ok {α β : Type} {a : Out α} {f : α → Out β} {r : β} :
    a.bind f = .ok r ↔ ∃ x, a = .ok x ∧ f x = .ok r := by
  cases a <;> simp

theorem Out.bind_eq_deep {α β : Type} {a : Out α} {f : α → Out β} :
    a.bind f = .deep ↔ a = .deep ∨ ∃ x, a = .ok x ∧ f x = .deep := by
  cases a <;> simp

theorem Out.bind_eq_ill {α β : Type} {a : Out α} {f : α → Out β} {e : Fault} :
    a.bind f = .ill e ↔ a = .ill e ∨ ∃ x, a = .ok x ∧ f x = .ill e := by
  cases a <;> simp

theorem Out.bind_assoc {α β γ : Type} (a : Out α) (f : α → Out β) (g : β → Out γ) :
    (a.bind f).bind g = a.bind fun x => (f x).bind g := by
  cases a <;> rfl

/-- Forcing a value never needs instantiation depth. -/
theorem Val.force_ne_deep (v : Val) : v.force ≠ .deep := by
  cases v <;> simp [Val.force]

theorem Val.value_ne_deep (v : Val) : v.value ≠ .deep := by
  unfold Val.value
  cases h : v.force with
  | ok w => cases w <;> simp
  | ill f => simp
  | deep => exact absurd h v.force_ne_deep

theorem Pos.equalTo_iff (a b : Pos) : a.equalTo b = true ↔ b = a := by
  obtain ⟨l, c, p⟩ := a
  obtain ⟨l', c', p'⟩ := b
  simp only [Pos.equalTo, Bool.and_eq_true, beq_iff_eq, Pos.mk.injEq]
  constructor
  · rintro ⟨⟨rfl, rfl⟩, rfl⟩; exact ⟨rfl, rfl, rfl⟩
  · rintro ⟨rfl, rfl, rfl⟩; exact ⟨⟨rfl, rfl⟩, rfl⟩

variable {I : Type} {E : Env I}

theorem Accepts.unique {p : P} {s : I} {pos : Pos} {v v' : Val} {s1 s1' : I} {q q' : Pos}
    (h : Accepts E p s pos v s1 q) (h' : Accepts E p s pos v' s1' q') :
    v = v' ∧ s1 = s1' ∧ q = q' := by
  unfold Accepts at h h'
  rw [h] at h'
  simpa using h'

theorem Rejects.unique {p : P} {s : I} {pos : Pos} {m m' : Msg} {q q' : Pos}
    (h : Rejects E p s pos m q) (h' : Rejects E p s pos m' q') : m = m' ∧ q = q' := by
  unfold Rejects at h h'
  rw [h] at h'
  simpa using h'

theorem Accepts.not_rejects {p : P} {s : I} {pos : Pos} {v : Val} {s1 : I} {q q' : Pos} {m : Msg}
    (h : Accepts E p s pos v s1 q) (h' : Rejects E p s pos m q') : False := by
  unfold Accepts at h
  unfold Rejects at h'
  rw [h] at h'
  cases h'

/-- The four possible outcomes. -/
theorem outcome (E : Env I) (p : P) (s : I) (pos : Pos) :
    (∃ v s' pos', Accepts E p s pos v s' pos') ∨ (∃ m pos', Rejects E p s pos m pos') ∨
      IllFormed E p s pos ∨ Diverges E p s pos := by
  unfold Accepts Rejects IllFormed Diverges
  cases h : run E p s pos with
  | ok r => cases r with
    | acc v s' pos' => exact Or.inl ⟨v, s', pos', rfl⟩
    | rej m pos' => exact Or.inr (Or.inl ⟨m, pos', rfl⟩)
  | ill f => exact Or.inr (Or.inr (Or.inl ⟨f, rfl⟩))
  | deep => exact Or.inr (Or.inr (Or.inr rfl))

end Metaparse
