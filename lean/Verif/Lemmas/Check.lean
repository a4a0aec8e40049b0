import Verif.Lemmas.Cont
import Verif.Spec.Outcome
/-!
# Checking concrete outcomes

Decidable equality of outcomes, used for the concrete instances next to the theorems.
-/

namespace Metaparse

mutual
/-- Equality test on values. -/
def Val.beq : Val → Val → Bool
  | .chr a, .chr b => decide (a = b)
  | .int a, .int b => decide (a = b)
  | .bool a, .bool b => decide (a = b)
  | .void_, .void_ => true
  | .cvoid, .cvoid => true
  | .seq a, .seq b => Val.beqList a b
  | .str a, .str b => decide (a = b)
  | .msg a, .msg b => decide (a = b)
  | .gexp a, .gexp b => decide (a = b)
  | .user n a, .user m b => decide (n = m) && Val.beqList a b
  | .delayed a, .delayed b => Val.beq a b
  | .bad a, .bad b => decide (a = b)
  | _, _ => false
/-- Equality test on lists of values. -/
def Val.beqList : List Val → List Val → Bool
  | [], [] => true
  | a :: l, b :: m => Val.beq a b && Val.beqList l m
  | _, _ => false
end

mutual
theorem Val.eq_of_beq : ∀ {a b : Val}, Val.beq a b = true → a = b := by
  intro a b h
  cases a <;> cases b <;> simp [Val.beq] at h ⊢ <;> try exact h
  · exact Val.eq_of_beqList h
  · exact ⟨h.1, Val.eq_of_beqList h.2⟩
  · exact Val.eq_of_beq h
theorem Val.eq_of_beqList : ∀ {l m : List Val}, Val.beqList l m = true → l = m := by
  intro l m h
  cases l <;> cases m <;> simp [Val.beqList] at h ⊢
  exact ⟨Val.eq_of_beq h.1, Val.eq_of_beqList h.2⟩
end

/-- Test that an outcome is a given acceptance. -/
def isAcc (r : Out (Res (List Chr))) (v : Val) (s : List Chr) (pos : Pos) : Bool :=
  match r with
  | .ok (.acc v' s' pos') => Val.beq v' v && decide (s' = s) && decide (pos' = pos)
  | _ => false

/-- Test that an outcome is a given rejection. -/
def isRej (r : Out (Res (List Chr))) (m : Msg) (pos : Pos) : Bool :=
  match r with
  | .ok (.rej m' pos') => decide (m' = m) && decide (pos' = pos)
  | _ => false

/-- Test that an outcome is a given compile error. -/
def isIll (r : Out (Res (List Chr))) (f : Fault) : Bool :=
  match r with
  | .ill f' => decide (f' = f)
  | _ => false

theorem accepts_of_eval {E : Env (List Chr)} {p : P} {s : List Chr} {pos : Pos} {v : Val}
    {s' : List Chr} {pos' : Pos} (n : Nat) (h : isAcc (eval E n p s pos) v s' pos' = true) :
    Accepts E p s pos v s' pos' := by
  unfold isAcc at h
  split at h
  · rename_i heq
    simp at h
    obtain ⟨⟨h1, h2⟩, h3⟩ := h
    have := Val.eq_of_beq h1
    subst this h2 h3
    exact run_ok_of_eval n heq
  · cases h

theorem rejects_of_eval {E : Env (List Chr)} {p : P} {s : List Chr} {pos : Pos} {m : Msg}
    {pos' : Pos} (n : Nat) (h : isRej (eval E n p s pos) m pos' = true) :
    Rejects E p s pos m pos' := by
  unfold isRej at h
  split at h
  · rename_i heq
    simp at h
    obtain ⟨h1, h2⟩ := h
    subst h1 h2
    exact run_ok_of_eval n heq
  · cases h

theorem ill_of_eval {E : Env (List Chr)} {p : P} {s : List Chr} {pos : Pos} {f : Fault}
    (n : Nat) (h : isIll (eval E n p s pos) f = true) :
    run E p s pos = .ill f := by
  unfold isIll at h
  split at h
  · rename_i heq
    simp at h
    subst h
    exact run_eq_of_eval heq (by simp)
  · cases h

end Metaparse
