import Verif.Spec.Subparsers
/-!
# Lemmas about the parts of a parser
-/

namespace Metaparse

/-- `Every` is monotone. -/
theorem P.Every.mono {Q Q' : P → Prop} (h : ∀ p, Q p → Q' p) {p : P} (hp : p.Every Q) :
    p.Every Q' := by
  induction hp with
  | mk h1 _ ih => exact .mk (h _ h1) ih

/-- All parsers of the list satisfy `Q` in all parts. -/
def P.EveryL (Q : P → Prop) : List P → Prop
  | [] => True
  | p :: ps => p.Every Q ∧ P.EveryL Q ps

theorem P.everyL_iff {Q : P → Prop} (ps : List P) : P.EveryL Q ps ↔ ∀ q ∈ ps, q.Every Q := by
  induction ps with
  | nil => simp [P.EveryL]
  | cons p ps ih => simp [P.EveryL, ih]

theorem P.every_iff {Q : P → Prop} {p : P} : p.Every Q ↔ Q p ∧ P.EveryL Q p.parts := by
  rw [P.everyL_iff]
  exact ⟨fun | .mk h h' => ⟨h, h'⟩, fun h => .mk h.1 h.2⟩

theorem P.sizeOf_part {p q : P} (hq : q ∈ p.parts) : sizeOf q < sizeOf p := by
  cases p with
  | sequence ps =>
      have := List.sizeOf_lt_of_mem (show q ∈ ps from hq); simp only [sequence.sizeOf_spec]; omega
  | oneOf ps =>
      have := List.sizeOf_lt_of_mem (show q ∈ ps from hq); simp only [oneOf.sizeOf_spec]; omega
  | nthOfC n ps =>
      have := List.sizeOf_lt_of_mem (show q ∈ ps from hq); simp only [nthOfC.sizeOf_spec]; omega
  | lastOf ps =>
      have := List.sizeOf_lt_of_mem (show q ∈ ps from hq); simp only [lastOf.sizeOf_spec]; omega
  | _ =>
      simp only [P.parts, List.mem_cons, List.not_mem_nil, or_false] at hq <;>
        rcases hq with rfl | rfl | rfl <;> simp +arith

/-- Induction over the parts of a parser. -/
theorem P.partsInduction {motive : P → Prop}
    (h : ∀ p : P, (∀ q ∈ p.parts, motive q) → motive p) (p : P) : motive p := by
  have key : ∀ n, ∀ p : P, sizeOf p < n → motive p := by
    intro n
    induction n with
    | zero => intro p hp; omega
    | succ n ih =>
      intro p hp
      refine h p fun q hq => ih q ?_
      have := P.sizeOf_part hq
      omega
  exact key _ p (Nat.lt_succ_self _)

theorem P.every_of_forall {Q : P → Prop} (h : ∀ p, Q p) (p : P) : p.Every Q := by
  induction p using P.partsInduction with
  | _ p ih => exact .mk (h p) ih

theorem P.Every.part {Q : P → Prop} {p q : P} (h : p.Every Q) (hq : q ∈ p.parts) : q.Every Q := by
  cases h with | mk _ h => exact h q hq

theorem P.Every.here {Q : P → Prop} {p : P} (h : p.Every Q) : Q p := by
  cases h with | mk h _ => exact h

end Metaparse
