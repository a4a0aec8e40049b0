import Verif.Spec.Outcome
/-!
# Conditions on all parts of a parser expression
-/

namespace Metaparse

/-- The parsers a parser expression is directly made of. -/
def P.parts : P → List P
  | .oneChar => []
  | .empty _ => []
  | .fail _ => []
  | .ret _ => []
  | .acceptWhen p _ _ => [p]
  | .changeErrorMessage p _ => [p]
  | .transformErrorMessage p _ => [p]
  | .transformError p _ => [p]
  | .transform p _ => [p]
  | .always p _ => [p]
  | .lookAhead p => [p]
  | .except p _ _ => [p]
  | .optional p _ => [p]
  | .if_ p _ _ => [p]
  | .failAtFirstCharExpected p => [p]
  | .foldl p _ _ => [p]
  | .foldlRejectIncomplete p _ _ => [p]
  | .foldlStartWithParser p sp _ => [p, sp]
  | .foldlRejectIncompleteStartWithParser p sp _ => [p, sp]
  | .foldrStartWithParser p sp _ => [p, sp]
  | .ifAccepts p q => [p, q]
  | .sequence ps => ps
  | .oneOf ps => ps
  | .nthOfC _ ps => ps
  | .lastOf ps => ps
  | .middleOf p1 p2 p3 => [p1, p2, p3]
  | .iterate _ p _ => [p]
  | .keyword _ _ => []
  | .oneOfC _ => []
  | .oneCharExceptC _ => []
  | .ref _ => []
  | .native _ => []

/-- The parser expression and all parsers it is made of, however deep, satisfy `Q`. -/
inductive P.Every (Q : P → Prop) : P → Prop
  | mk {p : P} : Q p → (∀ q ∈ p.parts, P.Every Q q) → P.Every Q p

end Metaparse
