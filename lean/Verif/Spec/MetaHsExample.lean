import Verif.Spec.MetaHsEval
/-!
# What the functions of the example of `meta_hs` compute
-/

namespace Metaparse

/-- The Fibonacci numbers, beginning with 1, 1. -/
def fibonacci : Nat → Int
  | 0 => 1
  | 1 => 1
  | n + 2 => fibonacci n + fibonacci (n + 1)

/-- The factorials. -/
def factorial : Nat → Int
  | 0 => 1
  | n + 1 => (n + 1) * factorial n

/-- A number that `int` can hold. -/
def FitsInt (k : Int) : Prop := -2147483648 ≤ k ∧ k ≤ 2147483647

end Metaparse
