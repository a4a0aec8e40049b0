import Verif.Spec.Formula
/-!
# What the calculator made with `grammar` computes
-/

namespace Metaparse

/-- The value of a formula without the variable, if every operation could be computed with both operators of
its precedence: a sum or difference needs both `m + n` and `m - n` to fit in `int`, a product or quotient
needs `n` not to be zero and both `m * n` and `m / n` to fit. -/
def Formula.valueBoth : Formula → Option Int
  | .num n => fits n
  | .arg => none
  | .add a b => a.valueBoth.bind fun m => b.valueBoth.bind fun n =>
      if (fits (m + n)).isSome ∧ (fits (m - n)).isSome then some (m + n) else none
  | .sub a b => a.valueBoth.bind fun m => b.valueBoth.bind fun n =>
      if (fits (m + n)).isSome ∧ (fits (m - n)).isSome then some (m - n) else none
  | .mul a b => a.valueBoth.bind fun m => b.valueBoth.bind fun n =>
      if (fits (m * n)).isSome ∧ n ≠ 0 ∧ (fits (m.tdiv n)).isSome then some (m * n) else none
  | .div a b => a.valueBoth.bind fun m => b.valueBoth.bind fun n =>
      if (fits (m * n)).isSome ∧ n ≠ 0 ∧ (fits (m.tdiv n)).isSome then some (m.tdiv n) else none

end Metaparse
