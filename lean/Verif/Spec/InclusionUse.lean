/-
The conditions under which the headers of the library are used.
-/
import Verif.Spec.Inclusion
import Verif.Model.InclusionData

namespace Metaparse.Inclusion

/-- Every header of the list is one for the user. -/
abbrev AllPublic (l : List Nat) : Prop := ∀ h ∈ l, ∃ hd, headers[h]? = some hd ∧ isPublic hd = true

/-- The state of the preprocessor before the first header of the library. -/
abbrev Before (env : Env) (s : State) : Prop := Ready macroNames compilerMacros configMacros env s

/-- The standard that the library is used for. -/
abbrev stdOf (env : Env) (s : State) : Nat := standard macroNames compilerMacros configMacros env s

/-- The compiler has templates for string literals. -/
def hasLiterals (env : Env) : Prop := number compilerMacros env.compiler "__clang__" ≠ 0 ∧ env.feature 0 = true

end Metaparse.Inclusion
