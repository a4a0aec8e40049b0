import Verif.Spec.Templates
/-!
# For how many parsers there is a `sequence_apply`
-/

namespace Metaparse.Tmpl

/-- `BOOST_METAPARSE_LIMIT_SEQUENCE_SIZE`: `sequence_apply1`, `sequence_apply2`, ... are defined for smaller numbers. For C++11
it is 5 here, which is what it is unless the user defines it. -/
def applyLimit [L : Lang] : Nat := L.headers.pick 5 Limits.sequence

end Metaparse.Tmpl
