/-
Which specialisation of a class template is taken.
-/
import Verif.Model.Templates.Semantics

namespace Metaparse.Tmpl

/-- The arguments fit a definition. -/
def Matches (sp : Spec) (args : List V) : Prop := Pat.fits sp.pats args [] ≠ none

/-- A definition is more specialised than another one: it fits fewer lists of arguments. -/
def MoreSpecialised (p q : Spec) : Prop :=
  (∀ args, Matches p args → Matches q args) ∧ ∃ args, Matches q args ∧ ¬ Matches p args

/-- The definition that C++ takes among those of a template: it fits, and it is more specialised than every other one
that fits.  Where there is none although some fit, the use of the template is ambiguous. -/
def Takes (defs : List Spec) (args : List V) (sp : Spec) : Prop :=
  ∃ i : Nat, defs[i]? = some sp ∧ Matches sp args ∧
    ∀ (j : Nat) (sp' : Spec), j ≠ i → defs[j]? = some sp' → Matches sp' args → MoreSpecialised sp sp'

/-- The definitions of the template of a class: those of the library for a template in a namespace, those in the definition
that is taken for the enclosing class for a member template. -/
inductive Defs [Lang] : V → List Spec → Prop
  | top (n : Id) (args : List V) : Defs (.cls .root n args) (library n)
  | member {o : V} {n' : Id} {args' : List V} {defs : List Spec} {sp : Spec} (n : Id) (args : List V)
      (h : Defs (.cls o n' args') defs) (ht : Takes defs args' sp) :
      Defs (.cls (.cls o n' args') n args) (memberTemplate n sp.decls)

/-- The arguments for which `mpl::equal_to_impl` is ambiguous. -/
def Ambiguous : V → Prop
  | .cls .root .mpl_equal_to_impl [a, b] =>
      (a = .cls .root .string_tag [] ∧ b = .cls .root .impl_string_iterator_tag []) ∨
      (a = .cls .root .impl_string_iterator_tag [] ∧ b = .cls .root .string_tag [])
  | .cls o _ _ => Ambiguous o
  | _ => False

end Metaparse.Tmpl
