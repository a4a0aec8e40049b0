import Verif.Spec.Templates
import Verif.Model.Grammar
/-!
# Which class templates are which grammars
-/

namespace Metaparse.Tmpl

open Metaparse (Val P Env)

attribute [local instance] Tmpl.cpp11

/-- A link of a chain `grammar<…>::rule<…>::import<…>…`, with the classes that are its arguments. -/
inductive Link where
  | rule (text action : V)
  | import_ (name parser : V)

/-- `T::template rule<…>` or `T::template import<…>` -/
noncomputable def Link.on (U : User) (v : V) : Link → Out V
  | .rule t a => (owner (inst U) v .rule).bind fun o => .ok (.cls o .rule [t, a])
  | .import_ n p => (owner (inst U) v .import_).bind fun o => .ok (.cls o .import_ [n, p])

/-- A chain of links, from left to right. -/
noncomputable def linked (U : User) (v : V) : List Link → Out V
  | [] => .ok v
  | l :: ls => (l.on U v).bind fun w => linked U w ls

/-- The link of the headers is the one of the model. The argument `Action` of `rule` is `no_action` unless it is given. -/
inductive LinkOf (U : User) (C : Nat → V → Prop) (E : Env (List Int)) : Link → Metaparse.Grammar.Addition → Prop
  | rule {t} : LinkOf U C E (.rule (encStr t) (K .grammar_util_no_action [])) (.rule t none)
  | action {t f g} : Fun1 U f g → LinkOf U C E (.rule (encStr t) f) (.rule t (some g))
  | import_ {n v p} : Spells U C E v p → LinkOf U C E (.import_ (encStr n) v) (.import_ n p)

/-- The same for chains. -/
inductive LinksOf (U : User) (C : Nat → V → Prop) (E : Env (List Int)) : List Link → List Metaparse.Grammar.Addition → Prop
  | nil : LinksOf U C E [] []
  | cons {l a ls as} : LinkOf U C E l a → LinksOf U C E ls as → LinksOf U C E (l :: ls) (a :: as)

end Metaparse.Tmpl
