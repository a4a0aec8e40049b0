import Verif.Lemmas.Templates.Basic
/-!
# Unfolding the definition of a class
-/

namespace Metaparse.Tmpl

theorem obind_assoc {α β γ : Type} (x : Out α) (f : α → Out β) (g : β → Out γ) :
    (x.bind f).bind g = x.bind fun a => (f a).bind g := by cases x <;> rfl

theorem obind_ok {α : Type} (x : Out α) : (x.bind fun a => Out.ok a) = x := by cases x <;> rfl

theorem choose_here {c : Ctx} {self : V} {args : List V} {sp : Spec} {rest : List Spec} {b : List (Id × Bind)}
    (h : Pat.fits sp.pats args [] = some b) :
    choose c self args (sp :: rest) = some (⟨b ++ c.vars, self :: c.selves⟩, sp) := by
  simp only [choose, h]

theorem choose_next {c : Ctx} {self : V} {args : List V} {sp : Spec} {rest : List Spec} {r : Option (Ctx × Spec)}
    (h : Pat.fits sp.pats args [] = none) (h' : choose c self args rest = r) :
    choose c self args (sp :: rest) = r := by
  simp only [choose, h]
  exact h'

variable [Lang]

theorem resolve_top {n : Id} {args : List V} {r : Option (Ctx × Spec)}
    (h : choose ⟨[], []⟩ (.cls .root n args) args (library n) = r) : resolve (.cls .root n args) = r := by
  simp only [resolve]
  exact h

theorem resolve_in {o : V} {n n' : Id} {args args' : List V} {c : Ctx} {sp : Spec} {r : Option (Ctx × Spec)}
    (h : resolve (.cls o n' args') = some (c, sp))
    (h' : choose c (.cls (.cls o n' args') n args) args (memberTemplate n sp.decls) = r) :
    resolve (.cls (.cls o n' args') n args) = r := by
  rw [resolve]
  simp only [h]
  exact h'

theorem body_of {U : User} {h : V → Out Members} {o : V} {n : Id} {args : List V} {c : Ctx} {sp : Spec}
    (hr : resolve (.cls o n args) = some (c, sp)) (ho : ∀ k, o ≠ .fn k) :
    instantiate U h (.cls o n args) = (evBases h c sp.bases).bind fun bs =>
      (evDecls h (.cls o n args) c sp.decls).bind fun ds => .ok (ds ++ bs) := by
  cases o with
  | fn k => exact absurd rfl (ho k)
  | _ => simp only [instantiate, hr]

theorem fits_dup_boost_is_same_0 {v : V} : Pat.fits [.var .T, .var .T] [v, v] [] = some [(.T, .one v)] := by
  simp [Pat.fits, Pat.fit, find]


theorem fits_dup_impl_is_none_c_impl_1 {v : V} {vs : List V} :
    Pat.fits [.var .D, .var .D, .pack .Cs] (v :: v :: vs) [] = some [(.Cs, .many vs), (.D, .one v)] := by
  simp [Pat.fits, Pat.fit, find]

theorem fits_dup_impl_distance {s a b : V} :
    Pat.fits [.cls .impl_string_iterator [.var .S, .var .A], .cls .impl_string_iterator [.var .S, .var .B]]
      [.cls .root .impl_string_iterator [s, a], .cls .root .impl_string_iterator [s, b]] [] =
    some [(.B, .one b), (.A, .one a), (.S, .one s)] := by
  simp [Pat.fits, Pat.fit, find]

theorem fits_dup_mpl_map_at_1 {k t : V} {ps : List V} :
    Pat.fits [.cls .mpl_map [.cls .mpl_pair [.var .K, .var .T], .pack .Ps], .var .K]
      [.cls .root .mpl_map (.cls .root .mpl_pair [k, t] :: ps), k] [] =
    some [(.Ps, .many ps), (.T, .one t), (.K, .one k)] := by
  simp [Pat.fits, Pat.fit, find]

theorem fits_dup_mpl_map_has_key_1 {k t : V} {ps : List V} :
    Pat.fits [.cls .mpl_map [.cls .mpl_pair [.var .K, .var .T], .pack .Ps], .var .K]
      [.cls .root .mpl_map (.cls .root .mpl_pair [k, t] :: ps), k] [] =
    some [(.Ps, .many ps), (.T, .one t), (.K, .one k)] := fits_dup_mpl_map_at_1

/-- Unfold the terms of a definition. -/
macro "body_simp" : tactic => `(tactic| simp only [Spec.bases, Spec.decls, evBases, evDecls, Tm.ev, Tm.evs, Ctx.one, Ctx.many,
  Ctx.self, Ctx.push, find, get, owner, obind_assoc, Out.bind_ok, reduceCtorEq, if_true, if_false, List.append_nil,
  List.append, obind_ok, List.nil_append, List.cons_append, List.append_assoc, List.getElem?_cons_zero, List.getElem?_cons_succ])

end Metaparse.Tmpl
