import Verif.Lemmas.Templates.Build
import Verif.Spec.TemplatesApply
/-!
# `sequence_apply`
-/

set_option linter.unusedVariables false
set_option linter.unusedSimpArgs false
set_option linter.unusedSectionVars false

namespace Metaparse.Tmpl

open Metaparse (Val Msg GExp Pos Res P Env Sem run Comb.transform)
open Mode (Bad)

section Bodies
variable [L : Lang] {U : User} {h : V → Out Members} {ys : List V} {n : Nat} {t x : V}

theorem library_apply : library .sequence_apply_n = (List.range' 1 (applyLimit - 1)).map fun (n : Nat) => (
    ⟨[.num n, .var .T, .params .P n],
      [.cls .transform [.padded .sequence (((List.range n).map fun (i : Nat) => .nth .P i)), .cls .impl_sequence_apply_transform_n [.num n, .var .T]]],
      []⟩ : Spec) := by
  obtain ⟨_ | l⟩ := L <;> rfl

theorem library_apply_transform : library .impl_sequence_apply_transform_n = (List.range' 1 (applyLimit - 1)).map fun (n : Nat) => (
    ⟨[.num n, .var .T],
      [],
      [.type .type (.self 0),
       .tmpl .apply [
        ⟨[.var .V],
          [],
          [.type .type (.cls .user_value ([.var .T] ++ ((List.range n).map fun (i : Nat) => .mem (.cls .mpl_at_c [.var .V, .num i]) .type)))]⟩]]⟩ : Spec) := by
  obtain ⟨_ | l⟩ := L <;> rfl

theorem body_sequence_apply_n (h1 : 1 ≤ ys.length) (hy : ys.length < applyLimit) :
    instantiate U h (K .sequence_apply_n (.num ys.length :: t :: ys)) =
      h (K .transform [K .sequence (fill .sequence ys), K .impl_sequence_apply_transform_n [.num ys.length, t]]) := by
  refine Eq.trans (body_of (resolve_top (n := .sequence_apply_n) (by
    rw [library_apply]
    exact choose_range (n := ys.length) (b := [(.P, .many ys), (.T, .one t)]) h1 (by omega) (by
      intro m hm hm'
      have : ¬ (m : Int) = ys.length := by omega
      exact fits_num_ne this) (by
      show Pat.fits [.num ys.length, .var .T, .params .P ys.length] _ _ = _
      rw [fits_num, fits_var rfl]
      exact fits_all rfl (by rfl)))) (by intro k hk; cases hk)) ?_
  simp only [Spec.bases, Spec.decls, evBases, evDecls, Tm.ev]
  rw [evs_cons (by simp) (by simp)]
  simp only [Tm.ev]
  rw [evs_all (vs := ys) rfl]
  body_simp

theorem resolve_apply_transform (h1 : 1 ≤ n) (hn : n < applyLimit) :
    resolve (K .impl_sequence_apply_transform_n [.num n, t]) = some (⟨[(.T, .one t)], [K .impl_sequence_apply_transform_n [.num n, t]]⟩,
      ⟨[.num n, .var .T],
        [],
        [.type .type (.self 0),
         .tmpl .apply [
          ⟨[.var .V],
            [],
            [.type .type (.cls .user_value ([.var .T] ++ ((List.range n).map fun (i : Nat) => .mem (.cls .mpl_at_c [.var .V, .num i]) .type)))]⟩]]⟩) :=
  resolve_top (by
    rw [library_apply_transform]
    exact choose_range (n := n) (b := [(.T, .one t)]) h1 (by omega) (by
      intro m hm hm'
      have : ¬ (m : Int) = n := by omega
      exact fits_num_ne this) (by
      show Pat.fits [.num n, .var .T] _ _ = _
      rw [fits_num, fits_var rfl, Pat.fits]))

theorem body_apply_transform (h1 : 1 ≤ n) (hn : n < applyLimit) :
    instantiate U h (K .impl_sequence_apply_transform_n [.num n, t]) =
      .ok [(.type, .ty (K .impl_sequence_apply_transform_n [.num n, t])), (.apply, .tmpl (K .impl_sequence_apply_transform_n [.num n, t]))] := by
  refine Eq.trans (body_of (resolve_apply_transform h1 hn) (by intro k hk; cases hk)) ?_
  body_simp

theorem evs_each {h : V → Out Members} {c : Ctx} {f : Nat → Tm} {g : Nat → V} {l : List Nat} (h1 : ∀ i x, f i ≠ .spread x)
    (h2 : ∀ i x u, f i ≠ .each x u) (hf : ∀ i ∈ l, (f i).ev h c = .ok (g i)) : Tm.evs h c (l.map f) = .ok (l.map g) := by
  induction l with
  | nil => rw [List.map_nil, List.map_nil, Tm.evs]
  | cons i l ih =>
    rw [List.map_cons, evs_cons (h1 i) (h2 i), hf i (List.mem_cons_self ..), Out.bind_ok,
      ih (fun j hj => hf j (List.mem_cons_of_mem _ hj)), Out.bind_ok, List.map_cons]

/-- `apply<V>::type` for a class that has elements. -/
theorem body_apply_transform_apply (h1 : 1 ≤ n) (hn : n < applyLimit) {g : Nat → V}
    (hg : ∀ i, i < n → get h (K .mpl_at_c [x, .num i]) .type = .ok (g i)) :
    instantiate U h (.cls (K .impl_sequence_apply_transform_n [.num n, t]) .apply [x]) =
      .ok [(.type, .ty (K .user_value (t :: (List.range n).map g)))] := by
  refine Eq.trans (body_of (resolve_in (resolve_apply_transform h1 hn) (choose_here rfl)) (by intro k hk; cases hk)) ?_
  simp only [Spec.bases, Spec.decls, evBases, evDecls, Tm.ev, evs_append]
  rw [evs_each (g := g) (by simp) (by simp) (fun i hi => ?_)]
  · body_simp
  · have := hg i (List.mem_range.mp hi)
    simp only [Tm.ev]
    body_simp
    exact this

theorem choose_of_none {c : Ctx} {self : V} {args : List V} {l : List Spec} (hl : ∀ sp ∈ l, Pat.fits sp.pats args [] = none) :
    choose c self args l = none := by
  induction l with
  | nil => rfl
  | cons sp l ih =>
    rw [choose, hl sp (List.mem_cons_self ..)]
    exact ih fun q hq => hl q (List.mem_cons_of_mem _ hq)

end Bodies

section Elements
variable [Lang] {U : User}

theorem vector_at : ∀ {l : List V} {i : Nat} {w : V}, l[i]? = some w →
    get (inst U) (K .mpl_vector_at [K .mpl_vector l, .num i]) .type = .ok w
  | [], _, _, h => by simp at h
  | v :: l, 0, w, h => by
      simp only [List.getElem?_cons_zero, Option.some.injEq] at h
      subst h
      exact get_inst body_mpl_vector_at_0 .type
  | v :: l, i + 1, w, h => by
      have hi : ¬ (0 : Int) = ((i + 1 : Nat) : Int) := by omega
      rw [get_inst (body_mpl_vector_at_1 (by
        rw [fits_cls, fits_var rfl, Pat.fits, Option.bind_some]
        exact fits_num_ne hi))]
      have : ((i + 1 : Nat) : Int) - 1 = i := by omega
      simp only [Op.ev, Out.bind_ok, this, obind_ok]
      exact vector_at (by simpa using h)

theorem at_c_vector {l : List V} {i : Nat} {w : V} (h : l[i]? = some w) :
    get (inst U) (K .mpl_at_c [K .mpl_vector l, .num i]) .type = .ok w := by
  rw [get_inst body_mpl_at_c, seq_tag_vector, Out.bind_ok, owner_inst body_mpl_at_impl_1]
  simp only [Out.bind_ok, obind_ok, Members.tmpl, find, if_true]
  rw [get_def, get_inst body_mpl_at_impl_1_apply, vector_type, Out.bind_ok, int_value, Out.bind_ok, obind_ok]
  exact vector_at h

end Elements

section Parsers
variable [L : Lang] {U : User} {I : Type} [Inputs I] [Lawful U I]

/-- `transform`, where the metafunction class is only known for the values that the parser gives. -/
theorem transform_at_R {M : Mode U} {v f o' : V} {q : Sem I} {s : I} {pos : Pos} {g : Val → Val} (hp : Par M v q)
    (hof : M.R (owner M.h' f .apply) (.ok o'))
    (hf : ∀ w t p, q s pos = .ok (.acc w t p) → M.R (get M.h' (.cls o' .apply [encVal w]) .type) (omap encVal (g w).force)) :
    M.R (Call M (K .transform [v, f]) s pos) (omap encRes (Comb.transform q g s pos)) := by
  obtain ⟨o, ho, hq⟩ := hp
  replace hq := hq s pos
  rw [call_def, body_transform_apply]
  norm
  unfold Comb.transform
  nx
  rcases res_cases (q s pos) with ⟨m1, p1, hx⟩ | ⟨w1, t1, p1, hx⟩ | ⟨e1, hx⟩ <;> rw [hx] at hq <;>
    simp only [hx, omap_ok, omap_bad, bad_bind, Out.bind_ok] at hq ⊢
  · exact M.via (M.unless_1 hq) hq
  · refine M.via (M.unless_0 hq) ?_
    refine M.gstep body_transform_no_error ?_
    norm
    nx; nx; nx
    replace hf := hf w1 t1 p1 hx
    rcases out_cases (g w1).force with ⟨y, hy⟩ | ⟨e, hy⟩ <;> rw [hy] at hf <;>
      simp only [hy, omap_ok, omap_bad, bad_bind, Out.bind_ok] at hf ⊢
    · nx; nx; nx
      exact M.accept (by fact) (by fact)
    · bad
  · bad

theorem encVals_length : ∀ l : List Val, (encVals l).length = l.length
  | [] => rfl
  | x :: l => by rw [encVals, List.length_cons, List.length_cons, encVals_length l]

theorem encVals_map : ∀ l : List Val, encVals l = l.map encVal
  | [] => rfl
  | x :: l => by rw [encVals, encVals_map l, List.map_cons]

theorem encUser_other {t : Nat} (ht : 5 ≤ t) (l : List V) : encUser t l = K .user_value (.num t :: l) := by
  unfold encUser
  split <;> first | omega | rfl

theorem range_getD (l : List V) : ((List.range l.length).map fun i => l[i]?.getD .root) = l := by
  apply List.ext_getElem?
  intro i
  by_cases h : i < l.length
  · simp [h]
  · simp [h]

/-- The metafunction class of `sequence_apply`. -/
theorem apply_transform_call {n t : Nat} {xs : List Val} (h1 : 1 ≤ n) (hn : n < applyLimit) (hx : xs.length = n) :
    get (inst U) (.cls (K .impl_sequence_apply_transform_n [.num n, .num t]) .apply [encVal (.seq xs)]) .type =
      .ok (K .user_value (.num t :: encVals xs)) := by
  have hl : (encVals xs).length = n := (encVals_length xs).trans hx
  rw [get_inst (body_apply_transform_apply h1 hn (g := fun i => (encVals xs)[i]?.getD .root) (fun i hi => ?_))]
  · rw [← hl, range_getD]
    rfl
  · rw [encVal]
    refine at_c_vector ?_
    rw [List.getElem?_eq_getElem (by omega)]
    rfl

end Parsers

end Metaparse.Tmpl
