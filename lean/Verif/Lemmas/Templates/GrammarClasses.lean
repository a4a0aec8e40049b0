import Verif.Lemmas.Templates.Rules
import Verif.Lemmas.Templates.Inject
import Verif.Lemmas.GrammarBuild
/-!
# The maps of a grammar and the parsers its rules are
-/

set_option linter.unusedVariables false
set_option linter.unusedSimpArgs false

namespace Metaparse.Tmpl

open Metaparse (Val Msg GExp Pos Res P Env nextPos ch Sem start run buildParser RuleBody)

attribute [local instance] Tmpl.cpp11

variable {U : User}

/-! ### Maps -/

/-- A list of pairs with strings as keys. -/
inductive Pairs {β : Type} (Q : V → β → Prop) : List V → List (List Int × β) → Prop
  | nil : Pairs Q [] []
  | cons {n y b vs l} : Q y b → Pairs Q vs l → Pairs Q (K .mpl_pair [encStr n, y] :: vs) ((n, b) :: l)

theorem pair_fit {n k : List Int} (h : n ≠ k) {y : V} {vs : List V} :
    Pat.fits [.cls .mpl_map [.cls .mpl_pair [.var .K, .var .T], .pack .Ps], .var .K]
      [K .mpl_map (K .mpl_pair [encStr n, y] :: vs), encStr k] [] = none := by
  have h' : ¬ encStr n = encStr k := fun e => h (encStr_inj (good_11 _) (good_11 _) e)
  simp [Pat.fits, Pat.fit, find, h']

theorem map_type {l : List V} : get (inst U) (K .mpl_map l) .type = .ok (K .mpl_map l) := by members body_mpl_map

section
variable {β : Type} {Q : V → β → Prop} {vs : List V} {l : List (List Int × β)} {k : List Int}

theorem map_at_none (h : Pairs Q vs l) (hl : l.lookup k = none) :
    get (inst U) (K .mpl_map_at [K .mpl_map vs, encStr k]) .type = .ok (K .mpl_void_ []) := by
  induction h with
  | nil => members body_mpl_map_at_0
  | @cons n y b vs l hy hs ih =>
      by_cases hn : n = k
      · subst hn; simp [List.lookup] at hl
      · rw [get_inst (body_mpl_map_at_2 (pair_fit hn)), obind_ok]
        refine ih ?_
        have : (k == n) = false := by simp [Ne.symm hn]
        simpa [List.lookup, this] using hl

theorem map_at_some (h : Pairs Q vs l) {b : β} (hl : l.lookup k = some b) :
    ∃ y, Q y b ∧ get (inst U) (K .mpl_map_at [K .mpl_map vs, encStr k]) .type = .ok y := by
  induction h with
  | nil => cases hl
  | @cons n y b' vs l hy hs ih =>
      by_cases hn : n = k
      · subst hn
        simp [List.lookup] at hl
        subst hl
        exact ⟨y, hy, by members body_mpl_map_at_1⟩
      · have : (k == n) = false := by simp [Ne.symm hn]
        obtain ⟨z, hz, hg⟩ := ih (by simpa [List.lookup, this] using hl)
        refine ⟨z, hz, ?_⟩
        rw [get_inst (body_mpl_map_at_2 (pair_fit hn)), obind_ok]
        exact hg

theorem map_has_key (h : Pairs Q vs l) :
    get (inst U) (K .mpl_map_has_key [K .mpl_map vs, encStr k]) .type = .ok (K .mpl_bool_ [ofBool (l.lookup k).isSome]) := by
  induction h with
  | nil => rw [get_inst body_mpl_map_has_key_0, obind_ok]; exact bool_type
  | @cons n y b' vs l hy hs ih =>
      by_cases hn : n = k
      · subst hn
        rw [get_inst body_mpl_map_has_key_1, obind_ok]
        simp only [List.lookup, beq_self_eq_true]
        exact bool_type
      · rw [get_inst (body_mpl_map_has_key_2 (pair_fit hn)), obind_ok]
        have : (k == n) = false := by simp [Ne.symm hn]
        simp only [List.lookup, this]
        exact ih

theorem at_map {v : V} : get (inst U) (K .mpl_at [K .mpl_map vs, v]) .type = get (inst U) (K .mpl_map_at [K .mpl_map vs, v]) .type := by
  have ht : get (inst U) (K .mpl_sequence_tag [K .mpl_map vs]) .type = .ok (K .mpl_map_tag []) := by
    rw [get_inst body_mpl_sequence_tag]
    have : get (inst U) (K .mpl_map vs) .tag = .ok (K .mpl_map_tag []) := by members body_mpl_map
    dsimp! [this]
  rw [get_inst body_mpl_at, ht, Out.bind_ok, owner_inst body_mpl_at_impl_0]
  norm
  rw [get_inst body_mpl_at_impl_0_apply, map_type, Out.bind_ok, obind_ok]
  rfl

theorem at_none (h : Pairs Q vs l) (hl : l.lookup k = none) :
    get (inst U) (K .mpl_at [K .mpl_map vs, encStr k]) .type = .ok (K .mpl_void_ []) := by
  rw [at_map]
  exact map_at_none h hl

theorem at_some (h : Pairs Q vs l) {b : β} (hl : l.lookup k = some b) :
    ∃ y, Q y b ∧ get (inst U) (K .mpl_at [K .mpl_map vs, encStr k]) .type = .ok y := by
  obtain ⟨y, hy, hg⟩ := map_at_some (U := U) h hl
  refine ⟨y, hy, ?_⟩
  rw [at_map]
  exact hg

theorem has_key (h : Pairs Q vs l) :
    get (inst U) (K .mpl_has_key [K .mpl_map vs, encStr k]) .type = .ok (K .mpl_bool_ [ofBool (l.lookup k).isSome]) := by
  rw [get_inst body_mpl_has_key, map_type, Out.bind_ok, obind_ok]
  exact map_has_key h
end

theorem insert_map {p : V} {vs : List V} :
    get (inst U) (K .mpl_insert [K .mpl_map vs, p]) .type = .ok (K .mpl_map (p :: vs)) := by
  rw [get_inst body_mpl_insert, map_type, Out.bind_ok, obind_ok]
  change get (inst U) (K .mpl_map_insert [K .mpl_map vs, p]) .type = _
  rw [get_inst body_mpl_map_insert, obind_ok]
  exact map_type

/-! ### Vectors -/

theorem back_vector {x y z : V} : get (inst U) (K .mpl_back [K .mpl_vector [x, y, z]]) .type = .ok z := by
  rw [get_inst body_mpl_back, seq_tag_vector, Out.bind_ok, owner_inst body_mpl_back_impl_0]
  norm
  rw [get_inst body_mpl_back_impl_0_apply, vector_type, Out.bind_ok, obind_ok]
  change get (inst U) _ _ = _
  rw [get_inst body_mpl_vector_back_1, obind_ok]
  change get (inst U) _ _ = _
  rw [get_inst body_mpl_vector_back_1, obind_ok]
  change get (inst U) _ _ = _
  members body_mpl_vector_back_0

end Metaparse.Tmpl
