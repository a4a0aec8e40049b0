import Verif.Lemmas.Templates.Functions
/-!
# The metafunction classes of the C++11 headers
-/

set_option linter.unusedVariables false
set_option linter.unusedSimpArgs false

namespace Metaparse.Tmpl

open Metaparse (Val Msg GExp Pos Res P Env nextPos ch Sem isCharC anyOfC11 orC isNoneC11 isNoneCImpl)

attribute [local instance] cpp11

variable {U : User}

theorem or_c_type : (bs : List Bool) →
    get (inst U) (K .impl_or_c (bs.map ofBool)) .type = .ok (K .mpl_bool_ [ofBool (orC bs)])
  | [] => by
      rw [List.map_nil, get_inst body_impl_or_c_0]
      dsimp! [bool_type]
      rfl
  | true :: bs => by
      rw [List.map_cons, show ofBool true = .num 1 from rfl, get_inst body_impl_or_c_1]
      dsimp! [bool_type]
      rfl
  | false :: bs => by
      rw [List.map_cons, show ofBool false = .num 0 from rfl, get_inst body_impl_or_c_2]
      dsimp! []
      exact or_c_type bs

theorem any_of_c_pred (l : List Int) : Pred U (K .impl_any_of_c (l.map .num)) (anyOfC11 l) := by
  refine ⟨_, oself_inst body_impl_any_of_c rfl, fun x => ?_⟩
  rw [call, get_inst body_impl_any_of_c_apply]
  norm
  cases l with
  | nil =>
      simp only [List.map_nil, mapOut, Out.bind_ok, anyOfC11, omap]
      have h := or_c_type (U := U) []
      rw [List.map_nil] at h
      rw [h]
      exact Same.rfl' _
  | cons c l =>
      unfold anyOfC11 omap
      rw [obind_assoc]
      have h := val_type_value (U := U) x
      have hm : ∀ (d : Int) (k : List Int), mapOut (fun y1 : V => Op.ev .eq (V.num d) y1) (k.map .num) =
          .ok ((k.map fun c => d == c).map ofBool) := by
        intro d k
        rw [mapOut_ok (g := fun v => match v with | .num c => ofBool (d == c) | _ => .num 0)]
        · simp [List.map_map, Function.comp_def]
        · intro a ha
          obtain ⟨c, _, rfl⟩ := List.mem_map.1 ha
          simp [ev_eq]
      cases hv : x.value with
      | deep => exact absurd hv (value_not_deep x)
      | ill f =>
          rw [hv] at h
          have hi : ∃ g, ((get (inst U) (encVal x) .type).bind fun x => get (inst U) x .value) = .ill g := by
            cases hg : ((get (inst U) (encVal x) .type).bind fun x => get (inst U) x .value) with
            | ill g => exact ⟨g, rfl⟩
            | ok a => rw [hg] at h; exact absurd h (by simp [omap, Same])
            | deep => rw [hg] at h; exact absurd h (by simp [omap, Same])
          obtain ⟨g, hg⟩ := hi
          simp only [← obind_assoc, hg, List.map_cons, mapOut, Out.bind_ill]
          exact trivial
      | ok d =>
          rw [hv] at h
          have hg := Same.ok h
          simp only [← obind_assoc, hg, Out.bind_ok]
          simp only [hm, Out.bind_ok, or_c_type]
          exact Same.rfl' _

theorem none_impl_type (d : Int) : (l : List Int) →
    get (inst U) (K .impl_is_none_c_impl (.num d :: l.map .num)) .type = .ok (K .mpl_bool_ [ofBool (isNoneCImpl d l)])
  | [] => by
      rw [List.map_nil, get_inst body_impl_is_none_c_impl_0]
      dsimp! [bool_type]
      rfl
  | c :: l => by
      by_cases h : d = c
      · subst h
        rw [List.map_cons, get_inst body_impl_is_none_c_impl_1]
        dsimp! [bool_type]
        simp [isNoneCImpl, ofBool]
      · rw [List.map_cons, get_inst (body_impl_is_none_c_impl_2 (by simp [Pat.fits, Pat.fit, find, h]))]
        dsimp! []
        rw [none_impl_type d l]
        simp [isNoneCImpl, h]

theorem is_none_c_pred (l : List Int) : Pred U (K .impl_is_none_c (l.map .num)) (isNoneC11 l) := by
  refine ⟨_, oself_inst body_impl_is_none_c rfl, fun x => ?_⟩
  rw [call, get_inst body_impl_is_none_c_apply]
  norm
  unfold isNoneC11 omap
  rw [obind_assoc]
  refine value_bind fun d => ?_
  dsimp! [none_impl_type]
  exact Same.rfl' _

end Metaparse.Tmpl
