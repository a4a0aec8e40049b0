import Verif.Lemmas.Templates.Functions
import Verif.Lemmas.Templates.Den
/-!
# The metafunction classes of the C++98 headers
-/

set_option linter.unusedVariables false
set_option linter.unusedSimpArgs false

namespace Metaparse.Tmpl

open Metaparse (Val Msg GExp Pos Res P Env nextPos ch Sem isNone98 isNone98Rev)

variable [L : Lang] {l : Limits} {U : User}

theorem is_none_rev (hL : L.headers = .cpp98 l) : ∀ cs : List Int, cs.length < l.oneCharExcept →
    Pred U (K .impl_is_none_n (fill .impl_is_none_n (.num cs.length :: chars cs.reverse))) fun v => isNone98Rev v cs
  | [], h => by
      refine ⟨_, oself_inst (body98_is_none_0 hL) rfl, fun x => ?_⟩
      show Same (call U (K .impl_is_none_n (fill .impl_is_none_n [.num 0])) _) _
      rw [call, get, inst_of (body98_is_none_0_apply hL)]
      change Same (get (inst U) _ _) _
      rw [bool_type]
      exact Same.rfl' _
  | c :: cs, h => by
      obtain ⟨o, ho, hx⟩ := is_none_rev hL cs (by simp at h; omega)
      have hr : chars (c :: cs).reverse = chars cs.reverse ++ [K .mpl_char_ [.num c]] := by simp [chars]
      have hl : (chars cs.reverse).length = cs.length := by simp [chars]
      have hlen : (chars cs.reverse).length + 1 < l.oneCharExcept := by rw [hl]; exact h
      have hn : ((c :: cs).length : Int) = (((chars cs.reverse).length + 1 : Nat) : Int) := by rw [hl]; rfl
      rw [fill_is_none hL (by simp [chars]), hr, hn]
      refine ⟨_, oself_inst (body98_is_none hL hlen) rfl, fun x => ?_⟩
      rw [call, get, inst_of (body98_is_none_apply hL hlen)]
      rw [hl]
      simp only [obind_assoc]
      unfold isNone98Rev omap
      rw [obind_assoc]
      refine value_bind fun d => ?_
      dsimp! [char_type, char_value, ev_eq]
      rw [show owner (inst U) (K .impl_is_none_n (fill .impl_is_none_n (.num cs.length :: chars cs.reverse))) .apply = .ok o from ho]
      dsimp! []
      change Same (get (inst U) _ _) _
      by_cases hd : d = c
      · simp only [hd, if_true, decide_true, beq_self_eq_true, ofBool]
        rw [get_inst body_mpl_eval_if]
        dsimp! []
        rw [get_inst body_mpl_if_]
        dsimp! [bool_value]
        rw [get_inst (body_mpl_if_c_1 rfl)]
        dsimp! [bool_type]
        exact Same.rfl' _
      · have hb : (d == c) = false := by simp [hd]
        simp only [hd, hb, if_false, ofBool]
        rw [get_inst body_mpl_eval_if]
        dsimp! []
        rw [get_inst body_mpl_if_]
        dsimp! [bool_value]
        rw [get_inst body_mpl_if_c_0]
        dsimp! []
        exact hx x

theorem is_none_pred (hL : L.headers = .cpp98 l) (cs : List Int) (h : cs.length < l.oneCharExcept) :
    Pred U (K .impl_is_none_n (fill .impl_is_none_n (.num cs.length :: chars cs))) (isNone98 cs) := by
  have := is_none_rev (U := U) hL cs.reverse (by simpa using h)
  rw [List.length_reverse, List.reverse_reverse] at this
  exact this

end Metaparse.Tmpl
