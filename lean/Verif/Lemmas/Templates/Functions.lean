import Verif.Lemmas.Templates.Lists
/-!
# The metafunction classes of the headers
-/

set_option linter.unusedVariables false
set_option linter.unusedSimpArgs false
set_option linter.unusedSectionVars false

namespace Metaparse.Tmpl

open Metaparse (Val Msg GExp Pos Res P Env nextPos ch Sem isCharC anyOfC11 orC isNoneC11 isNoneCImpl)

variable [Lang] {U : User}

theorem oself_inst {v o : V} {m : Members} {x : Id} (hb : instantiate U (inst U) v = .ok m) (h : m.tmpl x = .ok o) :
    owner (inst U) v x = .ok o := by rw [owner_inst hb, Out.bind_ok, h]

/-- Use the value of an argument. -/
theorem value_bind {v : Val} {k : V → Out V} {k' : Int → Out V} (H : ∀ c, Same (k (.num c)) (k' c)) :
    Same ((get (inst U) (encVal v) .type).bind fun x => (get (inst U) x .value).bind k) (v.value.bind k') := by
  have h := (val_type_value (U := U) v).bindl k
  rw [obind_assoc] at h
  refine h.trans ?_
  simp only [omap, obind_assoc, Out.bind_ok]
  exact Same.bind (Same.rfl' _) H

theorem is_char_c_pred (c : Int) : Pred U (K .impl_is_char_c [.num c]) (isCharC c) := by
  refine ⟨_, oself_inst body_impl_is_char_c rfl, fun x => ?_⟩
  rw [call, get_inst body_impl_is_char_c_apply]
  norm
  unfold isCharC omap
  rw [obind_assoc]
  refine value_bind fun d => ?_
  dsimp! [ev_eq, bool_type]
  exact Same.rfl' _

theorem mapOut_bad {α β : Type} {f : α → Out β} {k : β → Out β} {l : List α} {a : α} (h : ∀ a, ∃ b, f a = .ill b) :
    ∃ b, mapOut f (a :: l) = .ill b := by
  obtain ⟨b, hb⟩ := h a
  exact ⟨b, by simp [mapOut, hb]⟩

theorem mapOut_ok {α β : Type} {f : α → Out β} {g : α → β} {l : List α} (h : ∀ a ∈ l, f a = .ok (g a)) :
    mapOut f l = .ok (l.map g) := by
  induction l with
  | nil => rfl
  | cons a l ih =>
      simp only [mapOut, h a (List.mem_cons_self ..), Out.bind_ok, ih fun b hb => h b (List.mem_cons_of_mem _ hb), List.map_cons]

end Metaparse.Tmpl
