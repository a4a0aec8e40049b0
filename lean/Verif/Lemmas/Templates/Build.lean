import Verif.Lemmas.Templates.Spell
import Verif.Lemmas.Templates.Inputs
/-!
# `build_parser`
-/

set_option linter.unusedVariables false
set_option linter.unusedSimpArgs false
set_option linter.unusedSectionVars false

namespace Metaparse.Tmpl

open Metaparse (Val Msg GExp Pos Res P Env nextPos ch Sem start run buildParser)

variable [L : Lang] {I : Type} [Inputs I] {U : User} [Lawful U I] {C : Nat → V → Prop} {E : Env I}

/-- What the templates do without limit. -/
noncomputable def modeSame (U : User) : Mode U where
  R := Same
  same h := h
  trans h h' := h.trans h'
  bind h H := Same.bind h H
  h := inst U
  h' := inst U
  step v := by rw [← inst_step]; exact Same.rfl' _
  step' v := by rw [← inst_step]; exact Same.rfl' _
  leaf v := Same.rfl' _
  leaf' v := Same.rfl' _

theorem start_pos : K .source_position [K .mpl_int_ [V.num 1], K .mpl_int_ [V.num 1], K .mpl_char_ [V.num 0]] = encPos start := rfl

theorem same_ok_iff {α : Type} {x : Out α} {a : α} : Same x (.ok a) ↔ x = .ok a := by
  cases x <;> simp [Same]

theorem line_of {T : V} {p : Pos} (h : get (inst U) T .type = .ok (encPos p)) :
    get (inst U) (K .get_line [T]) .type = .ok (K .mpl_int_ [.num p.line]) := by
  have h' := get_line_pos (U := U) (p := p)
  rw [get_inst body_get_line, pos_type] at h'
  rw [get_inst body_get_line, h]
  exact h'

theorem col_of {T : V} {p : Pos} (h : get (inst U) T .type = .ok (encPos p)) :
    get (inst U) (K .get_col [T]) .type = .ok (K .mpl_int_ [.num p.col]) := by
  have h' := get_col_pos (U := U) (p := p)
  rw [get_inst body_get_col, pos_type] at h'
  rw [get_inst body_get_col, h]
  exact h'

section
variable {v o : V} {s : I} (ho : HasApply U v o)
include ho

theorem parsing_failed_inst {m : Msg} {p : Pos} (h : call U o [encInp s, encPos start] = .ok (encRes (Res.rej (I := I) m p))) :
    inst U (K .parsing_failed [v, encInp s]) =
      inst U (K .x__________________PARSING_FAILED__________________x [.num p.line, .num p.col, encMsg m]) := by
  have hp := same_ok_iff.1 ((modeSame U).position_rej (same_ok_iff.2 h))
  have hm := same_ok_iff.1 ((modeSame U).message (same_ok_iff.2 h))
  change get (inst U) _ _ = _ at hp hm
  rw [inst_of body_parsing_failed, start_pos, ho]
  simp only [Out.bind_ok, line_of hp, col_of hp, int_value, hm]
  cases inst U (K .x__________________PARSING_FAILED__________________x [.num p.line, .num p.col, encMsg m]) <;> rfl

theorem build_parser_rej {m : Msg} {p : Pos} (h : call U o [encInp s, encPos start] = .ok (encRes (Res.rej (I := I) m p))) :
    ∃ f, call U (K .build_parser [v]) [encInp s] = .ill f := by
  rw [call, get_inst body_build_parser_apply, start_pos, ho]
  have he := same_ok_iff.1 ((modeSame U).err_rej (same_ok_iff.2 h))
  change get (inst U) _ _ = _ at he
  rw [Out.bind_ok, he, Out.bind_ok, Out.bind_ok]
  norm
  have h1 := (modeSame U).get_of (x := .type) ((modeSame U).eval_1 (A := K .parsing_failed [v, encInp s])
    (B := K .get_result [.cls o .apply [encInp s, encPos start]]))
  change Same (get (inst U) _ _) (get (inst U) (K .parsing_failed [v, encInp s]) _) at h1
  rw [show get (inst U) (K .parsing_failed [v, encInp s]) .type =
    get (inst U) (K .x__________________PARSING_FAILED__________________x [.num p.line, .num p.col, encMsg m]) .type by
      rw [get, parsing_failed_inst ho h]; rfl, get_inst body_x__________________PARSING_FAILED__________________x] at h1
  simp only [ev_add, ev_eq, Out.bind_ok] at h1
  rw [if_pos (by simp [ofBool]; omega)] at h1
  cases hx : get (inst U) (K .mpl_eval_if [K .mpl_bool_ [.num 1], K .parsing_failed [v, encInp s],
      K .get_result [.cls o .apply [encInp s, encPos start]]]) .type with
  | ill f => exact ⟨f, rfl⟩
  | ok a => rw [hx] at h1; exact absurd h1 (by simp [Same])
  | deep => rw [hx] at h1; exact absurd h1 (by simp [Same])

theorem build_parser_acc {x : Val} {t : I} {p : Pos}
    (h : call U o [encInp s, encPos start] = .ok (encRes (.acc x t p))) :
    call U (K .build_parser [v]) [encInp s] = .ok (encVal x) := by
  rw [call, get_inst body_build_parser_apply, start_pos, ho]
  have he := same_ok_iff.1 ((modeSame U).err_acc (same_ok_iff.2 h))
  change get (inst U) _ _ = _ at he
  rw [Out.bind_ok, he, Out.bind_ok, Out.bind_ok]
  norm
  exact same_ok_iff.1 ((modeSame U).via (modeSame U).eval_0 ((modeSame U).result (same_ok_iff.2 h)))

theorem build_parser_bad {f : Option Fault} (h : Same (call U o [encInp s, encPos start]) (Mode.Bad f)) :
    Same (call U (K .build_parser [v]) [encInp s]) (Mode.Bad f) := by
  rw [call, get_inst body_build_parser_apply, start_pos, ho]
  rw [Out.bind_ok, obind_assoc]
  exact (modeSame U).bind_bad ((modeSame U).err_bad h)
end

theorem build_parser_same (hE : Fits U C E) {v : V} {p : P} (h : Spells U C E v p) (s : I) :
    Same (call U (K .build_parser [v]) [encInp s]) (omap encVal (buildParser E p s)) := by
  obtain ⟨o, ho, hc⟩ := spells_same hE h
  replace hc := hc s start
  unfold buildParser
  rcases res_cases (run E p s start) with ⟨m, q, hx⟩ | ⟨x, t, q, hx⟩ | ⟨f, hx⟩ <;> rw [hx] at hc ⊢
  · obtain ⟨f, hf⟩ := build_parser_rej ho (same_ok_iff.1 hc)
    rw [hf]
    trivial
  · rw [build_parser_acc ho (same_ok_iff.1 hc)]
    exact Same.rfl' _
  · rw [omap_bad] at hc
    rw [bad_bind, omap_bad]
    exact build_parser_bad ho hc

theorem parsing_failed_same (hE : Fits U C E) {v : V} {p : P} (h : Spells U C E v p) {s : I} {m : Msg} {q : Pos}
    (hr : run E p s start = .ok (.rej m q)) :
    inst U (K .parsing_failed [v, encInp s]) =
      inst U (K .x__________________PARSING_FAILED__________________x [.num q.line, .num q.col, encMsg m]) := by
  obtain ⟨o, ho, hc⟩ := spells_same hE h
  replace hc := hc s start
  rw [hr] at hc
  exact parsing_failed_inst ho (same_ok_iff.1 hc)

end Metaparse.Tmpl
