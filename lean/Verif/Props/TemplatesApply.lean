import Verif.Lemmas.Templates.SequenceApply
import Verif.Props.Templates98
import Verif.Props.Sequences
/-!
# C109: `sequence_apply` in the headers

The text of `sequence_apply.hpp`, translated by `/verif/translate/translate.py`, for both kinds of headers. A class template
of the user is a number `t`, and `T<args>` is `user::value<t, args>`.
-/

namespace Metaparse

open Tmpl

section
variable [L : Lang] {I : Type} [Inputs I] {U : User} [Lawful U I] {C : Nat → V → Prop} {E : Env I}

theorem apply_supports (hE : Tmpl.Fits U C E) {n : Nat} (h1 : 1 ≤ n) (hn : n < applyLimit) : E.SupportsSequence n := by
  have := hE.std
  obtain ⟨_ | l⟩ := L
  · intro h
    change E.std = .cpp11 at this
    rw [this] at h
    cases h
  · intro h
    change E.std = .cpp98 ∧ _ at this
    change n < l.sequence at hn
    rw [this.2.1]
    omega

omit [Lawful U I] in
theorem spellsAll_length {vs : List V} {ps : List P} (h : SpellsAll U C E vs ps) : vs.length = ps.length := by
  induction ps generalizing vs with
  | nil => cases h; rfl
  | cons p ps ih =>
    cases h with
    | cons _ h => rw [List.length_cons, List.length_cons, ih h]

/-- C109: `sequence_applyN<T, P1, ..., PN>` is the parser of the model, for every `N` for which it is defined. It has a member
template `apply`, and `apply<S, Pos>::type` is the result of the model, is ill-formed if the model says so, and needs endless
instantiations if the model says so. -/
theorem C109_apply (hE : Tmpl.Fits U C E) {vs : List V} {ps : List P} {t : Nat} (h : SpellsAll U C E vs ps) (h1 : 1 ≤ vs.length)
    (hn : vs.length < applyLimit) (ht : 5 ≤ t) :
    ∃ o, HasApply U (K .sequence_apply_n (.num vs.length :: .num t :: vs)) o ∧
      ∀ s pos, Same (call U o [encInp s, encPos pos]) (omap encRes (run E (P.sequenceApply (.user t) ps) s pos)) := by
  have hs := apply_supports hE h1 hn
  have hl := spellsAll_length h
  have hr : Room Limits.sequence 1 ∧ Room Limits.sequence vs.length := by
    obtain ⟨_ | l⟩ := L
    · exact ⟨trivial, trivial⟩
    · change vs.length < l.sequence at hn
      exact ⟨show 1 < l.sequence by omega, hn⟩
  have hp : Par (modeSame U) (K .sequence (fill .sequence vs)) (run E (.sequence ps)) := by
    obtain ⟨o, ho, hc⟩ := spells_same hE (.sequence h hr.1 hr.2)
    exact ⟨o, same_ok_iff.2 ho, hc⟩
  refine ⟨K .transform [K .sequence (fill .sequence vs), K .impl_sequence_apply_transform_n [.num vs.length, .num t]],
    inst_via (body_sequence_apply_n h1 hn) (oself_inst body_transform rfl), fun s pos => ?_⟩
  have key := transform_at_R (M := modeSame U) (s := s) (pos := pos) (g := P.sequenceApplyTransform ps.length (.user t)) hp
    (same_ok_iff.2 (oself_inst (body_apply_transform (t := .num t) h1 hn) rfl)) (fun w r p hw => by
      obtain ⟨xs, hx, rfl⟩ := (C22_sequence_accepts ps (hl ▸ hs) s pos w r p).1 hw
      have e : omap encVal (P.sequenceApplyTransform ps.length (.user t) (.seq xs)).force =
          .ok (K .user_value (.num t :: encVals xs)) := by
        rw [P.sequenceApplyTransform, ← hx.length, atAll_self]
        simp only [Out.bind_ok, Val.ofOut, Val.force, omap, encVal]
        rw [encUser_other ht]
      rw [e]
      exact same_ok_iff.2 (apply_transform_call h1 hn (hx.length.trans hl.symm)))
  rw [P.sequenceApply, run_step]
  rw [call, Tmpl.get, inst_step]
  exact key

/-- C109: when the parsers accept one after the other, the result is `T<V1, ..., VN>` of their results. -/
theorem C109_accepts (hE : Tmpl.Fits U C E) {vs : List V} {ps : List P} {t : Nat} (h : SpellsAll U C E vs ps) (h1 : 1 ≤ vs.length)
    (hn : vs.length < applyLimit) (ht : 5 ≤ t) {s s' : I} {pos pos' : Pos} {xs : List Val} (hx : InSequence E ps s pos xs s' pos') :
    ∃ o, HasApply U (K .sequence_apply_n (.num vs.length :: .num t :: vs)) o ∧ call U o [encInp s, encPos pos] =
      .ok (K .accept [K .user_value (.num t :: xs.map encVal), encInp s', encPos pos']) := by
  obtain ⟨o, ho, hc⟩ := C109_apply hE h h1 hn ht
  refine ⟨o, ho, ?_⟩
  have hs := apply_supports hE h1 hn
  have := hc s pos
  rw [(C53_sequenceApply_accepts (.user t) ps (spellsAll_length h ▸ hs) s pos (.user t xs) s' pos').2 ⟨xs, hx, rfl⟩] at this
  rw [same_ok_iff.1 this]
  simp only [encRes, encVal]
  rw [encUser_other ht, encVals_map]

/-- C109: it rejects with the message and the position of the first parser that rejects. -/
theorem C109_rejects (hE : Tmpl.Fits U C E) {vs : List V} {ps : List P} {t : Nat} (h : SpellsAll U C E vs ps) (h1 : 1 ≤ vs.length)
    (hn : vs.length < applyLimit) (ht : 5 ≤ t) {s : I} {pos e : Pos} {m : Msg} (hx : FirstRejection E ps s pos m e) :
    ∃ o, HasApply U (K .sequence_apply_n (.num vs.length :: .num t :: vs)) o ∧ call U o [encInp s, encPos pos] =
      .ok (K .reject [encMsg m, encPos e]) := by
  obtain ⟨o, ho, hc⟩ := C109_apply hE h h1 hn ht
  refine ⟨o, ho, ?_⟩
  have hs := apply_supports hE h1 hn
  have := hc s pos
  rw [(C53_sequenceApply_rejects (.user t) ps (spellsAll_length h ▸ hs) s pos m e).2 hx] at this
  exact same_ok_iff.1 this

omit [Inputs I] [Lawful U I] in
/-- C109: there is no `sequence_apply0`, and none for the limit and the numbers above it. -/
theorem C109_limit {n : Nat} (hn : n = 0 ∨ applyLimit ≤ n) (args : List V) (x : Id) :
    owner (inst U) (K .sequence_apply_n (.num n :: args)) x = .ill .noSpecialisation := by
  refine owner_ill_of_none (by intro k hk; cases hk) (resolve_top (choose_of_none fun sp hsp => ?_))
  rw [library_apply] at hsp
  obtain ⟨k, hk, rfl⟩ := List.mem_map.1 hsp
  have := List.mem_range'.1 hk
  have hne : ¬ (k : Int) = n := by
    obtain ⟨j, hj, rfl⟩ := this
    omega
  exact fits_num_ne hne
end

/-! ### A case: a pair of the depth of brackets and a letter -/

section
attribute [local instance] Tmpl.cpp11

/-- The parsers of the pair. -/
def pairClasses : List V := [depthClass, K .lit_c [.num 33]]

theorem pair_spells : SpellsAll depthUser OfUser depthEnv pairClasses [depthParser, P.litC 33] :=
  .cons depth_spells (.cons .lit_c .nil)

theorem pair_run : InSequence depthEnv [depthParser, P.litC 33] (txt "(())!x") start [.int 2, .chr 33] (txt "x") ⟨1, 6, ch '!'⟩ := by
  have h1 : Accepts depthEnv depthParser (txt "(())!x") start (.int 2) (txt "!x") ⟨1, 5, ch ')'⟩ := accepts_of_eval 20 (by decide +kernel)
  have h2 : Accepts depthEnv (P.litC 33) (txt "!x") ⟨1, 5, ch ')'⟩ (.chr 33) (txt "x") ⟨1, 6, ch '!'⟩ := accepts_of_eval 20 (by decide +kernel)
  exact .cons h1 (.cons h2 (.nil ..))

/-- `sequence_apply2<pair, depth, lit_c<'!'>>` gives `pair<int_<2>, char_<'!'>>` for `(())!x`. -/
example : ∃ o, HasApply depthUser (K .sequence_apply_n (.num 2 :: .num 7 :: pairClasses)) o ∧
    call depthUser o [encStr (txt "(())!x"), encPos start] = .ok (K .accept [K .user_value [.num 7, K .mpl_int_ [.num 2],
      K .mpl_char_ [.num 33]], encStr (txt "x"), encPos ⟨1, 6, ch '!'⟩]) :=
  C109_accepts (t := 7) depth_fits pair_spells (by decide) (by decide) (by decide) pair_run

/-- It rejects `(())x` at the `x`. -/
example : ∃ o m, HasApply depthUser (K .sequence_apply_n (.num 2 :: .num 7 :: pairClasses)) o ∧
    call depthUser o [encStr (txt "(())x"), encPos start] = .ok (K .reject [encMsg m, encPos ⟨1, 5, ch ')'⟩]) := by
  obtain ⟨o, ho, h⟩ := C109_rejects (t := 7) depth_fits pair_spells (by decide) (by decide) (by decide) (s := txt "(())x") (pos := start)
    (m := .literalExpected 33) (e := ⟨1, 5, ch ')'⟩)
    ⟨[depthParser], P.litC 33, [], [.int 2], txt "x", ⟨1, 5, ch ')'⟩, rfl,
      .cons (s1 := txt "x") (pos1 := ⟨1, 5, ch ')'⟩) (run_ok_of_eval 20 (by rfl)) (.nil ..), run_ok_of_eval 20 (by rfl)⟩
  exact ⟨o, _, ho, h⟩

/-- There is no `sequence_apply5` with the limit that is the default. -/
example (T a b c d e : V) : owner (inst depthUser) (K .sequence_apply_n [.num 5, T, a, b, c, d, e]) .apply = .ill .noSpecialisation :=
  C109_limit (n := 5) (.inr (by decide)) _ _
end

section
attribute [local instance] headers98

theorem pair_spells98 : SpellsAll depthUser98 OfUser depthEnv98 [K .lit_c [.num 40], K .lit_c [.num 33]] [P.litC 40, P.litC 33] :=
  .cons .lit_c (.cons .lit_c .nil)

theorem pair_run98 : InSequence depthEnv98 [P.litC 40, P.litC 33] ⟨[40, 33, 120], short98⟩ start [.chr 40, .chr 33]
    ⟨[120], short98⟩ ⟨1, 3, 33⟩ := by
  have h1 : Accepts depthEnv98 (P.litC 40) ⟨[40, 33, 120], short98⟩ start (.chr 40) ⟨[33, 120], short98⟩ ⟨1, 2, 40⟩ := by
    unfold Accepts
    exact run_ok_of_eval 20 (by rfl)
  have h2 : Accepts depthEnv98 (P.litC 33) ⟨[33, 120], short98⟩ ⟨1, 2, 40⟩ (.chr 33) ⟨[120], short98⟩ ⟨1, 3, 33⟩ := by
    unfold Accepts
    exact run_ok_of_eval 20 (by rfl)
  exact .cons h1 (.cons h2 (.nil ..))

/-- In C++98, `sequence_apply2<pair, lit_c<'('>, lit_c<'!'>>` gives `pair<char_<'('>, char_<'!'>>` for `(!x`. -/
example : ∃ o, HasApply depthUser98 (K .sequence_apply_n [.num 2, .num 7, K .lit_c [.num 40], K .lit_c [.num 33]]) o ∧
    call depthUser98 o [encStr [40, 33, 120], encPos start] = .ok (K .accept [K .user_value [.num 7, K .mpl_char_ [.num 40],
      K .mpl_char_ [.num 33]], encStr [120], encPos ⟨1, 3, 33⟩]) :=
  C109_accepts (t := 7) depth_fits98 pair_spells98 (by decide) (by decide) (by decide) pair_run98

end

end Metaparse
