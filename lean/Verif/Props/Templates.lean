import Verif.Lemmas.Templates.Build
import Verif.Lemmas.Templates.Numbers
import Verif.Lemmas.Templates.Inject
import Verif.Spec.Outcome
/-!
# The headers do what the model says

C93. The text of the headers, translated by `/verif/translate/translate.py` to the class templates of
`Verif/Model/Templates`, instantiated by the rules of `Semantics.lean`.
-/

namespace Metaparse

open Tmpl

attribute [local instance] Tmpl.cpp11

variable {U : User} {C : Nat → V → Prop} {E : Env (List Int)}

/-- C93: the parsers of the model are the class templates of the headers. A class `v` that is written as the parser `p` has a
member template `apply`, and `v::apply<S, Pos>::type` is the result of the model, is ill-formed if the model says so, and
needs endless instantiations if the model says so. -/
theorem C93_apply (hE : Tmpl.Fits U C E) {v : V} {p : P} (h : Spells U C E v p) :
    ∃ o, HasApply U v o ∧ ∀ s pos, Same (call U o [encStr s, encPos pos]) (omap encRes (run E p s pos)) := spells_same hE h

/-- C93: different results are different classes. -/
theorem C93_faithful {r r' : Res (List Int)} (hr : ∀ v s p, r = .acc v s p → NoBad v) : encRes r = encRes r' ↔ r = r' :=
  ⟨encRes_inj text_inj (fun v s p h => ⟨hr v s p h, legible_11 v⟩) fun v _ _ _ => legible_11 v, fun h => h ▸ rfl⟩

/-- C93: `build_parser<v>::apply<S>::type` is the value of the model. -/
theorem C93_build_parser (hE : Tmpl.Fits U C E) {v : V} {p : P} (h : Spells U C E v p) (s : List Int) :
    Same (call U (K .build_parser [v]) [encStr s]) (omap encVal (buildParser E p s)) := build_parser_same hE h s

/-- C93: when the parser rejects, what the compiler is asked to instantiate is
`x__________________PARSING_FAILED__________________x<line, col, message>`, which is ill-formed for every line. -/
theorem C93_parsing_failed (hE : Tmpl.Fits U C E) {v : V} {p : P} (h : Spells U C E v p) {s : List Int} {m : Msg} {q : Pos}
    (hr : run E p s start = .ok (.rej m q)) :
    inst U (K .parsing_failed [v, encStr s]) =
        inst U (K .x__________________PARSING_FAILED__________________x [.num q.line, .num q.col, encMsg m]) ∧
      ∃ f, call U (K .build_parser [v]) [encStr s] = .ill f := by
  refine ⟨parsing_failed_same hE h hr, ?_⟩
  obtain ⟨o, ho, hc⟩ := spells_same hE h
  have := hc s start
  rw [hr] at this
  exact build_parser_rej ho (same_ok_iff.1 this)

/-- C93: the typedef `int_` gives the result of the model whenever the number does not overflow. -/
theorem C93_int (hE : Tmpl.Fits U C E) {v : V} (hv : Alias Hdr.alias_int_ v) :
    ∃ o, HasApply U v o ∧ ∀ s pos r, run E P.int_ s pos = .ok r → call U o [encStr s, encPos pos] = .ok (encRes r) := by
  obtain ⟨o, ho, hc⟩ := spells_same hE (.int_ hv)
  refine ⟨o, ho, fun s pos r hr => ?_⟩
  have := hc s pos
  rw [int_run hr] at this
  exact same_ok_iff.1 this

/-! ### A case: the depth of brackets

`struct depth : one_of<middle_of<lit_c<'('>, transform<depth, next>, lit_c<')'>>, return_<int_<0>>> {};` -/

/-- A metafunction class of the user: the next number. -/
def nextClass : List V → Out V
  | [.cls .root .mpl_int_ [.num n]] => .ok (K .mpl_int_ [.num (n + 1)])
  | _ => .ill .noType

/-- The same in the model. -/
def nextVal : Val → Val
  | .int n => .int (n + 1)
  | _ => .bad .noType

/-- The class of the user. -/
def depthClass : V := K .one_of [K .middle_of [K .lit_c [.num 40], K .transform [.rule 0, .fn 0], K .lit_c [.num 41]],
  K .return_ [K .mpl_int_ [.num 0]]]

/-- The parser of the model. -/
def depthParser : P := .oneOf [.middleOf (P.litC 40) (.transform (.ref 0) nextVal) (P.litC 41), .ret (.int 0)]

/-- The classes of the user. -/
def depthUser : User := ⟨fun _ => nextClass, fun _ => depthClass⟩

/-- The environment of the model. -/
def depthEnv : Env (List Int) := { input := Metaparse.listInput, rules := fun _ => depthParser }

theorem next_user (n : Nat) (l : List V) : nextClass [Tmpl.encUser n l] = .ill .noType := by
  unfold Tmpl.encUser
  split <;> rfl

theorem next_fun : Fun1 depthUser (.fn 0) nextVal := by
  refine ⟨.fn 0, ?_, fun x => ?_⟩
  · unfold HasApply owner
    rw [inst_step]
    rfl
  · rw [call, Tmpl.get, inst_step]
    simp only [instantiate, depthUser]
    cases x with
    | msg m => cases m <;> exact trivial
    | gexp e => cases e <;> exact trivial
    | user n args =>
        simp only [encVal]
        rw [next_user]
        exact trivial
    | _ => first | exact trivial | rfl

theorem depth_spells : Spells depthUser OfUser depthEnv depthClass depthParser :=
  .one_of (.cons (.middle_of .lit_c (.transform (.rule rfl) next_fun) .lit_c trivial) (.cons (.return_ (.int 0)) .nil)) trivial

theorem depth_fits : Tmpl.Fits depthUser OfUser depthEnv := ⟨rfl, rfl, fun _ _ h => ⟨depthClass, h ▸ derived_rule, depth_spells, trivial⟩⟩

/-- The class gives `int_<2>` for `(())!`, and the rest. -/
example : ∃ o, HasApply depthUser depthClass o ∧ call depthUser o [encStr (txt "(())!"), encPos start] =
    .ok (K .accept [K .mpl_int_ [.num 2], encStr (txt "!"), encPos ⟨1, 5, ch ')'⟩]) := by
  obtain ⟨o, ho, h⟩ := C93_apply depth_fits depth_spells
  have h := h (txt "(())!") start
  rw [run_ok_of_eval (r := .acc (.int 2) (txt "!") ⟨1, 5, ch ')'⟩) 20 (by rfl)] at h
  exact ⟨o, ho, same_ok_iff.1 h⟩

/-- `build_parser<depth>::apply<"(())!">::type` is `int_<2>`. -/
example : call depthUser (K .build_parser [depthClass]) [encStr (txt "(())!")] = .ok (K .mpl_int_ [.num 2]) := by
  have h := C93_build_parser depth_fits depth_spells (txt "(())!")
  unfold buildParser at h
  rw [run_ok_of_eval (r := .acc (.int 2) (txt "!") ⟨1, 5, ch ')'⟩) 20 (by rfl)] at h
  exact same_ok_iff.1 h

/-- `entire_input<depth>` rejects it, at the `!`. -/
example : ∃ f, call depthUser (K .build_parser [K .entire_input [depthClass, encMsg .endOfInputExpected]])
    [encStr (txt "(())!")] = .ill f :=
  (C93_parsing_failed (m := .endOfInputExpected) (q := ⟨1, 5, ch ')'⟩) depth_fits (.entire_input depth_spells trivial)
    (run_ok_of_eval 20 (by rfl))).2

/-- The class of `int_`. -/
example : ∃ v o, Alias Hdr.alias_int_ v ∧ HasApply depthUser v o ∧ call depthUser o [encStr (txt "42,"), encPos start] =
    .ok (encRes (.acc (.int 42) (txt ",") ⟨1, 3, ch '2'⟩)) := by
  obtain ⟨o, ho, h⟩ := C93_int depth_fits (v := _) rfl
  exact ⟨_, o, rfl, ho, h _ _ _ (run_ok_of_eval 20 (by rfl))⟩

/-- The results of the model are different classes. -/
example : encRes (.acc (.int 2) ([] : List Int) start) ≠ encRes (.acc (.chr 2) ([] : List Int) start) :=
  fun h => by have := (C93_faithful (by intro v s p h; cases h; trivial)).1 h; cases this

end Metaparse
