import Verif.Props.Templates
import Verif.Props.Independence
/-!
# The headers of C++98 do what the model says

C95. The text of the headers, translated by `/verif/translate/translate.py`, with the files of `cpp98/` in place of those of
`cpp11/`, for every value of the limits. The theorems are for both kinds of headers, and for every kind of input.
-/

namespace Metaparse

open Tmpl

section
variable [Lang] {I : Type} [Inputs I] {U : User} [Lawful U I] {C : Nat → V → Prop} {E : Env I}

/-- C95: the parsers of the model are the class templates of the headers. A class `v` that is written as the parser `p` has a
member template `apply`, and `v::apply<S, Pos>::type` is the result of the model, is ill-formed if the model says so, and
needs endless instantiations if the model says so. -/
theorem C95_apply (hE : Tmpl.Fits U C E) {v : V} {p : P} (h : Spells U C E v p) :
    ∃ o, HasApply U v o ∧ ∀ s pos, Same (call U o [encInp s, encPos pos]) (omap encRes (run E p s pos)) := spells_same hE h

/-- C95: `build_parser<v>::apply<S>::type` is the value of the model. -/
theorem C95_build_parser (hE : Tmpl.Fits U C E) {v : V} {p : P} (h : Spells U C E v p) (s : I) :
    Same (call U (K .build_parser [v]) [encInp s]) (omap encVal (buildParser E p s)) := build_parser_same hE h s

/-- C95: when the parser rejects, what the compiler is asked to instantiate is
`x__________________PARSING_FAILED__________________x<line, col, message>`, which is ill-formed for every line. -/
theorem C95_parsing_failed (hE : Tmpl.Fits U C E) {v : V} {p : P} (h : Spells U C E v p) {s : I} {m : Msg} {q : Pos}
    (hr : run E p s start = .ok (.rej m q)) :
    inst U (K .parsing_failed [v, encInp s]) =
        inst U (K .x__________________PARSING_FAILED__________________x [.num q.line, .num q.col, encMsg m]) ∧
      ∃ f, call U (K .build_parser [v]) [encInp s] = .ill f := by
  refine ⟨parsing_failed_same hE h hr, ?_⟩
  obtain ⟨o, ho, hc⟩ := spells_same hE h
  have := hc s start
  rw [hr] at this
  exact build_parser_rej ho (same_ok_iff.1 this)

/-- C95: the typedef `int_` gives the result of the model whenever the number does not overflow. -/
theorem C95_int (hE : Tmpl.Fits U C E) {v : V} (hv : Alias Hdr.alias_int_ v) :
    ∃ o, HasApply U v o ∧ ∀ s pos r, run E P.int_ s pos = .ok r → call U o [encInp s, encPos pos] = .ok (encRes r) := by
  obtain ⟨o, ho, hc⟩ := spells_same hE (.int_ hv)
  refine ⟨o, ho, fun s pos r hr => ?_⟩
  have := hc s pos
  rw [int_run hr] at this
  exact same_ok_iff.1 this
end

section
variable [Lang] {U : User} {C : Nat → V → Prop}

/-- The strings that are read as the characters they are made of are inputs with these characters. -/
theorem good_represents : Represents goodInput fun s t => s.1 = t where
  nil := by
    rintro ⟨s, h⟩ rfl
    rfl
  cons := by
    rintro ⟨s, h⟩ c t rfl
    exact ⟨rfl, rfl, ⟨t, good_tail h⟩, rfl, rfl⟩

/-- C95: the result for a string is the one of the model for the characters of the string, when the string is shorter than the
limit and does not end with `BOOST_NO_CHAR`. -/
theorem C95_text {E : Env GoodText} {T : Env (List Int)} (hE : Tmpl.Fits U C E) (hT : T.OnText)
    (hET : SameUpToInput E T fun s t => s.1 = t) {v : V} {p : P} (h : Spells U C E v p) :
    ∃ o, HasApply U v o ∧ ∀ s, GoodStr s → ∀ pos, Same (call U o [encStr s, encPos pos]) (omap encRes (run T p s pos)) := by
  obtain ⟨o, ho, hc⟩ := C95_apply hE h
  refine ⟨o, ho, fun s hs pos => ?_⟩
  have hs' := hc ⟨s, hs⟩ pos
  have hr := C45_representation (Rep := fun (s : GoodText) t => s.1 = t) (by rw [hE.input]; exact good_represents) hT hET p
    ⟨s, hs⟩ s rfl pos
  change Same (call U o [encStr s, encPos pos]) _ at hs'
  generalize run E p ⟨s, hs⟩ pos = a at hr hs'
  generalize run T p s pos = b at hr
  cases hr with
  | acc v q e => subst e; exact hs'
  | _ => exact hs'

/-- C95: different results are different classes. -/
theorem C95_faithful {r r' : Res GoodText} (hr : ∀ v s p, r = .acc v s p → NoBad v ∧ Legible v)
    (hr' : ∀ v s p, r' = .acc v s p → Legible v) : encRes r = encRes r' ↔ r = r' :=
  ⟨encRes_inj good_inj hr hr', fun h => h ▸ rfl⟩
end

/-! ### A case: the depth of brackets, with the limits that are the default

`struct depth : one_of<middle_of<lit_c<'('>, transform<depth, next>, lit_c<')'>>, return_<int_<0>>> {};` -/

/-- `limit_sequence_size.hpp:10`, `limit_one_of_size.hpp:10`, `limit_one_char_except_size.hpp:10`,
`limit_string_size.hpp:10` -/
def defaultLimits : Limits := ⟨5, 20, 10, 32⟩

section
/-- The headers of C++98 with these limits. -/
@[reducible] def headers98 : Lang := Tmpl.cpp98 defaultLimits

attribute [local instance] headers98

/-- The class of the user: `one_of` has 20 arguments, 18 of them are `mpl::na`. -/
def depthClass98 : V := K .one_of (fill .one_of
  [K .middle_of [K .lit_c [.num 40], K .transform [.rule 0, .fn 0], K .lit_c [.num 41]], K .return_ [K .mpl_int_ [.num 0]]])

/-- The classes of the user. -/
def depthUser98 : User := ⟨fun _ => nextClass, fun _ => depthClass98⟩

/-- The environment of the model. -/
def depthEnv98 : Env GoodText := { input := goodInput, rules := fun _ => depthParser, std := .cpp98 }

/-- The environment of the model, on texts. -/
def depthText98 : Env (List Int) := { input := Metaparse.listInput, rules := fun _ => depthParser, std := .cpp98 }

theorem next_fun98 : Fun1 depthUser98 (.fn 0) nextVal := by
  refine ⟨.fn 0, ?_, fun x => ?_⟩
  · unfold HasApply owner
    rw [inst_step]
    rfl
  · rw [call, Tmpl.get, inst_step]
    simp only [instantiate, depthUser98]
    cases x with
    | msg m => cases m <;> exact trivial
    | gexp e => cases e <;> exact trivial
    | user n args =>
        simp only [encVal]
        rw [next_user]
        exact trivial
    | str l =>
        cases hs : shortStr l <;> simp only [encVal, encStr, hs, if_true, if_false, Bool.false_eq_true] <;> exact trivial
    | _ => first | exact trivial | rfl

theorem depth_spells98 : Spells depthUser98 OfUser depthEnv98 depthClass98 depthParser :=
  .one_of (.cons (.middle_of .lit_c (.transform (.rule rfl) next_fun98) .lit_c (show 3 < 5 by decide))
    (.cons (.return_ (.int 0)) .nil)) (show 2 < 21 by decide)

theorem depth_fits98 : Tmpl.Fits depthUser98 OfUser depthEnv98 :=
  ⟨rfl, ⟨rfl, rfl, rfl, rfl⟩, fun _ _ h => ⟨depthClass98, h ▸ derived_rule, depth_spells98, trivial⟩⟩

theorem depth_same98 : SameUpToInput depthEnv98 depthText98 fun s t => s.1 = t where
  std := rfl
  limSequence := rfl
  limOneOf := rfl
  limOneCharExcept := rfl
  rules := fun _ => rfl
  native := fun _ _ _ _ _ => .rej _ _
  onError := fun _ _ _ => .rej _ _

/-- The argument of the user has 20 arguments. -/
example : ∃ l, depthClass98 = K .one_of l ∧ l.length = 20 := ⟨_, rfl, rfl⟩

theorem short98 {s : List Int} (h : s.length < 32 := by decide) (h' : s.getLast? ≠ some (-1) := by decide) : GoodStr s :=
  ⟨h, h'⟩

/-- The class gives `int_<2>` for `(())!`, and the rest. -/
example : ∃ o, HasApply depthUser98 depthClass98 o ∧ call depthUser98 o [encStr (txt "(())!"), encPos start] =
    .ok (K .accept [K .mpl_int_ [.num 2], encStr (txt "!"), encPos ⟨1, 5, ch ')'⟩]) := by
  obtain ⟨o, ho, h⟩ := C95_text depth_fits98 (T := depthText98) rfl depth_same98 depth_spells98
  have h := h (txt "(())!") short98 start
  rw [run_ok_of_eval (r := .acc (.int 2) (txt "!") ⟨1, 5, ch ')'⟩) 20 (by rfl)] at h
  exact ⟨o, ho, same_ok_iff.1 h⟩

/-- `build_parser<depth>::apply<"(())!">::type` is `int_<2>`. -/
example : call depthUser98 (K .build_parser [depthClass98]) [encStr (txt "(())!")] = .ok (K .mpl_int_ [.num 2]) := by
  have h := C95_build_parser depth_fits98 depth_spells98 ⟨txt "(())!", short98⟩
  unfold buildParser at h
  rw [run_ok_of_eval (r := .acc (.int 2) ⟨txt "!", short98⟩ ⟨1, 5, ch ')'⟩) 20 (by rfl)] at h
  exact same_ok_iff.1 h

/-- `entire_input<depth>` rejects it, at the `!`. -/
example : ∃ f, call depthUser98 (K .build_parser [K .entire_input [depthClass98, encMsg .endOfInputExpected]])
    [encStr (txt "(())!")] = .ill f :=
  (C95_parsing_failed (s := (⟨txt "(())!", short98⟩ : GoodText)) (m := .endOfInputExpected) (q := ⟨1, 5, ch ')'⟩) depth_fits98
    (.entire_input depth_spells98 (show 2 < 5 by decide)) (run_ok_of_eval 20 (by rfl))).2

/-- The class of `int_`. -/
example : ∃ v o, Alias Hdr.alias_int_ v ∧ HasApply depthUser98 v o ∧ call depthUser98 o [encStr (txt "42,"), encPos start] =
    .ok (K .accept [K .mpl_int_ [.num 42], encStr (txt ","), encPos ⟨1, 3, ch '2'⟩]) := by
  obtain ⟨o, ho, h⟩ := C95_int depth_fits98 (v := _) rfl
  exact ⟨_, o, rfl, ho, h ⟨txt "42,", short98⟩ _ (.acc (.int 42) ⟨txt ",", short98⟩ ⟨1, 3, ch '2'⟩) (run_ok_of_eval 20 (by rfl))⟩

/-- The results of the model are different classes. -/
example (s : GoodText) : encRes (.acc (.int 2) s start) ≠ encRes (.acc (.chr 2) s start) :=
  fun h => by
    have := (C95_faithful (by intro v s p h; cases h; exact ⟨trivial, trivial⟩) (by intro v s p h; cases h; trivial)).1 h
    cases this
end

section
attribute [local instance] headers98

/-- `apply` of the class, for every text shorter than the limit. -/
example : ∃ o, HasApply depthUser98 depthClass98 o ∧ ∀ (s : GoodText) pos, Same (call depthUser98 o [encInp s, encPos pos])
    (omap encRes (run depthEnv98 depthParser s pos)) := C95_apply depth_fits98 depth_spells98
end

end Metaparse
