import Verif.Lemmas.Templates.GrammarClasses
/-!
# The parsers the rules of a grammar are
-/

set_option linter.unusedVariables false
set_option linter.unusedSimpArgs false

namespace Metaparse.Tmpl

open Metaparse (Val Msg GExp Pos Res P Env nextPos ch Sem start run buildParser RuleBody)
open Metaparse.Grammar (getParser withAction parserOf)

attribute [local instance] Tmpl.cpp11

variable {U : User} {C : Nat → V → Prop} {E : Env (List Int)}

/-- The class in `build_parsed_parser` that is the value of a rule. -/
def theParserV (t : List Int) : V := .cls (K .grammar_util_build_parsed_parser [encStr t]) .the_parser []

/-- The text `t` is parsed as a rule. -/
def RuleText (U : User) (t n : List Int) (x : Val) : Prop :=
  call U (K .build_parser [parserV]) [encStr t] = .ok (encVal (.seq [.str n, .void_, x]))

/-- What the map of the rules contains. -/
inductive Body (U : User) (C : Nat → V → Prop) (E : Env (List Int)) : V → RuleBody → Prop
  | parsed {t n e x} : Rep e x → RuleText U t n x → Body U C E (theParserV t) (.parsed e)
  | native {v p} : IsParser U C E v p → Body U C E (K .grammar_util_build_native_parser [v]) (.native p)

/-- The class `g` is the grammar `G`. -/
inductive GRel (U : User) (C : Nat → V → Prop) (E : Env (List Int)) : V → Metaparse.Grammar → Prop
  | mk {start rs as rules actions} : Pairs (Body U C E) rs rules → Pairs (Fun1 U) as actions →
      GRel U C E (K .grammar_util_grammar_builder [encStr start, K .mpl_map rs, K .mpl_map as]) ⟨start, rules, actions⟩

theorem rep_apply {e : GExp} {x : Val} (h : Rep e x) : owner (inst U) (encVal x) .apply = .ok (encVal x) := by
  cases h with
  | chr h => exact oself_inst body_grammar_util_build_char_apply_impl rfl
  | name => exact oself_inst body_grammar_util_build_name_apply_impl rfl
  | @rep op e x h =>
      by_cases ho : op = 43
      · subst ho; exact oself_inst body_grammar_util_repeated_apply_impl_0 rfl
      · exact oself_inst (body_grammar_util_repeated_apply_impl_1 (repeated_fit ho)) rfl
  | seq => exact oself_inst body_grammar_util_build_sequence_apply_impl rfl
  | sel => exact oself_inst body_grammar_util_build_selection_apply_impl rfl

theorem body_apply {v : V} {b : RuleBody} (h : Body U C E v b) : owner (inst U) v .apply = .ok v := by
  cases h with
  | parsed => exact oself_inst body_grammar_util_build_parsed_parser_the_parser rfl
  | native => exact oself_inst body_grammar_util_build_native_parser rfl

theorem lit_type {x : Val} {c : Int} (h : x.value = .ok c) :
    ∃ w, get (inst U) (K .lit [encVal x]) .type = .ok w ∧ IsParser U C E w (P.lit c) := by
  have hv := val_type_value (U := U) x
  rw [h] at hv
  replace hv := same_ok_iff.1 hv
  refine ⟨_, ?_, ⟨_, ha_accept_when, den_lit c⟩⟩
  rw [get_inst body_lit, ← obind_assoc, hv, Out.bind_ok, obind_ok]
  change get (inst U) (K .lit_c [.num c]) .type = _
  rw [get_inst body_lit_c, obind_ok]
  change get (inst U) (K .accept_when _) .type = _
  members body_accept_when

theorem repeated_type {v : V} {p : P} (h : IsParser U C E v p) :
    ∃ w, get (inst U) (K .repeated [v]) .type = .ok w ∧ IsParser U C E w (P.repeated p) := by
  obtain ⟨o, ho, hd⟩ := h
  refine ⟨_, ?_, ⟨_, ha_foldl, .foldl ho hd (val_type (.seq [])) seq_on back_inserter_on⟩⟩
  rw [get_inst body_repeated, obind_ok]
  change get (inst U) (K .foldl _) .type = _
  members body_foldl
  rfl

theorem repeated1_type {v : V} {p : P} (h : IsParser U C E v p) :
    ∃ w, get (inst U) (K .repeated1 [v]) .type = .ok w ∧ IsParser U C E w (P.repeated1 p) := by
  obtain ⟨o, ho, hd⟩ := h
  refine ⟨_, ?_, ⟨_, ha_foldl1, .foldl1 ho hd (val_type (.seq [])) seq_on back_inserter_on⟩⟩
  rw [get_inst body_repeated1, obind_ok]
  change get (inst U) (K .foldl1 _) .type = _
  members body_foldl1
  rfl

theorem sequence_type {v w : V} {p q : P} (h : IsParser U C E v p) (h' : IsParser U C E w q) :
    get (inst U) (K .sequence [v, w]) .type = .ok (K .sequence [v, w]) ∧
      IsParser U C E (K .sequence [v, w]) (.sequence [p, q]) := by
  obtain ⟨o, ho, hd⟩ := h
  obtain ⟨o', ho', hd'⟩ := h'
  exact ⟨by members body_sequence_1, is_sequence (.cons ho hd (.cons ho' hd' .nil)) trivial trivial⟩

theorem one_of_type {v w : V} {p q : P} (h : IsParser U C E v p) (h' : IsParser U C E w q) :
    get (inst U) (K .one_of [v, w]) .type = .ok (K .one_of [v, w]) ∧
      IsParser U C E (K .one_of [v, w]) (.oneOf [p, q]) := by
  obtain ⟨o, ho, hd⟩ := h
  obtain ⟨o', ho', hd'⟩ := h'
  exact ⟨by members body_one_of_0, is_one_of (.cons ho hd (.cons ho' hd' .nil)) trivial⟩

theorem transform_type {v f : V} {p : P} {g : Val → Val} (h : IsParser U C E v p) (hf : Fun1 U f g) :
    get (inst U) (K .transform [v, f]) .type = .ok (K .transform [v, f]) ∧
      IsParser U C E (K .transform [v, f]) (.transform p g) := by
  obtain ⟨o, ho, hd⟩ := h
  exact ⟨by members body_transform, ⟨_, ha_transform, .transform ho hd hf⟩⟩

/-- What the classes do is what the model does. -/
def Agree (U : User) (C : Nat → V → Prop) (E : Env (List Int)) (x : Out V) (y : Out P) : Prop :=
  match y with
  | .ok p => ∃ w, x = .ok w ∧ IsParser U C E w p
  | .ill _ => ∃ f, x = .ill f
  | .deep => x = .deep

/-- The same if the model is not too deep. -/
def Agrees (U : User) (C : Nat → V → Prop) (E : Env (List Int)) (x : Out V) (y : Out P) : Prop :=
  y ≠ .deep → Agree U C E x y

theorem Agree.bind {x : Out V} {y : Out P} {k : V → Out V} {k' : P → Out P} (h : Agree U C E x y)
    (H : ∀ w p, IsParser U C E w p → Agree U C E (k w) (k' p)) : Agree U C E (x.bind k) (y.bind k') := by
  cases y with
  | ok p => obtain ⟨w, rfl, hw⟩ := h; exact H w p hw
  | ill f => obtain ⟨g, rfl⟩ := h; exact ⟨g, rfl⟩
  | deep => cases h; rfl

theorem Agrees.bind {x : Out V} {y : Out P} {k : V → Out V} {k' : P → Out P} (h : Agrees U C E x y)
    (H : ∀ w p, IsParser U C E w p → Agrees U C E (k w) (k' p)) : Agrees U C E (x.bind k) (y.bind k') := by
  intro hy
  cases y with
  | ok p => obtain ⟨w, rfl, hw⟩ := h (fun h => nomatch h); exact H w p hw hy
  | ill f => obtain ⟨g, rfl⟩ := h (fun h => nomatch h); exact ⟨g, rfl⟩
  | deep => exact absurd rfl hy

variable {g : V} {G : Metaparse.Grammar}

/-- The parts of a rule are what `instantiate` says. -/
theorem rep_type {find : List Int → Out P} (hf : ∀ n, Agrees U C E (get (inst U) (K .grammar_util_get_parser [g, encStr n]) .type) (find n))
    {e : GExp} {x : Val} (h : Rep e x) :
    Agrees U C E (get (inst U) (.cls (encVal x) .apply [g]) .type) (Metaparse.Grammar.instantiate find e) := by
  induction h with
  | @chr c x h =>
      intro _
      obtain ⟨w, hw, hp⟩ := lit_type (U := U) (C := C) (E := E) h
      refine ⟨w, ?_, hp⟩
      change get (inst U) (.cls (.cls (K .grammar_util_build_char []) .apply_impl [encVal x]) .apply [g]) .type = _
      rw [get_inst body_grammar_util_build_char_apply_impl_apply, obind_ok]
      exact hw
  | @name n =>
      change Agrees U C E (get (inst U) (.cls (.cls (K .grammar_util_build_name []) .apply_impl [encStr n]) .apply [g]) .type) _
      rw [get_inst body_grammar_util_build_name_apply_impl_apply, obind_ok]
      exact hf n
  | @rep op e x h ih =>
      change Agrees U C E (get (inst U) (.cls (K .grammar_util_repeated_apply_impl [.num op, encVal x]) .apply [g]) .type) _
      by_cases ho : op = 43
      · subst ho
        rw [get_inst body_grammar_util_repeated_apply_impl_0_apply, rep_apply h, Out.bind_ok, obind_assoc]
        refine Agrees.bind ih fun w p hw _ => ?_
        obtain ⟨w', hw', hp'⟩ := repeated1_type hw
        rw [if_pos (by rfl)]
        exact ⟨w', by rw [obind_ok]; exact hw', hp'⟩
      · rw [get_inst (body_grammar_util_repeated_apply_impl_1_apply (repeated_fit ho)), rep_apply h, Out.bind_ok, obind_assoc]
        refine Agrees.bind ih fun w p hw _ => ?_
        obtain ⟨w', hw', hp'⟩ := repeated_type hw
        rw [if_neg (by exact ho)]
        exact ⟨w', by rw [obind_ok]; exact hw', hp'⟩
  | @seq a b x y h h' ih ih' =>
      change Agrees U C E (get (inst U) (.cls (.cls (K .grammar_util_build_sequence []) .apply_impl [encVal x, encVal y]) .apply [g]) .type) _
      rw [get_inst body_grammar_util_build_sequence_apply_impl_apply, rep_apply h, Out.bind_ok, obind_assoc]
      refine Agrees.bind ih fun w p hw => ?_
      rw [rep_apply h', Out.bind_ok, obind_assoc]
      refine Agrees.bind ih' fun w' p' hw' _ => ?_
      obtain ⟨h1, h2⟩ := sequence_type hw hw'
      exact ⟨_, by rw [obind_ok]; exact h1, h2⟩
  | @sel a b x y h h' ih ih' =>
      change Agrees U C E (get (inst U) (.cls (.cls (K .grammar_util_build_selection []) .apply_impl [encVal x, encVal y]) .apply [g]) .type) _
      rw [get_inst body_grammar_util_build_selection_apply_impl_apply, rep_apply h, Out.bind_ok, obind_assoc]
      refine Agrees.bind ih fun w p hw => ?_
      rw [rep_apply h', Out.bind_ok, obind_assoc]
      refine Agrees.bind ih' fun w' p' hw' _ => ?_
      obtain ⟨h1, h2⟩ := one_of_type hw hw'
      exact ⟨_, by rw [obind_ok]; exact h1, h2⟩

theorem build_parser_apply {a : V} : owner (inst U) (K .build_parser [a]) .apply = .ok (K .build_parser [a]) :=
  oself_inst body_build_parser rfl

/-- `apply<G>` of a rule is the one of its right side. -/
theorem the_parser_inst {t n : List Int} {x : Val} {e : GExp} (hx : Rep e x) (ht : RuleText U t n x) :
    inst U (.cls (theParserV t) .apply [g]) = inst U (.cls (encVal x) .apply [g]) := by
  rw [theParserV, inst_of body_grammar_util_build_parsed_parser_the_parser_apply, ← nameTokenV, ← parserV,
    build_parser_apply, Out.bind_ok]
  unfold RuleText call at ht
  rw [ht, Out.bind_ok]
  have hb : get (inst U) (K .mpl_back [encVal (.seq [.str n, .void_, x])]) .type = .ok (encVal x) := back_vector
  rw [hb, Out.bind_ok, rep_apply hx, Out.bind_ok, obind_ok]

end Metaparse.Tmpl
