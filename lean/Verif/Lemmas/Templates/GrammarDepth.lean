import Verif.Lemmas.Templates.GrammarParsers
/-!
# `get_parser`
-/

set_option linter.unusedVariables false
set_option linter.unusedSimpArgs false

namespace Metaparse.Tmpl

open Metaparse (Val Msg GExp Pos Res P Env nextPos ch Sem start run buildParser RuleBody)
open Metaparse.Grammar (getParser withAction parserOf)

attribute [local instance] Tmpl.cpp11

variable {U : User} {C : Nat → V → Prop} {E : Env (List Int)} {st rv av : V} {n : List Int}

/-- The class of a grammar. -/
abbrev builderV (st rv av : V) : V := K .grammar_util_grammar_builder [st, rv, av]

theorem builder_rules : get (inst U) (builderV st rv av) .rules = .ok rv := by members body_grammar_util_grammar_builder
theorem builder_actions : get (inst U) (builderV st rv av) .actions = .ok av := by members body_grammar_util_grammar_builder

theorem void_apply : owner (inst U) (K .mpl_void_ []) .apply = .ill .noType := by members body_mpl_void_

/-- The parser a rule is without its action, with at most `m` nested instantiations. -/
def bodyOf (G : Metaparse.Grammar) (m : Nat) : RuleBody → Out P
  | .native p => .ok p
  | .parsed e => Metaparse.Grammar.instantiate (getParser G m) e

/-- The class of a parser and its action. -/
def implV (g nv av : V) : V := .cls (K .grammar_util_get_parser [g, nv]) .impl [K .mpl_at [av, nv]]

section
variable {rs as : List V} {rules : List (List Int × RuleBody)} {actions : List (List Int × (Val → Val))}

theorem get_parser_none (hr : Pairs (Body U C E) rs rules) (h : rules.lookup n = none) :
    get (inst U) (K .grammar_util_get_parser [builderV st (K .mpl_map rs) av, encStr n]) .type = .ill .noType := by
  rw [get_inst body_grammar_util_get_parser, builder_rules, Out.bind_ok, at_none hr h, Out.bind_ok, void_apply]
  rfl

theorem get_parser_some {y : V} {b : RuleBody} (hb : Body U C E y b) (ha : Pairs (Fun1 U) as actions)
    (h : get (inst U) (K .mpl_at [rv, encStr n]) .type = .ok y) :
    get (inst U) (K .grammar_util_get_parser [builderV st rv (K .mpl_map as), encStr n]) .type =
      get (inst U) (K .mpl_eval_if [K .mpl_bool_ [ofBool (actions.lookup n).isSome],
        implV (builderV st rv (K .mpl_map as)) (encStr n) (K .mpl_map as),
        .cls y .apply [builderV st rv (K .mpl_map as)]]) .type := by
  rw [get_inst body_grammar_util_get_parser, builder_rules, Out.bind_ok, h, Out.bind_ok, body_apply hb, Out.bind_ok,
    builder_actions, Out.bind_ok, has_key ha, Out.bind_ok, Out.bind_ok, ← implV]
  norm

theorem impl_type {y f : V} {b : RuleBody} (hb : Body U C E y b) 
    (h : get (inst U) (K .mpl_at [rv, encStr n]) .type = .ok y) (ha : get (inst U) (K .mpl_at [av, encStr n]) .type = .ok f) :
    get (inst U) (implV (builderV st rv av) (encStr n) av) .type =
      (get (inst U) (.cls y .apply [builderV st rv av]) .type).bind fun w => get (inst U) (K .transform [w, f]) .type := by
  rw [implV, get_inst body_grammar_util_get_parser_impl, builder_rules, Out.bind_ok, h, Out.bind_ok, body_apply hb, Out.bind_ok,
    obind_assoc, ha]
  norm

/-- `get_parser`, given what the rules it uses are. -/
theorem get_parser_agrees (hr : Pairs (Body U C E) rs rules) (ha : Pairs (Fun1 U) as actions) {s : List Int} :
    ∀ m n, Agrees U C E
      (get (inst U) (K .grammar_util_get_parser [builderV st (K .mpl_map rs) (K .mpl_map as), encStr n]) .type)
      (getParser ⟨s, rules, actions⟩ m n) := by
  intro m
  induction m with
  | zero => exact fun n h => absurd rfl h
  | succ m ih =>
      intro n
      unfold getParser
      dsimp only
      cases hl : rules.lookup n with
      | none => exact fun _ => ⟨_, get_parser_none hr hl⟩
      | some b =>
          obtain ⟨y, hb, hy⟩ := at_some (U := U) hr hl
          rw [get_parser_some hb ha hy]
          have key : Agrees U C E (get (inst U) (.cls y .apply [builderV st (K .mpl_map rs) (K .mpl_map as)]) .type)
              (bodyOf ⟨s, rules, actions⟩ m b) := by
            cases hb with
            | native h => exact fun _ => ⟨_, by members body_grammar_util_build_native_parser_apply, h⟩
            | parsed hx ht =>
                rw [get, the_parser_inst hx ht]
                exact rep_type ih hx
          have fin : Agrees U C E (get (inst U) (K .mpl_eval_if [K .mpl_bool_ [ofBool (actions.lookup n).isSome],
              implV (builderV st (K .mpl_map rs) (K .mpl_map as)) (encStr n) (K .mpl_map as),
              .cls y .apply [builderV st (K .mpl_map rs) (K .mpl_map as)]]) .type)
              ((bodyOf ⟨s, rules, actions⟩ m b).bind fun p =>
                  .ok (withAction ⟨s, rules, actions⟩ n p)) := by
            unfold withAction
            dsimp only
            cases hl' : actions.lookup n with
            | none =>
                simp only [Option.isSome_none, ofBool]
                rw [if_neg (by simp), get_eval_if_0, obind_ok]
                exact key
            | some f =>
                obtain ⟨z, hz, hz'⟩ := at_some (U := U) ha hl'
                simp only [Option.isSome_some, ofBool]
                rw [if_pos trivial, get_eval_if_1, impl_type hb hy hz']
                refine Agrees.bind key fun w p hw _ => ?_
                obtain ⟨h1, h2⟩ := transform_type hw hz
                exact ⟨_, h1, h2⟩
          cases b with
          | native p => exact fin
          | parsed e => exact fin
end

/-! ### Layers -/

theorem get_le (k : Nat) (v : V) (x : Id) : Le (get (instN U k) v x) (get (inst U) v x) := by
  rcases instN_le_inst U k v with h | h
  · exact .inl (by rw [get, h]; rfl)
  · exact .inr (by rw [get, h, get])

theorem owner_le (k : Nat) (v : V) (x : Id) : Le (owner (instN U k) v x) (owner (inst U) v x) := by
  rcases instN_le_inst U k v with h | h
  · exact .inl (by rw [owner, h]; rfl)
  · exact .inr (by rw [owner, h, owner])

theorem not_deep_bind {α β : Type} {x : Out α} {f : α → Out β} (h : x.bind f ≠ .deep) : x ≠ .deep := by
  rintro rfl
  exact h rfl

theorem not_deep_next {α β : Type} {x y : Out α} {f : α → Out β} {a : α} (hx : Le x y) (hy : y = .ok a)
    (h : x.bind f ≠ .deep) : f a ≠ .deep := by
  rcases hx with rfl | rfl
  · exact absurd rfl h
  · rw [hy] at h; exact h

theorem instN_succ (k : Nat) (v : V) : instN U (k + 1) v = instantiate U (instN U k) v := rfl

theorem instantiate_stays {G : Metaparse.Grammar} {m m' : Nat} (hm : m ≤ m') {e : GExp}
    (h : Metaparse.Grammar.instantiate (getParser G m) e ≠ .deep) :
    Metaparse.Grammar.instantiate (getParser G m') e = Metaparse.Grammar.instantiate (getParser G m) e := by
  have hill : ∀ n f, getParser G m n = .ill f → getParser G m' n = .ill f := by
    intro n f hf
    induction hm with
    | refl => exact hf
    | step _ ih => exact Metaparse.Grammar.getParser_ill_mono ih
  cases hx : Metaparse.Grammar.instantiate (getParser G m) e with
  | ok p => exact Metaparse.Grammar.instantiate_mono (fun n _ p => Metaparse.Grammar.getParser_mono_le hm) hx
  | ill f => exact Metaparse.Grammar.instantiate_ill_mono (fun n p => Metaparse.Grammar.getParser_mono_le hm) hill hx
  | deep => exact absurd hx h

section
variable {g : V} {G : Metaparse.Grammar}
  (hg : ∀ m n, Agrees U C E (get (inst U) (K .grammar_util_get_parser [g, encStr n]) .type) (getParser G m n))
include hg

/-- Two right sides one after the other. -/
theorem two_depth {k : Nat} {a b : GExp} {x y : Val} {f : V → V → Out Members} (hx : Rep a x) (hy : Rep b y)
    (h1 : instN U k (.cls (encVal x) .apply [g]) ≠ .deep → ∃ m, Metaparse.Grammar.instantiate (getParser G m) a ≠ .deep)
    (h2 : instN U k (.cls (encVal y) .apply [g]) ≠ .deep → ∃ m, Metaparse.Grammar.instantiate (getParser G m) b ≠ .deep)
    (h : ((owner (instN U k) (encVal x) .apply).bind fun o1 => (get (instN U k) (.cls o1 .apply [g]) .type).bind fun x2 =>
      (owner (instN U k) (encVal y) .apply).bind fun o3 => (get (instN U k) (.cls o3 .apply [g]) .type).bind fun x4 =>
        f x2 x4) ≠ .deep) :
    ∃ m, ((Metaparse.Grammar.instantiate (getParser G m) a).bind fun p =>
      (Metaparse.Grammar.instantiate (getParser G m) b).bind fun q => Out.ok (p, q)) ≠ .deep := by
  replace h := not_deep_next (owner_le k _ _) (rep_apply hx) h
  obtain ⟨m, hm⟩ := h1 (not_deep_bind (not_deep_bind h))
  have ha := rep_type (hg m) hx hm
  cases hp : Metaparse.Grammar.instantiate (getParser G m) a with
  | deep => exact absurd hp hm
  | ill f => exact ⟨m, by rw [hp]; exact fun h => nomatch h⟩
  | ok p =>
      rw [hp] at ha
      obtain ⟨w, hw, _⟩ := ha
      replace h := not_deep_next (get_le k _ _) hw h
      replace h := not_deep_next (owner_le k _ _) (rep_apply hy) h
      obtain ⟨m', hm'⟩ := h2 (not_deep_bind (not_deep_bind h))
      refine ⟨m + m', ?_⟩
      rw [instantiate_stays (Nat.le_add_right m m') hm, instantiate_stays (Nat.le_add_left m' m) hm', hp]
      cases hq : Metaparse.Grammar.instantiate (getParser G m') b with
      | deep => exact absurd hq hm'
      | ill f => exact fun h => nomatch h
      | ok q => exact fun h => nomatch h

theorem rep_depth {e : GExp} {x : Val} (hx : Rep e x) : ∀ k,
    (∀ j, j < k → ∀ n, instN U j (K .grammar_util_get_parser [g, encStr n]) ≠ .deep → ∃ m, getParser G m n ≠ .deep) →
    instN U k (.cls (encVal x) .apply [g]) ≠ .deep → ∃ m, Metaparse.Grammar.instantiate (getParser G m) e ≠ .deep := by
  induction hx with
  | chr _ => exact fun _ _ _ => ⟨0, fun h => nomatch h⟩
  | @name n =>
      intro k ih h
      cases k with
      | zero => exact absurd rfl h
      | succ k =>
          rw [instN_succ] at h
          change instantiate U (instN U k) (.cls (.cls (K .grammar_util_build_name []) .apply_impl [encStr n]) .apply [g]) ≠ _ at h
          rw [body_grammar_util_build_name_apply_impl_apply, obind_ok] at h
          exact ih k (by omega) n h
  | @rep op e x hx ihx =>
      intro k ih h
      cases k with
      | zero => exact absurd rfl h
      | succ k =>
          have h' : ∃ f : V → Out Members, ((owner (instN U k) (encVal x) .apply).bind fun o1 =>
              (get (instN U k) (.cls o1 .apply [g]) .type).bind f) ≠ .deep := by
            rw [instN_succ] at h
            change instantiate U (instN U k) (.cls (K .grammar_util_repeated_apply_impl [.num op, encVal x]) .apply [g]) ≠ _ at h
            by_cases ho : op = 43
            · subst ho
              rw [body_grammar_util_repeated_apply_impl_0_apply] at h
              exact ⟨_, h⟩
            · rw [body_grammar_util_repeated_apply_impl_1_apply (repeated_fit ho)] at h
              exact ⟨_, h⟩
          obtain ⟨f, h⟩ := h'
          replace h := not_deep_next (owner_le k _ _) (rep_apply hx) h
          obtain ⟨m, hm⟩ := ihx k (fun j hj => ih j (by omega)) (not_deep_bind (not_deep_bind h))
          refine ⟨m, ?_⟩
          unfold Metaparse.Grammar.instantiate
          cases hq : Metaparse.Grammar.instantiate (getParser G m) e with
          | deep => exact absurd hq hm
          | ill f => exact fun h => nomatch h
          | ok q => exact fun h => nomatch h
  | @seq a b x y hx hy ihx ihy =>
      intro k ih h
      cases k with
      | zero => exact absurd rfl h
      | succ k =>
          rw [instN_succ] at h
          change instantiate U (instN U k) (.cls (.cls (K .grammar_util_build_sequence []) .apply_impl [encVal x, encVal y]) .apply [g]) ≠ _ at h
          rw [body_grammar_util_build_sequence_apply_impl_apply] at h
          obtain ⟨m, hm⟩ := two_depth hg hx hy (ihx k fun j hj => ih j (by omega)) (ihy k fun j hj => ih j (by omega)) h
          refine ⟨m, ?_⟩
          unfold Metaparse.Grammar.instantiate
          revert hm
          cases Metaparse.Grammar.instantiate (getParser G m) a <;>
            cases Metaparse.Grammar.instantiate (getParser G m) b <;> simp [Out.bind]
  | @sel a b x y hx hy ihx ihy =>
      intro k ih h
      cases k with
      | zero => exact absurd rfl h
      | succ k =>
          rw [instN_succ] at h
          change instantiate U (instN U k) (.cls (.cls (K .grammar_util_build_selection []) .apply_impl [encVal x, encVal y]) .apply [g]) ≠ _ at h
          rw [body_grammar_util_build_selection_apply_impl_apply] at h
          obtain ⟨m, hm⟩ := two_depth hg hx hy (ihx k fun j hj => ih j (by omega)) (ihy k fun j hj => ih j (by omega)) h
          refine ⟨m, ?_⟩
          unfold Metaparse.Grammar.instantiate
          revert hm
          cases Metaparse.Grammar.instantiate (getParser G m) a <;>
            cases Metaparse.Grammar.instantiate (getParser G m) b <;> simp [Out.bind]
end

theorem back_rule {t n : List Int} {x : Val} (ht : RuleText U t n x) :
    get (inst U) (K .mpl_back [encVal (.seq [.str n, .void_, x])]) .type = .ok (encVal x) := back_vector

section
variable {rs as : List V} {rules : List (List Int × RuleBody)} {actions : List (List Int × (Val → Val))} {s : List Int}

theorem body_depth {y : V} {b : RuleBody} (hr : Pairs (Body U C E) rs rules) (ha : Pairs (Fun1 U) as actions) (hb : Body U C E y b)
    (k : Nat) (ih : ∀ j, j < k → ∀ n, instN U j (K .grammar_util_get_parser
      [builderV st (K .mpl_map rs) (K .mpl_map as), encStr n]) ≠ .deep → ∃ m, getParser ⟨s, rules, actions⟩ m n ≠ .deep)
    (h : instN U k (.cls y .apply [builderV st (K .mpl_map rs) (K .mpl_map as)]) ≠ .deep) :
    ∃ m, (bodyOf ⟨s, rules, actions⟩ m b) ≠ .deep := by
  cases hb with
  | native _ => exact ⟨0, fun h => nomatch h⟩
  | @parsed t n e x hx ht =>
      cases k with
      | zero => exact absurd rfl h
      | succ k =>
          rw [instN_succ, theParserV, body_grammar_util_build_parsed_parser_the_parser_apply, ← nameTokenV, ← parserV] at h
          replace h := not_deep_next (owner_le k _ _) build_parser_apply h
          replace h := not_deep_next (get_le k _ _) ht h
          replace h := not_deep_next (get_le k _ _) (back_rule ht) h
          replace h := not_deep_next (owner_le k _ _) (rep_apply hx) h
          exact rep_depth (get_parser_agrees hr ha) hx k (fun j hj => ih j (by omega)) (not_deep_bind h)

theorem get_parser_depth (hr : Pairs (Body U C E) rs rules) (ha : Pairs (Fun1 U) as actions) : ∀ k n,
    instN U k (K .grammar_util_get_parser [builderV st (K .mpl_map rs) (K .mpl_map as), encStr n]) ≠ .deep →
    ∃ m, getParser ⟨s, rules, actions⟩ m n ≠ .deep := by
  intro k
  induction k using Nat.strongRecOn with
  | _ k ih =>
    intro n h
    cases k with
    | zero => exact absurd rfl h
    | succ k =>
        rw [instN_succ, body_grammar_util_get_parser] at h
        replace h := not_deep_next (get_le k _ _) builder_rules h
        cases hl : rules.lookup n with
        | none => exact ⟨1, by unfold getParser; dsimp only; rw [hl]; exact fun h => nomatch h⟩
        | some b =>
            obtain ⟨y, hb, hy⟩ := at_some (U := U) hr hl
            replace h := not_deep_next (get_le k _ _) hy h
            replace h := not_deep_next (owner_le k _ _) (body_apply hb) h
            replace h := not_deep_next (get_le k _ _) builder_actions h
            replace h := not_deep_next (get_le k _ _) (has_key ha) h
            replace h := not_deep_next (get_le k _ _) builder_actions h
            rw [← implV] at h
            replace h := not_deep_bind (not_deep_bind h)
            have key : ∃ j, j ≤ k ∧ instN U j (.cls y .apply [builderV st (K .mpl_map rs) (K .mpl_map as)]) ≠ .deep := by
              cases k with
              | zero => exact absurd rfl h
              | succ k =>
                  rw [instN_succ, body_mpl_eval_if] at h
                  cases hl' : actions.lookup n with
                  | none =>
                      rw [hl'] at h
                      have hi : get (inst U) (K .mpl_if_ [K .mpl_bool_ [ofBool (none : Option (Val → Val)).isSome],
                          implV (builderV st (K .mpl_map rs) (K .mpl_map as)) (encStr n) (K .mpl_map as),
                          .cls y .apply [builderV st (K .mpl_map rs) (K .mpl_map as)]]) .type =
                            .ok (.cls y .apply [builderV st (K .mpl_map rs) (K .mpl_map as)]) :=
                        same_ok_iff.1 ((modeSame U).if_0 (modeSame U).bool_val)
                      replace h := not_deep_next (get_le k _ _) hi h
                      exact ⟨k, by omega, not_deep_bind h⟩
                  | some f =>
                      rw [hl'] at h
                      have hi : get (inst U) (K .mpl_if_ [K .mpl_bool_ [ofBool (some f).isSome],
                          implV (builderV st (K .mpl_map rs) (K .mpl_map as)) (encStr n) (K .mpl_map as),
                          .cls y .apply [builderV st (K .mpl_map rs) (K .mpl_map as)]]) .type =
                            .ok (implV (builderV st (K .mpl_map rs) (K .mpl_map as)) (encStr n) (K .mpl_map as)) :=
                        same_ok_iff.1 ((modeSame U).if_1 (modeSame U).bool_val)
                      replace h := not_deep_next (get_le k _ _) hi h
                      replace h := not_deep_bind h
                      cases k with
                      | zero => exact absurd rfl h
                      | succ k =>
                          rw [instN_succ, implV, body_grammar_util_get_parser_impl] at h
                          replace h := not_deep_next (get_le k _ _) builder_rules h
                          replace h := not_deep_next (get_le k _ _) hy h
                          replace h := not_deep_next (owner_le k _ _) (body_apply hb) h
                          exact ⟨k, by omega, not_deep_bind (not_deep_bind h)⟩
            obtain ⟨j, hj, h⟩ := key
            obtain ⟨m, hm⟩ := body_depth hr ha hb j (fun i hi => ih i (by omega)) h
            refine ⟨m + 1, ?_⟩
            unfold getParser
            dsimp only
            rw [hl]
            cases b with
            | native p => exact fun h => nomatch h
            | parsed e =>
                unfold bodyOf at hm
                dsimp only at hm ⊢
                cases hq : Metaparse.Grammar.instantiate (getParser ⟨s, rules, actions⟩ m) e with
                | deep => exact absurd hq hm
                | ill f => exact fun h => nomatch h
                | ok q => exact fun h => nomatch h
end

/-- `get_parser` is the parser of a name. -/
theorem get_parser_agree {g : V} {G : Metaparse.Grammar} (hg : GRel U C E g G) (n : List Int) :
    Agree U C E (get (inst U) (K .grammar_util_get_parser [g, encStr n]) .type) (G.parserOf n) := by
  cases hg with
  | mk hr ha =>
      unfold parserOf
      split
      · rename_i h
        exact get_parser_agrees hr ha _ n h.choose_spec
      · rename_i h
        change _ = _
        cases hx : get (inst U) _ .type with
        | deep => rfl
        | _ =>
            refine absurd ?_ h
            have hi : inst U (K .grammar_util_get_parser [_, encStr n]) ≠ .deep := not_deep_bind (f := fun m => Members.ty m .type)
              (by rw [show (inst U _).bind _ = _ from hx]; exact fun h => nomatch h)
            obtain ⟨k, hk⟩ := inst_eventually U (K .grammar_util_get_parser [_, encStr n])
            exact get_parser_depth hr ha k n (fun hd => hi ((hk k (Nat.le_refl k)).symm.trans hd))

end Metaparse.Tmpl
