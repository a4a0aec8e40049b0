import Verif.Lemmas.Templates.GrammarDepth
import Verif.Spec.TemplatesGrammar
import Verif.Props.Grammar
/-!
# Chains of rules
-/

set_option linter.unusedVariables false
set_option linter.unusedSimpArgs false

namespace Metaparse.Tmpl

open Metaparse (Val Msg GExp Pos Res P Env nextPos ch Sem start run buildParser RuleBody)
open Metaparse.Grammar (rebuild parseRule add addAll addRule addImport)

attribute [local instance] Tmpl.cpp11

variable {U : User} {C : Nat → V → Prop} {E E' : Env (List Int)}

/-! ### Names -/

theorem rebuild_same (h : E.ParsesRules) (s : List Int) :
    Same (get (inst U) (K .grammar_util_rebuild [encStr s]) .type) (omap encStr (rebuild E s)) := by
  have hc := build_parser_same (U := U) rules_fit spells_name s
  rw [get_inst body_grammar_util_rebuild, ← nameTokenV, build_parser_apply, Out.bind_ok, obind_ok]
  change Same (call U (K .build_parser [nameTokenV]) [encStr s]) _
  have hb := bothEnv_parsesRules
  rcases (Metaparse.reads_name hb.onText hb.nth2 hb.oneOf2).total s start with ⟨m, q, hr⟩ | ⟨t, v, s', q, hv, ht, ha⟩
  · have hi := Metaparse.C34_buildParser_rejects _ _ _ _ hr
    rw [hi] at hc
    have he : ∃ f, rebuild E s = .ill f := by
      rcases (Metaparse.reads_name h.onText h.nth2 h.oneOf2).total s start with ⟨m, q, hr⟩ | ⟨t, v, s', q, hv, ht, ha⟩
      · exact ⟨_, by rw [rebuild, Metaparse.C34_buildParser_rejects _ _ _ _ hr]; rfl⟩
      · cases t <;> cases hv
        have := (Metaparse.C46_name hb s _).2 ⟨_, ht⟩
        rw [rebuild, hi] at this
        cases this
    obtain ⟨f, hf⟩ := he
    rw [hf]
    exact hc.trans (show Same (Out.ill _) (Out.ill _) from trivial)
  · cases t <;> cases hv
    rw [(Metaparse.C46_name h s _).2 ⟨_, ht⟩]
    rw [(Metaparse.C34_buildParser_accepts ..).2 ⟨_, _, ha⟩] at hc
    exact hc

theorem rebuild_not_deep (h : E.ParsesRules) (s : List Int) : rebuild E s ≠ .deep := by
  rcases (Metaparse.reads_name h.onText h.nth2 h.oneOf2).total s start with ⟨m, q, hr⟩ | ⟨t, v, s', q, hv, ht, ha⟩
  · rw [rebuild, Metaparse.C34_buildParser_rejects _ _ _ _ hr]
    exact fun h => nomatch h
  · cases t <;> cases hv
    rw [(Metaparse.C46_name h s _).2 ⟨_, ht⟩]
    exact fun h => nomatch h

/-! ### Rules -/

theorem rule_text_ok (h : E.ParsesRules) {t n : List Int} {e : GExp} (hp : parseRule E t = .ok (n, e)) :
    ∃ x, Rep e x ∧ RuleText U t n x := by
  obtain ⟨x, s', q, hx, hr⟩ := parserT_accepts h hp
  refine ⟨x, hx, ?_⟩
  obtain ⟨o, ho, hc⟩ := spells_same (U := U) rules_fit spells_parser
  have := hc t start
  rw [hr] at this
  exact build_parser_acc ho (same_ok_iff.1 this)

theorem rule_text_ill (h : E.ParsesRules) {t : List Int} {f : Fault} (hp : parseRule E t = .ill f) :
    ∃ f', call U (K .build_parser [parserV]) [encStr t] = .ill f' := by
  obtain ⟨m, q, hr⟩ := parserT_rejects h hp
  obtain ⟨o, ho, hc⟩ := spells_same (U := U) rules_fit spells_parser
  have := hc t start
  rw [hr] at this
  exact build_parser_rej ho (same_ok_iff.1 this)

theorem parsed_type {t n : List Int} {x : Val} (ht : RuleText U t n x) :
    get (inst U) (K .grammar_util_build_parsed_parser [encStr t]) .type = .ok (K .mpl_pair [encStr n, theParserV t]) := by
  rw [get_inst body_grammar_util_build_parsed_parser, ← nameTokenV, ← parserV, build_parser_apply, Out.bind_ok]
  unfold RuleText call at ht
  have hf : get (inst U) (K .mpl_front [encVal (.seq [.str n, .void_, x])]) .type = .ok (encStr n) := front_vector
  rw [ht, Out.bind_ok, hf, Out.bind_ok, back_rule ht, Out.bind_ok]
  rfl

theorem parsed_name {t n : List Int} {x : Val} (ht : RuleText U t n x) :
    get (inst U) (K .grammar_util_build_parsed_parser [encStr t]) .name = .ok (encStr n) := by
  rw [get_inst body_grammar_util_build_parsed_parser, ← nameTokenV, ← parserV, build_parser_apply, Out.bind_ok]
  unfold RuleText call at ht
  have hf : get (inst U) (K .mpl_front [encVal (.seq [.str n, .void_, x])]) .type = .ok (encStr n) := front_vector
  rw [ht, Out.bind_ok, hf, Out.bind_ok, back_rule ht, Out.bind_ok]
  rfl

theorem parsed_ill {t : List Int} {f : Fault} (ht : call U (K .build_parser [parserV]) [encStr t] = .ill f) :
    get (inst U) (K .grammar_util_build_parsed_parser [encStr t]) .type = .ill f := by
  rw [get_inst body_grammar_util_build_parsed_parser, ← nameTokenV, ← parserV, build_parser_apply, Out.bind_ok]
  unfold call at ht
  rw [ht]
  rfl

theorem no_action_apply (o : V) : ¬ HasApply U (K .grammar_util_no_action []) o := by
  unfold HasApply
  rw [owner_ill_of_none (by intro k h; cases h) (by rfl)]
  exact fun h => nomatch h

theorem action_fit {f g : V} {st rv av p : V} (h : HasApply U f g) :
    Pat.fits [.cls .grammar_util_grammar_builder [.var .Start, .var .Rules, .var .Actions], .var .P,
      .cls .grammar_util_no_action []] [builderV st rv av, p, f] [] = none := by
  cases f with
  | cls o n args =>
      cases o with
      | root =>
          by_cases hn : .grammar_util_no_action = n
          · subst hn
            cases args with
            | nil => exact absurd h (no_action_apply g)
            | cons a l => simp [Pat.fit, Pat.fits, find]
          · simp [Pat.fit, Pat.fits, find, hn]
      | _ => simp [Pat.fit, Pat.fits, find]
  | _ => simp [Pat.fit, Pat.fits, find]

theorem lambda_type {f : V} : get (inst U) (K .mpl_lambda [f]) .type = .ok f := by members body_mpl_lambda

theorem builder_rule {st rv av : V} : owner (inst U) (builderV st rv av) .rule = .ok (builderV st rv av) :=
  oself_inst body_grammar_util_grammar_builder rfl
theorem builder_import {st rv av : V} : owner (inst U) (builderV st rv av) .import_ = .ok (builderV st rv av) :=
  oself_inst body_grammar_util_grammar_builder rfl
theorem builder_apply {st rv av : V} : owner (inst U) (builderV st rv av) .apply = .ok (builderV st rv av) :=
  oself_inst body_grammar_util_grammar_builder rfl

/-- The class `v` is what the model says. -/
def Reach (U : User) (C : Nat → V → Prop) (E : Env (List Int)) (v : V) : Out Metaparse.Grammar → Prop
  | .ok G => ∃ g, inst U v = inst U g ∧ GRel U C E g G
  | .ill _ => ∃ f, inst U v = .ill f
  | .deep => False

theorem reach_start {s : List Int} : Reach U C E (K .grammar [encStr s]) (.ok (Metaparse.Grammar.empty s)) :=
  ⟨_, by rw [inst_of body_grammar, obind_ok], .mk .nil .nil⟩

theorem reach_rule (h : E.ParsesRules) {g : V} {G : Metaparse.Grammar} (hg : GRel U C E' g G) {l : Link}
    {a : Metaparse.Grammar.Addition} (hr : ∀ i c, C i c → ∃ o, HasApply U c o) (hl : LinkOf U C E' l a) :
    ∃ w, l.on U g = .ok w ∧ Reach U C E' w (G.add E a) := by
  cases hg with
  | @mk st rs as rules actions hrs has =>
    cases hl with
    | @rule t =>
        refine ⟨_, by unfold Link.on; rw [builder_rule]; rfl, ?_⟩
        change Reach U C E' _ ((parseRule E t).bind _)
        rcases Metaparse.C51_rule_parser_finishes h t with ⟨n, e, hp⟩ | ⟨_, _, _, hp⟩
        · obtain ⟨x, hx, ht⟩ := rule_text_ok (U := U) h hp
          rw [hp]
          refine ⟨_, ?_, .mk (.cons (.parsed hx ht) hrs) has⟩
          rw [inst_of body_grammar_util_grammar_builder_rule, obind_ok, inst_of body_grammar_util_add_rule_0, parsed_type ht,
            Out.bind_ok, insert_map, Out.bind_ok, obind_ok]
        · obtain ⟨f, ht⟩ := rule_text_ill (U := U) h hp
          rw [hp]
          refine ⟨f, ?_⟩
          rw [inst_of body_grammar_util_grammar_builder_rule, obind_ok, inst_of body_grammar_util_add_rule_0, parsed_ill ht]
          rfl
    | @action t f k hf =>
        obtain ⟨o, ho, _⟩ := id hf
        refine ⟨_, by unfold Link.on; rw [builder_rule]; rfl, ?_⟩
        change Reach U C E' _ ((parseRule E t).bind _)
        rcases Metaparse.C51_rule_parser_finishes h t with ⟨n, e, hp⟩ | ⟨_, _, _, hp⟩
        · obtain ⟨x, hx, ht⟩ := rule_text_ok (U := U) h hp
          rw [hp]
          refine ⟨_, ?_, .mk (.cons (.parsed hx ht) hrs) (.cons hf has)⟩
          rw [inst_of body_grammar_util_grammar_builder_rule, obind_ok, inst_of (body_grammar_util_add_rule_1 (action_fit ho)),
            parsed_type ht, Out.bind_ok, insert_map, Out.bind_ok, parsed_name ht, Out.bind_ok, lambda_type, Out.bind_ok,
            insert_map, Out.bind_ok, obind_ok]
        · obtain ⟨f', ht⟩ := rule_text_ill (U := U) h hp
          rw [hp]
          refine ⟨f', ?_⟩
          rw [inst_of body_grammar_util_grammar_builder_rule, obind_ok, inst_of (body_grammar_util_add_rule_1 (action_fit ho)),
            parsed_ill ht]
          rfl
    | @import_ n v p hv =>
        refine ⟨_, by unfold Link.on; rw [builder_import]; rfl, ?_⟩
        change Reach U C E' _ ((rebuild E n).bind _)
        have hn := rebuild_same (U := U) h n
        cases hm : rebuild E n with
        | deep => exact absurd hm (rebuild_not_deep h n)
        | ok m =>
            rw [hm] at hn
            replace hn := same_ok_iff.1 hn
            refine ⟨_, ?_, .mk (.cons (.native (hv.isParser hr)) hrs) has⟩
            rw [inst_of body_grammar_util_grammar_builder_import, hn, Out.bind_ok, obind_ok, inst_of body_grammar_util_add_import,
              insert_map, Out.bind_ok, obind_ok]
        | ill f =>
            rw [hm] at hn
            have hf : ∃ f', get (inst U) (K .grammar_util_rebuild [encStr n]) .type = .ill f' := by
              revert hn
              cases get (inst U) (K .grammar_util_rebuild [encStr n]) .type with
              | ill f' => exact fun _ => ⟨f', rfl⟩
              | _ => exact fun h => absurd h (by simp [omap, Same])
            obtain ⟨f', hf⟩ := hf
            refine ⟨f', ?_⟩
            rw [inst_of body_grammar_util_grammar_builder_import, hf]
            rfl

theorem on_inst {v w : V} (h : inst U v = inst U w) (l : Link) : l.on U v = l.on U w := by
  cases l <;> simp only [Link.on, owner, h]

theorem on_ill {v : V} {f : Fault} (h : inst U v = .ill f) (l : Link) : l.on U v = .ill f := by
  cases l <;> simp only [Link.on, owner, h] <;> rfl

theorem reach_chain (h : E.ParsesRules) (hr : ∀ i c, C i c → ∃ o, HasApply U c o) {ls : List Link}
    {as : List Metaparse.Grammar.Addition} (hl : LinksOf U C E' ls as) : ∀ {v : V} {G : Metaparse.Grammar},
    Reach U C E' v (.ok G) →
    (∃ w, linked U v ls = .ok w ∧ Reach U C E' w (addAll E G as)) ∨
      ∃ f f', linked U v ls = .ill f ∧ addAll E G as = .ill f' := by
  induction hl with
  | nil => exact fun hv => .inl ⟨_, rfl, hv⟩
  | @cons l a ls as hl hs ih =>
      rintro v G ⟨g, hv, hg⟩
      obtain ⟨w, hw, hw'⟩ := reach_rule h hg hr hl
      unfold linked addAll
      rw [on_inst hv, hw, Out.bind_ok]
      cases hx : G.add E a with
      | deep => rw [hx] at hw'; exact absurd hw' id
      | ok G' =>
          rw [hx] at hw'
          exact ih hw'
      | ill f =>
          rw [hx] at hw'
          obtain ⟨f', hf⟩ := hw'
          cases ls with
          | nil => exact .inl ⟨w, rfl, f', hf⟩
          | cons l' ls => exact .inr ⟨f', f, by unfold linked; rw [on_ill hf]; rfl, rfl⟩

/-! ### The grammar as a parser -/

theorem builder_call (hE : Fits U C E') (h : E.ParsesRules) {g : V} {G : Metaparse.Grammar} (hg : GRel U C E' g G) (s : List Int)
    (pos : Pos) : owner (inst U) g .apply = .ok g ∧
      Same (call U g [encStr s, encPos pos]) (omap encRes (G.apply E E' s pos)) := by
  have hp := get_parser_agree hg
  cases hg with
  | @mk st rs as rules actions hrs has =>
      refine ⟨builder_apply, ?_⟩
      have hn := rebuild_same (U := U) h st
      unfold call
      rw [get_inst body_grammar_util_grammar_builder_apply, obind_assoc]
      unfold Metaparse.Grammar.apply
      dsimp only
      cases hm : rebuild E st with
      | deep => exact absurd hm (rebuild_not_deep h st)
      | ill f =>
          rw [hm] at hn
          exact Same.bindl hn _
      | ok n =>
          rw [hm] at hn
          rw [same_ok_iff.1 hn, Out.bind_ok, Out.bind_ok, obind_assoc]
          replace hp := hp n
          cases hx : Metaparse.Grammar.parserOf ⟨st, rules, actions⟩ n with
          | deep =>
              rw [hx] at hp
              rw [show get _ _ _ = _ from hp]
              exact trivial
          | ill f =>
              rw [hx] at hp
              obtain ⟨f', hf⟩ := hp
              rw [hf]
              exact trivial
          | ok p =>
              rw [hx] at hp
              obtain ⟨w, hw, o, ho, hd⟩ := hp
              rw [hw, Out.bind_ok, ho, Out.bind_ok, Out.bind_ok, obind_ok]
              exact call_same hE.den hd s pos

theorem chain_call (hE : Fits U C E') (h : E.ParsesRules) {ls : List Link} {as : List Metaparse.Grammar.Addition}
    (hl : LinksOf U C E' ls as) (st s : List Int) (pos : Pos) :
    Same ((linked U (K .grammar [encStr st]) ls).bind fun v => (owner (inst U) v .apply).bind fun o =>
        call U o [encStr s, encPos pos])
      (omap encRes ((addAll E (Metaparse.Grammar.empty st) as).bind fun G => G.apply E E' s pos)) := by
  rcases reach_chain h hE.apply hl (reach_start (s := st)) with ⟨w, hw, hr⟩ | ⟨f, f', hw, hr⟩
  · rw [hw, Out.bind_ok]
    cases hx : addAll E (Metaparse.Grammar.empty st) as with
    | deep => rw [hx] at hr; exact absurd hr id
    | ill f =>
        rw [hx] at hr
        obtain ⟨f', hf⟩ := hr
        rw [show owner (inst U) w .apply = .ill f' by rw [owner, hf]; rfl]
        exact trivial
    | ok G =>
        rw [hx] at hr
        obtain ⟨g, hg, hG⟩ := hr
        obtain ⟨h1, h2⟩ := builder_call hE h hG s pos
        rw [show owner (inst U) w .apply = .ok g by rw [owner, hg]; exact h1, Out.bind_ok, Out.bind_ok]
        exact h2
  · rw [hw, hr]
    exact trivial

theorem same_ill {α : Type} {x : Out α} {f : Fault} (h : Same x (.ill f)) : ∃ f', x = .ill f' := by
  cases x with
  | ill f' => exact ⟨f', rfl⟩
  | _ => exact absurd h id

theorem chain_build (hE : Fits U C E') (h : E.ParsesRules) {ls : List Link} {as : List Metaparse.Grammar.Addition}
    (hl : LinksOf U C E' ls as) (st s : List Int) :
    Same ((linked U (K .grammar [encStr st]) ls).bind fun v => call U (K .build_parser [v]) [encStr s])
      (((addAll E (Metaparse.Grammar.empty st) as).bind fun G => G.apply E E' s start).bind fun
        | .acc x _ _ => .ok (encVal x)
        | .rej m q => .ill (.parsingFailed q.line q.col m)) := by
  rcases reach_chain h hE.apply hl (reach_start (s := st)) with ⟨w, hw, hr⟩ | ⟨f, f', hw, hr⟩
  · rw [hw, Out.bind_ok]
    cases hx : addAll E (Metaparse.Grammar.empty st) as with
    | deep => rw [hx] at hr; exact absurd hr id
    | ill f =>
        rw [hx] at hr
        obtain ⟨f', hf⟩ := hr
        rw [call, get_inst body_build_parser_apply, show owner (inst U) w .apply = .ill f' by rw [owner, hf]; rfl]
        exact trivial
    | ok G =>
        rw [hx] at hr
        obtain ⟨g, hg, hG⟩ := hr
        obtain ⟨h1, h2⟩ := builder_call hE h hG s start
        have ho : HasApply U w g := by unfold HasApply; rw [owner, hg]; exact h1
        rw [Out.bind_ok]
        rcases res_cases (G.apply E E' s start) with ⟨m, q, hy⟩ | ⟨x, t, q, hy⟩ | ⟨f, hy⟩ <;> rw [hy] at h2 ⊢
        · obtain ⟨f, hf⟩ := build_parser_rej (I := List Int) (s := s) ho (same_ok_iff.1 h2)
          change call U (K .build_parser [w]) [encStr s] = _ at hf
          rw [hf]
          exact trivial
        · have hf := build_parser_acc (I := List Int) (s := s) ho (same_ok_iff.1 h2)
          change call U (K .build_parser [w]) [encStr s] = _ at hf
          rw [hf]
          exact Same.rfl' _
        · rw [omap_bad] at h2
          rw [bad_bind]
          exact build_parser_bad (I := List Int) (s := s) ho h2
  · rw [hw, hr]
    exact trivial

theorem add_start {G G' : Metaparse.Grammar} {a : Metaparse.Grammar.Addition} (h : G.add E a = .ok G') : G'.start = G.start := by
  cases a with
  | rule t a =>
      change (parseRule E t).bind _ = _ at h
      cases hp : parseRule E t with
      | ok r => rw [hp] at h; cases h; cases a <;> rfl
      | _ => rw [hp] at h; cases h
  | import_ n p =>
      change (rebuild E n).bind _ = _ at h
      cases hp : rebuild E n with
      | ok r => rw [hp] at h; cases h; rfl
      | _ => rw [hp] at h; cases h

theorem addAll_start' : ∀ {as : List Metaparse.Grammar.Addition} {G G' : Metaparse.Grammar}, addAll E G as = .ok G' →
    G'.start = G.start
  | [], _, _, h => by cases h; rfl
  | a :: as, G, G', h => by
      unfold addAll at h
      cases ha : G.add E a with
      | ok G'' => rw [ha] at h; exact (addAll_start' h).trans (add_start ha)
      | _ => rw [ha] at h; cases h

theorem addAll_start {as : List Metaparse.Grammar.Addition} {st : List Int} {G : Metaparse.Grammar}
    (h : addAll E (Metaparse.Grammar.empty st) as = .ok G) : G.start = st := addAll_start' h

theorem add_not_deep (h : E.ParsesRules) (G : Metaparse.Grammar) (a : Metaparse.Grammar.Addition) : G.add E a ≠ .deep := by
  cases a with
  | rule t a =>
      change (parseRule E t).bind _ ≠ _
      rcases Metaparse.C51_rule_parser_finishes h t with ⟨n, e, hp⟩ | ⟨_, _, _, hp⟩ <;> rw [hp] <;> exact fun h => nomatch h
  | import_ n p =>
      change (rebuild E n).bind _ ≠ _
      cases hm : rebuild E n with
      | deep => exact absurd hm (rebuild_not_deep h n)
      | _ => exact fun h => nomatch h

theorem addAll_ill (h : E.ParsesRules) {t : List Int} {a : Option (Val → Val)} : ∀ {as : List Metaparse.Grammar.Addition},
    .rule t a ∈ as → (∀ n e, ¬ Metaparse.IsRule t n e) → ∀ G, ∃ f, addAll E G as = .ill f
  | [], hm, _, G => nomatch hm
  | b :: as, hm, hno, G => by
      unfold addAll
      cases hb : G.add E b with
      | deep => exact absurd hb (add_not_deep h G b)
      | ill f => exact ⟨f, rfl⟩
      | ok G' =>
          rcases List.mem_cons.1 hm with rfl | hm
          · obtain ⟨_, _, _, hp⟩ := Metaparse.C46_not_a_rule h t hno
            change (parseRule E t).bind _ = _ at hb
            rw [hp] at hb
            cases hb
          · exact addAll_ill h hm hno G'

end Metaparse.Tmpl
