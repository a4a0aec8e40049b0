import Verif.Lemmas.Templates.GrammarChain
import Verif.Props.Templates
/-!
# `grammar` does what the model says

C94. The text of `grammar.hpp`, translated to the class templates of `Verif/Model/Templates/Grammar.lean`.
-/

namespace Metaparse

open Tmpl

attribute [local instance] Tmpl.cpp11

variable {U : User} {C : Nat → V → Prop} {E E' : Env (List Int)}

/-- C94: `grammar<Start>::rule<…>::import<…>…::apply<S, Pos>::type` is what the model of grammars says. The rules are texts,
with or without an action; imported classes are written as parsers of the model. -/
theorem C94_apply (hE : Tmpl.Fits U C E') (h : E.ParsesRules) {links : List Link} {adds : List Grammar.Addition}
    (hl : LinksOf U C E' links adds) (st s : List Int) (pos : Pos) :
    Same ((linked U (K .grammar [encStr st]) links).bind fun v => (owner (inst U) v .apply).bind fun o =>
        call U o [encStr s, encPos pos])
      (omap encRes ((Grammar.addAll E (Grammar.empty st) adds).bind fun G => G.apply E E' s pos)) :=
  chain_call hE h hl st s pos

/-- C94: `build_parser<grammar<Start>::…>::apply<S>::type` is the value the grammar gives, and is ill-formed if the grammar
rejects. -/
theorem C94_build_parser (hE : Tmpl.Fits U C E') (h : E.ParsesRules) {links : List Link} {adds : List Grammar.Addition}
    (hl : LinksOf U C E' links adds) (st s : List Int) :
    Same ((linked U (K .grammar [encStr st]) links).bind fun v => call U (K .build_parser [v]) [encStr s])
      (((Grammar.addAll E (Grammar.empty st) adds).bind fun G => G.apply E E' s start).bind fun
        | .acc x _ _ => .ok (encVal x)
        | .rej m q => .ill (.parsingFailed q.line q.col m)) := chain_build hE h hl st s

/-- C94: the parser a name of a grammar is, by the rules alone: if the rules that were added make the parser `p` of the name
of the start symbol, the class parses as `p`. -/
theorem C94_rules (hE : Tmpl.Fits U C E') (h : E.ParsesRules) {links : List Link} {adds : List Grammar.Addition}
    (hl : LinksOf U C E' links adds) {st n rest : List Int} {G : Grammar} {p : P}
    (hG : Grammar.addAll E (Grammar.empty st) adds = .ok G) (hn : Tokens st [.name n] rest)
    (hp : Grammar.Builds G.ruleSet (.name n) p) (s : List Int) (pos : Pos) :
    Same ((linked U (K .grammar [encStr st]) links).bind fun v => (owner (inst U) v .apply).bind fun o =>
        call U o [encStr s, encPos pos]) (omap encRes (run E' p s pos)) := by
  have hc := C94_apply hE h hl st s pos
  rw [hG, Out.bind_ok] at hc
  unfold Grammar.apply at hc
  rw [addAll_start hG, (C46_name h st n).2 ⟨_, hn⟩, Out.bind_ok, Grammar.parserOf_eq_ok.2 hp, Out.bind_ok] at hc
  exact hc

/-- C94: a text that is no rule makes the grammar ill-formed, whatever the other rules are. -/
theorem C94_not_a_rule (hE : Tmpl.Fits U C E') (h : E.ParsesRules) {links : List Link} {adds : List Grammar.Addition}
    (hl : LinksOf U C E' links adds) {t : List Int} {a : Option (Val → Val)} (ht : .rule t a ∈ adds)
    (hno : ∀ n e, ¬ IsRule t n e) (st s : List Int) (pos : Pos) :
    ∃ f, ((linked U (K .grammar [encStr st]) links).bind fun v => (owner (inst U) v .apply).bind fun o =>
        call U o [encStr s, encPos pos]) = .ill f := by
  obtain ⟨f, hf⟩ := addAll_ill h ht hno (Grammar.empty st)
  have hc := C94_apply hE h hl st s pos
  rw [hf] at hc
  exact same_ill hc

/-! ### A case: brackets of a grammar

`grammar<"S">::rule<"S ::= d", next>::import<"d", depth>` with the class `depth` and the metafunction class `next` of the user
in `Templates.lean`. -/

/-- The links of the chain. -/
def depthLinks : List Link :=
  [.rule (encStr (txt "S ::= d")) (.fn 0), .import_ (encStr (txt "d")) depthClass]

/-- The same in the model. -/
def depthAdds : List Grammar.Addition := [.rule (txt "S ::= d") (some nextVal), .import_ (txt "d") depthParser]

theorem depth_links : LinksOf depthUser OfUser depthEnv depthLinks depthAdds :=
  .cons (.action next_fun) (.cons (.import_ depth_spells) .nil)

/-- The grammar of the model. -/
def depthGrammar : Grammar :=
  ⟨txt "S", [(txt "d", .native depthParser), (txt "S", .parsed (.name (txt "d")))], [(txt "S", nextVal)]⟩

theorem depth_rule : Grammar.parseRule (ruleEnv .cpp11) (txt "S ::= d") = .ok (txt "S", .name (txt "d")) := by
  refine (C46_parseRule (ruleEnv_parsesRules _) _ _ _).2 ⟨[.name (txt "d")], ?_, ?_⟩
  · have sp : ∀ c ∈ txt " ", spaceChar c = true := by decide
    exact .cons (w := txt "S") (ws := txt " ") (.name (by decide) (by decide)) sp rfl (fun _ h => by cases h)
      (.cons (w := txt "::=") (ws := txt " ") .define sp rfl (fun ⟨_, h⟩ => by cases h)
      (.cons (w := txt "d") (ws := txt "") (s := []) (.name (by decide) (by decide)) (by decide) rfl (fun _ _ => rfl) (.nil _)))
  · exact .alone (.single (.once (.name _)))

theorem depth_name (n : List Int) (q : Pos) (h : eval (ruleEnv .cpp11) 40 Gram.nameToken n start = .ok (.acc (.str n) [] q)) :
    Grammar.rebuild (ruleEnv .cpp11) n = .ok n := by
  unfold Grammar.rebuild buildParser
  rw [run_ok_of_eval 40 h]
  rfl

theorem depth_added : Grammar.addAll (ruleEnv .cpp11) (Grammar.empty (txt "S")) depthAdds = .ok depthGrammar := by
  simp only [depthAdds, Grammar.addAll, Grammar.add, Grammar.rule, Grammar.import_, depth_rule,
    depth_name (txt "d") ⟨1, 2, ch 'd'⟩ (by rfl), Out.bind_ok]
  rfl

theorem depth_builds : Grammar.Builds depthGrammar.ruleSet (.name (txt "S")) (.transform depthParser nextVal) :=
  Grammar.builds_of_getParser (k := 2) rfl

theorem depth_start : Tokens (txt "S") [.name (txt "S")] [] :=
  .cons (w := txt "S") (ws := []) (s := []) (.name (by decide) (by decide)) (by simp) rfl (fun _ _ => rfl) (.nil _)

/-- The class gives `int_<3>` for `(())!`. -/
example : (linked depthUser (K .grammar [encStr (txt "S")]) depthLinks).bind (fun v =>
      (owner (inst depthUser) v .apply).bind fun o => call depthUser o [encStr (txt "(())!"), encPos start]) =
    .ok (K .accept [K .mpl_int_ [.num 3], encStr (txt "!"), encPos ⟨1, 5, ch ')'⟩]) := by
  have h := C94_rules depth_fits (ruleEnv_parsesRules .cpp11) depth_links depth_added depth_start depth_builds
    (txt "(())!") start
  rw [run_ok_of_eval (r := .acc (.int 3) (txt "!") ⟨1, 5, ch ')'⟩) 20 (by rfl)] at h
  exact same_ok_iff.1 h

/-- The same with `build_parser`. -/
example : (linked depthUser (K .grammar [encStr (txt "S")]) depthLinks).bind (fun v =>
    call depthUser (K .build_parser [v]) [encStr (txt "(())!")]) = .ok (K .mpl_int_ [.num 3]) := by
  have h := C94_build_parser depth_fits (ruleEnv_parsesRules .cpp11) depth_links (txt "S") (txt "(())!")
  rw [depth_added, Out.bind_ok] at h
  unfold Grammar.apply at h
  rw [show depthGrammar.start = txt "S" from rfl, (C46_name (ruleEnv_parsesRules .cpp11) _ _).2 ⟨_, depth_start⟩, Out.bind_ok,
    Grammar.parserOf_eq_ok.2 depth_builds, Out.bind_ok,
    run_ok_of_eval (r := .acc (.int 3) (txt "!") ⟨1, 5, ch ')'⟩) 20 (by rfl)] at h
  exact same_ok_iff.1 h

/-- A rule without a right side. -/
example : ∃ f, ((linked depthUser (K .grammar [encStr (txt "S")]) [.rule (encStr (txt "S ::=")) (K .grammar_util_no_action [])]).bind
    fun v => (owner (inst depthUser) v .apply).bind fun o => call depthUser o [encStr (txt "a"), encPos start]) = .ill f := by
  refine C94_not_a_rule (t := txt "S ::=") (a := none) depth_fits (ruleEnv_parsesRules .cpp11) (.cons .rule .nil)
    (List.mem_cons_self ..) (fun n e hr => ?_) _ _ _
  have h := (C46_parseRule (ruleEnv_parsesRules .cpp11) _ _ _).2 hr
  unfold Grammar.parseRule buildParser at h
  rw [run_ok_of_eval (r := .rej .noneOfTheExpectedCasesFound ⟨1, 6, ch '='⟩) 40 (by rfl)] at h
  cases h

example (s : List Int) (pos : Pos) : Same ((linked depthUser (K .grammar [encStr (txt "S")]) depthLinks).bind fun v =>
      (owner (inst depthUser) v .apply).bind fun o => call depthUser o [encStr s, encPos pos])
    (omap encRes ((Grammar.addAll (ruleEnv .cpp11) (Grammar.empty (txt "S")) depthAdds).bind fun G =>
      G.apply (ruleEnv .cpp11) depthEnv s pos)) :=
  C94_apply depth_fits (ruleEnv_parsesRules .cpp11) depth_links (txt "S") s pos

end Metaparse
