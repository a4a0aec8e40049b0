import Verif.Model.GrammarExamples
import Verif.Spec.GrammarExamples
import Verif.Lemmas.Formula
import Verif.Props.GrammarMeaning
/-!
# The parsers that `grammar` builds for the rules of the examples
-/

namespace Metaparse

variable {E : Env (List Chr)}

theorem Env.ParsesRules.readsFormulas (h : E.ParsesRules) : E.ReadsFormulas where
  onText := h.onText
  limSequence := h.limSequence
  limOneOf := fun e => Nat.le_trans (by decide) (h.limOneOf e)

/-! ## From rule texts to rules -/

/-- The rule parser makes `name` and `e` of the text, in at most `n` nested instantiations. -/
def checkRule (n : Nat) (s name : List Chr) (e : GExp) : Bool :=
  match eval (ruleEnv .cpp11) n Gram.parserParser s start with
  | .ok (.acc (.seq [.str nm, _, .gexp e']) _ _) => decide (nm = name) && decide (e' = e)
  | _ => false

theorem parseRule_of_check (h : E.ParsesRules) (n : Nat) {s name : List Chr} {e : GExp}
    (hc : checkRule n s name e = true) : Grammar.parseRule E s = .ok (name, e) := by
  refine (C46_standard_independent h (ruleEnv_parsesRules .cpp11) s name e).2 ?_
  unfold checkRule at hc
  split at hc
  · rename_i nm w e' s' pos' heq
    simp only [Bool.and_eq_true, decide_eq_true_eq] at hc
    obtain ⟨rfl, rfl⟩ := hc
    unfold Grammar.parseRule
    have ha : Accepts (ruleEnv .cpp11) Gram.parserParser s start (.seq [.str nm, w, .gexp e']) s' pos' :=
      run_eq_of_eval heq nofun
    rw [(C34_buildParser_accepts ..).2 ⟨s', pos', ha⟩]
    rfl
  · cases hc

/-- The name parser makes `name` of the text, in at most `n` nested instantiations. -/
def checkName (n : Nat) (s name : List Chr) : Bool :=
  match eval (ruleEnv .cpp11) n Gram.nameToken s start with
  | .ok (.acc (.str nm) _ _) => decide (nm = name)
  | _ => false

theorem rebuild_of_check (h : E.ParsesRules) (n : Nat) {s name : List Chr}
    (hc : checkName n s name = true) : Grammar.rebuild E s = .ok name := by
  refine (C46_name h s name).2 ((C46_name (ruleEnv_parsesRules .cpp11) s name).1 ?_)
  unfold checkName at hc
  split at hc
  · rename_i nm s' pos' heq
    simp only [decide_eq_true_eq] at hc
    subst hc
    unfold Grammar.rebuild
    have ha : Accepts (ruleEnv .cpp11) Gram.nameToken s start (.str nm) s' pos' :=
      run_eq_of_eval heq nofun
    rw [(C34_buildParser_accepts ..).2 ⟨s', pos', ha⟩]
    rfl
  · cases hc

theorem addAll_rule (h : E.ParsesRules) (n : Nat) {G : Grammar} {s name : List Chr} {e : GExp}
    {a : Option (Val → Val)} {l : List Grammar.Addition} (hc : checkRule n s name e = true) :
    Grammar.addAll E G (.rule s a :: l) = Grammar.addAll E (G.addRule name e a) l := by
  simp only [Grammar.addAll, Grammar.add, Grammar.rule, parseRule_of_check h n hc, Out.bind_ok]

theorem addAll_import (h : E.ParsesRules) (n : Nat) {G : Grammar} {s name : List Chr} {p : P}
    {l : List Grammar.Addition} (hc : checkName n s name = true) :
    Grammar.addAll E G (.import_ s p :: l) = Grammar.addAll E (G.addImport name p) l := by
  simp only [Grammar.addAll, Grammar.add, Grammar.import_, rebuild_of_check h n hc, Out.bind_ok]

/-- `entire_input` of a grammar accepts the whole texts that the parser of the start symbol accepts. -/
theorem parseWholeWith_ok (h : E.ParsesRules) {G : Grammar} {n : List Chr} {p : P}
    (hn : Grammar.rebuild E G.start = .ok n) (hp : G.parserOf n = .ok p) (s : List Chr) (v : Val) :
    parseWholeWith E (.ok G) s = .ok v ↔ ∃ pos', Accepts E p s start v [] pos' := by
  have key : ∀ s' pos', Accepts { E with native := fun _ => G.apply E E } (.native 0) s start v s' pos' ↔
      Accepts E p s start v s' pos' := by
    intro s' pos'
    unfold Accepts
    rw [run_step]
    simp only [step, Grammar.apply, hn, hp, Out.bind_ok]
  show buildParser _ _ s = .ok v ↔ _
  rw [C34_buildParser_accepts]
  constructor
  · rintro ⟨s', pos', ha⟩
    obtain ⟨ha', rfl⟩ := (C33_entireInput_accepts (E := { E with native := fun _ => G.apply E E })
      h.onText h.readsFormulas.nth2 ..).1 ha
    exact ⟨pos', (key ..).1 ha'⟩
  · rintro ⟨pos', ha⟩
    exact ⟨[], pos', (C33_entireInput_accepts (E := { E with native := fun _ => G.apply E E })
      h.onText h.readsFormulas.nth2 ..).2 ⟨(key ..).2 ha, rfl⟩⟩

/-! ## Actions -/

theorem metafunction_force {o : Out Val} {v : Val} : (metafunction o).force = .ok v ↔ o = .ok v := by
  cases o with
  | ok w => exact ⟨fun h => by cases h; rfl, fun h => by cases h; rfl⟩
  | ill f => exact ⟨fun h => (by cases h), fun h => (by cases h)⟩
  | deep => exact ⟨fun h => (by cases h), fun h => (by cases h)⟩

theorem mplFold_eq (op : Val → Val → Val) (x : Val) (vs : List Val) :
    mplFold op x vs = leftFold op x vs := by
  induction vs generalizing x with
  | nil => rfl
  | cons v vs ih => simp only [mplFold, leftFold, ih]

theorem foldBack_force {op : Val → Val → Val} {x : Val} {vs : List Val} {v : Val} :
    (foldBack op (.seq [x, .seq vs])).force = .ok v ↔
      ∃ x', x.force = .ok x' ∧ leftFold op x' vs = .ok v := by
  unfold foldBack
  rw [metafunction_force]
  show (x.force.bind fun x => mplFold op x vs) = .ok v ↔ _
  rw [Out.bind_eq_ok]
  simp only [mplFold_eq]

/-! ## Characters -/

/-- A parser of one character of a class, whatever its errors. -/
def ReadsChar (E : Env (List Chr)) (p : P) (cls : Chr → Bool) : Prop :=
  ∃ m m', CharParser E p cls .chr m m'

theorem readsChar_lit (hE : E.OnText) (c : Chr) : ReadsChar E (P.lit c) fun x => decide (x = c) :=
  ⟨_, _, (C28_lit hE c).2⟩

theorem ReadsChar.oneOf (hs : E.SupportsOneOf 2) {p q : P} {f g : Chr → Bool} (hp : ReadsChar E p f)
    (hq : ReadsChar E q g) : ReadsChar E (.oneOf [p, q]) fun c => f c || g c := by
  obtain ⟨m, m', hp⟩ := hp
  obtain ⟨n, n', hq⟩ := hq
  have := charParser_oneOf (E := E) (val := .chr) (fun b : Bool => if b then p else q)
    (fun b => if b then f else g) (fun b => if b then m else n) (fun b => if b then m' else n')
    (by intro b; cases b <;> assumption) [true, false] hs
  exact ⟨_, _, this.congr fun c => by simp⟩

theorem ReadsChar.congr {p : P} {f g : Chr → Bool} (hp : ReadsChar E p f) (h : ∀ c, f c = g c) :
    ReadsChar E p g := by
  obtain ⟨m, m', hp⟩ := hp
  exact ⟨m, m', hp.congr h⟩

/-! ## Tokens -/

/-- A parser followed by white space, with an action that returns the result of the parser. -/
theorem spaced_accepts (hs : E.SupportsSequence 2) {w : P} (hw : ReadsChar E w spaceChar)
    {act : Val → Val} (hact : ∀ a b, (act (.seq [a, b])).force = .ok a) (p : P) (s : List Chr) (pos : Pos)
    (v : Val) (s' : List Chr) (pos' : Pos) :
    Accepts E (.transform (.sequence [p, .repeated w]) act) s pos v s' pos' ↔
      ∃ ws pos1, Accepts E p s pos v (ws ++ s') pos1 ∧ AllSpace ws ∧ beginsWith spaceChar s' = false ∧
        pos' = moveOver pos1 ws := by
  obtain ⟨m0, m1, hw⟩ := hw
  rw [C36_transform_accepts]
  constructor
  · rintro ⟨x, ha, hx⟩
    obtain ⟨vs, hi, rfl⟩ := (C22_sequence_accepts _ hs ..).1 ha
    obtain ⟨a, b, s1, pos1, rfl, h1, h2⟩ := hi.two
    rw [hact] at hx
    cases hx
    obtain ⟨m, hm⟩ := hw.maximalRun' s1 pos1
    obtain ⟨-, rfl, rfl⟩ := h2.unique ((C14_repeated ..).2 ⟨_, _, _, hm, rfl⟩)
    exact ⟨s1.takeWhile spaceChar, pos1, by rwa [List.takeWhile_append_dropWhile], all_takeWhile _ _,
      beginsWith_dropWhile _ _, rfl⟩
  · rintro ⟨ws, pos1, ha, hws, hb, rfl⟩
    obtain ⟨m, hm⟩ := hw.maximalRun ws s' pos1 hws hb
    exact ⟨.seq [v, .seq (ws.map .chr)], (C22_sequence_accepts _ hs ..).2 ⟨_, .cons ha (.cons
      ((C14_repeated ..).2 ⟨_, _, _, hm, rfl⟩) (.nil ..)), rfl⟩, hact _ _⟩

theorem spaced_rejects (hs : E.SupportsSequence 2) {w : P} {act : Val → Val} {p : P} {s : List Chr}
    {pos : Pos} {m : Msg} {e : Pos} (h : Rejects E p s pos m e) :
    Rejects E (.transform (.sequence [p, w]) act) s pos m e :=
  (C36_transform_rejects ..).2 ((C22_sequence_rejects _ hs ..).2 ⟨[], _, _, [], s, pos, rfl, .nil .., h⟩)

theorem readsOp_spaced (hE : E.OnText) (hs : E.SupportsSequence 2) {w : P} (hw : ReadsChar E w spaceChar)
    {act : Val → Val} (hact : ∀ a b, (act (.seq [a, b])).force = .ok a) (c : Chr) :
    ReadsOp E (.transform (.sequence [P.lit c, .repeated w]) act) [c] where
  accepts := by
    intro d ws s' pos hd h2 h3
    simp at hd
    subst hd
    refine ⟨_, (spaced_accepts hs hw hact ..).2 ⟨ws, moveOver pos [d], ?_, h2, h3, rfl⟩⟩
    exact (C28_lit hE d).2.accepts d (ws ++ s') pos (by simp)
  sound := by
    intro s pos v s' pos' h
    obtain ⟨ws, pos1, h, h2, h3, -⟩ := (spaced_accepts hs hw hact ..).1 h
    cases s with
    | nil => exact (h.not_rejects ((C28_lit hE c).2.empty pos)).elim
    | cons d s =>
      by_cases hd : d = c
      · subst hd
        obtain ⟨rfl, rfl, -⟩ := h.unique ((C28_lit hE d).2.accepts d s pos (by simp))
        exact ⟨d, by simp, ws, rfl, h2, h3, rfl⟩
      · exact (h.not_rejects ((C28_lit hE c).2.other d s pos (by simp [hd]))).elim
  rejects := by
    intro s pos h
    obtain ⟨m, hr⟩ := (C28_lit hE c).2.rejects s pos (by
      cases s with
      | nil => rfl
      | cons d s => simpa [beginsWith] using h)
    exact ⟨m, spaced_rejects hs hr⟩

/-! ## Levels of operators -/

/-- `p ((o) p)*` with an action that folds. -/
abbrev chainOf (o p : P) (op : Val → Val → Val) : P :=
  .transform (.sequence [p, .repeated (.sequence [o, p])]) (foldBack op)

theorem chainOf_accepts (hs : E.SupportsSequence 2) (o p : P) (op : Val → Val → Val) (s : List Chr)
    (pos : Pos) (v : Val) (s' : List Chr) (pos' : Pos) :
    Accepts E (chainOf o p op) s pos v s' pos' ↔ ∃ x s0 pos0 vs m e x', Accepts E p s pos x s0 pos0 ∧
      MaximalRun E (.sequence [o, p]) s0 pos0 vs s' pos' m e ∧ x.force = .ok x' ∧
        leftFold op x' vs = .ok v := by
  rw [C36_transform_accepts]
  constructor
  · rintro ⟨y, ha, hy⟩
    obtain ⟨ys, hi, rfl⟩ := (C22_sequence_accepts _ hs ..).1 ha
    obtain ⟨x, b, s0, pos0, rfl, h1, h2⟩ := hi.two
    obtain ⟨vs, m, e, hm, rfl⟩ := (C14_repeated ..).1 h2
    obtain ⟨x', hx, hf⟩ := foldBack_force.1 hy
    exact ⟨x, s0, pos0, vs, m, e, x', h1, hm, hx, hf⟩
  · rintro ⟨x, s0, pos0, vs, m, e, x', h1, hm, hx, hf⟩
    exact ⟨.seq [x, .seq vs], (C22_sequence_accepts _ hs ..).2 ⟨_, .cons h1 (.cons
      ((C14_repeated ..).2 ⟨_, _, _, hm, rfl⟩) (.nil ..)), rfl⟩, foldBack_force.2 ⟨x', hx, hf⟩⟩

theorem OnlyReads.chainOf {n : Nat} {o p : P} {ops : List Chr} {op : Val → Val → Val}
    {A : List Chr → Val → Prop} (hs : E.SupportsSequence 2) (ho : ReadsOp E o ops)
    (hp : OnlyReads E n p A) : OnlyReads E n (chainOf o p op) (LeftAssoc A ops op) :=
  OnlyReads.leftAssocOf hs ho hp fun ha => by
    obtain ⟨x, s0, pos0, vs, m, e, x', ha, ⟨hm, -⟩, hx, hf⟩ := (chainOf_accepts hs ..).1 ha
    exact ⟨x, s0, pos0, vs, x', ha, hm, hx, hf⟩

theorem ReadsAll.chainOf {o p : P} {ops : List Chr} {op : Val → Val → Val}
    {A : List Chr → Val → Prop} {cont : Chr → Bool} (hs : E.SupportsSequence 2)
    (ho : ReadsOp E o ops) (hp : ReadsAll E p A cont) (hops : ∀ c ∈ ops, cont c = false)
    (hA : ∀ t v, A t v → beginsWith spaceChar t = false ∧ t ≠ []) :
    ReadsAll E (chainOf o p op) (LeftAssoc A ops op) fun c => cont c || ops.contains c :=
  ReadsAll.leftAssocOf hs ho hp hops hA fun h1 hm h2 h4 =>
    (chainOf_accepts hs ..).2 ⟨_, _, _, _, _, _, _, h1, hm, h2, h4⟩

variable {b a : Bool} {D : Formula → Val → Prop} {opMul opPlus : Val → Val → Val}

/-- Two levels of operators above an operand, as a whole text. -/
theorem chain_formulas (hs : E.SupportsSequence 2) (hD : RepresentsOps D opMul opPlus) {om op p : P}
    (hom : ReadsOp E om [ch '*', ch '/']) (hop : ReadsOp E op [ch '+', ch '-'])
    (h : ∀ n, OnlyReads E n p (FormulaLang b a D 2)) (h' : ReadsAll E p (FormulaLang b a D 2) numCont)
    (s : List Chr) (v : Val) :
    (∃ pos', Accepts E (chainOf op (chainOf om p opMul) opPlus) s start v [] pos') ↔
      ∃ e, FormulaText b a 0 s e ∧ D e v := by
  constructor
  · rintro ⟨pos', ha⟩
    obtain ⟨t, ht, hl⟩ := (OnlyReads.chainOf hs hop ((OnlyReads.chainOf hs hom (h s.length)).mono
      fun _ _ => (leftAssoc_mul hD).1)) _ _ _ _ _ (Nat.le_refl _) ha
    rw [List.append_nil] at ht
    subst ht
    exact (leftAssoc_plus hD).1 hl
  · intro hl
    have h1 : ReadsAll E (chainOf om p opMul) (FormulaLang b a D 1) prodCont :=
      (h'.chainOf hs hom (by decide) (by rintro t v ⟨e, he, -⟩; exact he.begins) (op := opMul)).mono
        (fun t v hv => (leftAssoc_mul hD).2 hv) (fun _ hc => hc)
    have := (h1.chainOf hs hop (by decide) (by rintro t v ⟨e, he, -⟩; exact he.begins)
      (op := opPlus)) s v [] start ((leftAssoc_plus hD).2 hl) rfl
    rwa [List.append_nil] at this

end Metaparse
