import Verif.Lemmas.MetaHsComplete
import Verif.Lemmas.Finish
/-!
# The parser of the example `meta_hs` (C72)
-/

namespace Metaparse

variable {E : Env (List Chr)}

open MetaHs MetaHs.Token

/-! ## Definitions -/

theorem lambda_force (v : Val) (w : List Chr) :
    (Semantic.lambda v (.str w)).force = .ok (MetaHs.lambda v (.str w)) := rfl

theorem right_sound (h : E.MetaHs) {s : List Chr} {pos : Pos} {vs : List Val} {s0 : List Chr} {pos0 : Pos}
    (hst : Steps E name s pos vs s0 pos0) {x : Val} {pos' : Pos}
    (ha : Accepts E (.lastOf [define, .ref expressionId]) s0 pos0 x [] pos') {v : Val}
    (hf : rightFold Semantic.lambda x vs = .ok v) : ∃ ps e, HsRight true s ps e ∧ v = lambdas ps e.tree := by
  induction hst generalizing v with
  | nil s pos =>
    obtain ⟨a, s1, pos1, h1, h2⟩ := (lastOf_two h.nth2).1 ha
    obtain ⟨ws, rfl, hw, hs, rfl, rfl⟩ := (litToken_accepts h).1 h1
    obtain ⟨t, b, e, ht, hte, rfl, -⟩ := hs_sound h h2
    rw [List.append_nil] at ht
    subst ht
    injection hf with hf
    exact ⟨[], e, .body hw hte, hf.symm⟩
  | @cons s pos w s1 pos1 vs s2 pos2 hn hst ih =>
    obtain ⟨w, ws, rfl, hw, hws, hnc, hs, rfl, rfl⟩ := name_sound h hn
    obtain ⟨y, hy, hv⟩ := Out.bind_eq_ok.1 hf
    obtain ⟨ps, e, hr, rfl⟩ := ih ha hy
    rw [lambda_force] at hv
    injection hv with hv
    exact ⟨w :: ps, e, .param hw hws hnc hr, hv.symm⟩

/-- Whatever `def_parser` accepts is the text of a definition, and the result is its syntax tree. -/
theorem C72_sound (h : E.MetaHs) {s : List Chr} {v : Val} (hv : MetaHs.defParser E s = .ok v) :
    ∃ f ps e, HsDef true s f ps e ∧ v = defTree f ps e := by
  obtain ⟨s', pos', ha⟩ := (C34_buildParser_accepts ..).1 hv
  obtain ⟨ha1, rfl⟩ := (C33_entireInput_accepts h.onText h.nth2 ..).1 ha
  obtain ⟨x, ha2, hx⟩ := (C36_transform_accepts ..).1 ha1
  obtain ⟨vs, hi, rfl⟩ := (C22_sequence_accepts _ h.seq2 ..).1 ha2
  obtain ⟨a, b, s1, pos1, rfl, h1, h2⟩ := hi.two
  obtain ⟨f, ws, rfl, hf, hws, hn, hs, rfl, rfl⟩ := name_sound h h1
  obtain ⟨vs, s0, pos0, m, e, x, ⟨hst, -⟩, hl, hfold⟩ := (C18_foldr_start_with_parser ..).1 h2
  obtain ⟨ps, e, hr, rfl⟩ := right_sound h hst hl hfold
  injection hx with hx
  exact ⟨f, ps, e, ⟨ws, s1, rfl, hf, hws, hn, hr⟩, hx.symm⟩

theorem HsRight.begins {lax : Bool} {s : List Chr} {ps : List (List Chr)} {e : HsExp} (hr : HsRight lax s ps e) :
    beginsWith spaceChar s = false := by
  cases hr with
  | body => rfl
  | @param w ws s ps e hw =>
    have := hw.starts
    cases w with
    | nil => cases this
    | cons c w => exact nameChar_not_space (nameStart_nameChar this)

theorem right_complete (h : E.MetaHs) {s : List Chr} {ps : List (List Chr)} {e : HsExp}
    (hr : HsRight false s ps e) : ∀ pos, ∃ vs s0 pos0 m e' x pos', MaximalRun E name s pos vs s0 pos0 m e' ∧
      Accepts E (.lastOf [define, .ref expressionId]) s0 pos0 x [] pos' ∧
      rightFold Semantic.lambda x vs = .ok (lambdas ps e.tree) := by
  induction hr with
  | @body ws t b e hw ht =>
    intro pos
    obtain ⟨m, hm⟩ := name_rejects h (s := ch '=' :: (ws ++ t)) pos (.inl rfl)
    have h2 := hs_complete h ht stop_nil (moveOver pos (ch '=' :: ws))
    rw [List.append_nil] at h2
    have h3 := ht.not_space []
    rw [List.append_nil] at h3
    exact ⟨[], _, _, m, _, _, _, ⟨.nil .., hm⟩, (lastOf_two h.nth2).2 ⟨_, _, _, (litToken_accepts h).2 ⟨ws, rfl, hw,
      h3, rfl, rfl⟩, h2⟩, rfl⟩
  | @param w ws s ps e hw hws hn hr ih =>
    intro pos
    obtain ⟨vs, s0, pos0, m, e', x, pos', ⟨hst, hm⟩, hl, hf⟩ := ih (moveOver pos (w ++ ws))
    refine ⟨.str w :: vs, s0, pos0, m, e', x, pos', ⟨.cons (name_accepts h pos hw hws hn hr.begins) hst, hm⟩, hl, ?_⟩
    simp only [rightFold, hf, Out.bind_ok, lambda_force]
    rfl

/-- `def_parser` gives the syntax tree for every text of a definition in which `if` stands apart and no name
begins with it. -/
theorem C72_complete (h : E.MetaHs) {s f : List Chr} {ps : List (List Chr)} {e : HsExp} (hd : HsDef false s f ps e) :
    MetaHs.defParser E s = .ok (defTree f ps e) := by
  obtain ⟨ws, s', rfl, hf, hws, hn, hr⟩ := hd
  obtain ⟨vs, s0, pos0, m, e', x, pos', hm, hl, hfold⟩ := right_complete h hr (moveOver start (f ++ ws))
  refine (C34_buildParser_accepts ..).2 ⟨[], pos', (C33_entireInput_accepts h.onText h.nth2 ..).2 ⟨?_, rfl⟩⟩
  exact (C36_transform_accepts ..).2 ⟨_, (C22_sequence_accepts _ h.seq2 ..).2 ⟨_,
    .cons (name_accepts h start hf hws hn hr.begins) (.cons ((C18_foldr_start_with_parser ..).2
      ⟨vs, s0, pos0, m, e', x, hm, hl, hfold⟩) (.nil ..)), rfl⟩, rfl⟩

/-! ## No text has two readings -/

/-- All variables of the expression are names. -/
def HsExp.Named : HsExp → Prop
  | .num _ => True
  | .var w => IsName w
  | .app f a => f.Named ∧ a.Named
  | .cond c t e => c.Named ∧ t.Named ∧ e.Named
  | .op _ a b => a.Named ∧ b.Named

theorem HsText.named {lax : Bool} {l : Nat} {b : Bool} {t r : List Chr} {e : HsExp} (ht : HsText lax l b t r e) :
    e.Named := by
  induction ht with
  | num => trivial
  | var h => exact h
  | brackets _ _ _ _ ih => exact ih
  | cond _ _ _ _ _ _ _ _ _ ih1 ih2 ih3 => exact ⟨ih1, ih2, ih3⟩
  | lift _ _ ih => exact ih
  | app _ _ ih1 ih2 => exact ⟨ih1, ih2⟩
  | op _ _ _ _ ih1 ih2 => exact ⟨ih1, ih2⟩

theorem opName_not_name (o : List Chr) : ¬ IsName (opName o) := fun h => by
  have := h.starts
  simp only [opName, beginsWith] at this
  revert this
  decide

theorem app_ne_cond {f a c t e : HsExp} : (HsExp.app f a).tree ≠ (HsExp.cond c t e).tree := by
  intro he
  simp only [HsExp.tree, MetaHs.application, Val.user.injEq, List.cons.injEq, and_true, true_and] at he
  have hf := he.1
  cases f <;> simp [HsExp.tree, MetaHs.value, MetaHs.ref, MetaHs.application, curryLazyIf] at hf
  rename_i g x
  have hg := hf.1
  cases g <;> simp [HsExp.tree, MetaHs.value, MetaHs.ref, MetaHs.application, curryLazyIf] at hg
  rename_i g x
  have hg := hg.1
  cases g <;> simp [HsExp.tree, MetaHs.value, MetaHs.ref, MetaHs.application, curryLazyIf] at hg

theorem app_ne_op {f a x y : HsExp} {o : List Chr} (hn : f.Named) :
    (HsExp.app f a).tree ≠ (HsExp.op o x y).tree := by
  intro he
  simp only [HsExp.tree, MetaHs.application, Val.user.injEq, List.cons.injEq, and_true, true_and] at he
  have hf := he.1
  cases f <;> simp [HsExp.tree, MetaHs.value, MetaHs.ref, MetaHs.application, curryLazyIf] at hf
  rename_i g z
  have hg := hf.1
  cases g <;> simp [HsExp.tree, MetaHs.value, MetaHs.ref, MetaHs.application, curryLazyIf] at hg
  subst hg
  exact opName_not_name o hn.1

theorem cond_ne_op {c t e x y : HsExp} {o : List Chr} : (HsExp.cond c t e).tree ≠ (HsExp.op o x y).tree := by
  simp [HsExp.tree, MetaHs.value, MetaHs.ref, MetaHs.application, curryLazyIf]

theorem opName_injective {o o' : List Chr} (h : opName o = opName o') : o = o' := by
  simpa [opName] using h

theorem tree_injective {e e' : HsExp} (hn : e.Named) (hn' : e'.Named) (he : e.tree = e'.tree) : e = e' := by
  induction e generalizing e' with
  | num n =>
    cases e' <;> simp [HsExp.tree, MetaHs.value, MetaHs.ref, MetaHs.application] at he ⊢
    exact he
  | var w =>
    cases e' <;> simp [HsExp.tree, MetaHs.value, MetaHs.ref, MetaHs.application] at he ⊢
    exact he
  | app f a ih1 ih2 =>
    cases e' with
    | num => simp [HsExp.tree, MetaHs.value, MetaHs.application] at he
    | var => simp [HsExp.tree, MetaHs.ref, MetaHs.application] at he
    | app f' a' =>
      simp only [HsExp.tree, MetaHs.application, Val.user.injEq, List.cons.injEq, and_true, true_and] at he
      rw [ih1 hn.1 hn'.1 he.1, ih2 hn.2 hn'.2 he.2]
    | cond c t e => exact (app_ne_cond he).elim
    | op o x y => exact (app_ne_op hn.1 he).elim
  | cond c t e ih1 ih2 ih3 =>
    cases e' with
    | num => simp [HsExp.tree, MetaHs.value, MetaHs.application] at he
    | var => simp [HsExp.tree, MetaHs.ref, MetaHs.application] at he
    | app f' a' => exact (app_ne_cond he.symm).elim
    | cond c' t' e' =>
      simp only [HsExp.tree, MetaHs.application, Val.user.injEq, List.cons.injEq, and_true, true_and] at he
      rw [ih1 hn.1 hn'.1 he.1.1, ih2 hn.2.1 hn'.2.1 he.1.2, ih3 hn.2.2 hn'.2.2 he.2]
    | op o x y => exact (cond_ne_op he).elim
  | op o x y ih1 ih2 =>
    cases e' with
    | num => simp [HsExp.tree, MetaHs.value, MetaHs.application] at he
    | var => simp [HsExp.tree, MetaHs.ref, MetaHs.application] at he
    | app f' a' => exact (app_ne_op hn'.1 he.symm).elim
    | cond c' t' e' => exact (cond_ne_op he.symm).elim
    | op o' x' y' =>
      simp only [HsExp.tree, MetaHs.application, MetaHs.ref, Val.user.injEq, List.cons.injEq, and_true, true_and,
        Val.str.injEq] at he
      rw [opName_injective he.1.1, ih1 hn.1 hn'.1 he.1.2, ih2 hn.2 hn'.2 he.2]

theorem lambdas_injective {ps ps' : List (List Chr)} {e e' : HsExp} (hn : e.Named) (hn' : e'.Named)
    (he : lambdas ps e.tree = lambdas ps' e'.tree) : ps = ps' ∧ e = e' := by
  have hl : ∀ {e : HsExp} {v p : Val}, e.tree ≠ MetaHs.lambda v p := by
    intro e v p
    cases e <;> simp [HsExp.tree, MetaHs.value, MetaHs.ref, MetaHs.application, MetaHs.lambda]
  induction ps generalizing ps' with
  | nil =>
    cases ps' with
    | nil => exact ⟨rfl, tree_injective hn hn' he⟩
    | cons p ps' => exact (hl he).elim
  | cons p ps ih =>
    cases ps' with
    | nil => exact (hl he.symm).elim
    | cons p' ps' =>
      simp only [lambdas, List.foldr_cons, MetaHs.lambda, Val.user.injEq, List.cons.injEq, and_true, true_and,
        Val.str.injEq] at he
      obtain ⟨rfl, rfl⟩ := ih he.1
      exact ⟨by rw [he.2], rfl⟩

theorem HsRight.named {lax : Bool} {s : List Chr} {ps : List (List Chr)} {e : HsExp} (h : HsRight lax s ps e) :
    e.Named := by
  induction h with
  | body _ ht => exact ht.named
  | param _ _ _ _ ih => exact ih

/-- Different definitions have different syntax trees. -/
theorem C72_trees {s s' f f' : List Chr} {ps ps' : List (List Chr)} {e e' : HsExp} {lax lax' : Bool}
    (h : HsDef lax s f ps e) (h' : HsDef lax' s' f' ps' e') (he : defTree f ps e = defTree f' ps' e') :
    f = f' ∧ ps = ps' ∧ e = e' := by
  obtain ⟨_, _, _, _, _, _, h⟩ := h
  obtain ⟨_, _, _, _, _, _, h'⟩ := h'
  simp only [defTree, MetaHs.mplPair, MetaHs.topBound, Val.user.injEq, List.cons.injEq, and_true, true_and,
    Val.str.injEq] at he
  obtain ⟨h1, h2⟩ := lambdas_injective h.named h'.named he.2
  exact ⟨he.1, h1, h2⟩

/-- An environment in which the parser can be used. -/
def metaHsEnv (std : Std) : Env (List Chr) := { input := listInput, std := std, rules := fun _ => MetaHs.cmpExp }

theorem metaHsEnv_ok (std : Std) : (metaHsEnv std).MetaHs := ⟨rfl, fun _ => (by decide : 3 < 5), fun _ => (by decide : 4 ≤ 20), rfl⟩

/-- A text is the definition of at most one function. -/
theorem C72_unambiguous {s f f' : List Chr} {ps ps' : List (List Chr)} {e e' : HsExp}
    (h : HsDef false s f ps e) (h' : HsDef false s f' ps' e') : f = f' ∧ ps = ps' ∧ e = e' := by
  have h1 := C72_complete (metaHsEnv_ok .cpp11) h
  have h2 := C72_complete (metaHsEnv_ok .cpp11) h'
  rw [h1] at h2
  injection h2 with h2
  exact C72_trees h h' h2

/-- The outcome does not depend on the standard, as long as the text is in the language. -/
theorem C72_standards {E' : Env (List Chr)} (h : E.MetaHs) (h' : E'.MetaHs) {s f : List Chr}
    {ps : List (List Chr)} {e : HsExp} (hd : HsDef false s f ps e) :
    MetaHs.defParser E s = MetaHs.defParser E' s := by
  rw [C72_complete h hd, C72_complete h' hd]

/-! ## The parser always finishes -/

theorem metaHs_uses : (P.entireInput definition).Every (P.Uses (onlyClasses fun i => i = expressionId)) ∧
    MetaHs.cmpExp.Every (P.Uses (onlyClasses fun i => i = expressionId)) := by
  constructor <;>
    simp [P.every_iff, P.EveryL, P.parts, P.Uses, onlyClasses, P.entireInput, P.firstOf,
      definition, MetaHs.cmpExp, MetaHs.plusExp, MetaHs.multExp, applicationExp, singleExp, ifExp, bracketExp,
      Token.name, exceptKeywords, word, Token.cmp, cmpCases, Token.plus, Token.minus, Token.mult, Token.div,
      Token.int_, openBracket, closeBracket, define, Token.if_, Token.then_, Token.else_, P.token, P.litC, P.int_,
      P.foldl1, P.digitVal, P.digit, P.space, P.repeated, P.alphanum, P.letter, P.alwaysC]

theorem notKeyword_finishes (v : Val) : notKeyword keywords v ≠ .deep := by
  cases v <;> simp [notKeyword]

theorem isLetter_finishes (v : Val) : isLetter v ≠ .deep := by
  simp [isLetter, isLcaseLetter, isUcaseLetter, inRangeC, Out.bind_eq_deep, Val.value_ne_deep]

theorem metaHs_functions : (P.entireInput definition).Every P.FunctionsFinish ∧
    MetaHs.cmpExp.Every P.FunctionsFinish := by
  constructor <;>
    simp [P.every_iff, P.EveryL, P.parts, P.FunctionsFinish, P.entireInput, P.firstOf,
      definition, MetaHs.cmpExp, MetaHs.plusExp, MetaHs.multExp, applicationExp, singleExp, ifExp, bracketExp,
      Token.name, exceptKeywords, word, Token.cmp, cmpCases, Token.plus, Token.minus, Token.mult, Token.div,
      Token.int_, openBracket, closeBracket, define, Token.if_, Token.then_, Token.else_, P.token, P.litC, P.int_,
      P.foldl1, P.digitVal, P.digit, P.space, P.repeated, P.alphanum, P.letter, P.alwaysC, isDigit, inRangeC, isCharC,
      isWhitespace, Out.bind_eq_deep, Val.value_ne_deep, notKeyword_finishes, isLetter_finishes]

theorem single_not_nullable (h : E.MetaHs) : ¬ Nullable E singleExp := by
  rintro ⟨s, pos, v, pos', ha⟩
  have : ∀ n, HsSound E n 0 (hsLevel 0) := by
    intro n
    induction n using Nat.strongRecOn with
    | ind n ih => exact expression_sound h (single_sound h ih)
  obtain ⟨t, b, e, ht⟩ := single_sound h (fun k _ => this k) (Nat.le_refl _) ha
  have h1 := ht.reads.begins
  have h2 : t = [] := List.append_left_eq_self.1 ht.text.symm
  rw [h2] at h1
  cases h1

/-- Parsing always finishes, with a syntax tree or with a compile error. -/
theorem C72_finishes (h : E.MetaHs) (s : List Chr) : MetaHs.defParser E s ≠ .deep := by
  have hE : (E.withClass MetaHs.cmpExp).MetaHs := ⟨h.onText, h.limSequence, h.limOneOf, rfl⟩
  have hN : ∀ i, ((E.withClass MetaHs.cmpExp).rules i).mayBeEmpty (fun _ => true) (fun _ => false) = true →
      true = true := fun _ _ => rfl
  have hNN : ∀ i : Nat, false = false → ∀ s pos v s' pos',
      (E.withClass MetaHs.cmpExp).native i s pos = .ok (.acc v s' pos') → s'.length < s.length := by
    intro i _ s pos v s' pos' h; cases h
  have hs : ∀ p : P, p.repeatsOk (fun _ => true) (fun _ => false) = true → p.Every P.FunctionsFinish →
      p.Sound (E.withClass MetaHs.cmpExp) :=
    fun p => repeatsOk_sound (E.withClass_honest h.onText _) (N := fun _ => true) (NN := fun _ => false) hN hNN p
  have hn : ∀ p : P, p.mayBeEmpty (fun _ => true) (fun _ => false) = false →
      ¬ Nullable (E.withClass MetaHs.cmpExp) p :=
    fun p => not_nullable (E.withClass_honest h.onText _) (N := fun _ => true) (NN := fun _ => false) hN hNN
  have f0 := metaHs_functions.2
  have f0o := (f0.part (q := .sequence [Token.cmp, MetaHs.plusExp]) (by simp [P.parts, MetaHs.cmpExp])).part
    (q := Token.cmp) (by simp [P.parts])
  have f1 := f0.part (q := MetaHs.plusExp) (by simp [P.parts, MetaHs.cmpExp])
  have f1o := (f1.part (q := .sequence [.oneOf [Token.plus, Token.minus], MetaHs.multExp])
    (by simp [P.parts, MetaHs.plusExp])).part (q := .oneOf [Token.plus, Token.minus]) (by simp [P.parts])
  have f2 := f1.part (q := MetaHs.multExp) (by simp [P.parts, MetaHs.plusExp])
  have f2o := (f2.part (q := .sequence [.oneOf [Token.mult, Token.div], applicationExp])
    (by simp [P.parts, MetaHs.multExp])).part (q := .oneOf [Token.mult, Token.div]) (by simp [P.parts])
  have f3 := f2.part (q := applicationExp) (by simp [P.parts, MetaHs.multExp])
  have f4 := f3.part (q := singleExp) (by simp [P.parts, applicationExp])
  have s4 := hs singleExp (by decide +kernel) f4
  have s3 : applicationExp.Sound (E.withClass MetaHs.cmpExp) := by
    refine .mk ⟨single_not_nullable hE, trivial⟩ fun q hq => ?_
    simp only [P.parts, applicationExp, List.mem_cons, List.not_mem_nil, or_false, or_self] at hq
    subst hq
    exact s4
  have step : ∀ {o p : P} {op : Val → Val → Val}, o.repeatsOk (fun _ => true) (fun _ => false) = true →
      o.Every P.FunctionsFinish → o.mayBeEmpty (fun _ => true) (fun _ => false) = false →
      p.Sound (E.withClass MetaHs.cmpExp) → (P.foldlRejectIncompleteStartWithParser (.sequence [o, p]) p op).Sound
        (E.withClass MetaHs.cmpExp) := by
    intro o p op h1 h2 h3 h4
    refine .mk ⟨?_, trivial⟩ fun q hq => ?_
    · exact hn (.sequence [o, p]) (by simp [P.mayBeEmpty, P.mayBeEmpty.allMayBeEmpty, h3])
    · simp only [P.parts, List.mem_cons, List.not_mem_nil, or_false] at hq
      rcases hq with rfl | rfl
      · refine .mk ⟨trivial, trivial⟩ fun q hq => ?_
        simp only [P.parts, List.mem_cons, List.not_mem_nil, or_false] at hq
        rcases hq with rfl | rfl
        · exact hs _ h1 h2
        · exact h4
      · exact h4
  have s2 : MetaHs.multExp.Sound (E.withClass MetaHs.cmpExp) :=
    step (by decide +kernel) f2o (by decide +kernel) s3
  have s1 : MetaHs.plusExp.Sound (E.withClass MetaHs.cmpExp) :=
    step (by decide +kernel) f1o (by decide +kernel) s2
  have s0 : MetaHs.cmpExp.Sound (E.withClass MetaHs.cmpExp) :=
    step (by decide +kernel) f0o (by decide +kernel) s1
  exact buildParser_finishes (finishes_of_class_sound h.onText (R := MetaHs.cmpExp)
    (cls := fun i => i = MetaHs.expressionId) (by rintro i rfl; exact h.expression) metaHs_uses.1 metaHs_uses.2
    (hs _ (by decide +kernel) metaHs_functions.1) s0 (by decide +kernel) s start)

example : MetaHs.defParser (metaHsEnv .cpp98) (txt "f x = (x + ") ≠ .deep := C72_finishes (metaHsEnv_ok .cpp98) _

/-- A text that is not a definition is a compile error. -/
theorem C72_compile_error (h : E.MetaHs) {s : List Chr} (hs : ∀ f ps e, ¬ HsDef true s f ps e) :
    ∃ f, MetaHs.defParser E s = .ill f := by
  cases hd : MetaHs.defParser E s with
  | ok v =>
    obtain ⟨f, ps, e, hd, -⟩ := C72_sound h hd
    exact (hs _ _ _ hd).elim
  | ill f => exact ⟨f, rfl⟩
  | deep => exact (C72_finishes h s hd).elim

/-! ## `/=` -/

/-- No `/` is followed by `=`. -/
def noNotEqual : List Chr → Bool
  | [] => true
  | c :: s => !(c == ch '/' && s.head? == some (ch '=')) && noNotEqual s

theorem noNotEqual_append {a b : List Chr} (ha : noNotEqual a = true) (hb : noNotEqual b = true)
    (h : a.getLast? ≠ some (ch '/')) : noNotEqual (a ++ b) = true := by
  induction a with
  | nil => exact hb
  | cons c a ih =>
    simp only [noNotEqual, Bool.and_eq_true] at ha
    cases a with
    | nil =>
      have : (c == ch '/') = false := beq_eq_false_iff_ne.2 fun hc => h (by rw [hc]; rfl)
      simp [noNotEqual, this, hb]
    | cons d a =>
      simp only [List.cons_append, noNotEqual, Bool.and_eq_true, List.head?_cons] at ha ⊢
      exact ⟨ha.1, by simpa [noNotEqual] using ih (by simpa [noNotEqual] using ha.2) (by simpa using h)⟩

theorem noNotEqual_of_not_mem {a : List Chr} (h : ch '/' ∉ a) : noNotEqual a = true ∧ a.getLast? ≠ some (ch '/') := by
  constructor
  · induction a with
    | nil => rfl
    | cons c a ih =>
      rw [List.mem_cons, not_or] at h
      have : (c == ch '/') = false := beq_eq_false_iff_ne.2 fun hc => h.1 hc.symm
      simp [noNotEqual, this, ih h.2]
  · exact fun hl => h (List.mem_of_getLast? hl)

theorem not_mem_of_all {f : Chr → Bool} {a : List Chr} (h : ∀ c ∈ a, f c = true) {c : Chr} (hc : f c = false) :
    c ∉ a := fun hm => by rw [h c hm] at hc; cases hc

/-- Free of `/=` and not ending in `/`. -/
def Free (t : List Chr) : Prop := noNotEqual t = true ∧ t.getLast? ≠ some (ch '/')

theorem Free.append {a b : List Chr} (ha : Free a) (hb : Free b) : Free (a ++ b) := by
  refine ⟨noNotEqual_append ha.1 hb.1 ha.2, ?_⟩
  cases b with
  | nil => rw [List.append_nil]; exact ha.2
  | cons c b => rw [List.getLast?_append]; cases h : (c :: b).getLast? <;> simp_all [Free]

theorem free_spaces {ws : List Chr} (h : AllSpace ws) : Free ws :=
  noNotEqual_of_not_mem (not_mem_of_all (f := spaceChar) h (by decide))

theorem free_name {w : List Chr} (h : IsName w) : Free w :=
  noNotEqual_of_not_mem (not_mem_of_all (f := nameChar) h.chars (by decide))

theorem free_op {l : Nat} {o t : List Chr} (ho : o ∈ opsAt l) (ht : Free t) (hb : t.head? ≠ some (ch '='))
    (hne : t ≠ []) : Free (o ++ t) := by
  have : o = txt "/" ∨ Free o := by
    match l with
    | 0 => simp only [opsAt, List.mem_cons, List.not_mem_nil, or_false] at ho; rcases ho with rfl|rfl|rfl|rfl|rfl <;>
             exact .inr (by unfold Free; decide)
    | 1 => simp only [opsAt, List.mem_cons, List.not_mem_nil, or_false] at ho; rcases ho with rfl|rfl <;>
             exact .inr (by unfold Free; decide)
    | 2 =>
      simp only [opsAt, List.mem_cons, List.not_mem_nil, or_false] at ho
      rcases ho with rfl|rfl
      · exact .inr (by unfold Free; decide)
      · exact .inl rfl
    | n + 3 => cases ho
  rcases this with rfl | h
  · refine ⟨?_, ?_⟩
    · have : (t.head? == some (ch '=')) = false := beq_eq_false_iff_ne.2 hb
      show (!(ch '/' == ch '/' && t.head? == some (ch '=')) && noNotEqual t) = true
      rw [this, ht.1]; rfl
    · show (ch '/' :: t).getLast? ≠ _
      cases t with
      | nil => exact (hne rfl).elim
      | cons c t => rw [List.getLast?_cons_cons]; exact ht.2
  · exact h.append ht

theorem HsText.free {lax : Bool} {l : Nat} {b : Bool} {t r : List Chr} {e : HsExp} (ht : HsText lax l b t r e) :
    Free t := by
  have one : ∀ {c : Chr} {t : List Chr}, c ≠ ch '/' → Free t → Free (c :: t) := fun {c t} hc ht =>
    Free.append (a := [c]) (noNotEqual_of_not_mem (by simpa using Ne.symm hc)) ht
  induction ht with
  | num hw hd _ hs =>
    exact Free.append (noNotEqual_of_not_mem (not_mem_of_all (f := digitChar) hd (by decide))) (free_spaces hs)
  | var hw hs => exact (free_name hw).append (free_spaces hs)
  | brackets hs _ hs' _ ih =>
    exact one (by decide) ((free_spaces hs).append (ih.append (one (by decide) (free_spaces hs'))))
  | cond h1 h2 h3 _ _ _ _ _ _ ih1 ih2 ih3 =>
    have hf : ∀ w ∈ [txt "if", txt "then", txt "else"], Free w := by unfold Free; decide
    exact (hf _ (by simp)).append ((free_spaces h1).append (ih1.append ((hf _ (by simp)).append
      ((free_spaces h2).append (ih2.append ((hf _ (by simp)).append ((free_spaces h3).append ih3)))))))
  | lift _ _ ih => exact ih
  | app _ _ ih1 ih2 => exact ih1.append ih2
  | op ho _ hw hu ih1 ih2 =>
    refine ih1.append (free_op ho ((free_spaces hw).append ih2) ?_ ?_)
    · simpa using hu.not_equal hw []
    · intro hn
      have := hu.begins
      rw [(List.append_eq_nil_iff.1 hn).2] at this
      cases this

theorem HsRight.free {lax : Bool} {s : List Chr} {ps : List (List Chr)} {e : HsExp} (h : HsRight lax s ps e) :
    Free s := by
  induction h with
  | body hw ht => exact Free.append (a := [ch '=']) (by unfold Free; decide) ((free_spaces hw).append ht.free)
  | param hw hs _ _ ih => exact (free_name hw).append ((free_spaces hs).append ih)

theorem noNotEqual_infix {s : List Chr} (h : noNotEqual s = true) : ¬ txt "/=" <:+: s := by
  rintro ⟨a, b, rfl⟩
  induction a with
  | nil => exact absurd h (by simp [noNotEqual, txt])
  | cons c a ih =>
    simp only [List.cons_append, noNotEqual, Bool.and_eq_true] at h
    exact ih h.2

/-- The operator `/=` can not be used: a text that has it anywhere is a compile error, although `token::cmp`
lists the operator and the environment of the builder has a function for it. -/
theorem C72_not_equal (h : E.MetaHs) {s : List Chr} (hs : txt "/=" <:+: s) :
    ∃ f, MetaHs.defParser E s = .ill f := by
  refine C72_compile_error h ?_
  rintro f ps e ⟨ws, s', rfl, hf, hws, -, hr⟩
  exact noNotEqual_infix ((free_name hf).append ((free_spaces hws).append hr.free)).1 hs

/-! ## Names that begin with `if` -/

/-- `if` does not have to be followed by white space: a name that begins with it is taken apart when `then` and
`else` follow. -/
theorem C72_if_glued :
    MetaHs.defParser (metaHsEnv .cpp11) (txt "f x = ifx then 1 else 2") =
      .ok (defTree (txt "f") [txt "x"] (.cond (.var (txt "x")) (.num 1) (.num 2))) :=
  (C34_buildParser_accepts ..).2 ⟨[], ⟨1, 24, ch '2'⟩, accepts_of_eval 60 (by decide +kernel)⟩

/-- A parameter whose name begins with `if` can not stand alone as a condition: `then` is looked for at the end. -/
theorem C72_if_name : MetaHs.defParser (metaHsEnv .cpp11) (txt "f ifx = if ifx then 1 else 2") =
    .ill (.parsingFailed 1 29 (.literalExpected (ch 't'))) :=
  C34_buildParser_rejects _ _ _ ⟨1, 29, ch '2'⟩ (rejects_of_eval 60 (by decide +kernel))

/-- Nor can a name that goes on with a large number be used: the alternative for `if` is tried as well, and the
number after it is too large for `int`. -/
theorem C72_if_overflow : MetaHs.defParser (metaHsEnv .cpp11) (txt "f if5000000000 = if5000000000") = .ill .overflow :=
  (C34_buildParser_fails_iff ..).2 (.inl (ill_of_eval 60 (by decide +kernel)))

/-! ## The hypotheses can be met -/

theorem isName_of_check {w : List Chr} (h : (beginsWith nameStart w && w.all nameChar && w != txt "if" &&
    w != txt "then" && w != txt "else") = true) : IsName w := by
  simp only [Bool.and_eq_true, List.all_eq_true, bne_iff_ne] at h
  exact ⟨h.1.1.1.1, h.1.1.1.2, h.1.1.2, h.1.2, h.2⟩

/-- `if g (x + 12) <= 3 then y else f y x` -/
theorem example_text : HsText false 0 false (txt "if g (x + 12) <= 3 then y else f y x") []
    (.cond (.op (txt "<=") (.app (.var (txt "g")) (.op (txt "+") (.var (txt "x")) (.num 12))) (.num 3))
      (.var (txt "y")) (.app (.app (.var (txt "f")) (.var (txt "y"))) (.var (txt "x")))) := by
  have up : ∀ {l : Nat} {b : Bool} {t r : List Chr} {e : HsExp}, HsText false 4 b t r e → l ≤ 4 →
      HsText false l b t r e := by
    intro l b t r e h hl
    obtain ⟨k, rfl⟩ : ∃ k, l = 4 - k := ⟨4 - l, by omega⟩
    clear hl
    induction k with
    | zero => exact h
    | succ k ih =>
      by_cases hk : k < 4
      · exact .lift (by omega) (by rw [show 4 - (k + 1) + 1 = 4 - k by omega]; exact ih)
      · rw [show 4 - (k + 1) = 4 - k by omega]; exact ih
  have up3 : ∀ {l : Nat} {b : Bool} {t r : List Chr} {e : HsExp}, HsText false 3 b t r e → l ≤ 3 →
      HsText false l b t r e := by
    intro l b t r e h hl
    match l, hl with
    | 3, _ => exact h
    | 2, _ => exact .lift (by omega) h
    | 1, _ => exact .lift (by omega) (.lift (by omega) h)
    | 0, _ => exact .lift (by omega) (.lift (by omega) (.lift (by omega) h))
  have hv : ∀ (w ws r : String), (beginsWith nameStart (txt w) && (txt w).all nameChar && txt w != txt "if" &&
      txt w != txt "then" && txt w != txt "else") = true → AllSpace (txt ws) → beginsWith nameChar (txt ws ++ txt r) = false →
      beginsWith spaceChar (txt r) = false → ¬ txt "if" <+: txt w → HsText false 4 true (txt w ++ txt ws) (txt r) (.var (txt w)) :=
    fun w ws r h1 h2 h3 h4 h5 => .var (isName_of_check h1) h2 h3 h4 fun _ => h5
  have hx := hv "x" " " "+ 12) <= 3 then y else f y x" (by decide) (by decide) (by decide) (by decide) (by decide)
  have h12 : HsText false 4 true (txt "12") (txt ") <= 3 then y else f y x") (.num 12) :=
    .num (w := txt "12") (ws := []) (by decide) (by decide) (by decide) (by decide) (by decide) (by decide)
  have hsum := HsText.op (l := 1) (o := txt "+") (ws := txt " ") (by decide) (up hx (by decide)) (by decide)
    (up h12 (by decide))
  have hb := HsText.brackets (lax := false) (ws := []) (ws' := txt " ") (r := txt "<= 3 then y else f y x") (by decide)
    (.lift (by decide) hsum) (by decide) (by decide)
  have hg := hv "g" " " "(x + 12) <= 3 then y else f y x" (by decide) (by decide) (by decide) (by decide) (by decide)
  have hgb := HsText.app (up hg (by decide)) hb
  have h3 : HsText false 4 true (txt "3 ") (txt "then y else f y x") (.num 3) :=
    .num (w := txt "3") (ws := txt " ") (by decide) (by decide) (by decide) (by decide) (by decide) (by decide)
  have hc := HsText.op (l := 0) (o := txt "<=") (ws := txt " ") (by decide) (up3 hgb (by decide)) (by decide)
    (up h3 (by decide))
  have hy := hv "y" " " "else f y x" (by decide) (by decide) (by decide) (by decide) (by decide)
  have hf := hv "f" " " "y x" (by decide) (by decide) (by decide) (by decide) (by decide)
  have hy' := hv "y" " " "x" (by decide) (by decide) (by decide) (by decide) (by decide)
  have hx' := hv "x" "" "" (by decide) (by decide) (by decide) (by decide) (by decide)
  have ha := HsText.app (HsText.app (up hf (by decide)) hy') hx'
  exact up (.cond (ws1 := txt " ") (ws2 := txt " ") (ws3 := txt " ") (by decide) (by decide) (by decide) (fun _ => by decide)
    hc (by decide) (up hy (by decide)) (by decide) (up3 ha (by decide))) (by decide)

/-- A definition that `C72_complete`, `C72_trees`, `C72_unambiguous` and `C72_standards` are about. -/
example : HsDef false (txt "f x y = if g (x + 12) <= 3 then y else f y x") (txt "f") [txt "x", txt "y"]
    (.cond (.op (txt "<=") (.app (.var (txt "g")) (.op (txt "+") (.var (txt "x")) (.num 12))) (.num 3))
      (.var (txt "y")) (.app (.app (.var (txt "f")) (.var (txt "y"))) (.var (txt "x")))) :=
  ⟨txt " ", txt "x y = if g (x + 12) <= 3 then y else f y x", by decide, isName_of_check (by decide), by decide, by decide,
    .param (w := txt "x") (ws := txt " ") (isName_of_check (by decide)) (by decide) (by decide)
      (.param (w := txt "y") (ws := txt " ") (isName_of_check (by decide)) (by decide) (by decide)
        (.body (ws := txt " ") (by decide) example_text))⟩

/-- A text that `C72_sound` is about. -/
example : ∃ v, MetaHs.defParser (metaHsEnv .cpp98) (txt "f x = x") = .ok v :=
  ⟨_, (C34_buildParser_accepts ..).2 ⟨[], ⟨1, 8, ch 'x'⟩, accepts_of_eval 60 (v := defTree (txt "f") [txt "x"] (.var (txt "x")))
    (by decide +kernel)⟩⟩

/-- A text that `C72_not_equal` is about. -/
example : (metaHsEnv .cpp11).MetaHs ∧ txt "/=" <:+: txt "f x = x /= 1" :=
  ⟨metaHsEnv_ok _, txt "f x = x ", txt " 1", rfl⟩

/-- A text that `C72_compile_error` is about: it does not begin with a name. -/
example : ∃ f, MetaHs.defParser (metaHsEnv .cpp98) (txt "1 = 2") = .ill f := by
  refine C72_compile_error (metaHsEnv_ok .cpp98) ?_
  rintro f ps e ⟨ws, s', hs, hf, -⟩
  have h1 : beginsWith nameStart (txt "1 = 2") = false := by decide
  rw [hs] at h1
  cases f with
  | nil => exact absurd hf.starts (by decide)
  | cons c f => exact Bool.false_ne_true (h1.symm.trans hf.starts)

end Metaparse
