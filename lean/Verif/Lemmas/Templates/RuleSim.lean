import Verif.Props.Grammar
import Verif.Lemmas.TypingLibrary
/-!
# The parser of rule texts, with other results

The metafunction classes of the rule parser of `grammar` return classes for all arguments; those of the model are for the
arguments that the rule parser passes. Here are functions that are defined for all arguments, and the proof that the results
correspond.
-/

set_option linter.unusedVariables false
set_option linter.unusedSimpArgs false

namespace Metaparse.Tmpl

open Metaparse (Val Msg GExp Pos Res P Env eval step run Sem Gram.charToken Gram.nameToken Gram.repeatedToken
  Gram.repeated1Token Gram.orToken Gram.openBracketToken Gram.closeBracketToken Gram.defineToken)

/-- `grammar.hpp:170-185` -/
def buildCharT (v : Val) : Val := .user 0 [v]
/-- `grammar.hpp:153-168` -/
def buildNameT (v : Val) : Val := .user 1 [v]
/-- `grammar.hpp:81-87` -/
def buildRepeatedT (st t : Val) : Val := Val.ofOut (t.value.bind fun op => .ok (.user 2 [.int op, st]))
/-- `grammar.hpp:89-109` -/
def buildSequenceT (a b : Val) : Val := .user 3 [a, b]
/-- `grammar.hpp:111-131` -/
def buildSelectionT (a b : Val) : Val := .user 4 [a, b]

/-- The number of the class `expression` with these functions. -/
def expressionIdT : Nat := 1

/-- `grammar.hpp:226-228` -/
def bracketExpressionT : P := .middleOf Gram.openBracketToken (.ref expressionIdT) Gram.closeBracketToken

/-- `grammar.hpp:230-236` -/
def nameExpressionT : P :=
  .oneOf [.transform Gram.charToken buildCharT, .transform Gram.nameToken buildNameT, bracketExpressionT]

/-- `grammar.hpp:238-244` -/
def repeatedExpressionT : P :=
  .foldlStartWithParser (.oneOf [Gram.repeatedToken, Gram.repeated1Token]) nameExpressionT buildRepeatedT

/-- `grammar.hpp:246-252` -/
def seqExpressionT : P :=
  .foldlStartWithParser repeatedExpressionT repeatedExpressionT buildSequenceT

/-- `grammar.hpp:254-260` -/
def expressionT : P :=
  .foldlStartWithParser (.lastOf [Gram.orToken, seqExpressionT]) seqExpressionT buildSelectionT

/-- `grammar.hpp:262` -/
def ruleDefinitionT : P := .sequence [Gram.nameToken, Gram.defineToken, .ref expressionIdT]

/-- `grammar.hpp:264`, without the `build_parser` -/
def parserParserT : P := .entireInput ruleDefinitionT

/-- The environment with both. -/
def bothEnv : Env (List Int) :=
  { input := Metaparse.listInput, std := .cpp11,
    rules := fun i => if i = Metaparse.Gram.expressionId then Metaparse.Gram.expression else expressionT }

/-- The value is what the class of the rule is represented as. -/
inductive Rep : GExp → Val → Prop
  | chr {c x} : Val.value x = .ok c → Rep (.chr c) (.user 0 [x])
  | name {n} : Rep (.name n) (.user 1 [.str n])
  | rep {op e x} : Rep e x → Rep (.rep op e) (.user 2 [.int op, x])
  | seq {a b x y} : Rep a x → Rep b y → Rep (.seq a b) (.user 3 [x, y])
  | sel {a b x y} : Rep a x → Rep b y → Rep (.sel a b) (.user 4 [x, y])

/-- Characters, strings and the two classes without a value. -/
inductive Simple : Val → Prop
  | chr {c} : Simple (.chr c)
  | str {l} : Simple (.str l)
  | void_ : Simple .void_
  | cvoid : Simple .cvoid

mutual
/-- Results that correspond. -/
inductive VR : Val → Val → Prop
  | gexp {e v} : Rep e v → VR (.gexp e) v
  | seq {l l'} : VRs l l' → VR (.seq l) (.seq l')
  | same {v} : Simple v → VR v v
/-- The same for lists. -/
inductive VRs : List Val → List Val → Prop
  | nil : VRs [] []
  | cons {v v' l l'} : VR v v' → VRs l l' → VRs (v :: l) (v' :: l')
end

/-- Outcomes that correspond, if there is a result. -/
def OR {I : Type} (x y : Out (Res I)) : Prop :=
  (∀ v s p, x = .ok (.acc v s p) → ∃ v', VR v v' ∧ y = .ok (.acc v' s p)) ∧ ∀ m p, x = .ok (.rej m p) → y = .ok (.rej m p)

/-- Parsers that correspond. -/
def SemR {I : Type} (f g : Sem I) : Prop := ∀ s pos, OR (f s pos) (g s pos)

/-- Values that correspond when they are evaluated. -/
def SR (x y : Val) : Prop := ∀ w, x.force = .ok w → ∃ w', y.force = .ok w' ∧ VR w w'

/-- Functions that correspond. -/
def OpR (f g : Val → Val → Val) : Prop := ∀ x x' r r', VR x x' → VR r r' → SR (f x r) (g x' r')

section Comb
variable {I : Type} {f g f' g' : Sem I}

theorem OR.acc {v v' : Val} {s : I} {p : Pos} (h : VR v v') : OR (.ok (.acc v s p)) (.ok (.acc v' s p)) := by
  refine ⟨?_, fun m q h => by cases h⟩
  rintro v s q ⟨⟩
  exact ⟨v', h, rfl⟩

theorem OR.rej {m : Msg} {p : Pos} : OR (I := I) (.ok (.rej m p)) (.ok (.rej m p)) :=
  ⟨(fun _ _ _ h => nomatch h), fun _ _ h => h⟩

theorem OR.ill {e : Fault} {y : Out (Res I)} : OR (.ill e) y := ⟨(fun _ _ _ h => nomatch h), fun _ _ h => nomatch h⟩
theorem OR.deep {y : Out (Res I)} : OR .deep y := ⟨(fun _ _ _ h => nomatch h), fun _ _ h => nomatch h⟩

theorem OR.bind {x y : Out (Res I)} {k k' : Res I → Out (Res I)} (h : OR x y)
    (ha : ∀ v v' s p, VR v v' → OR (k (.acc v s p)) (k' (.acc v' s p)))
    (hr : ∀ m p, OR (k (.rej m p)) (k' (.rej m p))) : OR (x.bind k) (y.bind k') := by
  cases x with
  | ill e => exact .ill
  | deep => exact .deep
  | ok r =>
      cases r with
      | acc v s p =>
          obtain ⟨v', hv, rfl⟩ := h.1 v s p rfl
          exact ha _ _ _ _ hv
      | rej m p =>
          obtain rfl := h.2 m p rfl
          exact hr _ _

theorem SR.bind {x y : Val} {k k' : Val → Out (Res I)} (h : SR x y) (hk : ∀ w w', VR w w' → OR (k w) (k' w')) :
    OR (x.force.bind k) (y.force.bind k') := by
  cases hx : x.force with
  | ill e => exact .ill
  | deep => exact .deep
  | ok w =>
      obtain ⟨w', hy, hw⟩ := h w hx
      rw [hy]
      exact hk _ _ hw

theorem transform_SR {a b : Val → Val} (h : SemR f g) (hab : ∀ v v', VR v v' → SR (a v) (b v')) :
    SemR (Comb.transform f a) (Comb.transform g b) := fun s pos =>
  (h s pos).bind (fun v v' s p hv => (hab v v' hv).bind fun w w' hw => .acc hw) fun m p => .rej

theorem message_SR {a : Msg → Out Msg} (h : SemR f g) :
    SemR (Comb.transformErrorMessage f a) (Comb.transformErrorMessage g a) := fun s pos =>
  (h s pos).bind (fun v v' s p hv => .acc hv) fun m p => by
    dsimp only
    cases a m with
    | ok x => exact .rej
    | ill e => exact .ill
    | deep => exact .deep

theorem foldl_SR {again again' : Val → Sem I} {st st' : Val} {op op' : Val → Val → Val} (h : SemR f g) (hs : SR st st')
    (ha : ∀ x x' r r', VR x x' → VR r r' → SemR (again (op x r)) (again' (op' x' r'))) :
    SemR (Comb.foldl f again st op) (Comb.foldl g again' st' op') := fun s pos =>
  (h s pos).bind (fun v v' s p hv => hs.bind fun w w' hw => ha _ _ _ _ hw hv s p)
    fun m p => hs.bind fun w w' hw => .acc hw

theorem foldlStart_SR {again again' : Val → Sem I} (h : SemR f g) (ha : ∀ x x', VR x x' → SemR (again x) (again' x')) :
    SemR (Comb.foldlStartWithParser f again) (Comb.foldlStartWithParser g again') := fun s pos =>
  (h s pos).bind (fun v v' s p hv => ha _ _ hv s p) fun m p => .rej

/-- Lists of parsers that correspond. -/
inductive SemRs {I : Type} : List (Sem I) → List (Sem I) → Prop
  | nil : SemRs [] []
  | cons {f g fs gs} : SemR f g → SemRs fs gs → SemRs (f :: fs) (g :: gs)

theorem SemRs.length {fs gs : List (Sem I)} (h : SemRs fs gs) : fs.length = gs.length := by
  induction h with
  | nil => rfl
  | cons _ _ ih => simp [ih]

theorem sequence_SR {fs gs : List (Sem I)} (h : SemRs fs gs) : SemR (Comb.sequence11 fs) (Comb.sequence11 gs) := by
  induction h with
  | nil => exact fun s pos => .acc (.seq .nil)
  | cons hf _ ih =>
      refine fun s pos => (hf s pos).bind (fun v v' s p hv => transform_SR ih (fun l l' hl => ?_) s p) fun m p => .rej
      intro w hw
      cases hl with
      | gexp h => cases hw
      | seq h => cases hw; exact ⟨_, rfl, .seq (.cons hv h)⟩
      | same hx =>
          cases hx <;> first | cases hw | skip
          rename_i l
          simp only [Comb.pushFront] at hw ⊢
          cases hv with
          | gexp h => simp [Val.value, Val.force] at hw
          | seq h => simp [Val.value, Val.force] at hw
          | same h =>
              refine ⟨w, hw, ?_⟩
              cases hx : v.value with
              | ok c => rw [hx] at hw; cases hw; exact .same .str
              | ill e => rw [hx] at hw; cases hw
              | deep => rw [hx] at hw; cases hw

theorem oneOf_SR {fs gs : List (Sem I)} (h : SemRs fs gs) : SemR (Comb.oneOf11 fs) (Comb.oneOf11 gs) := by
  induction h with
  | nil => exact fun s pos => .rej
  | cons hf _ ih =>
      refine fun s pos => (hf s pos).bind (fun v v' s1 p1 hv => (ih s pos).bind (fun _ _ _ _ _ => .acc hv) fun _ _ => .acc hv)
        fun m p => (ih s pos).bind (fun _ _ _ _ hv => .acc hv) fun m' p' => ?_
      dsimp only
      split <;> exact .rej

theorem skip_SR {fs gs : List (Sem I)} (h : SemRs fs gs) {v v' : Val} (hv : VR v v') :
    SemR (Comb.skipRemaining v fs) (Comb.skipRemaining v' gs) := by
  induction h with
  | nil => exact fun s pos => .acc hv
  | cons hf _ ih => exact fun s pos => (hf s pos).bind (fun _ _ s p _ => ih s p) fun m p => .rej

theorem nthGo_SR {fs gs : List (Sem I)} (h : SemRs fs gs) : ∀ n, SemR (Comb.nthGo11 n fs) (Comb.nthGo11 n gs) := by
  induction h with
  | nil => exact fun n s pos => .ill
  | cons hf hs ih =>
      intro n s pos
      refine (hf s pos).bind (fun v v' s p hv => ?_) fun m p => .rej
      dsimp only
      split
      · exact skip_SR hs hv s p
      · exact ih _ s p

theorem nthOf_SR {fs gs : List (Sem I)} (h : SemRs fs gs) (n : Int) : SemR (Comb.nthOf11 n fs) (Comb.nthOf11 n gs) := by
  have hl := h.length
  cases h with
  | nil => exact fun s pos => .rej
  | cons hf hs =>
      intro s pos
      simp only [Comb.nthOf11, hl]
      split
      · exact nthGo_SR (.cons hf hs) n s pos
      · exact .rej

theorem lastOf_SR {fs gs : List (Sem I)} (h : SemRs fs gs) : SemR (Comb.lastOf11 fs) (Comb.lastOf11 gs) := by
  have hl := h.length
  cases h with
  | nil => exact fun s pos => .rej
  | cons hf hs =>
      intro s pos
      simp only [Comb.lastOf11, hl]
      exact nthGo_SR (.cons hf hs) _ s pos

end Comb

/-! ## Parsers -/

/-- What is accepted has a result that is neither a rule nor a sequence. -/
def Plain (p : P) : Prop :=
  ∀ n s pos v s' p', eval bothEnv n p s pos = .ok (.acc v s' p') → Simple v

mutual
/-- Parsers that are the same up to what the functions return. -/
inductive RelP : P → P → Prop
  | plain {p} : Plain p → RelP p p
  | ref : RelP (.ref Metaparse.Gram.expressionId) (.ref expressionIdT)
  | transform {p q f g} : RelP p q → (∀ v v', VR v v' → SR (f v) (g v')) → RelP (.transform p f) (.transform q g)
  | middleOf {p q p' q' p'' q''} : RelP p q → RelP p' q' → RelP p'' q'' → RelP (.middleOf p p' p'') (.middleOf q q' q'')
  | oneOf {l l'} : RelPs l l' → RelP (.oneOf l) (.oneOf l')
  | lastOf {l l'} : RelPs l l' → RelP (.lastOf l) (.lastOf l')
  | nthOfC {n l l'} : RelPs l l' → RelP (.nthOfC n l) (.nthOfC n l')
  | sequence {l l'} : RelPs l l' → RelP (.sequence l) (.sequence l')
  | foldl {p q st st' op op'} : RelP p q → SR st st' → OpR op op' → RelP (.foldl p st op) (.foldl q st' op')
  | foldlStart {p q p' q' op op'} : RelP p q → RelP p' q' → OpR op op' →
      RelP (.foldlStartWithParser p p' op) (.foldlStartWithParser q q' op')
/-- The same for lists. -/
inductive RelPs : List P → List P → Prop
  | nil : RelPs [] []
  | cons {p q l l'} : RelP p q → RelPs l l' → RelPs (p :: l) (q :: l')
end

theorem VR.simple {v : Val} (h : Simple v) : VR v v := .same h

theorem VR.force {v v' : Val} (h : VR v v') : SR v v' := by
  intro w hw
  cases h with
  | gexp h => cases hw; exact ⟨v', by cases h <;> rfl, .gexp h⟩
  | seq h => cases hw; exact ⟨_, rfl, .seq h⟩
  | same h => cases h <;> cases hw <;> exact ⟨_, rfl, .same (by constructor)⟩

theorem semRs_map {n : Nat} (ih : ∀ {p q}, RelP p q → SemR (eval bothEnv n p) (eval bothEnv n q)) :
    ∀ {l l' : List P}, RelPs l l' → SemRs (l.map (eval bothEnv n)) (l'.map (eval bothEnv n))
  | _, _, .nil => .nil
  | _, _, .cons h hs => .cons (ih h) (semRs_map ih hs)

/-! ## The parsers of rules -/

theorem plain_of {p : P} (h : Metaparse.HasType bothEnv (fun _ => none) (fun _ => True) p Simple) : Plain p := by
  intro n s pos v s' p' he
  have := Metaparse.fines_eval (E := bothEnv) (Γ := fun _ => none) rfl (fun _ _ h => nomatch h) n h s pos
  rw [he] at this
  exact this

theorem supN {n : Nat} : bothEnv.SupportsNth n := fun h => nomatch h
theorem supO {n : Nat} : bothEnv.SupportsOneOf n := fun h => nomatch h

theorem ty_lit (c : Int) : Metaparse.HasType bothEnv (fun _ => none) (fun _ => True) (P.litC c) Simple :=
  .weaken (.litC c) fun v h => h ▸ .chr

theorem ty_token (c : Int) : Metaparse.HasType bothEnv (fun _ => none) (fun _ => True) (P.token (P.litC c)) Simple :=
  .token supN (ty_lit c)

theorem plain_token (c : Int) : Plain (P.token (P.litC c)) := plain_of (ty_token c)

theorem plain_define : Plain Gram.defineToken := plain_of (.token supN (.keyword .void_))

theorem plain_empty : Plain (.empty .cvoid) := plain_of (.empty .cvoid)

theorem plain_char : Plain Gram.charToken := by
  apply plain_of
  refine .middleOf supN (ty_lit _) (.oneOf supO ?_) (ty_token _)
  intro p hp
  simp only [List.mem_cons, List.not_mem_nil, or_false] at hp
  rcases hp with rfl | rfl
  · refine .lastOf2 supN (ty_lit _) (.oneOf supO ?_)
    intro p hp
    simp only [List.mem_cons, List.not_mem_nil, or_false] at hp
    rcases hp with rfl | rfl | rfl | rfl | rfl
    · exact .always (ty_lit _) .chr
    · exact .always (ty_lit _) .chr
    · exact .always (ty_lit _) .chr
    · exact ty_lit _
    · exact ty_lit _
  · refine .weaken (.oneCharExceptC fun h => nomatch h) ?_
    rintro v ⟨c, -, rfl⟩
    exact .chr

theorem ty_alphanum : Metaparse.HasType bothEnv (fun _ => none) (fun _ => True) P.alphanum fun _ => True := by
  refine .oneOf supO ?_
  intro p hp
  simp only [List.mem_cons, List.not_mem_nil, or_false] at hp
  rcases hp with rfl | rfl
  · exact .weaken (.acceptWhen (T := fun _ => True) (.weaken .oneChar fun _ _ => trivial)
      fun _ _ _ _ => trivial) fun _ _ => trivial
  · exact .weaken (.acceptWhen (T := fun _ => True) (.changeErrorMessage (.weaken .oneChar fun _ _ => trivial))
      fun _ _ _ _ => trivial) fun _ _ => trivial

theorem ty_name : Metaparse.HasType bothEnv (fun _ => none) (fun _ => True) Gram.nameToken fun v => ∃ l, v = .str l := by
  have hp : Metaparse.HasType bothEnv (fun _ => none) (fun _ => True) (.oneOf [.alphanum, P.litC (Metaparse.ch '_')])
      fun _ => True := by
    refine .oneOf supO ?_
    intro p hp
    simp only [List.mem_cons, List.not_mem_nil, or_false] at hp
    rcases hp with rfl | rfl
    · exact ty_alphanum
    · exact .weaken (.litC _) fun _ _ => trivial
  refine .token supN (.ifAccepts hp (.foldrStartWithParser hp (.ret ⟨[], rfl⟩) ?_))
  rintro x r ⟨l, rfl⟩ -
  refine ⟨fun w hw => ?_, fun _ _ => trivial⟩
  simp only [Metaparse.frontInserter, Comb.pushFront] at hw
  split at hw <;> cases hw
  exact ⟨_, rfl⟩

theorem plain_name : Plain Gram.nameToken := plain_of (.weaken ty_name fun v ⟨_, h⟩ => h ▸ .str)

theorem char_SR (v v' : Val) (h : VR v v') : SR (Metaparse.Gram.buildChar v) (buildCharT v') := by
  intro w hw
  cases h with
  | gexp h => cases hw
  | seq h => cases hw
  | same h =>
      cases h <;> first | cases hw | skip
      exact ⟨_, rfl, .gexp (.chr rfl)⟩

theorem name_SR (v v' : Val) (h : VR v v') : SR (Metaparse.Gram.buildName v) (buildNameT v') := by
  intro w hw
  cases h with
  | gexp h => cases hw
  | seq h => cases hw
  | same h =>
      cases h <;> cases hw
      exact ⟨_, rfl, .gexp .name⟩

theorem repeated_OpR : OpR Metaparse.Gram.buildRepeated buildRepeatedT := by
  intro x x' r r' hx hr w hw
  cases hx with
  | seq h => cases hw
  | same h => cases h <;> cases hw
  | gexp h =>
      cases hr with
      | gexp h => cases hw
      | seq h => cases hw
      | same h =>
          cases h <;> first | cases hw | skip
          exact ⟨_, rfl, .gexp (.rep ‹_›)⟩

theorem sequence_OpR : OpR Metaparse.Gram.buildSequence buildSequenceT := by
  intro x x' r r' hx hr w hw
  cases hx with
  | seq h => cases hw
  | same h => cases h <;> cases hw
  | gexp h =>
      cases hr with
      | gexp h' => cases hw; exact ⟨_, rfl, .gexp (.seq h h')⟩
      | seq h => cases hw
      | same h => cases h <;> cases hw

theorem selection_OpR : OpR Metaparse.Gram.buildSelection buildSelectionT := by
  intro x x' r r' hx hr w hw
  cases hx with
  | seq h => cases hw
  | same h => cases h <;> cases hw
  | gexp h =>
      cases hr with
      | gexp h' => cases hw; exact ⟨_, rfl, .gexp (.sel h h')⟩
      | seq h => cases hw
      | same h => cases h <;> cases hw

theorem relName : RelP Metaparse.Gram.nameExpression nameExpressionT :=
  .oneOf (.cons (.transform (.plain plain_char) char_SR) (.cons (.transform (.plain plain_name) name_SR)
    (.cons (.middleOf (.plain (plain_token _)) .ref (.plain (plain_token _))) .nil)))

theorem relRepeated : RelP Metaparse.Gram.repeatedExpression repeatedExpressionT :=
  .foldlStart (.oneOf (.cons (.plain (plain_token _)) (.cons (.plain (plain_token _)) .nil))) relName repeated_OpR

theorem relSeq : RelP Metaparse.Gram.seqExpression seqExpressionT := .foldlStart relRepeated relRepeated sequence_OpR

theorem relExpression : RelP Metaparse.Gram.expression expressionT :=
  .foldlStart (.lastOf (.cons (.plain (plain_token _)) (.cons relSeq .nil))) relSeq selection_OpR

theorem relParser : RelP Metaparse.Gram.parserParser parserParserT :=
  .nthOfC (.cons (.sequence (.cons (.plain plain_name) (.cons (.plain plain_define) (.cons .ref .nil)))) (.cons (.plain plain_empty) .nil))

theorem relP_eval : ∀ (n : Nat) {p q : P}, RelP p q → SemR (eval bothEnv n p) (eval bothEnv n q) := by
  intro n
  induction n with
  | zero => exact fun _ s pos => .deep
  | succ n ih =>
      intro p q h
      cases h with
      | plain h => 
          intro s pos
          refine ⟨fun v s' p' he => ⟨v, .same (h _ _ _ _ _ _ he), he⟩, fun m p' he => he⟩
      | ref => exact ih relExpression
      | transform h hf => exact transform_SR (ih h) hf
      | middleOf h1 h2 h3 =>
          exact fun s pos => nthOf_SR (.cons (ih h1) (.cons (ih h2) (.cons (message_SR (ih h3)) .nil))) 1 s pos
      | oneOf h => exact oneOf_SR (semRs_map ih h)
      | lastOf h => exact lastOf_SR (semRs_map ih h)
      | nthOfC h => exact nthOf_SR (semRs_map ih h) _
      | sequence h => exact sequence_SR (semRs_map ih h)
      | @foldl p q st st' op op' h hs ho =>
          exact foldl_SR (again := fun st => eval bothEnv n (.foldl p st op)) (again' := fun st => eval bothEnv n (.foldl q st op'))
            (op := op) (op' := op') (ih h) hs fun x x' r r' hx hr => ih (.foldl h (ho _ _ _ _ hx hr) ho)
      | foldlStart h h' ho => exact foldlStart_SR (ih h') fun x x' hx => ih (.foldl h hx.force ho)

theorem bothEnv_parsesRules : bothEnv.ParsesRules where
  onText := rfl
  expression := rfl
  limSequence := fun h => nomatch h
  limOneOf := fun h => nomatch h
  limOneCharExcept := fun h => nomatch h

/-- A rule is parsed as it is in the model, and the result is the class that represents it. -/
theorem parserT_accepts {E : Env (List Int)} (h : E.ParsesRules) {s n : List Int} {e : GExp}
    (hs : Metaparse.Grammar.parseRule E s = .ok (n, e)) :
    ∃ x s' pos', Rep e x ∧ run bothEnv parserParserT s Metaparse.start = .ok (.acc (.seq [.str n, .void_, x]) s' pos') := by
  have hr := (Metaparse.C46_parseRule h s n e).1 hs
  have := (Metaparse.C46_rule_language bothEnv_parsesRules s _).2 ⟨n, e, hr, rfl⟩
  obtain ⟨s', pos', ha⟩ := (Metaparse.C34_buildParser_accepts ..).1 this
  obtain ⟨k, hk⟩ := Metaparse.exists_eval bothEnv Metaparse.Gram.parserParser s Metaparse.start
  rw [show run bothEnv Metaparse.Gram.parserParser s Metaparse.start = _ from ha] at hk
  obtain ⟨v', hv, h'⟩ := (relP_eval k relParser s Metaparse.start).1 _ _ _ hk
  cases hv with
  | same h => cases h
  | seq h =>
      cases h with
      | cons h1 h =>
      cases h with
      | cons h2 h =>
      cases h with
      | cons h3 h =>
      cases h
      cases h1
      cases h2
      cases h3 with
      | same h => cases h
      | gexp h3 => exact ⟨_, _, _, h3, Metaparse.run_ok_of_eval _ h'⟩

theorem parserT_rejects {E : Env (List Int)} (h : E.ParsesRules) {s : List Int} {f : Fault}
    (hs : Metaparse.Grammar.parseRule E s = .ill f) :
    ∃ m pos', run bothEnv parserParserT s Metaparse.start = .ok (.rej m pos') := by
  have hno : ∀ n e, ¬ Metaparse.IsRule s n e := by
    intro n e hr
    rw [(Metaparse.C46_parseRule h s n e).2 hr] at hs
    cases hs
  obtain ⟨m, e, ha⟩ := Metaparse.parserParser_rejects bothEnv_parsesRules hno
  obtain ⟨k, hk⟩ := Metaparse.exists_eval bothEnv Metaparse.Gram.parserParser s Metaparse.start
  rw [show run bothEnv Metaparse.Gram.parserParser s Metaparse.start = _ from ha] at hk
  exact ⟨m, e, Metaparse.run_ok_of_eval _ ((relP_eval k relParser s Metaparse.start).2 _ _ hk)⟩

end Metaparse.Tmpl
