import Verif.Lemmas.TypingLibrary
import Verif.Lemmas.ExpressionBrackets
import Verif.Props.Calculators
import Verif.Props.Brackets
import Verif.Props.Calculator
/-!
# Types of results and of compile errors
-/

namespace Metaparse

variable {E : Env (List Chr)} {Γ : Nat → Option (Val → Prop)} {F : Fault → Prop} {T : Val → Prop} {p : P}

/-- The result has the type that the rules give. -/
theorem C71_result (hE : E.OnText) (hΓ : Typed E Γ F) (h : HasType E Γ F p T) {s s' : List Chr} {pos pos' : Pos}
    {v : Val} (ha : Accepts E p s pos v s' pos') : T v := by
  have := fines_run hE hΓ h s pos
  rw [show run E p s pos = .ok (.acc v s' pos') from ha] at this
  exact this

/-- A typed parser breaks the compilation only with the errors that the functions of the user may give. -/
theorem C71_fault (hE : E.OnText) (hΓ : Typed E Γ F) (h : HasType E Γ F p T) {s : List Chr} {pos : Pos} {f : Fault}
    (hf : run E p s pos = .ill f) : F f := by
  have := fines_run hE hΓ h s pos
  rw [hf] at this
  exact this

/-- `build_parser` with a typed parser: a result of the type, or a parsing error, because the text is rejected, or
an error that the functions of the user may give. -/
theorem C71_build_parser (hE : E.OnText) (hΓ : Typed E Γ F) (h : HasType E Γ F p T) (s : List Chr) :
    (∀ v, buildParser E p s = .ok v → T v) ∧
      ∀ f, buildParser E p s = .ill f →
        F f ∨ ∃ m e, Rejects E p s start m e ∧ f = .parsingFailed e.line e.col m := by
  refine ⟨fun v hv => ?_, fun f hf => ?_⟩
  · obtain ⟨s', pos', ha⟩ := (C34_buildParser_accepts ..).1 hv
    exact C71_result hE hΓ h ha
  · rcases (C34_buildParser_fails_iff ..).1 hf with hf | hf
    · exact .inl (C71_fault hE hΓ h hf)
    · exact .inr hf

/-! ## Expressions -/

/-- What can happen to a text that should be an expression: a number that `int` can hold, an overflow, a division
by zero, or a parsing error. -/
def NumberOrError (E : Env (List Chr)) (p : P) : Prop :=
  ∀ s, (∀ v, buildParser E p s = .ok v → ∃ k, v = .int k ∧ -2147483648 ≤ k ∧ k ≤ 2147483647) ∧
    ∀ f, buildParser E p s = .ill f → f = .overflow ∨ f = .divByZero ∨
      ∃ m e, Rejects E p s start m e ∧ f = .parsingFailed e.line e.col m

theorem numberOrError (hE : E.OnText) (hΓ : Typed E Γ IsArithmetic) (h : HasType E Γ IsArithmetic p IsInt) :
    NumberOrError E p := fun s => by
  obtain ⟨h1, h2⟩ := C71_build_parser hE hΓ h s
  refine ⟨h1, fun f hf => ?_⟩
  rcases h2 f hf with (h | h) | h
  · exact .inl h
  · exact .inr (.inl h)
  · exact .inr (.inr h)

section Tutorial

variable (h : E.Tutorial)
include h

theorem HasType.intToken : HasType E Γ IsArithmetic Tutorial.intToken IsInt := .token h.nth2 (.int_ (.inl rfl))

theorem HasType.plusOps : HasType E Γ F (.oneOf [Tutorial.plusToken, Tutorial.minusToken])
    (IsOneOf [ch '+', ch '-']) := .ops (cs := [ch '+', ch '-']) h.nth2 h.oneOf2

theorem HasType.multOps : HasType E Γ F (.oneOf [Tutorial.timesToken, Tutorial.dividesToken])
    (IsOneOf [ch '*', ch '/']) := .ops (cs := [ch '*', ch '/']) h.nth2 h.oneOf2

theorem HasType.plusItems (hp : HasType E Γ F p IsInt) :
    HasType E Γ F (.sequence [.oneOf [Tutorial.plusToken, Tutorial.minusToken], p]) IsItem :=
  .item h.seq2 (.plusOps h) (by decide) hp

theorem HasType.multItems (hp : HasType E Γ F p IsInt) :
    HasType E Γ F (.sequence [.oneOf [Tutorial.timesToken, Tutorial.dividesToken], p]) IsItem :=
  .item h.seq2 (.multOps h) (by decide) hp

theorem HasType.plusExp (hp : HasType E Γ IsArithmetic p IsInt) :
    HasType E Γ IsArithmetic (Tutorial.plusExp p) IsInt :=
  .foldlStartWithParser (.plusItems h hp) hp (fun _ => gives_int) fun _ _ => gives_binaryOp

theorem HasType.multExp (hp : HasType E Γ IsArithmetic p IsInt) :
    HasType E Γ IsArithmetic (Tutorial.multExp p) IsInt :=
  .foldlStartWithParser (.multItems h hp) hp (fun _ => gives_int) fun _ _ => gives_binaryOp

theorem HasType.unaryExp (hp : HasType E Γ IsArithmetic p IsInt) :
    HasType E Γ IsArithmetic (Tutorial.unaryExp p) IsInt :=
  .foldrStartWithParser (.opToken (cs := [ch '-']) h.nth2 (by decide)) hp
    fun _ _ hx _ => gives_negate (.inl rfl) hx

theorem HasType.brackets (hp : HasType E Γ IsArithmetic p IsInt) :
    HasType E Γ IsArithmetic (.middleOf Tutorial.lparenToken p Tutorial.rparenToken) IsInt :=
  .middleOf h.nth3 (.opToken (cs := [ch '(']) h.nth2 (by decide)) hp
    (.opToken (cs := [ch ')']) h.nth2 (by decide))

omit h in
/-- The classes `plus_exp2`, `plus_exp3` and `plus_exp6` give numbers. -/
def numbers (i : Nat) : Option (Val → Prop) :=
  if i = Tutorial.plusExp2Id ∨ i = Tutorial.plusExp3Id ∨ i = Tutorial.plusExp6Id then some IsInt else none

theorem HasType.primary2 : HasType E Γ IsArithmetic Tutorial.primaryExp2 IsInt := by
  refine .oneOf h.oneOf2 fun q hq => ?_
  simp only [List.mem_cons, List.not_mem_nil, or_false] at hq
  rcases hq with rfl | rfl
  · exact .intToken h
  · exact .brackets h (.plusExp h (.multExp h (.unaryExp h (.intToken h))))

theorem HasType.primary {i : Nat} (hi : Γ i = some IsInt) {m : Msg} : HasType E Γ IsArithmetic (.oneOf [Tutorial.intToken,
    .middleOf Tutorial.lparenToken (.ref i) Tutorial.rparenToken, .fail m]) IsInt := by
  refine .oneOf h.oneOf3 fun q hq => ?_
  simp only [List.mem_cons, List.not_mem_nil, or_false] at hq
  rcases hq with rfl | rfl | rfl
  · exact .intToken h
  · exact .brackets h (.ref hi)
  · exact .fail

theorem HasType.mult6 : HasType E numbers IsArithmetic Tutorial.multExp6 IsInt :=
  .multExp h (.unaryExp h (.primary h (by simp [numbers])))

theorem HasType.mult7 : HasType E numbers IsArithmetic Tutorial.multExp7 IsInt :=
  have hu := HasType.unaryExp h (HasType.primary h (m := Tutorial.missingPrimaryExpression)
    (show numbers Tutorial.plusExp6Id = some IsInt by simp [numbers]))
  .foldlRejectIncompleteStartWithParser (.multItems h hu) hu (fun _ => gives_int) fun _ _ => gives_binaryOp

theorem HasType.plus6 : HasType E numbers IsArithmetic Tutorial.plusExp6 IsInt :=
  .foldlRejectIncompleteStartWithParser (.plusItems h (.mult7 h)) (.mult7 h) (fun _ => gives_int)
    fun _ _ => gives_binaryOp

theorem typed_tutorial : Typed E numbers IsArithmetic := by
  intro i T hi
  unfold numbers at hi
  split at hi
  · next h' =>
    cases hi
    rcases h' with rfl | rfl | rfl
    · rw [h.plusExp2]
      exact .plusExp h (.multExp h (.unaryExp h (.primary2 h)))
    · rw [h.plusExp3]
      exact .plusExp h (.mult6 h)
    · rw [h.plusExp6]
      exact .plus6 h
  · cases hi

/-- The parsers of the tutorial that compute a number from an expression. -/
theorem C71_tutorial :
    (∀ q ∈ [Tutorial.intToken, .foldlStartWithParser Tutorial.plusItem Tutorial.intToken Tutorial.sumItems,
      .foldlStartWithParser (.sequence [.oneOf [Tutorial.plusToken, Tutorial.minusToken], Tutorial.intToken])
        Tutorial.intToken Tutorial.binaryOp,
      .foldlStartWithParser (.sequence [.oneOf [Tutorial.plusToken, Tutorial.minusToken, Tutorial.timesToken],
        Tutorial.intToken]) Tutorial.intToken Tutorial.binaryOp,
      Tutorial.plusExp Tutorial.multExp1, Tutorial.plusExp Tutorial.multExp2, Tutorial.plusExp Tutorial.multExp3,
      Tutorial.plusExp Tutorial.multExp4, .ref Tutorial.plusExp2Id, .ref Tutorial.plusExp3Id, Tutorial.plusExp4,
      Tutorial.plusExp5, .ref Tutorial.plusExp6Id], NumberOrError E q) := by
  intro q hq
  refine numberOrError h.onText (typed_tutorial h) ?_
  have hi : HasType E numbers IsArithmetic Tutorial.intToken IsInt := .intToken h
  simp only [List.mem_cons, List.not_mem_nil, or_false] at hq
  rcases hq with rfl | rfl | rfl | rfl | rfl | rfl | rfl | rfl | rfl | rfl | rfl | rfl | rfl
  · exact hi
  · exact .foldlStartWithParser (.item h.seq2 (.opToken (cs := [ch '+']) h.nth2 (by decide)) (by decide) hi) hi
      (fun _ => gives_int) fun _ _ => gives_sumItems
  · exact .foldlStartWithParser (.plusItems h hi) hi (fun _ => gives_int) fun _ _ => gives_binaryOp
  · exact .foldlStartWithParser (.item h.seq2 (.ops (cs := [ch '+', ch '-', ch '*']) h.nth2 h.oneOf3) (by decide) hi)
      hi (fun _ => gives_int) fun _ _ => gives_binaryOp
  · exact .plusExp h (.foldlStartWithParser
      (.item h.seq2 (.opToken (cs := [ch '*']) h.nth2 (by decide)) (by decide) hi) hi (fun _ => gives_int)
      fun _ _ => gives_binaryOp)
  · exact .plusExp h (.multExp h hi)
  · refine .plusExp h (.foldrStartWithParser (.sequence2 h.seq2 hi (.multOps h)) hi ?_)
    rintro x r hx ⟨a, b, rfl, ha, c, hc, rfl⟩
    exact gives_evalBinaryOp ha hx (by
      rcases List.mem_cons.1 hc with rfl | hc
      · decide
      · rw [List.mem_singleton.1 hc]; decide)
  · exact .plusExp h (.multExp h (.unaryExp h hi))
  · exact .ref (by simp [numbers])
  · exact .ref (by simp [numbers])
  · exact .firstOf2 h.nth2 (.plusExp h (.mult6 h)) (.failAtFirstCharExpected (.plusItems h (.mult6 h)))
  · exact .foldlRejectIncompleteStartWithParser (.plusItems h (.mult6 h)) (.mult6 h) (fun _ => gives_int)
      fun _ _ => gives_binaryOp
  · exact .ref (by simp [numbers])

end Tutorial

section Calculators

theorem calculator_level {o q : P} {cs : List Chr} {op : Val → Val → Val} (hs : E.SupportsSequence 2)
    (ho : HasType E Γ IsArithmetic o (IsOneOf cs)) (hcs : ∀ c ∈ cs, c ∈ [ch '+', ch '-', ch '*', ch '/'])
    (hop : ∀ {x r}, IsInt x → IsItem r → GivesType IsArithmetic IsInt (op x r))
    (hq : HasType E Γ IsArithmetic q IsInt) :
    HasType E Γ IsArithmetic (.foldlRejectIncompleteStartWithParser (.sequence [o, q]) q op) IsInt :=
  .foldlRejectIncompleteStartWithParser (.item hs ho hcs hq) hq (fun _ => gives_int) fun _ _ => hop

/-- The class `plus_exp` gives a number. -/
def oneNumber (i : Nat) : Option (Val → Prop) := if i = 0 then some IsInt else none

/-- The calculators of the examples. -/
theorem C71_calculators :
    (E.ReadsFormulas → NumberOrError E (.entireInput CalcSimple.expression)) ∧
    (E.CalculatesParens → NumberOrError E (.entireInput CalcParens.expression)) ∧
    (E.Calculates → NumberOrError E (.entireInput Calc.expression)) := by
  -- what the three have in common
  have common : E.OnText → (E.std = .cpp98 → 3 < E.limSequence) → (E.std = .cpp98 → 2 ≤ E.limOneOf) →
      E.SupportsNth 2 ∧ E.SupportsNth 3 ∧ ∀ {Γ : Nat → Option (Val → Prop)},
      (∀ {q : P}, HasType E Γ IsArithmetic q IsInt → HasType E Γ IsArithmetic
        (.foldlRejectIncompleteStartWithParser (.sequence [.oneOf [Calc.multToken, Calc.divToken], q]) q
          Calc.evalMult) IsInt) ∧
      (∀ {q : P}, HasType E Γ IsArithmetic q IsInt → HasType E Γ IsArithmetic
        (.foldlRejectIncompleteStartWithParser (.sequence [.oneOf [Calc.plusToken, Calc.minusToken], q]) q
          Calc.evalPlus) IsInt) ∧
      (∀ {q : P}, HasType E Γ IsArithmetic q IsInt →
        HasType E Γ IsArithmetic (.entireInput (.lastOf [.repeated P.space, q])) IsInt) := by
    intro _ hl ho
    have h2 : E.SupportsNth 2 := fun h => by have := hl h; omega
    have hs : E.SupportsSequence 2 := fun h => by have := hl h; constructor <;> omega
    have ho : E.SupportsOneOf 2 := ho
    exact ⟨h2, fun h => by have := hl h; omega, fun hq =>
        calculator_level hs (.ops (cs := [ch '*', ch '/']) h2 ho) (by decide) gives_evalMult hq,
      fun hq => calculator_level hs (.ops (cs := [ch '+', ch '-']) h2 ho) (by decide) gives_evalPlus hq,
      fun hq => .entireInput h2 (.lastOf2 h2 (.repeated .space) hq)⟩
  refine ⟨fun h => ?_, fun h => ?_, fun h => ?_⟩
  · obtain ⟨h2, -, hc⟩ := common h.onText h.limSequence h.limOneOf
    refine numberOrError (Γ := fun _ => none) h.onText (fun i T hi => by cases hi) (hc.2.2 (hc.2.1 (hc.1 ?_)))
    exact .token h2 (.int_ (.inl rfl))
  · obtain ⟨h2, h3, hc⟩ := common h.onText h.limSequence h.limOneOf
    have hp : HasType E oneNumber IsArithmetic CalcParens.plusExp IsInt := by
      refine hc.2.1 (hc.1 (.oneOf h.limOneOf fun q hq => ?_))
      simp only [List.mem_cons, List.not_mem_nil, or_false] at hq
      rcases hq with rfl | rfl
      · exact .token h2 (.int_ (.inl rfl))
      · exact .middleOf h3 (.opToken (cs := [ch '(']) h2 (by decide)) (.ref rfl)
          (.opToken (cs := [ch ')']) h2 (by decide))
    refine numberOrError h.onText (fun i T hi => ?_) (hc.2.2 hp)
    unfold oneNumber at hi
    split at hi
    · next h0 => cases hi; rw [h0, show E.rules 0 = _ from h.plusExp]; exact hp
    · cases hi
  · obtain ⟨h2, h3, hc⟩ := common h.onText h.limSequence h.limOneOf
    have hp : HasType E oneNumber IsArithmetic Calc.plusExp IsInt := by
      refine hc.2.1 (hc.1 (.foldrStartWithParser (.ops (cs := [ch '+', ch '-']) h2 h.limOneOf)
        (.oneOf h.limOneOf fun q hq => ?_) fun _ _ => gives_evalUnaryPlus))
      simp only [List.mem_cons, List.not_mem_nil, or_false] at hq
      rcases hq with rfl | rfl
      · exact .token h2 (.int_ (.inl rfl))
      · exact .middleOf h3 (.opToken (cs := [ch '(']) h2 (by decide)) (.ref rfl)
          (.opToken (cs := [ch ')']) h2 (by decide))
    refine numberOrError h.onText (fun i T hi => ?_) (hc.2.2 hp)
    unfold oneNumber at hi
    split at hi
    · next h0 => cases hi; rw [h0, show E.rules 0 = _ from h.plusExp]; exact hp
    · cases hi

end Calculators

/-! ## Examples -/

/-- All three kinds of errors and numbers happen. -/
theorem C71_each_happens :
    Tutorial.expParser23 (tutorialEnv .cpp11) (txt "7/2") = .ok (.int 3) ∧
    Tutorial.expParser23 (tutorialEnv .cpp98) (txt "2147483647+1") = .ill .overflow ∧
    Tutorial.expParser23 (tutorialEnv .cpp11) (txt "1/0") = .ill .divByZero ∧
    Tutorial.expParser23 (tutorialEnv .cpp14) (txt "1/") =
      .ill (.parsingFailed 1 3 .noneOfTheExpectedCasesFound) := by
  refine ⟨?_, ?_, ?_, ?_⟩
  · exact (C34_buildParser_accepts ..).2 ⟨[], ⟨1, 4, ch '2'⟩, accepts_of_eval 80 (by decide +kernel)⟩
  · exact (C34_buildParser_fails_iff ..).2 (.inl (ill_of_eval 80 (by decide +kernel)))
  · exact (C34_buildParser_fails_iff ..).2 (.inl (ill_of_eval 80 (by decide +kernel)))
  · exact C34_buildParser_rejects _ _ _ ⟨1, 3, ch '/'⟩ (rejects_of_eval 80 (by decide +kernel))

/-- Types are needed: `digit_to_int` of a sequence of digits does not compile. -/
theorem C71_untyped : run (tutorialEnv .cpp11) (.transform (.repeated P.digit) digitToInt) (txt "12") start =
    .ill .noValue := ill_of_eval 40 (by decide +kernel)

/-- Two parsers that are not known: with these types of a class written by the user (0) the rules say that the
pair is a sequence of a character and a number, and that only an overflow can happen. -/
example (E : Env (List Chr)) (hE : E.OnText) (h98 : E.std ≠ .cpp98)
    (h0 : E.rules 0 = .oneOf [P.int_, .transform P.letter fun _ => .int 0]) (s s' : List Chr) (pos pos' : Pos)
    (v : Val) (ha : Accepts E (.sequence [P.oneChar, .ref 0]) s pos v s' pos') :
    ∃ a b, v = .seq [a, b] ∧ IsChr a ∧ IsInt b := by
  refine C71_result (Γ := oneNumber) (F := (· = .overflow)) hE ?_
    (.sequence2 (fun h => absurd h h98) .oneChar (.ref rfl)) ha
  intro i T hi
  unfold oneNumber at hi
  split at hi
  · next hi0 =>
    cases hi
    rw [hi0, h0]
    refine .oneOf (fun h => absurd h h98) fun q hq => ?_
    simp only [List.mem_cons, List.not_mem_nil, or_false] at hq
    rcases hq with rfl | rfl
    · exact .int_ rfl
    · refine .transform (.acceptWhen .oneChar fun v f hv hf => ?_) fun v _ =>
        .of_force rfl ⟨0, rfl, by decide, by decide⟩
      obtain ⟨c, rfl⟩ := hv
      cases hf
  · cases hi

/-- A parser whose only fault is an overflow, for every text. -/
theorem digits_type : HasType env11 (fun _ => none) (· = .overflow) (.sequence [P.oneChar, P.int_])
    (fun v => ∃ a b, v = .seq [a, b] ∧ IsChr a ∧ IsInt b) :=
  .sequence2 (fun h => by cases h) .oneChar (.int_ rfl)

example {s : List Chr} {f : Fault} (h : run env11 (.sequence [P.oneChar, P.int_]) s start = .ill f) : f = .overflow :=
  C71_fault env11_onText (by intro i T h; cases h) digits_type h

/-- It does overflow. -/
example : run env11 (.sequence [P.oneChar, P.int_]) (txt "x2147483648") start = .ill .overflow := ill_of_eval 80 (by decide +kernel)

example {s : List Chr} {v : Val} (h : buildParser env11 (.sequence [P.oneChar, P.int_]) s = .ok v) :
    ∃ a b, v = .seq [a, b] ∧ IsChr a ∧ IsInt b :=
  (C71_build_parser env11_onText (by intro i T h; cases h) digits_type s).1 v h

example (std : Std) : NumberOrError (tutorialEnv std) (.ref Tutorial.plusExp6Id) :=
  C71_tutorial (tutorialEnv_tutorial std) _ (by simp)

end Metaparse
