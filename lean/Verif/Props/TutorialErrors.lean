import Verif.Lemmas.Balance
import Verif.Props.Typing
/-!
# What the last parser of the tutorial accepts and where it reports errors

`/repo/doc/getting_started.qbk`
-/

namespace Metaparse

variable {E : Env (List Chr)}

/-- The environment without parsers and error functions written by the user. -/
def Env.tame (E : Env (List Chr)) : Env (List Chr) :=
  { E with native := fun _ _ pos => .ok (.rej (.user 0) pos), onError := fun _ m pos => .ok (.rej m pos) }

theorem Env.tame_honest (h : E.OnText) : E.tame.Honest where
  onText := h
  native := by
    intro i s pos r hr
    cases hr
    exact ⟨[], s, rfl, rfl⟩
  onError := by
    intro k m pos r hr
    cases hr
    exact ⟨m, rfl⟩

theorem Env.Tutorial.tame (h : E.Tutorial) : E.tame.Tutorial :=
  ⟨h.onText, h.plusExp2, h.plusExp3, h.plusExp6, h.limSequence, h.limOneOf⟩

theorem uses_six : Tutorial.plusExp6.Every (P.Uses (onlyClasses (· = Tutorial.plusExp6Id))) := by
  simp [P.every_iff, P.EveryL, P.parts, P.Uses, onlyClasses, Tutorial.plusExp6, Tutorial.multExp7,
    Tutorial.unaryExp, Tutorial.unaryExp4, Tutorial.primaryExp4, Tutorial.parenExp5,
    Tutorial.intToken, Tutorial.plusToken, Tutorial.minusToken, Tutorial.timesToken, Tutorial.dividesToken,
    Tutorial.lparenToken, Tutorial.rparenToken, P.token, P.firstOf, P.litC, P.int_, P.foldl1, P.digitVal,
    P.digit, P.space, P.repeated]

theorem run_tame (h : E.Tutorial) (s : List Chr) (pos : Pos) :
    run E Tutorial.plusExp6 s pos = run E.tame Tutorial.plusExp6 s pos :=
  run_modular (K := onlyClasses (· = Tutorial.plusExp6Id)) (E := E) (E' := E.tame)
    ⟨rfl, rfl, rfl, rfl, rfl, by
      rintro _ rfl
      rw [h.plusExp6]
      exact ⟨h.plusExp6.symm, uses_six⟩, fun _ h => h.elim, fun _ h => h.elim⟩ _ uses_six s pos

/-! ## How far the text is read -/

theorem longest_viable {t rest : List Chr}
    (ht : BeginsExpression t) (hno : ∀ x r, rest = x :: r → ¬ BeginsExpression (t ++ [x])) :
    LongestPrefix BeginsExpression (t ++ rest) t := by
  refine ⟨List.prefix_append .., ht, ?_⟩
  rintro u hu ⟨w, e, he⟩
  rcases Nat.lt_or_ge t.length u.length with hl | hl
  · exfalso
    obtain ⟨z, rfl⟩ := List.prefix_of_prefix_length_le (List.prefix_append t rest) hu (Nat.le_of_lt hl)
    have hz := List.prefix_append_right_inj (t) |>.1 hu
    cases z with
    | nil => simp at hl
    | cons x z =>
      obtain ⟨r, rfl⟩ := hz
      exact hno x (z ++ r) (by simp) ⟨z ++ w, e, by simpa using he⟩
  · exact hl

theorem not_continued (hE : E.Honest) (h : E.Tutorial) {t r : List Chr} {x : Chr} {pos : Pos} {v : Val} {pos' : Pos}
    (ha : Accepts E Tutorial.plusExp6 (t ++ x :: r) pos v (x :: r) pos') : ¬ BeginsExpression (t ++ [x]) := by
  rintro ⟨w, e, d, he⟩
  have hl := (local_six hE h t.length t x r w pos (Nat.le_refl _)).1 v pos' ha
  have hl' : run E Tutorial.plusExp6 (t ++ [x] ++ w ++ []) pos = .ok (.acc v (x :: w) pos') := by
    simpa [Accepts] using hl
  obtain ⟨k, p', -, hr⟩ := (recurses_six h).decides d _ e [] pos _ he rfl hl'
  cases hr

theorem not_continued_error (hE : E.Honest) (h : E.Tutorial) {u r : List Chr} {x : Chr} {pos : Pos} {m : Msg}
    (hr : Rejects E Tutorial.plusExp6 (u ++ x :: r) pos m (moveOver pos u)) : ¬ BeginsExpression (u ++ [x]) := by
  rintro ⟨w, e, d, he⟩
  obtain ⟨m', hl⟩ := (local_six hE h u.length u x r w pos (Nat.le_refl _)).2 m hr
  have hl' : run E Tutorial.plusExp6 (u ++ [x] ++ w ++ []) pos = .ok (.rej m' (moveOver pos u)) := by
    simpa [Rejects] using hl
  obtain ⟨k, p', -, hr⟩ := (recurses_six h).decides d _ e [] pos _ he rfl hl'
  cases hr

theorem begins_self {t : List Chr} {e : AExp} (h : IsTutorialText t e) : BeginsExpression t :=
  ⟨[], e, by simpa using h⟩

/-- `exp_parser23` compiles exactly for the texts where the longest prefix that begins an expression is an
expression itself and has a value. The value is the result. -/
theorem C70_accepts (h : E.Tutorial) (s : List Chr) (v : Val) :
    Tutorial.expParser23 E s = .ok v ↔
      ∃ u e k, LongestPrefix BeginsExpression s u ∧ IsTutorialText u e ∧ e.value = some k ∧ v = .int k := by
  rw [expParser23_eq h, C34_buildParser_accepts]
  constructor
  · rintro ⟨s', pos', ha⟩
    unfold Accepts at ha
    rw [run_tame h] at ha
    have ha : Accepts E.tame _ _ _ _ _ _ := ha
    obtain ⟨t, rfl, e, k, ht, hk, rfl⟩ := (recurses_six h.tame).sum_any _ _ _ _ _ _ (Nat.le_refl _) ha
    refine ⟨t, e, k, longest_viable (begins_self ht) ?_, ht, hk, rfl⟩
    rintro x r rfl
    exact not_continued (E.tame_honest h.onText) h.tame ha
  · rintro ⟨u, e, k, ⟨⟨rest, rfl⟩, -, hmax⟩, ⟨d, hu⟩, hk, rfl⟩
    have hno : ∀ x r e', rest = x :: r → ∀ w, ¬ IsTutorialText (u ++ x :: w) e' := by
      rintro x r e' rfl w hw
      have := hmax (u ++ [x]) ⟨r, by simp⟩ ⟨w, e', by simpa using hw⟩
      simp only [List.length_append, List.length_singleton] at this
      omega
    obtain ⟨pos', ha⟩ := (recurses_six h).readsTo d u (.int k) rest start ⟨e, k, hu, hk, rfl⟩ (by
      cases rest with
      | nil => rfl
      | cons x r =>
        cases hx : extends_ x with
        | false => exact hx
        | true =>
          exfalso
          simp only [extends_, multChars, dialect18, if_true, plusChars, List.contains_cons, List.contains_nil,
            Bool.or_false, Bool.or_eq_true, beq_iff_eq] at hx
          rcases hx with (hx | hx) | hx
          · exact hno x r e rfl [] ⟨d, by
              have := hu.spaced (ws := [x]) (by intro c hc; simp only [List.mem_singleton] at hc; subst hc; exact hx)
              simpa using this⟩
          · obtain ⟨e', he'⟩ := hu.operator (c := x) (by rcases hx with rfl | rfl <;> simp [expOps])
            exact hno x r e' rfl _ ⟨d, he'⟩
          · obtain ⟨e', he'⟩ := hu.operator (c := x) (by rcases hx with rfl | rfl <;> simp [expOps])
            exact hno x r e' rfl _ ⟨d, he'⟩) (by
      rintro t' a x r rfl rfl ha
      cases hx : digitChar x with
      | false => rfl
      | true =>
        exfalso
        obtain ⟨e', he'⟩ := hu.digit rfl ha hx
        exact hno x r e' rfl [] ⟨d, by simpa using he'⟩)
    exact ⟨rest, pos', ha⟩

/-- The position of an error is after the longest prefix that begins an expression; this prefix is not an
expression. The message is about what is missing there. -/
theorem C70_error (h : E.Tutorial) (s : List Chr) (pos : Pos) (m : Msg) (e : Pos)
    (hr : Rejects E (.ref Tutorial.plusExp6Id) s pos m e) :
    ∃ u, LongestPrefix BeginsExpression s u ∧ (∀ x, ¬ IsTutorialText u x) ∧ e = moveOver pos u ∧
      ErrorMessage E.std pos u m := by
  unfold Rejects at hr
  rw [(recurses_six h).again, run_tame h] at hr
  have hr : Rejects E.tame _ _ _ _ _ := hr
  obtain ⟨u, rest, w, x, rfl, rfl, hm, hx⟩ :=
    viable_six (E.tame_honest h.onText) h.tame _ s pos m e (Nat.le_refl _) hr
  refine ⟨u, longest_viable ⟨w, x, hx⟩ ?_, ?_, rfl, hm⟩
  · rintro x r rfl
    exact not_continued_error (E.tame_honest h.onText) h.tame hr
  · intro x ⟨d, hu⟩
    rcases hm with ⟨hm, -⟩ | ⟨u0, hm, -⟩
    · exact not_both_ends hu.ends hm
    · exact not_open ⟨d, hu⟩ hm

/-- The message is determined by the text before the error. -/
theorem C70_one_message {std : Std} {pos : Pos} {u : List Chr} {m m' : Msg} (h : ErrorMessage std pos u m)
    (h' : ErrorMessage std pos u m') : m = m' := by
  rcases h with ⟨h, rfl⟩ | ⟨u0, h, rfl⟩ <;> rcases h' with ⟨h', rfl⟩ | ⟨u1, h', rfl⟩
  · rfl
  · exact (not_both_ends h'.ends h).elim
  · exact (not_both_ends h.ends h').elim
  · rw [open_unique h h']

theorem exists_longest (s : List Chr) : ∃ u, LongestPrefix BeginsExpression s u := by
  have h0 : BeginsExpression [] := ⟨txt "1", _, 0, .product (one_text (d := 0))⟩
  have : ∀ n, ∃ u, u <+: s ∧ BeginsExpression u ∧ ∀ w, w <+: s → w.length ≤ n → BeginsExpression w →
      w.length ≤ u.length := by
    intro n
    induction n with
    | zero => exact ⟨[], List.nil_prefix, h0, fun w _ hw _ => hw⟩
    | succ n ih =>
      obtain ⟨u, hu, hb, hmax⟩ := ih
      by_cases h : ∃ w, w <+: s ∧ w.length = n + 1 ∧ BeginsExpression w
      · obtain ⟨w, hw, hl, hbw⟩ := h
        exact ⟨w, hw, hbw, fun w' _ hl' _ => by omega⟩
      · refine ⟨u, hu, hb, fun w hw hl hbw => ?_⟩
        rcases Nat.lt_or_ge n w.length with hn | hn
        · exact absurd ⟨w, hw, by omega, hbw⟩ h
        · exact hmax w hw hn hbw
  obtain ⟨u, hu, hb, hmax⟩ := this s.length
  exact ⟨u, hu, hb, fun w hw hbw => hmax w hw hw.length_le hbw⟩

/-- What `exp_parser23` does with any text: it gives the value of the longest prefix that begins an expression; or
this prefix is not an expression and the error is reported at its end; or there is an overflow or a division by
zero. -/
theorem C70_outcome (h : E.Tutorial) (s : List Chr) :
    ∃ u, LongestPrefix BeginsExpression s u ∧
      ((∃ e k, IsTutorialText u e ∧ e.value = some k ∧ Tutorial.expParser23 E s = .ok (.int k)) ∨
       ((∀ x, ¬ IsTutorialText u x) ∧ ∃ m, ErrorMessage E.std start u m ∧ Tutorial.expParser23 E s =
          .ill (.parsingFailed (moveOver start u).line (moveOver start u).col m)) ∨
       (¬ (∃ e k, IsTutorialText u e ∧ e.value = some k) ∧
          (Tutorial.expParser23 E s = .ill .overflow ∨ Tutorial.expParser23 E s = .ill .divByZero))) := by
  cases ho : Tutorial.expParser23 E s with
  | ok v =>
    obtain ⟨u, e, k, hu, he, hk, rfl⟩ := (C70_accepts h s v).1 ho
    exact ⟨u, hu, .inl ⟨e, k, he, hk, rfl⟩⟩
  | deep => exact absurd ho (C69_finishes h s).2.2.2.2
  | ill f =>
    rcases (C71_tutorial h (.ref Tutorial.plusExp6Id) (by simp) s).2 f ho with hf | hf | ⟨m, e, hr, rfl⟩
    · obtain ⟨u, hu⟩ := exists_longest s
      refine ⟨u, hu, .inr (.inr ⟨?_, .inl (by rw [hf])⟩)⟩
      rintro ⟨e, k, he, hk⟩
      rw [(C70_accepts h s _).2 ⟨u, e, k, hu, he, hk, rfl⟩] at ho
      cases ho
    · obtain ⟨u, hu⟩ := exists_longest s
      refine ⟨u, hu, .inr (.inr ⟨?_, .inr (by rw [hf])⟩)⟩
      rintro ⟨e, k, he, hk⟩
      rw [(C70_accepts h s _).2 ⟨u, e, k, hu, he, hk, rfl⟩] at ho
      cases ho
    · obtain ⟨u, hu, hno, rfl, hm⟩ := C70_error h s start m e hr
      exact ⟨u, hu, .inr (.inl ⟨hno, m, hm, rfl⟩)⟩

/-! ## Examples -/

/-- A text that ends in a bracket. -/
example : BracketOpen (txt "2*") (txt "2*( 1+1") :=
  ⟨txt " ", txt "1+1", _, rfl, by decide, 0, sum_text⟩

/-- A bracket that is not closed: the error is after the expression in brackets, the message has the position of
the bracket. -/
theorem C70_not_closed : ∃ u, LongestPrefix BeginsExpression (txt "2*( 1+1x") u ∧
    ErrorMessage .cpp11 start u (.unpaired 1 3 (.literalExpected (ch ')'))) ∧
    Tutorial.expParser23 (tutorialEnv .cpp11) (txt "2*( 1+1x") =
      .ill (.parsingFailed 1 8 (.unpaired 1 3 (.literalExpected (ch ')')))) := by
  have hr : Rejects (tutorialEnv .cpp11) (.ref Tutorial.plusExp6Id) (txt "2*( 1+1x") start
      (.unpaired 1 3 (.literalExpected (ch ')'))) ⟨1, 8, ch '1'⟩ := rejects_of_eval 80 (by decide +kernel)
  obtain ⟨u, hu, -, -, hm⟩ := C70_error (tutorialEnv_tutorial .cpp11) _ _ _ _ hr
  exact ⟨u, hu, hm, C34_buildParser_rejects _ _ _ _ hr⟩

/-- `exp_parser22` ignores an incomplete product, `exp_parser23` does not. -/
theorem C70_incomplete_product :
    Tutorial.expParser22 (tutorialEnv .cpp11) (txt "1+2*") = .ok (.int 3) ∧
    Tutorial.expParser23 (tutorialEnv .cpp11) (txt "1+2*") =
      .ill (.parsingFailed 1 5 .noneOfTheExpectedCasesFound) ∧
    Tutorial.expParser23 (tutorialEnv .cpp98) (txt "1+2*") =
      .ill (.parsingFailed 1 5 Tutorial.missingPrimaryExpression) := by
  refine ⟨(C34_buildParser_accepts ..).2 ⟨txt "*", ⟨1, 4, ch '2'⟩, accepts_of_eval 80 (by decide +kernel)⟩, ?_, ?_⟩
  · exact C34_buildParser_rejects _ _ _ ⟨1, 5, ch '*'⟩ (rejects_of_eval 80 (by decide +kernel))
  · exact C34_buildParser_rejects _ _ _ ⟨1, 5, ch '*'⟩ (rejects_of_eval 80 (by decide +kernel))

/-- The errors of `exp_parser20` are not after the longest prefix that begins an expression: here it is `(1+`, but
the error is reported after `(1`. -/
theorem C70_not_twenty :
    BeginsExpression (txt "(1+") ∧
    Tutorial.expParser20 (tutorialEnv .cpp11) (txt "(1+x") =
      .ill (.parsingFailed 1 3 (.unpaired 1 1 (.literalExpected (ch ')')))) ∧
    Tutorial.expParser23 (tutorialEnv .cpp11) (txt "(1+x") =
      .ill (.parsingFailed 1 4 .noneOfTheExpectedCasesFound) := by
  refine ⟨⟨txt "1)", _, 1, sum_in_brackets (d := 0)⟩, ?_, ?_⟩
  · exact C34_buildParser_rejects _ _ _ ⟨1, 3, ch '1'⟩ (rejects_of_eval 80 (by decide +kernel))
  · exact C34_buildParser_rejects _ _ _ ⟨1, 4, ch '+'⟩ (rejects_of_eval 80 (by decide +kernel))

/-- Characters after an expression that cannot continue it are ignored. -/
theorem C70_rest_ignored : Tutorial.expParser23 (tutorialEnv .cpp11) (txt "1+2 3") = .ok (.int 3) :=
  (C34_buildParser_accepts ..).2 ⟨txt "3", ⟨1, 5, ch ' '⟩, accepts_of_eval 80 (by decide +kernel)⟩

/-- An overflow in brackets is found before the error after it, one outside of brackets is not. -/
theorem C70_overflow_first :
    Tutorial.expParser23 (tutorialEnv .cpp11) (txt "(2147483647+1)+") = .ill .overflow ∧
    Tutorial.expParser23 (tutorialEnv .cpp11) (txt "2147483647+1+") =
      .ill (.parsingFailed 1 14 .noneOfTheExpectedCasesFound) := by
  constructor
  · exact (C34_buildParser_fails_iff ..).2 (.inl (ill_of_eval 80 (by decide +kernel)))
  · exact C34_buildParser_rejects _ _ _ ⟨1, 14, ch '+'⟩ (rejects_of_eval 80 (by decide +kernel))

/-- The value of `1+2 3` is that of the longest beginning that begins an expression. -/
example : ∃ u e k, LongestPrefix BeginsExpression (txt "1+2 3") u ∧ IsTutorialText u e ∧ e.value = some k ∧ Val.int 3 = .int k :=
  (C70_accepts (tutorialEnv_tutorial .cpp11) _ _).1 C70_rest_ignored

/-- The message for `2*( 1+1x` is the only one that describes it. -/
example : ∃ u, LongestPrefix BeginsExpression (txt "2*( 1+1x") u ∧ ∀ m, ErrorMessage .cpp11 start u m →
    m = .unpaired 1 3 (.literalExpected (ch ')')) := by
  obtain ⟨u, hu, hm, -⟩ := C70_not_closed
  exact ⟨u, hu, fun m h => C70_one_message h hm⟩

end Metaparse
