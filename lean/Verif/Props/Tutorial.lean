import Verif.Lemmas.RightProducts
import Verif.Props.Sums
/-!
# C68: Precedence, associativity and unary minus in the tutorial
-/

namespace Metaparse

variable {E : Env (List Chr)}

/-! ## Expressions -/

/-- A text is only one expression, whatever the dialect. -/
theorem C68_unambiguous {D : Dialect} {d d' : Nat} {t : List Chr} {e e' : AExp}
    (h : TutorialText D d 0 t e) (h' : TutorialText D d' 0 t e') : e = e' := text_unique h h'

/-! ## Left associative operators -/

theorem longest_iff {p : P} {T : List Chr → AExp → Prop} (hr : ∀ n, OnlyReads E n p (Values T))
    (ha : AtLeast E p T) (hx : Exact E p T) (s : List Chr) (v : Val) :
    buildParser E p s = .ok v ↔
      ∃ t e k, LongestPrefix (fun t => ∃ e, T t e) s t ∧ T t e ∧ e.value = some k ∧ v = .int k := by
  rw [C34_buildParser_accepts]
  constructor
  · rintro ⟨s', pos', h⟩
    obtain ⟨t, rfl, e, k, ht, hk, rfl⟩ := hr _ _ _ _ _ _ (Nat.le_refl _) h
    refine ⟨t, e, k, ⟨List.prefix_append .., ⟨e, ht⟩, ?_⟩, ht, hk, rfl⟩
    rintro u ⟨r, hu⟩ ⟨e', he'⟩
    rw [← hu] at h
    have := ha.length he' h
    have := congrArg List.length hu
    simp only [List.length_append] at this
    omega
  · rintro ⟨t, e, k, ⟨⟨rest, rfl⟩, -, hl⟩, ht, hk, rfl⟩
    obtain ⟨pos', h⟩ := hx.accepts t e k rest start ht (fun t' e' h1 h2 => hl t' h2 ⟨e', h1⟩) hk
    exact ⟨_, _, h⟩

/-- What a level of the parsers without brackets does. -/
structure Level (E : Env (List Chr)) (D : Dialect) (l : Nat) (p : P) : Prop where
  onlyReads : ∀ n, OnlyReads E n p (Values (TutorialText D 0 l))
  atLeast : AtLeast E p (TutorialText D 0 l)
  exact : Exact E p (TutorialText D 0 l)

theorem OnlyReads.congr {p : P} {n : Nat} {T T' : List Chr → AExp → Prop} (h : OnlyReads E n p (Values T))
    (hT : ∀ t e, T' t e ↔ T t e) : OnlyReads E n p (Values T') :=
  h.mono fun _ _ ⟨e, k, h1, h2, h3⟩ => ⟨e, k, (hT _ _).2 h1, h2, h3⟩

theorem Level.congr {D : Dialect} {l : Nat} {p : P} {T : List Chr → AExp → Prop}
    (h1 : ∀ n, OnlyReads E n p (Values T)) (h2 : AtLeast E p T) (h3 : Exact E p T)
    (hT : ∀ t e, TutorialText D 0 l t e ↔ T t e) : Level E D l p :=
  ⟨fun n => (h1 n).congr hT, h2.mono fun t e => (hT t e).1, h3.congr hT⟩

theorem Level.number (h : E.Tutorial) (D : Dialect) : Level E D 3 Tutorial.intToken :=
  .congr (OnlyReads.num h) (AtLeast.num h) (Exact.num h) fun _ _ => text3_zero

theorem Level.positive (h : E.Tutorial) {D : Dialect} (hD : D.neg = false) : Level E D 2 Tutorial.intToken :=
  .congr (OnlyReads.num h) (AtLeast.num h) (Exact.num h) fun _ _ => (text2_iff_of_not_neg hD).trans text3_zero

theorem Level.unary (h : E.Tutorial) {D : Dialect} (hD : D.neg = true) :
    Level E D 2 (Tutorial.unaryExp Tutorial.intToken) where
  onlyReads n := .unary h hD ((Level.number h D).onlyReads n)
  atLeast := .unary h (Level.number h D).atLeast
  exact := .unary h hD (Level.number h D).exact

theorem multChars_ops {D : Dialect} : ∀ c ∈ multChars D, c ∈ expOps := by
  intro c hc
  rcases mem_multChars.1 hc with rfl | ⟨-, rfl⟩ <;> decide

theorem plusChars_ops : ∀ c ∈ plusChars, c ∈ expOps := by decide

theorem Level.product (h : E.Tutorial) {D : Dialect} (hD : D.right = false) {o p : P} (hp : Level E D 2 p)
    (ho : ReadsOp E o (multChars D)) :
    Level E D 1 (.foldlStartWithParser (.sequence [o, p]) p Tutorial.binaryOp) :=
  .congr (fun n => (FoldsLeft.foldl o p).onlyReads h.seq2 ho multChars_ops (hp.onlyReads n))
    (.foldl h.seq2 ho hp.atLeast hp.onlyReads (prefixes_two D 0) (fun _ _ h => h) (solid_text D 0 2)
      multChars_free)
    (.foldl h.seq2 ho multChars_ops hp.exact (prefixes_two D 0) (solid_text D 0 2) multChars_free)
    fun _ _ => text1_iff_left hD

theorem Level.sum (h : E.Tutorial) {D : Dialect} {p : P} (hp : Level E D 1 p) :
    Level E D 0 (Tutorial.plusExp p) :=
  .congr (fun n => (FoldsLeft.foldl _ p).onlyReads h.seq2 h.plusOps plusChars_ops (hp.onlyReads n))
    (.foldl h.seq2 h.plusOps hp.atLeast hp.onlyReads (prefixes_one D 0) (fun _ _ h => h) (solid_text D 0 1)
      plusChars_free)
    (.foldl h.seq2 h.plusOps plusChars_ops hp.exact (prefixes_one D 0) (solid_text D 0 1) plusChars_free)
    fun _ _ => text0_iff

theorem Level.longest {D : Dialect} {p : P} (h : Level E D 0 p) (s : List Chr) (v : Val) :
    buildParser E p s = .ok v ↔ ∃ t e k, LongestPrefix (fun t => ∃ e, TutorialText D 0 0 t e) s t ∧
      TutorialText D 0 0 t e ∧ e.value = some k ∧ v = .int k :=
  longest_iff h.onlyReads h.atLeast h.exact s v

/-- `exp_parser15` reads the longest prefix that is an expression made of `+`, `-` and `*`, in which `*` has
precedence and all operators associate to the left, and computes its value. -/
theorem C68_precedence (h : E.Tutorial) (s : List Chr) (v : Val) :
    Tutorial.expParser15 E s = .ok v ↔ ∃ t e k,
      LongestPrefix (fun t => ∃ e, TutorialText dialect15 0 0 t e) s t ∧ TutorialText dialect15 0 0 t e ∧
        e.value = some k ∧ v = .int k :=
  (Level.sum h (Level.product h rfl (Level.positive h rfl) (readsOp_token h.onText h.nth2 _))).longest s v

/-- `exp_parser16` does so with `/`, too. -/
theorem C68_division (h : E.Tutorial) (s : List Chr) (v : Val) :
    Tutorial.expParser16 E s = .ok v ↔ ∃ t e k,
      LongestPrefix (fun t => ∃ e, TutorialText dialect16 0 0 t e) s t ∧ TutorialText dialect16 0 0 t e ∧
        e.value = some k ∧ v = .int k :=
  (Level.sum h (Level.product h rfl (Level.positive h rfl) h.multOps)).longest s v

/-- `exp_parser18` does so with unary minus, too. -/
theorem C68_unary_minus (h : E.Tutorial) (s : List Chr) (v : Val) :
    Tutorial.expParser18 E s = .ok v ↔ ∃ t e k,
      LongestPrefix (fun t => ∃ e, TutorialText dialect18 0 0 t e) s t ∧ TutorialText dialect18 0 0 t e ∧
        e.value = some k ∧ v = .int k :=
  (Level.sum h (Level.product h rfl (Level.unary h rfl) h.multOps)).longest s v

/-! ## Right associative operators -/

theorem text17_iff {t : List Chr} {e : AExp} : TutorialText dialect17 0 1 t e ↔
    OpChain NumText [ch '*', ch '/'] buildRight t e := by
  have : TutorialText dialect17 0 2 = NumText :=
    funext fun t => funext fun e => propext ((text2_iff_of_not_neg rfl).trans text3_zero)
  rw [text1_iff_right rfl, this]
  exact Iff.rfl

/-- What `exp_parser17` accepts begins with an expression in which `*` and `/` associate to the right, and the
result is its value. -/
theorem C68_right_sound (h : E.Tutorial) (s : List Chr) (v : Val) (hv : Tutorial.expParser17 E s = .ok v) :
    ∃ t rest e k, s = t ++ rest ∧ TutorialText dialect17 0 0 t e ∧ e.value = some k ∧ v = .int k := by
  obtain ⟨s', pos', ha⟩ := (C34_buildParser_accepts ..).1 hv
  have hr : OnlyReads E s.length (Tutorial.plusExp Tutorial.multExp3) (Values (TutorialText dialect17 0 0)) :=
    ((FoldsLeft.foldl _ _).onlyReads h.seq2 h.plusOps plusChars_ops
      ((OnlyReads.right h _).congr fun _ _ => text17_iff)).congr fun _ _ => text0_iff
  obtain ⟨t, rfl, e, k, h1, h2, rfl⟩ := hr _ _ _ _ _ (Nat.le_refl _) ha
  exact ⟨t, s', e, k, rfl, h1, h2, rfl⟩

/-- `exp_parser17` reads every such expression that is not followed by a digit, white space or an operator,
and gives its value. -/
theorem C68_right (h : E.Tutorial) {t rest : List Chr} {e : AExp} (ht : TutorialText dialect17 0 0 t e)
    (hr : beginsWith (fun c => digitChar c || spaceChar c || expOps.contains c) rest = false) (v : Val) :
    Tutorial.expParser17 E (t ++ rest) = .ok v ↔ ∃ k, e.value = some k ∧ v = .int k := by
  have hstop : ∀ c, (prodStop c || plusChars.contains c) = true →
      (digitChar c || spaceChar c || expOps.contains c) = true := by
    intro c hc
    simp only [prodStop, numCont, plusChars, expOps, List.contains_cons, List.contains_nil, Bool.or_false,
      Bool.or_eq_true] at hc ⊢
    rcases hc with ((hc | hc) | hc | hc) | hc | hc <;> simp [hc]
  have hb := beginsWith_mono hstop hr
  have hfree : ∀ c ∈ plusChars, prodStop c = false := by decide
  have hS : ∀ t e, OpChain NumText [ch '*', ch '/'] buildRight t e → beginsWith spaceChar t = false ∧ t ≠ [] :=
    solid_num.chain _
  have ht' : LeftChain (OpChain NumText [ch '*', ch '/'] buildRight) plusChars t e := by
    have := text0_iff.1 ht
    rwa [show TutorialText dialect17 0 1 = OpChain NumText [ch '*', ch '/'] buildRight from
      funext fun t => funext fun e => propext text17_iff] at this
  refine (C34_buildParser_accepts ..).trans ?_
  constructor
  · rintro ⟨s', pos', ha⟩
    obtain ⟨k, pos1, hk, h1⟩ := (FoldsLeft.foldl _ _).decides h.seq2 h.plusOps plusChars_ops (Decides.right h)
      hfree hS _ _ _ _ _ ht' hb ha
    cases h1
    exact ⟨k, hk, rfl⟩
  · rintro ⟨k, hk, rfl⟩
    obtain ⟨pos', ha⟩ := (FoldsLeft.foldl _ _).readsAll h.seq2 h.plusOps plusChars_ops (ReadsAll.right h)
      hfree hS t _ rest start ⟨e, k, ht', hk, rfl⟩ hb
    exact ⟨_, _, ha⟩

/-! ## They always finish -/

/-- None of these parsers recurses without end. -/
theorem C68_finishes (h : E.Tutorial) (s : List Chr) :
    Tutorial.expParser15 E s ≠ .deep ∧ Tutorial.expParser16 E s ≠ .deep ∧ Tutorial.expParser17 E s ≠ .deep ∧
      Tutorial.expParser18 E s ≠ .deep := by
  refine ⟨?_, ?_, ?_, ?_⟩
  all_goals
    refine buildParser_finishes (finishes_of_check h.onText (R := P.space) (cls := fun _ => False)
      (fun _ h => h.elim) ?_ ?_ ?_ ?_ (by decide +kernel) (by decide +kernel) (by decide +kernel) s start)
  all_goals
    simp [P.every_iff, P.EveryL, P.parts, P.Uses, onlyClasses, Tutorial.plusExp, Tutorial.multExp1,
      Tutorial.multExp2, Tutorial.multExp3, Tutorial.multExp4, Tutorial.multExp, Tutorial.unaryExp1,
      Tutorial.unaryExp, Tutorial.intToken, Tutorial.plusToken, Tutorial.minusToken, Tutorial.timesToken,
      Tutorial.dividesToken, P.token, P.FunctionsFinish, P.firstOf, P.litC, P.int_, P.foldl1, P.digitVal,
      P.digit, P.space, P.repeated, isDigit, inRangeC, isCharC, isWhitespace, Out.bind_eq_deep,
      Val.value_ne_deep]

/-- A text is a compile error for `exp_parser18` exactly if it begins with no expression or the longest one has
no value. -/
theorem C68_compile_error (h : E.Tutorial) (s : List Chr) : (∃ f, Tutorial.expParser18 E s = .ill f) ↔
    ∀ t e, LongestPrefix (fun t => ∃ e, TutorialText dialect18 0 0 t e) s t → TutorialText dialect18 0 0 t e →
      e.value = none := by
  refine (ill_iff_of_finishes (C68_finishes h s).2.2.2 (C68_unary_minus h s)).trans ?_
  constructor
  · intro hn t e h1 h2
    cases hv : e.value with
    | none => rfl
    | some k => exact absurd ⟨_, t, e, k, h1, h2, hv, rfl⟩ hn
  · rintro hn ⟨v, t, e, k, h1, h2, h3, -⟩
    rw [hn t e h1 h2] at h3; cases h3

/-! ## Examples -/

/-- `1 + 2 * 3` -/
def sampleExpression : AExp := .add (.num 1) (.mul (.num 2) (.num 3))

theorem sampleExpression_text (D : Dialect) (hD : D.right = false) :
    TutorialText D 0 0 (txt "1 + 2 * 3") sampleExpression := by
  have one : ∀ {l}, l = 3 → TutorialText D 0 l (txt "1 ") (.num 1) := by
    rintro _ rfl
    exact .num ⟨txt "1", txt " ", rfl, by decide, by decide, by decide, by decide⟩
  have two : TutorialText D 0 3 (txt "2 ") (.num 2) :=
    .num ⟨txt "2", txt " ", rfl, by decide, by decide, by decide, by decide⟩
  have three : TutorialText D 0 3 (txt "3") (.num 3) :=
    .num ⟨txt "3", [], rfl, by decide, by decide, by decide, by decide⟩
  exact .add (t := txt "1 ") (ws := txt " ") (u := txt "2 * 3") (.product (.unary (.primary (one rfl)))) (by decide)
    (.mul (t := txt "2 ") (ws := txt " ") (u := txt "3") hD (.unary (.primary two)) (by decide) (.primary three))

/-- The hypotheses are met, with and without something after the expression. -/
example : LongestPrefix (fun t => ∃ e, TutorialText dialect15 0 0 t e) (txt "1 + 2 * 3") (txt "1 + 2 * 3") ∧
    TutorialText dialect15 0 0 (txt "1 + 2 * 3") sampleExpression ∧ sampleExpression.value = some 7 :=
  ⟨⟨List.prefix_rfl, ⟨_, sampleExpression_text _ rfl⟩, fun u hu _ => hu.length_le⟩, sampleExpression_text _ rfl,
    by decide⟩

/-- `8 / 2 / 2` is 2 for `exp_parser16` and 8 for `exp_parser17`. -/
example : Accepts (tutorialEnv .cpp11) (Tutorial.plusExp Tutorial.multExp2) (txt "8 / 2 / 2") start (.int 2) []
    ⟨1, 10, ch '2'⟩ := accepts_of_eval 60 (by decide +kernel)

example : Accepts (tutorialEnv .cpp11) (Tutorial.plusExp Tutorial.multExp3) (txt "8 / 2 / 2") start (.int 8) []
    ⟨1, 10, ch '2'⟩ := accepts_of_eval 60 (by decide +kernel)

example : TutorialText dialect17 0 0 (txt "8/2/2") (.div (.num 8) (.div (.num 2) (.num 2))) := by
  have eight : TutorialText dialect17 0 2 (txt "8") (.num 8) :=
    .primary (.num ⟨txt "8", [], rfl, by decide, by decide, by decide, by decide⟩)
  have two : TutorialText dialect17 0 2 (txt "2") (.num 2) :=
    .primary (.num ⟨txt "2", [], rfl, by decide, by decide, by decide, by decide⟩)
  exact .product (.divRight (t := txt "8") (ws := []) (u := txt "2/2") rfl rfl eight (by decide)
    (.divRight (t := txt "2") (ws := []) (u := txt "2") rfl rfl two (by decide) (.unary two)))

/-- An incomplete product is left out by `exp_parser16` but makes `exp_parser17` leave out the summand: the
results for `1 + 8 /` are 9 and 1. -/
theorem C68_incomplete_product :
    Tutorial.expParser16 (tutorialEnv .cpp11) (txt "1 + 8 /") = .ok (.int 9) ∧
    Tutorial.expParser17 (tutorialEnv .cpp11) (txt "1 + 8 /") = .ok (.int 1) := by
  constructor
  · exact (C34_buildParser_accepts ..).2 ⟨txt "/", ⟨1, 7, ch ' '⟩, accepts_of_eval 60 (by decide +kernel)⟩
  · exact (C34_buildParser_accepts ..).2 ⟨txt "+ 8 /", ⟨1, 3, ch ' '⟩, accepts_of_eval 60 (by decide +kernel)⟩

example : Accepts (tutorialEnv .cpp98) (Tutorial.plusExp Tutorial.multExp4) (txt "3 * -- 2 - -1") start
    (.int 7) [] ⟨1, 14, ch '1'⟩ := accepts_of_eval 60 (by decide +kernel)

/-- `1 + 2 * 3` is 7 for `exp_parser15`, `exp_parser16` and `exp_parser18`. -/
example : Tutorial.expParser15 (tutorialEnv .cpp98) (txt "1 + 2 * 3") = .ok (.int 7) ∧
    Tutorial.expParser16 (tutorialEnv .cpp98) (txt "1 + 2 * 3") = .ok (.int 7) ∧
    Tutorial.expParser18 (tutorialEnv .cpp98) (txt "1 + 2 * 3") = .ok (.int 7) := by
  have h (D : Dialect) (hD : D.right = false) :
      LongestPrefix (fun t => ∃ e, TutorialText D 0 0 t e) (txt "1 + 2 * 3") (txt "1 + 2 * 3") :=
    ⟨List.prefix_rfl, ⟨_, sampleExpression_text D hD⟩, fun u hu _ => hu.length_le⟩
  have he := tutorialEnv_tutorial .cpp98
  exact ⟨(C68_precedence he _ _).2 ⟨_, _, 7, h _ rfl, sampleExpression_text _ rfl, by decide, rfl⟩,
    (C68_division he _ _).2 ⟨_, _, 7, h _ rfl, sampleExpression_text _ rfl, by decide, rfl⟩,
    (C68_unary_minus he _ _).2 ⟨_, _, 7, h _ rfl, sampleExpression_text _ rfl, by decide, rfl⟩⟩

theorem rightDivisions : TutorialText dialect17 0 0 (txt "8/2/2") (.div (.num 8) (.div (.num 2) (.num 2))) := by
  have eight : TutorialText dialect17 0 2 (txt "8") (.num 8) :=
    .primary (.num ⟨txt "8", [], rfl, by decide, by decide, by decide, by decide⟩)
  have two : TutorialText dialect17 0 2 (txt "2") (.num 2) :=
    .primary (.num ⟨txt "2", [], rfl, by decide, by decide, by decide, by decide⟩)
  exact .product (.divRight (t := txt "8") (ws := []) (u := txt "2/2") rfl rfl eight (by decide)
    (.divRight (t := txt "2") (ws := []) (u := txt "2") rfl rfl two (by decide) (.unary two)))

/-- `8/2/2` is nothing else for `exp_parser17`, and is 8. -/
example {d : Nat} {e : AExp} (h : TutorialText dialect17 d 0 (txt "8/2/2") e) : e = .div (.num 8) (.div (.num 2) (.num 2)) :=
  C68_unambiguous h rightDivisions

example : Tutorial.expParser17 (tutorialEnv .cpp98) (txt "8/2/2" ++ txt ")") = .ok (.int 8) :=
  (C68_right (tutorialEnv_tutorial .cpp98) rightDivisions (by decide) _).2 ⟨8, by decide, rfl⟩

example : ∃ t rest e k, txt "1 + 8 /" = t ++ rest ∧ TutorialText dialect17 0 0 t e ∧ e.value = some k ∧ Val.int 1 = .int k :=
  C68_right_sound (tutorialEnv_tutorial .cpp11) _ _ C68_incomplete_product.2

example (std : Std) : Tutorial.expParser18 (tutorialEnv std) (txt "1 + -") ≠ .deep :=
  (C68_finishes (tutorialEnv_tutorial std) _).2.2.2

end Metaparse
