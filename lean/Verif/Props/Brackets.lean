import Verif.Lemmas.Bracketed
import Verif.Spec.TutorialErrors
/-!
# C69: brackets in the expressions of the tutorial
-/

namespace Metaparse

variable {E : Env (List Chr)}

/-! ## The classes -/

theorem fail_never (m : Msg) : NeverAccepts E [.fail m] := by
  intro p hp s pos
  simp only [List.mem_singleton] at hp
  subst hp
  exact ⟨_, _, C35_fail_total m s pos⟩

theorem recurses_three (h : E.Tutorial) : Recurses E (.ref Tutorial.plusExp3Id)
    [.fail Tutorial.missingPrimaryExpression] Tutorial.multExp6 Tutorial.plusExp3 where
  tutorial := h
  supports := h.oneOf3
  never := fail_never _
  product := .foldl ..
  sum := .foldl ..
  again s pos := by rw [run_ref, h.plusExp3]

theorem recurses_six (h : E.Tutorial) : Recurses E (.ref Tutorial.plusExp6Id)
    [.fail Tutorial.missingPrimaryExpression] Tutorial.multExp7 Tutorial.plusExp6 where
  tutorial := h
  supports := h.oneOf3
  never := fail_never _
  product := .rejectIncomplete ..
  sum := .rejectIncomplete ..
  again s pos := by rw [run_ref, h.plusExp6]

theorem bracketed_two (h : E.Tutorial) : Bracketed E Tutorial.plusExp1 [] Tutorial.multExp5
    Tutorial.plusExp2 where
  tutorial := h
  supports := h.oneOf2
  never := by simp [NeverAccepts]
  product := .foldl ..
  sum := .foldl ..

theorem level_one (h : E.Tutorial) : Level E dialect18 0 Tutorial.plusExp1 :=
  Level.sum h (Level.product h rfl (Level.unary h rfl) h.multOps)

theorem longest_of_ok {p : P} {T : List Chr → AExp → Prop} (hr : ∀ n, OnlyReads E n p (Values T))
    (ha : AtLeast E p T) {s : List Chr} {v : Val} (hv : buildParser E p s = .ok v) :
    ∃ t e k, LongestPrefix (fun t => ∃ e, T t e) s t ∧ T t e ∧ e.value = some k ∧ v = .int k := by
  obtain ⟨s', pos', h⟩ := (C34_buildParser_accepts ..).1 hv
  obtain ⟨t, rfl, e, k, ht, hk, rfl⟩ := hr _ _ _ _ _ _ (Nat.le_refl _) h
  refine ⟨t, e, k, ⟨List.prefix_append .., ⟨e, ht⟩, ?_⟩, ht, hk, rfl⟩
  rintro u ⟨r, hu⟩ ⟨e', he'⟩
  rw [← hu] at h
  have := ha.length he' h
  have := congrArg List.length hu
  simp only [List.length_append] at this
  omega

/-- The characters that may continue an expression: digits, white space, operators. -/
def continues (c : Chr) : Bool := digitChar c || spaceChar c || expOps.contains c

theorem levelCont_continues : ∀ c, levelCont dialect18 0 c = true → continues c = true := by
  intro c hc
  simp only [levelCont, numCont, multChars, dialect18, if_true, plusChars, continues, expOps,
    List.contains_cons, List.contains_nil, Bool.or_false, Bool.or_eq_true] at hc ⊢
  rcases hc with ((hc | hc) | hc | hc) | hc | hc <;> simp [hc]

theorem whole_iff {p : P} {d : Nat} (hr : ReadsAll E p (Values (TutorialText dialect18 d 0)) (levelCont dialect18 0))
    (hd : Decides E p (TutorialText dialect18 d 0) (levelCont dialect18 0)) {t rest : List Chr} {e : AExp}
    (ht : TutorialText dialect18 d 0 t e) (hc : beginsWith continues rest = false) (v : Val) :
    buildParser E p (t ++ rest) = .ok v ↔ ∃ k, e.value = some k ∧ v = .int k := by
  have hb := beginsWith_mono levelCont_continues hc
  rw [C34_buildParser_accepts]
  constructor
  · rintro ⟨s', pos', ha⟩
    obtain ⟨k, pos1, hk, he⟩ := hd _ _ _ _ _ ht hb ha
    cases he
    exact ⟨k, hk, rfl⟩
  · rintro ⟨k, hk, rfl⟩
    obtain ⟨pos', ha⟩ := hr _ _ _ start ⟨e, k, ht, hk, rfl⟩ hb
    exact ⟨_, _, ha⟩

theorem buildParser_run {p q : P} (h : ∀ s pos, run E p s pos = run E q s pos) (s : List Chr) :
    buildParser E p s = buildParser E q s := by
  unfold buildParser; rw [h]

/-! ## One pair of brackets -/

theorem expParser19_eq (h : E.Tutorial) (s : List Chr) :
    Tutorial.expParser19 E s = buildParser E Tutorial.plusExp2 s :=
  buildParser_run (fun s pos => by rw [run_ref, h.plusExp2]) s

theorem plusExp2_onlyReads (h : E.Tutorial) (n : Nat) :
    OnlyReads E n Tutorial.plusExp2 (Values (TutorialText dialect18 1 0)) :=
  .sum h (bracketed_two h).sum ((bracketed_two h).onlyReads_mult
    ((bracketed_two h).onlyReads_step fun _ _ => (level_one h).onlyReads _))

theorem plusExp2_atLeast (h : E.Tutorial) : AtLeast E Tutorial.plusExp2 (TutorialText dialect18 1 0) := by
  have hb := (bracketed_two h)
  have hp : ∀ n, OnlyReads E n (primaryExp Tutorial.plusExp1 []) (Values (TutorialText dialect18 1 3)) :=
    fun n => hb.onlyReads_step fun _ _ => (level_one h).onlyReads _
  have h3 : AtLeast E (primaryExp Tutorial.plusExp1 []) (TutorialText dialect18 1 3) :=
    (AtLeast.primary h hb.supports (AtLeast.brackets (D := dialect18) h (level_one h).atLeast
      (level_one h).onlyReads (prefixes_zero dialect18 0) (fun _ _ h => h) (solid_text dialect18 0 0))).mono
      fun _ _ => text3_succ'.1
  exact .sum h (.product h (.unary h h3) fun n => ((OnlyReads.unary h rfl (hp n)).mono fun _ _ => Values.any))
    fun n => (hb.onlyReads_mult (hp n)).mono fun _ _ => Values.any

theorem plusExp2_readsAll (h : E.Tutorial) :
    ReadsAll E Tutorial.plusExp2 (Values (TutorialText dialect18 1 0)) (levelCont dialect18 0) := by
  have h2 : ReadsAll E Tutorial.unaryExp1 (Values (TutorialText dialect18 0 2)) numCont := by
    refine .unary h ?_
    rw [Values.congr fun _ _ => text3_zero]
    exact .num h
  exact .sum h (bracketed_two h).sum ((bracketed_two h).readsAll_mult
    ((bracketed_two h).readsAll_step (.sum h (.foldl ..) (.product h (.foldl ..) h2))))

theorem plusExp2_decides (h : E.Tutorial) :
    Decides E Tutorial.plusExp2 (TutorialText dialect18 1 0) (levelCont dialect18 0) :=
  .sum h (bracketed_two h).sum ((bracketed_two h).decides_mult
    ((bracketed_two h).decides_step (.sum h (.foldl ..) (.product h (.foldl ..)
      (.unary h ((Decides.num h).mono (fun _ _ => text3_zero.1) fun _ h => h))))))

/-- If `exp_parser19` compiles, the result is the value of the longest prefix that is an expression in which
no brackets are in brackets. -/
theorem C69_one_pair (h : E.Tutorial) (s : List Chr) (v : Val) (hv : Tutorial.expParser19 E s = .ok v) :
    ∃ t e k, LongestPrefix (fun t => ∃ e, TutorialText dialect18 1 0 t e) s t ∧ TutorialText dialect18 1 0 t e ∧
      e.value = some k ∧ v = .int k := by
  rw [expParser19_eq h] at hv
  exact longest_of_ok (plusExp2_onlyReads h) (plusExp2_atLeast h) hv

/-- It compiles for every such expression that has a value and is not followed by anything that may continue
it. -/
theorem C69_one_pair_value (h : E.Tutorial) {t rest : List Chr} {e : AExp}
    (ht : TutorialText dialect18 1 0 t e) (hr : beginsWith continues rest = false) (v : Val) :
    Tutorial.expParser19 E (t ++ rest) = .ok v ↔ ∃ k, e.value = some k ∧ v = .int k := by
  rw [expParser19_eq h]
  exact whole_iff (plusExp2_readsAll h) (plusExp2_decides h) ht hr v

/-- It compiles for no text that begins with two opening brackets. -/
theorem C69_two_pairs (h : E.Tutorial) {ws s : List Chr} (hws : AllSpace ws) :
    ∃ l c m, Tutorial.expParser19 E (ch '(' :: (ws ++ ch '(' :: s)) = .ill (.parsingFailed l c m) := by
  rw [expParser19_eq h]
  suffices hr : ∀ pos, ∃ m e, Rejects E Tutorial.plusExp2 (ch '(' :: (ws ++ ch '(' :: s)) pos m e by
    obtain ⟨m, e, hr⟩ := hr start
    exact ⟨_, _, _, C34_buildParser_rejects _ _ _ _ hr⟩
  -- levels
  have levels : ∀ {s pos p}, beginsWith ([ch '-'].contains) s = false → (∃ m e, Rejects E p s pos m e) →
      ∃ m e, Rejects E (Tutorial.plusExp (Tutorial.multExp (Tutorial.unaryExp p))) s pos m e := by
    rintro s pos p hb ⟨m, e, hr⟩
    obtain ⟨m', hm⟩ := h.minus.rejects pos hb
    refine ⟨m, e, (C18_foldl_start_with_parser_rejects ..).2 ((C18_foldl_start_with_parser_rejects ..).2
      ((C18_foldr_start_with_parser_rejects ..).2 ⟨[], s, pos, m', pos, ⟨.nil .., hm⟩, hr⟩))⟩
  intro pos
  refine levels (by simp only [beginsWith]; decide) ?_
  refine (C20_oneOf_rejects_iff _ h.oneOf2 ..).2 ?_
  intro q hq
  simp only [List.mem_cons, List.not_mem_nil, or_false] at hq
  rcases hq with rfl | rfl
  · exact ⟨_, _, (number_rejects h.onText h.nth2).2 ⟨by simp only [beginsWith]; decide, rfl, rfl⟩⟩
  · obtain ⟨pos', ho⟩ := h.lparen.accepts (c := ch '(') (ws := ws) (s' := ch '(' :: s) pos (by simp) hws
      (by simp only [beginsWith]; decide)
    obtain ⟨m, e, hr⟩ := levels (s := ch '(' :: s) (pos := pos') (p := Tutorial.intToken)
      (by simp only [beginsWith]; decide)
      ⟨_, _, (number_rejects h.onText h.nth2).2 ⟨by simp only [beginsWith]; decide, rfl, rfl⟩⟩
    exact ⟨m, e, (brackets_rejects h).2 (.inr (.inl ⟨_, _, _, ho, hr⟩))⟩

/-- `exp_parser19` with `( (1`. -/
example : ∃ l c m, Tutorial.expParser19 (tutorialEnv .cpp11) (ch '(' :: (txt " " ++ ch '(' :: txt "1")) =
    .ill (.parsingFailed l c m) :=
  C69_two_pairs (tutorialEnv_tutorial .cpp11) (by decide)

/-! ## Brackets in brackets -/

theorem expParser20_eq (h : E.Tutorial) (s : List Chr) :
    Tutorial.expParser20 E s = buildParser E Tutorial.plusExp3 s :=
  buildParser_run (recurses_three h).again s

theorem expParser23_eq (h : E.Tutorial) (s : List Chr) :
    Tutorial.expParser23 E s = buildParser E Tutorial.plusExp6 s :=
  buildParser_run (recurses_six h).again s

/-- If `exp_parser20` compiles, the result is the value of the longest prefix that is an expression. -/
theorem C69_brackets (h : E.Tutorial) (s : List Chr) (v : Val) (hv : Tutorial.expParser20 E s = .ok v) :
    ∃ t e k, LongestPrefix (fun t => ∃ e, IsTutorialText t e) s t ∧ IsTutorialText t e ∧
      e.value = some k ∧ v = .int k := by
  rw [expParser20_eq h] at hv
  refine longest_of_ok (recurses_three h).sum_any ?_ hv
  rintro t e rest pos r ⟨d, ht⟩ hr
  exact (recurses_three h).atLeast d t e rest pos r ht hr

/-- If it reports an error in the text, the text begins with no expression. -/
theorem C69_no_expression (h : E.Tutorial) (s : List Chr) (pos : Pos) (m : Msg) (e : Pos)
    (hr : Rejects E (.ref Tutorial.plusExp3Id) s pos m e) (t : List Chr) (x : AExp) (hx : IsTutorialText t x) :
    ¬ t <+: s := by
  rintro ⟨rest, rfl⟩
  obtain ⟨d, hx⟩ := hx
  unfold Rejects at hr
  rw [(recurses_three h).again] at hr
  exact ((recurses_three h).atLeast d).not_rejects hx hr

/-! ## Incomplete expressions -/

/-- `plus_exp4` accepts what `plus_exp5` accepts. -/
theorem plusExp4_accepts (h : E.Tutorial) (s : List Chr) (pos : Pos) (v : Val) (s' : List Chr) (pos' : Pos) :
    Accepts E Tutorial.plusExp4 s pos v s' pos' ↔ Accepts E Tutorial.plusExp5 s pos v s' pos' := by
  unfold Tutorial.plusExp4 Tutorial.plusExp5 Tutorial.plusExp
  rw [C23_firstOf_accepts _ _ h.nth2, C18_foldl_reject_incomplete_start_with_parser]
  constructor
  · rintro ⟨vs, hi⟩
    obtain ⟨a, b, s1, pos1, he, h1, h2⟩ := hi.two
    cases he
    obtain ⟨⟨m, hr⟩, rfl, rfl, rfl⟩ := (C39_failAtFirstCharExpected_accepts ..).1 h2
    obtain ⟨x, s0, pos0, vs, m', e', x', ha, hm, hf, hl⟩ := (C18_foldl_start_with_parser ..).1 h1
    exact ⟨x, s0, pos0, vs, m, x', ha, ⟨hm.1, hr⟩, hf, hl⟩
  · rintro ⟨x, s0, pos0, vs, m, x', ha, hm, hf, hl⟩
    exact ⟨_, .cons ((C18_foldl_start_with_parser ..).2 ⟨x, s0, pos0, vs, m, _, x', ha, hm, hf, hl⟩)
      (.cons ((C39_failAtFirstCharExpected_accepts ..).2 ⟨⟨m, hm.2⟩, rfl, rfl, rfl⟩) (.nil ..))⟩

/-- Where `plus_exp4` rejects, `plus_exp5` rejects with the same error. -/
theorem plusExp4_rejects (h : E.Tutorial) (s : List Chr) (pos : Pos) (m : Msg) (e : Pos)
    (hr : Rejects E Tutorial.plusExp4 s pos m e) : Rejects E Tutorial.plusExp5 s pos m e := by
  unfold Tutorial.plusExp4 Tutorial.plusExp at hr
  unfold Tutorial.plusExp5
  rw [C23_firstOf_rejects _ _ h.nth2, ← C22_sequence_rejects [_, _] h.seq2, sequence_two_rejects h.seq2] at hr
  rw [C18_foldl_reject_incomplete_start_with_parser_rejects]
  rcases hr with hr | ⟨v, s1, pos1, ha, hr⟩
  · exact .inl ((C18_foldl_start_with_parser_rejects ..).1 hr)
  · obtain ⟨x, s0, pos0, vs, m', e', x', ha, hm, hf, hl⟩ := (C18_foldl_start_with_parser ..).1 ha
    rcases (C39_failAtFirstCharExpected_rejects ..).1 hr with ⟨⟨_, _, _, hacc⟩, -⟩ | ⟨hrej, hne⟩
    · exact absurd hm.2 hacc.not_rejects
    · refine .inr ⟨x, s0, pos0, vs, s1, pos1, ha, ⟨hm.1, hrej⟩, hne, ?_⟩
      rcases List.eq_nil_or_concat vs with rfl | ⟨vs, w, rfl⟩
      · exact .inl rfl
      · refine .inr ⟨x', ?_⟩
        rw [List.concat_eq_append, List.dropLast_concat]
        rw [List.concat_eq_append, leftFold_snoc, Out.bind_eq_ok] at hl
        obtain ⟨y, hy, -⟩ := hl
        exact ⟨y, hf, hy⟩

/-- `exp_parser21` and `exp_parser22` give the same result for the same texts. -/
theorem C69_two_ways (h : E.Tutorial) (s : List Chr) (v : Val) :
    Tutorial.expParser21 E s = .ok v ↔ Tutorial.expParser22 E s = .ok v := by
  unfold Tutorial.expParser21 Tutorial.expParser22
  rw [C34_buildParser_accepts, C34_buildParser_accepts]
  simp only [plusExp4_accepts h]

/-- An error in the text that `exp_parser21` reports is reported by `exp_parser22` in the same way. -/
theorem C69_same_error (h : E.Tutorial) (s : List Chr) (m : Msg) (e : Pos)
    (hr : Rejects E Tutorial.plusExp4 s start m e) :
    Tutorial.expParser21 E s = .ill (.parsingFailed e.line e.col m) ∧
      Tutorial.expParser22 E s = .ill (.parsingFailed e.line e.col m) :=
  ⟨C34_buildParser_rejects _ _ _ _ hr, C34_buildParser_rejects _ _ _ _ (plusExp4_rejects h s start m e hr)⟩

theorem uses_all (i : Nat) :
    plusOp.Every (P.Uses (onlyClasses (· = i))) ∧ multOp.Every (P.Uses (onlyClasses (· = i))) ∧
    (Tutorial.multExp (Tutorial.unaryExp (primaryExp (.ref i) [.fail Tutorial.missingPrimaryExpression]))).Every
      (P.Uses (onlyClasses (· = i))) := by
  simp [P.every_iff, P.EveryL, P.parts, P.Uses, onlyClasses, Tutorial.multExp, Tutorial.unaryExp,
    Tutorial.intToken, Tutorial.plusToken, Tutorial.minusToken, Tutorial.timesToken, Tutorial.dividesToken,
    Tutorial.lparenToken, Tutorial.rparenToken, P.token, P.firstOf, P.litC, P.int_, P.foldl1, P.digitVal,
    P.digit, P.space, P.repeated]

theorem uses_three : Tutorial.plusExp3.Every (P.Uses (onlyClasses (· = Tutorial.plusExp3Id))) := by
  have := uses_all Tutorial.plusExp3Id
  have h2 := this.2.2
  have h1 := this.1
  show P.Every _ (.foldlStartWithParser (.sequence [plusOp, _]) _ _)
  rw [P.every_iff]
  simp only [P.parts, P.EveryL, P.Uses, true_and, and_true]
  refine ⟨?_, h2⟩
  rw [P.every_iff]
  simp only [P.parts, P.EveryL, P.Uses, true_and, and_true]
  exact ⟨h1, h2⟩

theorem run_three (h : E.Tutorial) {p : P} (hp : p.Every (P.Uses (onlyClasses (· = Tutorial.plusExp3Id))))
    (s : List Chr) (pos : Pos) : run E p s pos = run (E.withClass Tutorial.plusExp3) p s pos :=
  run_withClass (by rintro _ rfl; exact h.plusExp3) hp uses_three s pos

/-- If they compile, `exp_parser20` gives the same result, and no operator of sums follows the longest prefix
that is an expression. -/
theorem C69_complete (h : E.Tutorial) (s : List Chr) (v : Val) (hv : Tutorial.expParser22 E s = .ok v) :
    Tutorial.expParser20 E s = .ok v ∧
      ∃ t rest e k, s = t ++ rest ∧ LongestPrefix (fun t => ∃ e, IsTutorialText t e) s t ∧ IsTutorialText t e ∧
        e.value = some k ∧ v = .int k ∧ beginsWith (fun c => c == ch '+' || c == ch '-') rest = false := by
  obtain ⟨s', pos', ha⟩ := (C34_buildParser_accepts ..).1 hv
  obtain ⟨x, s0, pos0, vs, m, x', ha, hm, hf, hl⟩ := (C18_foldl_reject_incomplete_start_with_parser ..).1 ha
  have ha' : Accepts E Tutorial.plusExp3 s start v s' pos' :=
    (C18_foldl_start_with_parser ..).2 ⟨x, s0, pos0, vs, m, _, x', ha, hm, hf, hl⟩
  have h20 : Tutorial.expParser20 E s = .ok v := by
    rw [expParser20_eq h]
    exact (C34_buildParser_accepts ..).2 ⟨_, _, ha'⟩
  refine ⟨h20, ?_⟩
  obtain ⟨t, e, k, hlong, ht, hk, rfl⟩ := C69_brackets h s v h20
  have hlen : s' = s.drop t.length := by
    obtain ⟨t', rfl, e', k', ht', -⟩ := (recurses_three h).sum_any _ _ _ _ _ _ (Nat.le_refl _) ha'
    obtain ⟨⟨r, he⟩, -, hmax⟩ := hlong
    have h1 := hmax t' ⟨s', rfl⟩ ⟨e', ht'⟩
    have h2 : s'.length ≤ r.length := by
      rw [← he] at ha'
      obtain ⟨d, ht⟩ := ht
      exact ((recurses_three h).atLeast d).length ht ha'
    have h3 := congrArg List.length he
    simp only [List.length_append] at h3
    have := append_eq_of_length he (by omega)
    rw [this.1, List.drop_left]
  obtain ⟨r, he⟩ := hlong.1
  have hr : s' = r := by rw [hlen, ← he, List.drop_left]
  subst hr
  refine ⟨t, s', e, k, he.symm, hlong, ht, hk, rfl, ?_⟩
  cases hb : beginsWith (fun c => c == ch '+' || c == ch '-') s' with
  | false => rfl
  | true =>
    exfalso
    cases s' with
    | nil => cases hb
    | cons c s' =>
      have hc : c ∈ [ch '+', ch '-'] := by
        simpa [beginsWith] using hb
      obtain ⟨pos1, ho⟩ := h.plusOps.accepts (c := c) (ws := s'.takeWhile spaceChar)
        (s' := s'.dropWhile spaceChar) pos' hc (all_takeWhile _ _) (beginsWith_dropWhile _ _)
      rw [List.takeWhile_append_dropWhile] at ho
      rcases (sequence_two_rejects h.seq2).1 hm.2 with hr | ⟨v, s1, pos2, ha2, hr⟩
      · exact ho.not_rejects hr
      · obtain ⟨-, rfl, rfl⟩ := ho.unique ha2
        unfold Rejects at hr
        unfold Accepts at ho
        rw [run_three h (p := Tutorial.multExp6) (uses_all _).2.2] at hr
        rw [run_three h (uses_all _).1] at ho
        have hh := E.withClass_honest h.onText Tutorial.plusExp3
        obtain ⟨c1, h1, rfl⟩ := Accepts.honest hh ho
        obtain ⟨c2, t2, -, he2⟩ := Rejects.honest hh hr
        rw [← moveOver_append] at he2
        have hne : c1 ++ c2 ≠ [] := by
          intro h0
          rw [List.append_eq_nil_iff] at h0
          rw [h0.1, List.nil_append] at h1
          have := congrArg List.length h1
          have := (List.dropWhile_suffix (l := s') spaceChar).length_le
          simp at *
          omega
        have := C06_move_forward pos' (c1 ++ c2) hne
        rw [← he2, Pos.less_irrefl] at this
        cases this

/-- `exp_parser20`, `exp_parser21`, `exp_parser22` and `exp_parser23` compile for every expression that has a
value and is not followed by anything that may continue it, and give this value. -/
theorem C69_value (h : E.Tutorial) {t rest : List Chr} {e : AExp} (ht : IsTutorialText t e)
    (hr : beginsWith continues rest = false) (v : Val) :
    (Tutorial.expParser20 E (t ++ rest) = .ok v ↔ ∃ k, e.value = some k ∧ v = .int k) ∧
    (Tutorial.expParser21 E (t ++ rest) = .ok v ↔ ∃ k, e.value = some k ∧ v = .int k) ∧
    (Tutorial.expParser22 E (t ++ rest) = .ok v ↔ ∃ k, e.value = some k ∧ v = .int k) ∧
    (Tutorial.expParser23 E (t ++ rest) = .ok v ↔ ∃ k, e.value = some k ∧ v = .int k) := by
  obtain ⟨d, ht⟩ := ht
  have h3 := recurses_three h
  have h22 : Tutorial.expParser22 E (t ++ rest) = .ok v ↔ ∃ k, e.value = some k ∧ v = .int k :=
    whole_iff (.sum h (.rejectIncomplete ..) (h3.readsAll_mult (h3.readsAll_primary d)))
      (.sum h (.rejectIncomplete ..) (h3.decides_mult (h3.decides_primary d))) ht hr v
  refine ⟨?_, (C69_two_ways h _ _).trans h22, h22, ?_⟩
  · rw [expParser20_eq h]
    exact whole_iff (h3.readsAll d) (h3.decides d) ht hr v
  · rw [expParser23_eq h]
    exact whole_iff ((recurses_six h).readsAll d) ((recurses_six h).decides d) ht hr v

/-- What `exp_parser23` accepts begins with an expression, and the result is its value. -/
theorem C69_sound (h : E.Tutorial) (s : List Chr) (v : Val) (hv : Tutorial.expParser23 E s = .ok v) :
    ∃ t rest e k, s = t ++ rest ∧ IsTutorialText t e ∧ e.value = some k ∧ v = .int k := by
  rw [expParser23_eq h] at hv
  obtain ⟨s', pos', ha⟩ := (C34_buildParser_accepts ..).1 hv
  obtain ⟨t, rfl, e, k, ht, hk, rfl⟩ := (recurses_six h).sum_any _ _ _ _ _ _ (Nat.le_refl _) ha
  exact ⟨t, s', e, k, rfl, ht, hk, rfl⟩

/-! ## They always finish -/

/-- None of these parsers recurses without end. -/
theorem C69_finishes (h : E.Tutorial) (s : List Chr) :
    Tutorial.expParser19 E s ≠ .deep ∧ Tutorial.expParser20 E s ≠ .deep ∧ Tutorial.expParser21 E s ≠ .deep ∧
      Tutorial.expParser22 E s ≠ .deep ∧ Tutorial.expParser23 E s ≠ .deep := by
  have every : ∀ {p R : P} {i : Nat}, E.rules i = R → p.Every (P.Uses (onlyClasses (· = i))) →
      R.Every (P.Uses (onlyClasses (· = i))) → p.Every P.FunctionsFinish → R.Every P.FunctionsFinish →
      p.repeatsOk (fun _ => true) (fun _ => false) = true → R.repeatsOk (fun _ => true) (fun _ => false) = true →
      R.leftRefs (fun _ => true) (fun _ => false) = [] → buildParser E p s ≠ .deep :=
    fun hR h1 h2 h3 h4 h5 h6 h7 => buildParser_finishes (finishes_of_check h.onText (by rintro _ rfl; exact hR)
      h1 h2 h3 h4 h5 h6 h7 s start)
  refine ⟨every h.plusExp2 ?_ ?_ ?_ ?_ (by decide +kernel) (by decide +kernel) (by decide +kernel),
    every h.plusExp3 ?_ ?_ ?_ ?_ (by decide +kernel) (by decide +kernel) (by decide +kernel),
    every h.plusExp3 ?_ ?_ ?_ ?_ (by decide +kernel) (by decide +kernel) (by decide +kernel),
    every h.plusExp3 ?_ ?_ ?_ ?_ (by decide +kernel) (by decide +kernel) (by decide +kernel),
    every h.plusExp6 ?_ ?_ ?_ ?_ (by decide +kernel) (by decide +kernel) (by decide +kernel)⟩
  all_goals
    simp [P.every_iff, P.EveryL, P.parts, P.Uses, onlyClasses, Tutorial.plusExp, Tutorial.multExp,
      Tutorial.unaryExp, Tutorial.intToken, Tutorial.plusToken, Tutorial.minusToken, Tutorial.timesToken,
      Tutorial.dividesToken, Tutorial.lparenToken, Tutorial.rparenToken, Tutorial.plusExp1, Tutorial.plusExp2,
      Tutorial.plusExp3, Tutorial.plusExp4, Tutorial.plusExp5, Tutorial.plusExp6, Tutorial.multExp4,
      Tutorial.multExp5, Tutorial.multExp6, Tutorial.multExp7, Tutorial.unaryExp1, Tutorial.unaryExp2,
      Tutorial.unaryExp3, Tutorial.unaryExp4, Tutorial.primaryExp2, Tutorial.primaryExp3, Tutorial.primaryExp4,
      Tutorial.parenExp2, Tutorial.parenExp4, Tutorial.parenExp5,
      P.token, P.FunctionsFinish, P.firstOf, P.litC, P.int_, P.foldl1, P.digitVal,
      P.digit, P.space, P.repeated, isDigit, inRangeC, isCharC, isWhitespace, Out.bind_eq_deep,
      Val.value_ne_deep]

/-- So for every other text they give a compile error, for the same texts in both ways of rejecting incomplete
expressions. -/
theorem C69_compile_error (h : E.Tutorial) (s : List Chr) :
    (∃ f, Tutorial.expParser21 E s = .ill f) ↔ ∃ f, Tutorial.expParser22 E s = .ill f := by
  obtain ⟨-, -, h1, h2, -⟩ := C69_finishes h s
  rw [ill_iff_of_finishes h1 (C69_two_ways h s), ill_iff_of_finishes h2 (fun v => Iff.rfl)]

/-! ## Missing expressions -/

theorem primary_missing (h : E.Tutorial) {r : P} {s : List Chr} {pos : Pos}
    (hb : beginsWith (fun c => digitChar c || c == ch '(') s = false) :
    Rejects E (primaryExp r [.fail Tutorial.missingPrimaryExpression]) s pos (missingOperand E.std) pos := by
  have h1 : Rejects E Tutorial.intToken s pos .digitExpected pos :=
    (number_rejects h.onText h.nth2).2 ⟨beginsWith_mono (fun c hc => by simp [hc]) hb, rfl, rfl⟩
  obtain ⟨m2, h2⟩ := brackets_beginsIn (c := Tutorial.rparenToken) (p := r) h.nth3 h.lparen s pos
    (beginsWith_mono (fun c hc => by simp at hc; simp [hc]) hb)
  have h3 := C35_fail_total (E := E) Tutorial.missingPrimaryExpression s pos
  have hall : ∀ q ∈ [Tutorial.intToken, brackets r, .fail Tutorial.missingPrimaryExpression],
      ∃ m, Rejects E q s pos m pos := by
    intro q hq
    simp only [List.mem_cons, List.not_mem_nil, or_false] at hq
    rcases hq with rfl | rfl | rfl
    · exact ⟨_, h1⟩
    · exact ⟨_, h2⟩
    · exact ⟨_, h3⟩
  obtain ⟨m, e, hr⟩ := (C20_oneOf_rejects_iff _ h.oneOf3 s pos).2 fun q hq => by
    obtain ⟨m, hm⟩ := hall q hq
    exact ⟨m, pos, hm⟩
  have he : e = pos := by
    rcases (C20_oneOf_furthest _ _ _ _ _ hr).reached with he | ⟨q, hq, m', hr'⟩
    · exact he
    · obtain ⟨m2, hm2⟩ := hall q hq
      exact (hr'.unique hm2).2
  subst he
  have hm : m = missingOperand E.std := by
    unfold missingOperand
    split
    · rename_i hstd
      rcases C20_oneOf_message_at_start_98 hstd _ _ _ _ hr with ⟨b, q, a, hl, hq, hlast⟩ | ⟨-, hlast⟩
      · rcases List.eq_nil_or_concat a with rfl | ⟨a, z, rfl⟩
        · have := congrArg List.getLast? hl
          simp at this
          subst this
          exact (hq.unique h3).1
        · have hl' : [Tutorial.intToken, brackets r, .fail Tutorial.missingPrimaryExpression] =
              (b ++ q :: a) ++ [z] := by rw [hl]; simp
          have := congrArg List.getLast? hl'
          rw [List.getLast?_concat] at this
          simp at this
          subst this
          have := hlast _ (by simp) _ _ h3
          rw [Pos.less_irrefl] at this
          cases this
      · have := hlast _ (by simp) _ _ h3
        rw [Pos.less_irrefl] at this
        cases this
    · rename_i hstd
      exact C20_oneOf_message_at_start hstd _ _ _ _ hr
  rw [← hm]
  exact hr

/-- For a text that cannot begin an expression, the error is at its beginning. The message is the one the tutorial
means to produce, `missing_primary_expression`, only in C++98. -/
theorem C69_missing_expression (h : E.Tutorial) (s : List Chr)
    (hb : beginsWith (fun c => digitChar c || c == ch '(' || c == ch '-') s = false) :
    Tutorial.expParser20 E s = .ill (.parsingFailed 1 1 (missingOperand E.std)) ∧
    Tutorial.expParser21 E s = .ill (.parsingFailed 1 1 (missingOperand E.std)) ∧
    Tutorial.expParser22 E s = .ill (.parsingFailed 1 1 (missingOperand E.std)) ∧
    Tutorial.expParser23 E s = .ill (.parsingFailed 1 1 (missingOperand E.std)) := by
  have unary : ∀ r, Rejects E (Tutorial.unaryExp (primaryExp r [.fail Tutorial.missingPrimaryExpression])) s start
      (missingOperand E.std) start := by
    intro r
    obtain ⟨m', hm⟩ := h.minus.rejects start (s := s) (beginsWith_mono (fun c hc => by simp at hc; simp [hc]) hb)
    exact (C18_foldr_start_with_parser_rejects ..).2 ⟨[], s, start, m', start, ⟨.nil .., hm⟩,
      primary_missing h (beginsWith_mono (fun c hc => by simp at hc; simp [hc]) hb)⟩
  have h6 : Rejects E Tutorial.multExp6 s start (missingOperand E.std) start :=
    (C18_foldl_start_with_parser_rejects ..).2 (unary _)
  rw [expParser20_eq h, expParser23_eq h]
  have h4 : Rejects E Tutorial.plusExp4 s start (missingOperand E.std) start := by
    unfold Tutorial.plusExp4
    rw [C23_firstOf_rejects _ _ h.nth2, ← C22_sequence_rejects [_, _] h.seq2, sequence_two_rejects h.seq2]
    exact .inl ((C18_foldl_start_with_parser_rejects ..).2 h6)
  exact ⟨C34_buildParser_rejects _ _ _ _ ((C18_foldl_start_with_parser_rejects ..).2 h6),
    C34_buildParser_rejects _ _ _ _ h4,
    C34_buildParser_rejects _ _ _ _ ((C18_foldl_reject_incomplete_start_with_parser_rejects ..).2 (.inl h6)),
    C34_buildParser_rejects _ _ _ _ ((C18_foldl_reject_incomplete_start_with_parser_rejects ..).2 (.inl
      ((C18_foldl_reject_incomplete_start_with_parser_rejects ..).2 (.inl (unary _)))))⟩

/-! ## Examples -/

theorem one_text {d : Nat} : TutorialText dialect18 d 1 (txt "1") (.num 1) :=
  .unary (.primary (.num ⟨txt "1", [], rfl, by decide, by decide, by decide, by decide⟩))

theorem sum_text {d : Nat} : TutorialText dialect18 d 0 (txt "1+1") (.add (.num 1) (.num 1)) :=
  .add (t := txt "1") (ws := []) (u := txt "1") (.product one_text) (by decide) one_text

theorem sum_in_brackets {d : Nat} : TutorialText dialect18 (d + 1) 0 (txt "(1+1)") (.add (.num 1) (.num 1)) :=
  .product (.unary (.primary
    (.bracket (ws := []) (t := txt "1+1") (ws' := []) (by decide) sum_text (by decide))))

/-- `exp_parser20` reads brackets in brackets, `exp_parser19` does not. -/
theorem C69_nested : IsTutorialText (txt "((1+1))") (.add (.num 1) (.num 1)) ∧
    Tutorial.expParser20 (tutorialEnv .cpp11) (txt "((1+1))") = .ok (.int 2) ∧
    ∃ l c m, Tutorial.expParser19 (tutorialEnv .cpp11) (txt "((1+1))") = .ill (.parsingFailed l c m) := by
  have ht : IsTutorialText (txt "((1+1))") (.add (.num 1) (.num 1)) :=
    ⟨2, .product (.unary (.primary
      (.bracket (ws := []) (t := txt "(1+1)") (ws' := []) (by decide) sum_in_brackets (by decide))))⟩
  have h := tutorialEnv_tutorial .cpp11
  exact ⟨ht, ((C69_value h ht (rest := []) rfl _).1).2 ⟨2, by decide, rfl⟩,
    C69_two_pairs h (ws := []) (s := txt "1+1))") (by decide)⟩

/-- The converse of `C69_brackets` does not hold: an overflow in what follows the longest prefix that is an
expression is a compile error, although the same text with another number is not. -/
theorem C69_unfinished_overflow :
    Tutorial.expParser20 (tutorialEnv .cpp11) (txt "1+(2147483647+1") = .ill .overflow ∧
    Tutorial.expParser20 (tutorialEnv .cpp11) (txt "1+(2147483646+1") = .ok (.int 1) := by
  constructor
  · exact (C34_buildParser_fails_iff ..).2 (.inl (ill_of_eval 80 (by decide +kernel)))
  · exact (C34_buildParser_accepts ..).2 ⟨txt "+(2147483646+1", ⟨1, 2, ch '1'⟩,
      accepts_of_eval 80 (by decide +kernel)⟩

/-- `exp_parser20` ignores an incomplete part, `exp_parser22` does not, neither does `exp_parser21`. -/
theorem C69_incomplete :
    Tutorial.expParser20 (tutorialEnv .cpp11) (txt "1 + 2 +") = .ok (.int 3) ∧
    Tutorial.expParser21 (tutorialEnv .cpp11) (txt "1 + 2 +") =
      .ill (.parsingFailed 1 8 .noneOfTheExpectedCasesFound) ∧
    Tutorial.expParser22 (tutorialEnv .cpp98) (txt "1 + 2 +") =
      .ill (.parsingFailed 1 8 Tutorial.missingPrimaryExpression) := by
  refine ⟨(C34_buildParser_accepts ..).2 ⟨txt "+", ⟨1, 7, ch ' '⟩, accepts_of_eval 80 (by decide +kernel)⟩, ?_, ?_⟩
  · exact C34_buildParser_rejects _ _ _ ⟨1, 8, ch '+'⟩ (rejects_of_eval 80 (by decide +kernel))
  · exact C34_buildParser_rejects _ _ _ ⟨1, 8, ch '+'⟩ (rejects_of_eval 80 (by decide +kernel))

/-- The errors of `exp_parser21` and `exp_parser22` are not always the same: one computes the value first. -/
theorem C69_error_differs :
    Tutorial.expParser21 (tutorialEnv .cpp11) (txt "2147483647+1+") = .ill .overflow ∧
    Tutorial.expParser22 (tutorialEnv .cpp11) (txt "2147483647+1+") =
      .ill (.parsingFailed 1 14 .noneOfTheExpectedCasesFound) := by
  constructor
  · exact (C34_buildParser_fails_iff ..).2 (.inl (ill_of_eval 80 (by decide +kernel)))
  · exact C34_buildParser_rejects _ _ _ ⟨1, 14, ch '+'⟩ (rejects_of_eval 80 (by decide +kernel))

/-- `exp_parser19` with `(1+1)`: the hypotheses of `C69_one_pair` and `C69_one_pair_value`. -/
example : TutorialText dialect18 1 0 (txt "(1+1)") (.add (.num 1) (.num 1)) ∧
    Tutorial.expParser19 (tutorialEnv .cpp11) (txt "(1+1)" ++ txt ";") = .ok (.int 2) ∧
    ∃ t e k, LongestPrefix (fun t => ∃ e, TutorialText dialect18 1 0 t e) (txt "(1+1)" ++ txt ";") t ∧
      TutorialText dialect18 1 0 t e ∧ e.value = some k ∧ Val.int 2 = .int k := by
  have h := tutorialEnv_tutorial .cpp11
  have hv := (C69_one_pair_value h (t := txt "(1+1)") (rest := txt ";") sum_in_brackets (by decide) (.int 2)).2
    ⟨2, by decide, rfl⟩
  exact ⟨sum_in_brackets, hv, C69_one_pair h _ _ hv⟩

/-- The value that `exp_parser20`, `exp_parser22` and `exp_parser23` read in `1+1` before `;` is that of the longest
expression. -/
example : (∃ t e k, LongestPrefix (fun t => ∃ e, IsTutorialText t e) (txt "1+1" ++ txt ";") t ∧ IsTutorialText t e ∧
      e.value = some k ∧ Val.int 2 = .int k) ∧
    Tutorial.expParser21 (tutorialEnv .cpp98) (txt "1+1" ++ txt ";") = .ok (.int 2) ∧
    (∃ t rest e k, txt "1+1" ++ txt ";" = t ++ rest ∧ IsTutorialText t e ∧ e.value = some k ∧ Val.int 2 = .int k) := by
  have h := tutorialEnv_tutorial .cpp98
  have hv := C69_value h (t := txt "1+1") (rest := txt ";") ⟨0, sum_text⟩ (by decide) (.int 2)
  have h22 := hv.2.2.1.2 ⟨2, by decide, rfl⟩
  exact ⟨C69_brackets h _ _ (C69_complete h _ _ h22).1, (C69_two_ways h _ _).2 h22,
    C69_sound h _ _ (hv.2.2.2.2 ⟨2, by decide, rfl⟩)⟩

/-- No expression is at the beginning of `*1`, and `exp_parser20` says so. -/
example : ¬ txt "1+1" <+: txt "*1" :=
  C69_no_expression (tutorialEnv_tutorial .cpp11) (txt "*1") start .noneOfTheExpectedCasesFound start
    (rejects_of_eval 80 (by decide +kernel)) _ _ ⟨0, sum_text⟩

example : Tutorial.expParser20 (tutorialEnv .cpp11) (txt "*1") = .ill (.parsingFailed 1 1 .noneOfTheExpectedCasesFound) :=
  (C69_missing_expression (tutorialEnv_tutorial .cpp11) (txt "*1") (by decide)).1

/-- `1 + 2 +` is the same error for `exp_parser21` and `exp_parser22`. -/
example : Tutorial.expParser21 (tutorialEnv .cpp11) (txt "1 + 2 +") = .ill (.parsingFailed 1 8 .noneOfTheExpectedCasesFound) ∧
    Tutorial.expParser22 (tutorialEnv .cpp11) (txt "1 + 2 +") = .ill (.parsingFailed 1 8 .noneOfTheExpectedCasesFound) :=
  C69_same_error (tutorialEnv_tutorial .cpp11) _ _ ⟨1, 8, ch '+'⟩ (rejects_of_eval 80 (by decide +kernel))

/-- An overflow is an error for both. -/
example : (∃ f, Tutorial.expParser22 (tutorialEnv .cpp11) (txt "2147483647+1+") = .ill f) ∧
    Tutorial.expParser23 (tutorialEnv .cpp11) (txt "2147483647+1+") ≠ .deep :=
  ⟨(C69_compile_error (tutorialEnv_tutorial .cpp11) _).1 ⟨_, C69_error_differs.1⟩,
    (C69_finishes (tutorialEnv_tutorial .cpp11) _).2.2.2.2⟩

end Metaparse
