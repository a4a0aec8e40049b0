import Verif.Lemmas.Formula
import Verif.Lemmas.Finish
import Verif.Props.Calculator
/-!
# The calculators without unary operators (C60)
-/

namespace Metaparse

variable {E : Env (List Chr)}

/-! ## Without brackets -/

theorem simple_operand {t : List Chr} {v : Val} : FormulaLang false false ValueOf 2 t v ↔ IntText t v := by
  constructor
  · rintro ⟨e, he, k, hk, rfl⟩
    cases he with
    | num hne hw hws =>
      obtain ⟨rfl, -, hle⟩ := fits_eq_some.1 hk
      exact ⟨_, _, rfl, hne, hw, hws, hle, rfl⟩
    | arg h => cases h
    | bracket h => cases h
  · exact intText_value

/-- The calculator without brackets compiles exactly for the texts of formulas without brackets that have
a value, and gives that value. -/
theorem C60_calculator (h : E.ReadsFormulas) (s : List Chr) (v : Val) :
    CalcSimple.calculatorParser E s = .ok v ↔
      ∃ e k, IsFormula false false s e ∧ e.value 0 = some k ∧ v = .int k := by
  refine (buildParser_spaces h.onText h.nth2
    (fun n => formula_onlyReads h valueOf_represents (p := Calc.intToken) (n := n)
      ((OnlyReads.intToken h.onText h.nth2 n).mono fun _ _ => simple_operand.2))
    (L := FormulaLang false false ValueOf 0) (cont := plusCont) ?_ ?_ s v).trans ?_
  · intro t v s' pos hl hb
    exact formula_readsAll h valueOf_represents (p := Calc.intToken) (n := t.length)
      ((ReadsAll.intToken h.onText h.nth2).mono (fun t v hv => simple_operand.1 hv.1) fun _ hc => hc)
      t v s' pos ⟨hl, Nat.le_refl _⟩ hb
  · rintro t v ⟨e, he, -⟩; exact he.begins.1
  · constructor
    · rintro ⟨ws, t, rfl, hws, e, he, k, hk, rfl⟩
      exact ⟨e, k, ⟨ws, t, rfl, hws, he⟩, hk, rfl⟩
    · rintro ⟨e, k, ⟨ws, t, rfl, hws, he⟩, hk, rfl⟩
      exact ⟨ws, t, rfl, hws, e, he, k, hk, rfl⟩

/-! ## With brackets -/

/-- The environment of the calculator with brackets: the class `plus_exp` is the one of the example. -/
structure Env.CalculatesParens (E : Env (List Chr)) : Prop extends E.ReadsFormulas where
  plusExp : E.rules CalcParens.plusExpId = CalcParens.plusExp

theorem CalcParens.run_plusExp (h : E.CalculatesParens) (s : List Chr) (pos : Pos) :
    run E (.ref CalcParens.plusExpId) s pos = run E CalcParens.plusExp s pos := by
  rw [run_ref, h.plusExp]

theorem parens_operand {t : List Chr} {v : Val} : FormulaLang true false ValueOf 2 t v ↔
    IntText t v ∨ ∃ ws t' ws', t = ch '(' :: (ws ++ (t' ++ ch ')' :: ws')) ∧ AllSpace ws ∧
      AllSpace ws' ∧ FormulaLang true false ValueOf 0 t' v := by
  constructor
  · rintro ⟨e, he, hv⟩
    cases he with
    | num hne hw hws =>
      obtain ⟨k, hk, rfl⟩ := hv
      obtain ⟨rfl, -, hle⟩ := fits_eq_some.1 hk
      exact .inl ⟨_, _, rfl, hne, hw, hws, hle, rfl⟩
    | arg h => cases h
    | bracket _ hws he hws' => exact .inr ⟨_, _, _, rfl, hws, hws', _, he, hv⟩
  · rintro (h | ⟨ws, t', ws', rfl, hws, hws', e, he, hv⟩)
    · exact intText_value h
    · exact ⟨e, .bracket rfl hws he hws', hv⟩

theorem parens_onlyReads (h : E.CalculatesParens) : ∀ n,
    OnlyReads E n CalcParens.plusExp (FormulaLang true false ValueOf 0) := by
  intro n
  induction n with
  | zero =>
    refine formula_onlyReads h.toReadsFormulas valueOf_represents (p := CalcParens.simpleExp) ?_
    refine (OnlyReads.oneOf h.oneOf2 (OnlyReads.intToken h.onText h.nth2 0)
      (L' := fun _ _ => False) ?_).mono fun t v hv => parens_operand.2 (.inl (hv.resolve_right id))
    intro s pos v s' pos' hn ha
    obtain ⟨v1, v3, hi⟩ := (C25_middleOf_accepts _ _ _ h.nth3 ..).1 ha
    obtain ⟨x, y, z, s1, pos1, s2, pos2, he, h1, h2, h3⟩ := hi.three
    obtain ⟨c1, hc1, ws, rfl, -⟩ := (readsOp_token h.onText h.nth2 _).sound h1
    simp at hn
  | succ n ih =>
    refine formula_onlyReads h.toReadsFormulas valueOf_represents (p := CalcParens.simpleExp) ?_
    refine (OnlyReads.oneOf h.oneOf2 (OnlyReads.intToken h.onText h.nth2 _)
      (brackets_onlyReads h.nth3 (readsOp_token h.onText h.nth2 _) (readsOp_token h.onText h.nth2 _)
        (p := .ref CalcParens.plusExpId) ?_)).mono fun _ _ => parens_operand.2
    intro s pos v s' pos' hn ha
    unfold Accepts at ha
    rw [CalcParens.run_plusExp h] at ha
    exact ih _ _ _ _ _ hn ha

theorem parens_readsAll (h : E.CalculatesParens) : ∀ n,
    ReadsAll E CalcParens.plusExp (Short n (FormulaLang true false ValueOf 0)) plusCont := by
  have hone : ∀ n, ReadsAll E (.ref CalcParens.plusExpId)
      (fun t v => FormulaLang true false ValueOf 0 t v ∧ t.length < n) plusCont →
      ReadsAll E CalcParens.plusExp (Short n (FormulaLang true false ValueOf 0)) plusCont := by
    intro n hr
    refine formula_readsAll h.toReadsFormulas valueOf_represents (p := CalcParens.simpleExp) ?_
    refine (ReadsAll.oneOf h.oneOf2 (ReadsAll.intToken h.onText h.nth2)
      ((brackets_readsAll h.nth3 (readsOp_token h.onText h.nth2 (ch '('))
        (readsOp_token h.onText h.nth2 (ch ')')) hr (by decide)
        (by rintro t v ⟨⟨e, he, -⟩, -⟩; exact he.begins)).mono (fun _ _ hl => hl)
          fun c hc => by simp [numCont, hc])
      (BeginsIn.intToken h.onText h.nth2) (brackets_beginsIn h.nth3
        (readsOp_token h.onText h.nth2 _)) (fun _ _ hl => hl.begins.1)
      (by rintro t v ⟨ws, t', ws', rfl, -⟩; rfl) ?_).mono ?_ fun _ hc => hc
    · intro c hc
      simp only [List.contains_cons, List.contains_nil, Bool.or_false, beq_eq_false_iff_ne]
      rintro rfl
      exact absurd hc (by decide)
    · rintro t v ⟨hv, hn⟩
      rcases parens_operand.1 hv with h | ⟨ws, t', ws', rfl, hws, hws', hl⟩
      · exact .inl h
      · refine .inr ⟨ws, t', ws', rfl, hws, hws', hl, ?_⟩
        simp only [List.length_cons, List.length_append] at hn
        omega
  intro n
  induction n with
  | zero => exact hone 0 fun t v s' pos hl _ => absurd hl.2 (Nat.not_lt_zero _)
  | succ n ih =>
    refine hone _ fun t v s' pos hl hb => ?_
    obtain ⟨pos', ha⟩ := ih t v s' pos ⟨hl.1, Nat.le_of_lt_succ hl.2⟩ hb
    exact ⟨pos', by unfold Accepts; rw [CalcParens.run_plusExp h]; exact ha⟩

/-- The calculator with brackets compiles exactly for the texts of formulas that have a value, and gives
that value. -/
theorem C60_calculator_with_parens (h : E.CalculatesParens) (s : List Chr) (v : Val) :
    CalcParens.calculatorParser E s = .ok v ↔
      ∃ e k, IsFormula true false s e ∧ e.value 0 = some k ∧ v = .int k := by
  refine (buildParser_spaces h.onText h.nth2 (parens_onlyReads h) (cont := plusCont) ?_ ?_ s v).trans ?_
  · intro t v s' pos hl hb
    exact parens_readsAll h t.length t v s' pos ⟨hl, Nat.le_refl _⟩ hb
  · rintro t v ⟨e, he, -⟩; exact he.begins.1
  · constructor
    · rintro ⟨ws, t, rfl, hws, e, he, k, hk, rfl⟩
      exact ⟨e, k, ⟨ws, t, rfl, hws, he⟩, hk, rfl⟩
    · rintro ⟨e, k, ⟨ws, t, rfl, hws, he⟩, hk, rfl⟩
      exact ⟨ws, t, rfl, hws, e, he, k, hk, rfl⟩

/-! ## They always finish -/

/-- The calculator without brackets always finishes. -/
theorem C60_finishes (h : E.OnText) (s : List Chr) : CalcSimple.calculatorParser E s ≠ .deep := by
  refine buildParser_finishes (finishes_of_check h (R := P.space) (cls := fun _ => False)
    (fun _ h => h.elim) ?_ ?_ ?_ ?_ (by decide +kernel) (by decide +kernel) (by decide +kernel) s start)
  all_goals
    simp [P.every_iff, P.EveryL, P.parts, P.Uses, onlyClasses, P.entireInput, P.firstOf,
      CalcSimple.expression, CalcSimple.plusExp, CalcSimple.prodExp, Calc.plusToken, Calc.minusToken,
      Calc.multToken, Calc.divToken, Calc.intToken, P.token, P.FunctionsFinish,
      P.litC, P.int_, P.foldl1, P.digitVal, P.digit, P.space, P.repeated, isDigit, inRangeC, isCharC,
      isWhitespace, Out.bind_eq_deep, Val.value_ne_deep]

/-- The calculator with brackets always finishes. -/
theorem C60_parens_finishes (h : E.CalculatesParens) (s : List Chr) :
    CalcParens.calculatorParser E s ≠ .deep := by
  refine buildParser_finishes (finishes_of_check h.onText (R := CalcParens.plusExp)
    (cls := fun i => i = CalcParens.plusExpId) (by rintro i rfl; exact h.plusExp) ?_ ?_ ?_ ?_
    (by decide +kernel) (by decide +kernel) (by decide +kernel) s start)
  all_goals
    simp [P.every_iff, P.EveryL, P.parts, P.Uses, onlyClasses, P.entireInput, P.firstOf,
      CalcParens.expression, CalcParens.plusExp, CalcParens.prodExp, CalcParens.simpleExp,
      CalcParens.parenExp, Calc.plusToken, Calc.minusToken, Calc.openParenToken, Calc.closeParenToken,
      Calc.multToken, Calc.divToken, Calc.intToken, P.token, P.FunctionsFinish,
      P.litC, P.int_, P.foldl1, P.digitVal, P.digit, P.space, P.repeated, isDigit, inRangeC, isCharC,
      isWhitespace, Out.bind_eq_deep, Val.value_ne_deep]

/-- All other texts are compile errors. -/
theorem C60_compile_error (h : E.CalculatesParens) (s : List Chr) :
    (∃ f, CalcParens.calculatorParser E s = .ill f) ↔
      ¬ ∃ e k, IsFormula true false s e ∧ e.value 0 = some k := by
  refine (ill_iff_of_finishes (C60_parens_finishes h s) (C60_calculator_with_parens h s)).trans ?_
  constructor
  · rintro h ⟨e, k, he, hk⟩; exact h ⟨_, e, k, he, hk, rfl⟩
  · rintro h ⟨_, e, k, he, hk, -⟩; exact h ⟨e, k, he, hk⟩

/-! ## Each calculator extends the simpler one -/

theorem FormulaText.brackets {a : Bool} {l : Nat} {t : List Chr} {e : Formula}
    (h : FormulaText false a l t e) : FormulaText true a l t e := by
  induction h with
  | num h1 h2 h3 => exact .num h1 h2 h3
  | arg h1 h2 => exact .arg h1 h2
  | bracket h1 => cases h1
  | operand _ ih => exact .operand ih
  | mul _ hws _ ih1 ih2 => exact .mul ih1 hws ih2
  | div _ hws _ ih1 ih2 => exact .div ih1 hws ih2
  | product _ ih => exact .product ih
  | add _ hws _ ih1 ih2 => exact .add ih1 hws ih2
  | sub _ hws _ ih1 ih2 => exact .sub ih1 hws ih2

/-- What the calculator without brackets accepts, the one with brackets accepts with the same result. -/
theorem C60_brackets_extend (h : E.CalculatesParens) {s : List Chr} {v : Val}
    (hv : CalcSimple.calculatorParser E s = .ok v) : CalcParens.calculatorParser E s = .ok v := by
  obtain ⟨e, k, ⟨ws, t, hs, hws, ht⟩, hk, hv⟩ := (C60_calculator h.toReadsFormulas s v).1 hv
  exact (C60_calculator_with_parens h s v).2 ⟨e, k, ⟨ws, t, hs, hws, ht.brackets⟩, hk, hv⟩

/-- The arithmetic expression that a formula without the variable is. -/
def Formula.expression : Formula → AExp
  | .num n => .num n
  | .arg => .num 0
  | .add a b => .add a.expression b.expression
  | .sub a b => .sub a.expression b.expression
  | .mul a b => .mul a.expression b.expression
  | .div a b => .div a.expression b.expression

theorem Formula.expression_value (e : Formula) : e.expression.value = e.value 0 := by
  induction e with
  | num n => rfl
  | arg => rfl
  | add a b iha ihb => simp [Formula.expression, AExp.value, Formula.value, iha, ihb]
  | sub a b iha ihb => simp [Formula.expression, AExp.value, Formula.value, iha, ihb]
  | mul a b iha ihb => simp [Formula.expression, AExp.value, Formula.value, iha, ihb]
  | div a b iha ihb => simp [Formula.expression, AExp.value, Formula.value, iha, ihb]

/-- The symbol of a level of formulas. -/
def formulaSymbol : Nat → CNonTerminal
  | 0 => .plusExp
  | 1 => .prodExp
  | _ => .simpleExp

theorem FormulaText.tokens {l : Nat} {t : List Chr} {e : Formula} (h : FormulaText true false l t e) :
    ∃ ts, CDerives (formulaSymbol l) ts e.expression ∧
      ∀ s', beginsWith numCont s' = false → CTokens (t ++ s') ts s' := by
  have two : ∀ {t : List Chr} {c : Chr} {ws u : List Chr} {tok : CTok} {ts us : List CTok},
      tok.IsOp c → numCont c = false → AllSpace ws → beginsWith spaceChar u = false ∧ u ≠ [] →
      (∀ s', beginsWith numCont s' = false → CTokens (t ++ s') ts s') →
      (∀ s', beginsWith numCont s' = false → CTokens (u ++ s') us s') →
      ∀ s', beginsWith numCont s' = false →
        CTokens ((t ++ c :: (ws ++ u)) ++ s') (ts ++ ([tok] ++ us)) s' := by
    intro t c ws u tok ts us htok hc hws hu h1 h2 s' hb
    refine CTokens.append.2 ⟨c :: (ws ++ (u ++ s')), ?_, CTokens.append.2 ⟨u ++ s',
      (CTokens.op htok).2 ⟨ws, rfl, hws, ?_⟩, h2 s' hb⟩⟩
    · have := h1 (c :: (ws ++ (u ++ s'))) hc
      simpa using this
    · rw [beginsWith_append hu.2]; exact hu.1
  induction h with
  | @num w ws h1 h2 h3 =>
    refine ⟨[.num (decimal w)], .plain (.num _), fun s' hb => CTokens.one.2 ⟨w, ws, by simp,
      .num h1 h2, h3, beginsWith_mono (fun c hc => by simp [numCont, hc]) hb, fun _ _ =>
      beginsWith_mono (fun c hc => by simp [numCont, hc]) hb⟩⟩
  | arg h => cases h
  | @bracket ws t ws' e _ hws he hws' ih =>
    obtain ⟨ts, hd, ht⟩ := ih
    refine ⟨[.open_] ++ ts ++ [.close], .plain (.bracket hd), fun s' hb => ?_⟩
    rw [List.append_assoc]
    refine CTokens.append.2 ⟨t ++ ch ')' :: (ws' ++ s'), (CTokens.op .open_).2 ⟨ws, by simp, hws, ?_⟩,
      CTokens.append.2 ⟨ch ')' :: (ws' ++ s'), ht _ rfl, (CTokens.op .close).2 ⟨ws', rfl, hws', ?_⟩⟩⟩
    · rw [beginsWith_append he.begins.2]; exact he.begins.1
    · exact beginsWith_mono (fun c hc => by simp [numCont, hc]) hb
  | operand _ ih => obtain ⟨ts, hd, ht⟩ := ih; exact ⟨ts, .factor hd, ht⟩
  | product _ ih => obtain ⟨ts, hd, ht⟩ := ih; exact ⟨ts, .summand hd, ht⟩
  | mul _ hws hu ih1 ih2 =>
    obtain ⟨ts, hd, ht⟩ := ih1
    obtain ⟨us, hd', ht'⟩ := ih2
    exact ⟨_, .mul hd hd', two .times rfl hws hu.begins ht ht'⟩
  | div _ hws hu ih1 ih2 =>
    obtain ⟨ts, hd, ht⟩ := ih1
    obtain ⟨us, hd', ht'⟩ := ih2
    exact ⟨_, .div hd hd', two .over rfl hws hu.begins ht ht'⟩
  | add _ hws hu ih1 ih2 =>
    obtain ⟨ts, hd, ht⟩ := ih1
    obtain ⟨us, hd', ht'⟩ := ih2
    exact ⟨_, .add hd hd', two .plus rfl hws hu.begins ht ht'⟩
  | sub _ hws hu ih1 ih2 =>
    obtain ⟨ts, hd, ht⟩ := ih1
    obtain ⟨us, hd', ht'⟩ := ih2
    exact ⟨_, .sub hd hd', two .minus rfl hws hu.begins ht ht'⟩

/-- What the calculator with brackets accepts, the one with unary operators accepts with the same
result. -/
theorem C60_unary_operators_extend (h : E.CalculatesParens) {E' : Env (List Chr)} (h' : E'.Calculates)
    {s : List Chr} {v : Val} (hv : CalcParens.calculatorParser E s = .ok v) :
    Calc.calculatorParser E' s = .ok v := by
  obtain ⟨e, k, ⟨ws, t, rfl, hws, ht⟩, hk, rfl⟩ := (C60_calculator_with_parens h s v).1 hv
  obtain ⟨ts, hd, hts⟩ := ht.tokens
  have := hts [] rfl
  rw [List.append_nil] at this
  exact (C52_calculator h' _ _).2 ⟨e.expression, k, ⟨ws, t, ts, rfl, hws, ht.begins.1, this, hd⟩,
    by rw [Formula.expression_value]; exact hk, rfl⟩

/-! ## Examples -/

example : ({ input := listInput, rules := fun _ => CalcParens.plusExp } : Env (List Chr)).CalculatesParens :=
  ⟨⟨rfl, by simp, by simp⟩, rfl⟩

/-- ` 1+ 2*4-6/2` is 6 (`/repo/example/calculator/main.cpp:152`). -/
example : CalcSimple.calculatorParser ({ input := listInput } : Env (List Chr)) (txt " 1+ 2*4-6/2")
    = .ok (.int 6) := by
  have hE : ({ input := listInput } : Env (List Chr)).ReadsFormulas := ⟨rfl, by simp, by simp⟩
  refine (C60_calculator hE _ _).2 ⟨.sub (.add (.num 1) (.mul (.num 2) (.num 4)))
    (.div (.num 6) (.num 2)), 6, ⟨txt " ", txt "1+ 2*4-6/2", rfl, by decide, ?_⟩, by decide, rfl⟩
  refine .sub (t := txt "1+ 2*4") (ws := []) (u := txt "6/2") (.add (t := txt "1") (ws := txt " ")
    (u := txt "2*4") (.product (.operand (.num (w := txt "1") (ws := []) (by decide) (by decide)
      (by decide)))) (by decide) (.mul (t := txt "2") (ws := []) (u := txt "4") (.operand
      (.num (w := txt "2") (ws := []) (by decide) (by decide) (by decide))) (by decide)
      (.num (w := txt "4") (ws := []) (by decide) (by decide) (by decide)))) (by decide)
    (.div (t := txt "6") (ws := []) (u := txt "2") (.operand
      (.num (w := txt "6") (ws := []) (by decide) (by decide) (by decide))) (by decide)
      (.num (w := txt "2") (ws := []) (by decide) (by decide) (by decide)))

/-- `(1+2)*(3+4)` is 21 (`/repo/example/calculator_with_parens/main.cpp:156`), and `1+` and `2147483647+1` are
compile errors. -/
example : Accepts ({ input := listInput, rules := fun _ => CalcParens.plusExp } : Env (List Chr))
    (.entireInput CalcParens.expression) (txt "(1+2)*(3+4)") start (.int 21) [] ⟨1, 12, ch ')'⟩ :=
  accepts_of_eval 60 (by decide +kernel)

example : Rejects ({ input := listInput, rules := fun _ => CalcParens.plusExp } : Env (List Chr))
    (.entireInput CalcParens.expression) (txt "1+") start .noneOfTheExpectedCasesFound ⟨1, 3, ch '+'⟩ :=
  rejects_of_eval 60 (by decide +kernel)

example : run ({ input := listInput, rules := fun _ => CalcParens.plusExp } : Env (List Chr))
    (.entireInput CalcParens.expression) (txt "2147483647+1") start = .ill .overflow :=
  ill_of_eval 60 (by decide +kernel)

/-- What the calculator without brackets computes, the one with brackets computes as well. -/
example : CalcParens.calculatorParser ({ input := listInput, rules := fun _ => CalcParens.plusExp } : Env (List Chr))
    (txt " 1+ 2*4-6/2") = .ok (.int 6) :=
  C60_brackets_extend ⟨⟨(rfl : Env.OnText { input := listInput, rules := fun _ => CalcParens.plusExp }), by simp, by simp⟩, rfl⟩
    ((C34_buildParser_accepts ..).2 ⟨[], ⟨1, 12, ch '2'⟩, accepts_of_eval 60 (by decide +kernel)⟩)

/-- `(1+2)*(3+4)` is a formula with the value 21; `1+` is none, and is rejected. -/
example : (∃ e k, IsFormula true false (txt "(1+2)*(3+4)") e ∧ e.value 0 = some k ∧ Val.int 21 = .int k) ∧
    ¬ ∃ e k, IsFormula true false (txt "1+") e ∧ e.value 0 = some k := by
  have hE : ({ input := listInput, rules := fun _ => CalcParens.plusExp } : Env (List Chr)).CalculatesParens :=
    ⟨⟨rfl, by simp, by simp⟩, rfl⟩
  refine ⟨(C60_calculator_with_parens hE _ _).1 ((C34_buildParser_accepts ..).2 ⟨[], ⟨1, 12, ch ')'⟩,
    accepts_of_eval 60 (by decide +kernel)⟩), (C60_compile_error hE _).1 ⟨_, C34_buildParser_rejects _ _
      .noneOfTheExpectedCasesFound ⟨1, 3, ch '+'⟩ (rejects_of_eval 60 (by decide +kernel))⟩⟩

example : CalcSimple.calculatorParser env98 (txt "1+") ≠ .deep ∧
    CalcParens.calculatorParser ({ input := listInput, rules := fun _ => CalcParens.plusExp } : Env (List Chr))
      (txt "((((") ≠ .deep :=
  ⟨C60_finishes env98_onText _, C60_parens_finishes ⟨⟨(rfl : Env.OnText { input := listInput, rules := fun _ => CalcParens.plusExp }), by simp, by simp⟩, rfl⟩ _⟩

end Metaparse
