import Verif.Lemmas.GrammarExamples
import Verif.Props.Lambda
/-!
# The examples that use `grammar` (C65, C66)
-/

namespace Metaparse

variable {E : Env (List Chr)}

/-! ## The rules that both grammars have -/

/-- The expression of the rule for white space. -/
def wsExp : GExp :=
  .rep (ch '*') (.sel (.sel (.sel (.chr (ch ' ')) (.chr (ch '\n'))) (.chr (ch '\r'))) (.chr (ch '\t')))

/-- The expression of the rules `x ('…' x)*` -/
def chainExp (x o o' : String) : GExp :=
  .seq (.name (txt x)) (.rep (ch '*') (.seq (.sel (.name (txt o)) (.name (txt o'))) (.name (txt x))))

/-- The parser of one white space character. -/
def wsCharP : P :=
  .oneOf [.oneOf [.oneOf [P.lit (ch ' '), P.lit (ch '\n')], P.lit (ch '\r')], P.lit (ch '\t')]

theorem readsChar_ws (hE : E.OnText) (hs : E.SupportsOneOf 2) : ReadsChar E wsCharP spaceChar := by
  refine (((((readsChar_lit hE _).oneOf hs (readsChar_lit hE _)).oneOf hs (readsChar_lit hE _)).oneOf hs
    (readsChar_lit hE _))).congr fun c => ?_
  rw [Bool.eq_iff_iff]
  simp only [Bool.or_eq_true, decide_eq_true_eq, spaceChar, beq_iff_eq]
  have h1 : ch ' ' = 32 := by decide
  have h2 : ch '\n' = LF := by decide
  have h3 : ch '\r' = CR := by decide
  have h4 : ch '\t' = 9 := by decide
  rw [h1, h2, h3, h4]
  constructor
  · rintro (((h | h) | h) | h) <;> simp [h]
  · rintro (((h | h) | h) | h) <;> simp [h]

/-! ## `grammar_calculator` -/

namespace GrammarCalc

/-- The expression of the rule for numbers. -/
def intExp : GExp :=
  .rep (ch '+') (.sel (.sel (.sel (.sel (.sel (.sel (.sel (.sel (.sel (.chr (ch '0')) (.chr (ch '1')))
    (.chr (ch '2'))) (.chr (ch '3'))) (.chr (ch '4'))) (.chr (ch '5'))) (.chr (ch '6'))) (.chr (ch '7')))
    (.chr (ch '8'))) (.chr (ch '9')))

/-- What the chain of rules makes. -/
def grammar : Grammar where
  start := txt "plus_exp"
  rules := [
    (txt "prod_exp", .parsed (chainExp "int_token" "mult_token" "div_token")),
    (txt "plus_exp", .parsed (chainExp "prod_exp" "plus_token" "minus_token")),
    (txt "plus_token", .parsed (.seq (.chr (ch '+')) (.name (txt "ws")))),
    (txt "div_token", .parsed (.seq (.chr (ch '/')) (.name (txt "ws")))),
    (txt "mult_token", .parsed (.seq (.chr (ch '*')) (.name (txt "ws")))),
    (txt "minus_token", .parsed (.seq (.chr (ch '-')) (.name (txt "ws")))),
    (txt "plus_token", .parsed (.seq (.chr (ch '+')) (.name (txt "ws")))),
    (txt "int_token", .parsed (.seq (.name (txt "int")) (.name (txt "ws")))),
    (txt "ws", .parsed wsExp),
    (txt "int", .parsed intExp)]
  actions := [(txt "prod_exp", prodAction), (txt "plus_exp", plusAction), (txt "div_token", frontAction),
    (txt "mult_token", frontAction), (txt "minus_token", frontAction), (txt "plus_token", frontAction),
    (txt "int_token", frontAction), (txt "int", intAction)]

theorem expression_eq (h : E.ParsesRules) : expression E = .ok grammar := by
  unfold expression rules
  rw [addAll_rule h 100 (name := txt "int") (e := intExp) (by decide +kernel),
    addAll_rule h 100 (name := txt "ws") (e := wsExp) (by decide +kernel),
    addAll_rule h 100 (name := txt "int_token") (e := .seq (.name (txt "int")) (.name (txt "ws")))
      (by decide +kernel),
    addAll_rule h 100 (name := txt "plus_token") (e := .seq (.chr (ch '+')) (.name (txt "ws")))
      (by decide +kernel),
    addAll_rule h 100 (name := txt "minus_token") (e := .seq (.chr (ch '-')) (.name (txt "ws")))
      (by decide +kernel),
    addAll_rule h 100 (name := txt "mult_token") (e := .seq (.chr (ch '*')) (.name (txt "ws")))
      (by decide +kernel),
    addAll_rule h 100 (name := txt "div_token") (e := .seq (.chr (ch '/')) (.name (txt "ws")))
      (by decide +kernel),
    addAll_rule h 100 (name := txt "plus_token") (e := .seq (.chr (ch '+')) (.name (txt "ws")))
      (by decide +kernel),
    addAll_rule h 100 (name := txt "plus_exp") (e := chainExp "prod_exp" "plus_token" "minus_token")
      (by decide +kernel),
    addAll_rule h 100 (name := txt "prod_exp") (e := chainExp "int_token" "mult_token" "div_token")
      (by decide +kernel)]
  rfl

/-- The parser of one digit. -/
def digitP : P :=
  .oneOf [.oneOf [.oneOf [.oneOf [.oneOf [.oneOf [.oneOf [.oneOf [.oneOf [P.lit (ch '0'), P.lit (ch '1')],
    P.lit (ch '2')], P.lit (ch '3')], P.lit (ch '4')], P.lit (ch '5')], P.lit (ch '6')], P.lit (ch '7')],
    P.lit (ch '8')], P.lit (ch '9')]

/-- The parser of an operator. -/
def opToken (c : Char) : P := .transform (.sequence [P.lit (ch c), .repeated wsCharP]) frontAction

/-- The parser of numbers. -/
def intP : P := .transform (.repeated1 digitP) intAction

/-- The parser of numbers with white space after them. -/
def intTokenP : P := .transform (.sequence [intP, .repeated wsCharP]) frontAction

/-- The parser of the start symbol. -/
def wholeP : P :=
  chainOf (.oneOf [opToken '+', opToken '-'])
    (chainOf (.oneOf [opToken '*', opToken '/']) intTokenP prodOp) plusOp

theorem parserOf_eq : grammar.parserOf (txt "plus_exp") = .ok wholeP := by
  have ws : Grammar.Builds grammar.ruleSet (.name (txt "ws")) (.repeated wsCharP) :=
    .rule (e := wsExp) rfl (.star (by decide) (.sel (.sel (.sel (.chr _) (.chr _)) (.chr _)) (.chr _))) rfl
  have int : Grammar.Builds grammar.ruleSet (.name (txt "int")) intP :=
    .ruleAction (e := intExp) rfl (.plus (.sel (.sel (.sel (.sel (.sel (.sel (.sel (.sel (.sel (.chr _)
      (.chr _)) (.chr _)) (.chr _)) (.chr _)) (.chr _)) (.chr _)) (.chr _)) (.chr _)) (.chr _))) rfl
  have intToken : Grammar.Builds grammar.ruleSet (.name (txt "int_token")) intTokenP :=
    .ruleAction rfl (.seq int ws) rfl
  have plus : Grammar.Builds grammar.ruleSet (.name (txt "plus_token")) (opToken '+') :=
    .ruleAction rfl (.seq (.chr _) ws) rfl
  have minus : Grammar.Builds grammar.ruleSet (.name (txt "minus_token")) (opToken '-') :=
    .ruleAction rfl (.seq (.chr _) ws) rfl
  have mult : Grammar.Builds grammar.ruleSet (.name (txt "mult_token")) (opToken '*') :=
    .ruleAction rfl (.seq (.chr _) ws) rfl
  have div : Grammar.Builds grammar.ruleSet (.name (txt "div_token")) (opToken '/') :=
    .ruleAction rfl (.seq (.chr _) ws) rfl
  have prod : Grammar.Builds grammar.ruleSet (.name (txt "prod_exp"))
      (chainOf (.oneOf [opToken '*', opToken '/']) intTokenP prodOp) :=
    .ruleAction (e := chainExp "int_token" "mult_token" "div_token") rfl
      (.seq intToken (.star (by decide) (.seq (.sel mult div) intToken))) rfl
  exact Grammar.parserOf_eq_ok.2 (.ruleAction (e := chainExp "prod_exp" "plus_token" "minus_token") rfl
    (.seq prod (.star (by decide) (.seq (.sel plus minus) prod))) rfl)

/-! ### Numbers -/

theorem readsChar_digit (hE : E.OnText) (hs : E.SupportsOneOf 2) : ReadsChar E digitP digitChar := by
  refine (((((((((((readsChar_lit hE _).oneOf hs (readsChar_lit hE _)).oneOf hs (readsChar_lit hE _)).oneOf hs
    (readsChar_lit hE _)).oneOf hs (readsChar_lit hE _)).oneOf hs (readsChar_lit hE _)).oneOf hs
    (readsChar_lit hE _)).oneOf hs (readsChar_lit hE _)).oneOf hs (readsChar_lit hE _)).oneOf hs
    (readsChar_lit hE _))).congr fun c => ?_
  rw [Bool.eq_iff_iff]
  simp only [Bool.or_eq_true, Bool.and_eq_true, decide_eq_true_eq, digitChar]
  simp only [show ch '0' = 48 from rfl, show ch '1' = 49 from rfl, show ch '2' = 50 from rfl,
    show ch '3' = 51 from rfl, show ch '4' = 52 from rfl, show ch '5' = 53 from rfl,
    show ch '6' = 54 from rfl, show ch '7' = 55 from rfl, show ch '8' = 56 from rfl,
    show ch '9' = 57 from rfl]
  omega

theorem mplFold_intOp (x : Int) (t : List Chr) (ht : ∀ c ∈ t, digitChar c = true) :
    mplFold intOp (.int x) (t.map .chr) = leftFold nextDigit (.int x) (t.map fun c => .int (c - 48)) := by
  induction t generalizing x with
  | nil => rfl
  | cons c t ih =>
    have hc := ht c (by simp)
    simp only [List.map_cons, mplFold, leftFold]
    have h1 : intOp (.int x) (.chr c) = nextDigit (.int x) (.int (c - 48)) := by
      show Val.ofOut (((intC (x * 10)).bind fun z => .ok (.int z)).bind fun t =>
        (digitToIntC c).force.bind fun d => Calc.arith (· + ·) t d) =
        Val.ofOut ((intC (x * 10)).bind fun y => (intC (y + (c - 48))).bind fun z => .ok (.int z))
      rw [digitToIntC_digit c hc]
      cases intC (x * 10) <;> rfl
    rw [h1]
    cases hy : (nextDigit (.int x) (.int (c - 48))).force with
    | ok y =>
      have : ∃ k, y = .int k := by
        have hv : nextDigit (.int x) (.int (c - 48)) =
          Val.ofOut ((intC (x * 10)).bind fun y => (intC (y + (c - 48))).bind fun z => .ok (.int z)) := rfl
        rw [hv] at hy
        cases h2 : intC (x * 10) with
        | ok k =>
          rw [h2, Out.bind_ok] at hy
          cases h3 : intC (k + (c - 48)) with
          | ok l => rw [h3] at hy; cases hy; exact ⟨l, rfl⟩
          | ill f => rw [h3] at hy; cases hy
          | deep => rw [h3] at hy; cases hy
        | ill f => rw [h2] at hy; cases hy
        | deep => rw [h2] at hy; cases hy
      obtain ⟨k, rfl⟩ := this
      exact ih k fun d hd => ht d (List.mem_cons_of_mem _ hd)
    | ill f => rfl
    | deep => rfl

theorem intAction_force {t : List Chr} (ht : ∀ c ∈ t, digitChar c = true) {v : Val} :
    (intAction (.seq (t.map .chr))).force = .ok v ↔ decimal t ≤ 2147483647 ∧ v = .int (decimal t) := by
  unfold intAction
  rw [metafunction_force]
  show mplFold intOp (.int 0) (t.map .chr) = .ok v ↔ _
  rw [mplFold_intOp 0 t ht, leftFold_nextDigit 0 t (Int.le_refl _) ht (by decide)]
  show (if decimal t ≤ 2147483647 then Out.ok (Val.int (decimal t)) else .ill .overflow) = .ok v ↔ _
  by_cases hle : decimal t ≤ 2147483647
  · rw [if_pos hle]; simp [hle, eq_comm]
  · rw [if_neg hle]; simp [hle]

theorem intP_accepts (hE : E.OnText) (hs : E.SupportsOneOf 2) (s : List Chr) (pos : Pos) (v : Val)
    (s' : List Chr) (pos' : Pos) :
    Accepts E intP s pos v s' pos' ↔ ∃ w, s = w ++ s' ∧ w ≠ [] ∧ (∀ c ∈ w, digitChar c = true) ∧
      beginsWith digitChar s' = false ∧ v = .int (decimal w) ∧ decimal w ≤ 2147483647 ∧
        pos' = moveOver pos w := by
  obtain ⟨m0, m1, hd⟩ := readsChar_digit hE hs
  unfold intP
  rw [C36_transform_accepts]
  constructor
  · rintro ⟨x, ha, hx⟩
    obtain ⟨vs, m, e, hne, hm, rfl⟩ := (C14_repeated1 ..).1 ha
    obtain ⟨m', hm'⟩ := hd.maximalRun' s pos
    obtain ⟨rfl, rfl, rfl, -⟩ := hm.unique hm'
    obtain ⟨hle, rfl⟩ := (intAction_force (all_takeWhile _ _)).1 hx
    exact ⟨s.takeWhile digitChar, by rw [List.takeWhile_append_dropWhile],
      fun h => hne (by rw [h]; rfl), all_takeWhile _ _, beginsWith_dropWhile _ _, rfl, hle, rfl⟩
  · rintro ⟨w, rfl, hne, hw, hb, rfl, hle, rfl⟩
    obtain ⟨m, hm⟩ := hd.maximalRun w s' pos hw hb
    exact ⟨_, (C14_repeated1 ..).2 ⟨_, _, _, by simpa using hne, hm, rfl⟩,
      (intAction_force hw).2 ⟨hle, rfl⟩⟩

theorem frontAction_force (a b : Val) : (frontAction (.seq [a, b])).force = .ok a := rfl

theorem intToken_onlyReads (hE : E.OnText) (hs : E.SupportsSequence 2) (ho : E.SupportsOneOf 2) (n : Nat) :
    OnlyReads E n intTokenP IntText := by
  intro s pos v s' pos' _ ha
  obtain ⟨ws, pos1, ha, h2, h3, -⟩ :=
    (spaced_accepts hs (readsChar_ws hE ho) frontAction_force ..).1 ha
  obtain ⟨w, rfl, hne, hw, hb, rfl, hle, -⟩ := (intP_accepts hE ho ..).1 ha
  exact ⟨w ++ ws, by simp, w, ws, rfl, hne, hw, h2, hle, rfl⟩

theorem intToken_readsAll (hE : E.OnText) (hs : E.SupportsSequence 2) (ho : E.SupportsOneOf 2) :
    ReadsAll E intTokenP IntText numCont := by
  rintro t v s' pos ⟨w, ws, rfl, hne, hw, hws, hle, rfl⟩ hb
  refine ⟨_, (spaced_accepts hs (readsChar_ws hE ho) frontAction_force ..).2 ⟨ws, moveOver pos w, ?_, hws,
    beginsWith_mono (fun c hc => by simp [numCont, hc]) hb, rfl⟩⟩
  refine (intP_accepts hE ho ..).2 ⟨w, by simp, hne, hw, ?_, rfl, hle, rfl⟩
  cases ws with
  | nil => exact beginsWith_mono (fun c hc => by simp [numCont, hc]) hb
  | cons c ws => exact digit_not_space (hws c (by simp))

/-! ### Operators -/

/-- The integer is the value that the calculator gives the formula. -/
def BothOf (e : Formula) (v : Val) : Prop := ∃ k, e.valueBoth = some k ∧ v = .int k

theorem arith_int {f : Int → Int → Int} {x y : Int} {v : Val} :
    Calc.arith f (.int x) (.int y) = .ok v ↔ (fits (f x y)).isSome ∧ v = .int (f x y) := by
  rw [show Calc.arith f (.int x) (.int y) = ((intC (f x y)).bind fun z => .ok (.int z)) from rfl,
    intC_bind, ofOption_eq_ok]
  constructor
  · rintro ⟨k, hk, rfl⟩
    obtain ⟨rfl, -⟩ := fits_eq_some.1 hk
    exact ⟨by simp [hk], rfl⟩
  · rintro ⟨h, rfl⟩
    obtain ⟨k, hk⟩ := Option.isSome_iff_exists.1 h
    obtain ⟨rfl, -⟩ := fits_eq_some.1 hk
    exact ⟨_, hk, rfl⟩

theorem divides_int {x y : Int} {v : Val} :
    Calc.divides (.int x) (.int y) = .ok v ↔
      (y ≠ 0 ∧ (fits (x.tdiv y)).isSome) ∧ v = .int (x.tdiv y) := by
  rw [show Calc.divides (.int x) (.int y) = (if y = 0 then .ill .divByZero else
    (intC (x.tdiv y)).bind fun z => .ok (.int z)) from rfl]
  by_cases h0 : y = 0
  · simp [h0]
  · rw [if_neg h0]
    have := arith_int (f := Int.tdiv) (x := x) (y := y) (v := v)
    rw [show Calc.arith Int.tdiv (.int x) (.int y) = ((intC (x.tdiv y)).bind fun z => .ok (.int z)) from
      rfl] at this
    rw [this]
    simp [h0]

/-- Both operations are computed, then one is chosen. -/
theorem both_force {A B : Out Val} {p q : Prop} {m n : Int} {x : Bool} {v : Val}
    (hA : ∀ w, A = .ok w ↔ p ∧ w = .int m) (hB : ∀ w, B = .ok w ↔ q ∧ w = .int n) :
    (Val.ofOut (A.bind fun t => B.bind fun d => .ok (if x = true then t else d))).force = .ok v ↔
      (p ∧ q) ∧ v = .int (if x = true then m else n) := by
  have key : (Val.ofOut (A.bind fun t => B.bind fun d => .ok (if x = true then t else d))).force = .ok v ↔
      ∃ w, (A.bind fun t => B.bind fun d => .ok (if x = true then t else d)) = .ok w ∧ w.force = .ok v := by
    cases (A.bind fun t => B.bind fun d => Out.ok (if x = true then t else d)) with
    | ok w => simp [Val.ofOut]
    | ill f => simp [Val.ofOut, Val.force]
    | deep => simp [Val.ofOut, Val.force]
  rw [key]
  constructor
  · rintro ⟨w, hw, hv⟩
    obtain ⟨t, ht, hw⟩ := Out.bind_eq_ok.1 hw
    obtain ⟨d, hd, hw⟩ := Out.bind_eq_ok.1 hw
    obtain ⟨hp, rfl⟩ := (hA t).1 ht
    obtain ⟨hq, rfl⟩ := (hB d).1 hd
    cases hw
    refine ⟨⟨hp, hq⟩, ?_⟩
    cases x <;> cases hv <;> rfl
  · rintro ⟨⟨hp, hq⟩, rfl⟩
    rw [(hA _).2 ⟨hp, rfl⟩, (hB _).2 ⟨hq, rfl⟩]
    cases x <;> exact ⟨_, rfl, rfl⟩

theorem option_ite {c : Prop} [Decidable c] {k : Int} {v : Val} :
    (c ∧ v = .int k) ↔ ∃ l, (if c then some k else none) = some l ∧ v = .int l := by
  by_cases h : c <;> simp [h]

theorem bothOf_represents : RepresentsOps BothOf prodOp plusOp where
  forced := by rintro e v ⟨k, -, rfl⟩; rfl
  mul := by
    rintro a b x y z ⟨i, hi, rfl⟩ ⟨j, hj, rfl⟩
    refine (both_force (x := true) (fun w => arith_int) (fun w => divides_int)).trans ?_
    rw [if_pos rfl, option_ite]
    simp only [BothOf, Formula.valueBoth, hi, hj, Option.bind_some]
  div := by
    rintro a b x y z ⟨i, hi, rfl⟩ ⟨j, hj, rfl⟩
    refine (both_force (x := false) (fun w => arith_int) (fun w => divides_int)).trans ?_
    rw [if_neg (by decide), option_ite]
    simp only [BothOf, Formula.valueBoth, hi, hj, Option.bind_some]
  add := by
    rintro a b x y z ⟨i, hi, rfl⟩ ⟨j, hj, rfl⟩
    refine (both_force (x := true) (fun w => arith_int) (fun w => arith_int)).trans ?_
    rw [if_pos rfl, option_ite]
    simp only [BothOf, Formula.valueBoth, hi, hj, Option.bind_some]
  sub := by
    rintro a b x y z ⟨i, hi, rfl⟩ ⟨j, hj, rfl⟩
    refine (both_force (x := false) (fun w => arith_int) (fun w => arith_int)).trans ?_
    rw [if_neg (by decide), option_ite]
    simp only [BothOf, Formula.valueBoth, hi, hj, Option.bind_some]
  ofMul := by
    rintro a b z ⟨k, hk, rfl⟩
    obtain ⟨m, hm, hk⟩ := option_bind_eq.1 hk
    obtain ⟨n, hn, hk⟩ := option_bind_eq.1 hk
    exact ⟨⟨_, m, hm, rfl⟩, _, n, hn, rfl⟩
  ofDiv := by
    rintro a b z ⟨k, hk, rfl⟩
    obtain ⟨m, hm, hk⟩ := option_bind_eq.1 hk
    obtain ⟨n, hn, hk⟩ := option_bind_eq.1 hk
    exact ⟨⟨_, m, hm, rfl⟩, _, n, hn, rfl⟩
  ofAdd := by
    rintro a b z ⟨k, hk, rfl⟩
    obtain ⟨m, hm, hk⟩ := option_bind_eq.1 hk
    obtain ⟨n, hn, hk⟩ := option_bind_eq.1 hk
    exact ⟨⟨_, m, hm, rfl⟩, _, n, hn, rfl⟩
  ofSub := by
    rintro a b z ⟨k, hk, rfl⟩
    obtain ⟨m, hm, hk⟩ := option_bind_eq.1 hk
    obtain ⟨n, hn, hk⟩ := option_bind_eq.1 hk
    exact ⟨⟨_, m, hm, rfl⟩, _, n, hn, rfl⟩

/-- The numbers are the operands. -/
theorem operand {t : List Chr} {v : Val} : FormulaLang false false BothOf 2 t v ↔ IntText t v := by
  constructor
  · rintro ⟨e, he, k, hk, rfl⟩
    cases he with
    | num hne hw hws =>
      obtain ⟨rfl, -, hle⟩ := fits_eq_some.1 hk
      exact ⟨_, _, rfl, hne, hw, hws, hle, rfl⟩
    | arg h => cases h
    | bracket h => cases h
  · rintro ⟨w, ws, rfl, hne, hw, hws, hle, rfl⟩
    exact ⟨_, .num hne hw hws, _, decimal_fits hw hle, rfl⟩

end GrammarCalc

theorem grammar_calculator_ok (h : E.ParsesRules) (s : List Chr) (v : Val) :
    GrammarCalc.calculatorParser E s = .ok v ↔
      ∃ e k, FormulaText false false 0 s e ∧ e.valueBoth = some k ∧ v = .int k := by
  have hf := h.readsFormulas
  have hw := readsChar_ws h.onText hf.oneOf2
  have op : ∀ c, ReadsOp E (GrammarCalc.opToken c) [ch c] := fun c =>
    readsOp_spaced h.onText hf.seq2 hw GrammarCalc.frontAction_force _
  unfold GrammarCalc.calculatorParser
  rw [GrammarCalc.expression_eq h,
    parseWholeWith_ok h (rebuild_of_check h 100 (name := txt "plus_exp") (by decide +kernel))
      GrammarCalc.parserOf_eq]
  refine (chain_formulas hf.seq2 GrammarCalc.bothOf_represents ((op '*').oneOf hf.oneOf2 (op '/'))
    ((op '+').oneOf hf.oneOf2 (op '-'))
    (fun n => (GrammarCalc.intToken_onlyReads h.onText hf.seq2 hf.oneOf2 n).mono
      fun _ _ => GrammarCalc.operand.2)
    ((GrammarCalc.intToken_readsAll h.onText hf.seq2 hf.oneOf2).mono
      (fun _ _ => GrammarCalc.operand.1) fun _ hc => hc) s v).trans ?_
  constructor
  · rintro ⟨e, he, k, hk, rfl⟩; exact ⟨e, k, he, hk, rfl⟩
  · rintro ⟨e, k, he, hk, rfl⟩; exact ⟨e, he, k, hk, rfl⟩

/-! ## Operands with the variable -/

/-- The texts of numbers and what represents them. -/
def NumLang (D : Formula → Val → Prop) (t : List Chr) (v : Val) : Prop :=
  ∃ w ws, t = w ++ ws ∧ w ≠ [] ∧ (∀ c ∈ w, digitChar c = true) ∧ AllSpace ws ∧ D (.num (decimal w)) v

/-- The texts of the variable and what represents it. -/
def ArgLang (D : Formula → Val → Prop) (t : List Chr) (v : Val) : Prop :=
  ∃ ws, t = ch '_' :: ws ∧ AllSpace ws ∧ D .arg v

theorem formulaLang_operand {D : Formula → Val → Prop} {t : List Chr} {v : Val} :
    FormulaLang false true D 2 t v ↔ NumLang D t v ∨ ArgLang D t v := by
  constructor
  · rintro ⟨e, he, hd⟩
    cases he with
    | num hne hw hws => exact .inl ⟨_, _, rfl, hne, hw, hws, hd⟩
    | arg _ hws => exact .inr ⟨_, rfl, hws, hd⟩
    | bracket h => cases h
  · rintro (⟨w, ws, rfl, hne, hw, hws, hd⟩ | ⟨ws, rfl, hws, hd⟩)
    · exact ⟨_, .num hne hw hws, hd⟩
    · exact ⟨.arg, .arg rfl hws, hd⟩

theorem NumLang.begins {D : Formula → Val → Prop} {t : List Chr} {v : Val} (h : NumLang D t v) :
    beginsWith digitChar t = true := by
  obtain ⟨w, ws, rfl, hne, hw, -⟩ := h
  cases w with
  | nil => exact absurd rfl hne
  | cons c w => exact hw c (by simp)

/-- A parser of numbers or the variable. -/
theorem operand_reads (hs : E.SupportsOneOf 2) {D : Formula → Val → Prop} {pi pa : P} {f : Val → Val}
    (h1 : ∀ n, OnlyReads E n pi (NumLang D)) (h2 : ReadsAll E pi (NumLang D) numCont)
    (h3 : BeginsIn E pi digitChar) (ha : ReadsOp E pa [ch '_'])
    (hf : ∀ v, (f (.chr (ch '_'))).force = .ok v ↔ D .arg v) :
    (∀ n, OnlyReads E n (.oneOf [pi, .transform pa f]) (FormulaLang false true D 2)) ∧
    ReadsAll E (.oneOf [pi, .transform pa f]) (FormulaLang false true D 2) numCont := by
  constructor
  · intro n
    refine (OnlyReads.oneOf hs (h1 n) ?_).mono fun _ _ => formulaLang_operand.2
    intro s pos v s' pos' hn hacc
    obtain ⟨w, hacc, hw⟩ := (C36_transform_accepts ..).1 hacc
    obtain ⟨t, ht, c, hc, ws, hws, hsp, rfl⟩ := ha.onlyReads n _ _ _ _ _ hn hacc
    simp only [List.mem_singleton] at hc
    subst hc
    exact ⟨t, ht, ws, hws, hsp, (hf v).1 hw⟩
  · refine (ReadsAll.oneOf hs h2 ?_ h3 (g := [ch '_'].contains) ?_ (fun t v => NumLang.begins)
      (L' := ArgLang D) ?_ ?_).mono (fun _ _ => formulaLang_operand.1) fun _ hc => hc
    · rintro t v s' pos ⟨ws, rfl, hws, hd⟩ hb
      obtain ⟨pos', hacc⟩ := ha.accepts (s' := s') pos (List.mem_singleton.2 rfl) hws
        (beginsWith_mono (fun c hc => by simp [numCont, hc]) hb)
      exact ⟨pos', (C36_transform_accepts ..).2 ⟨_, hacc, (hf v).2 hd⟩⟩
    · intro s pos hb
      obtain ⟨m, hr⟩ := ha.rejects pos hb
      exact ⟨m, (C36_transform_rejects ..).2 hr⟩
    · rintro t v ⟨ws, rfl, -⟩; rfl
    · intro c hc
      simp only [List.contains_cons, List.contains_nil, Bool.or_false, beq_eq_false_iff_ne]
      rintro rfl
      exact absurd hc (by decide)

/-! ## A text is the text of at most one formula

Shown with a parser that accepts all numbers. -/

namespace AnyNumber

/-- The characters of a sequence. -/
def chars : Val → List Chr
  | .seq l => l.map fun | .chr c => c | _ => 0
  | _ => []

/-- The number with these digits. -/
def number (v : Val) : Val := .user 0 [.int (decimal (chars v))]

/-- The parser of numbers. -/
def intP : P := .transform (.repeated1 P.digit) number

/-- The parser of numbers with white space after them. -/
def intTokenP : P := .transform (.sequence [intP, .repeated P.space]) GrammarCalc.frontAction

/-- The parser of the variable. -/
def argTokenP : P :=
  .transform (.sequence [P.lit (ch '_'), .repeated P.space]) GrammarCalc.frontAction

/-- The class that stands for the formula. -/
def CodeIs (e : Formula) (v : Val) : Prop := v = e.code

theorem chars_map (w : List Chr) : chars (.seq (w.map .chr)) = w := by
  unfold chars
  induction w with
  | nil => rfl
  | cons c w ih => simpa using ih

theorem codeIs_represents : RepresentsOps CodeIs Lambda.buildMult Lambda.buildPlus where
  forced := by rintro e v rfl; exact e.code_force
  mul := by
    rintro a b x y z rfl rfl
    show Out.ok (Formula.mul a b).code = .ok z ↔ _
    simp [CodeIs, eq_comm]
  div := by
    rintro a b x y z rfl rfl
    show Out.ok (Formula.div a b).code = .ok z ↔ _
    simp [CodeIs, eq_comm]
  add := by
    rintro a b x y z rfl rfl
    show Out.ok (Formula.add a b).code = .ok z ↔ _
    simp [CodeIs, eq_comm]
  sub := by
    rintro a b x y z rfl rfl
    show Out.ok (Formula.sub a b).code = .ok z ↔ _
    simp [CodeIs, eq_comm]
  ofMul := fun _ => ⟨⟨_, rfl⟩, _, rfl⟩
  ofDiv := fun _ => ⟨⟨_, rfl⟩, _, rfl⟩
  ofAdd := fun _ => ⟨⟨_, rfl⟩, _, rfl⟩
  ofSub := fun _ => ⟨⟨_, rfl⟩, _, rfl⟩

theorem intP_accepts (hE : E.OnText) (s : List Chr) (pos : Pos) (v : Val)
    (s' : List Chr) (pos' : Pos) :
    Accepts E intP s pos v s' pos' ↔ ∃ w, s = w ++ s' ∧ w ≠ [] ∧ (∀ c ∈ w, digitChar c = true) ∧
      beginsWith digitChar s' = false ∧ v = .user 0 [.int (decimal w)] ∧ pos' = moveOver pos w := by
  have hd := C28_digit hE
  unfold intP
  rw [C36_transform_accepts]
  constructor
  · rintro ⟨x, ha, hx⟩
    obtain ⟨vs, m, e, hne, hm, rfl⟩ := (C14_repeated1 ..).1 ha
    obtain ⟨m', hm'⟩ := hd.maximalRun' s pos
    obtain ⟨rfl, rfl, rfl, -⟩ := hm.unique hm'
    unfold number at hx
    rw [chars_map] at hx
    cases hx
    exact ⟨s.takeWhile digitChar, by rw [List.takeWhile_append_dropWhile],
      fun h => hne (by rw [h]; rfl), all_takeWhile _ _, beginsWith_dropWhile _ _, rfl, rfl⟩
  · rintro ⟨w, rfl, hne, hw, hb, rfl, rfl⟩
    obtain ⟨m, hm⟩ := hd.maximalRun w s' pos hw hb
    exact ⟨_, (C14_repeated1 ..).2 ⟨_, _, _, by simpa using hne, hm, rfl⟩, by
      unfold number; rw [chars_map]; rfl⟩

end AnyNumber

theorem readsChar_space (hE : E.OnText) : ReadsChar E P.space spaceChar := ⟨_, _, C28_space hE⟩

/-- The parser of numbers with white space after them, whatever the numbers are turned into. -/
theorem number_reads (hs : E.SupportsSequence 2) {D : Formula → Val → Prop} {p w : P}
    {act : Val → Val} (hw : ReadsChar E w spaceChar) (hact : ∀ a b, (act (.seq [a, b])).force = .ok a)
    (hp : ∀ s pos v s' pos', Accepts E p s pos v s' pos' ↔ ∃ w, s = w ++ s' ∧ w ≠ [] ∧
      (∀ c ∈ w, digitChar c = true) ∧ beginsWith digitChar s' = false ∧ D (.num (decimal w)) v ∧
      pos' = moveOver pos w) :
    (∀ n, OnlyReads E n (.transform (.sequence [p, .repeated w]) act) (NumLang D)) ∧
    ReadsAll E (.transform (.sequence [p, .repeated w]) act) (NumLang D) numCont := by
  constructor
  · intro n s pos v s' pos' _ ha
    obtain ⟨ws, pos1, ha, h2, h3, -⟩ := (spaced_accepts hs hw hact ..).1 ha
    obtain ⟨w, rfl, hne, hw, hb, hd, -⟩ := (hp ..).1 ha
    exact ⟨w ++ ws, by simp, w, ws, rfl, hne, hw, h2, hd⟩
  · rintro t v s' pos ⟨w, ws, rfl, hne, hw', hws, hd⟩ hb
    refine ⟨_, (spaced_accepts hs hw hact ..).2 ⟨ws, moveOver pos w, ?_, hws,
      beginsWith_mono (fun c hc => by simp [numCont, hc]) hb, rfl⟩⟩
    refine (hp ..).2 ⟨w, by simp, hne, hw', ?_, hd, rfl⟩
    cases ws with
    | nil => exact beginsWith_mono (fun c hc => by simp [numCont, hc]) hb
    | cons c ws => exact digit_not_space (hws c (by simp))

theorem Formula.code_injective : ∀ {e e' : Formula}, e.code = e'.code → e = e' := by
  intro e
  induction e with
  | num n => intro e' h; cases e' <;> simp [Formula.code] at h; rw [h]
  | arg => intro e' h; cases e' <;> simp [Formula.code] at h; rfl
  | add a b iha ihb => intro e' h; cases e' <;> simp [Formula.code] at h; rw [iha h.1, ihb h.2]
  | sub a b iha ihb => intro e' h; cases e' <;> simp [Formula.code] at h; rw [iha h.1, ihb h.2]
  | mul a b iha ihb => intro e' h; cases e' <;> simp [Formula.code] at h; rw [iha h.1, ihb h.2]
  | div a b iha ihb => intro e' h; cases e' <;> simp [Formula.code] at h; rw [iha h.1, ihb h.2]

theorem FormulaText.withArg {l : Nat} {t : List Chr} {e : Formula} {a : Bool}
    (h : FormulaText false a l t e) : FormulaText false true l t e := by
  induction h with
  | num h1 h2 h3 => exact .num h1 h2 h3
  | arg _ h => exact .arg rfl h
  | bracket h => cases h
  | operand _ ih => exact .operand ih
  | mul _ h2 _ ih1 ih2 => exact .mul ih1 h2 ih2
  | div _ h2 _ ih1 ih2 => exact .div ih1 h2 ih2
  | product _ ih => exact .product ih
  | add _ h2 _ ih1 ih2 => exact .add ih1 h2 ih2
  | sub _ h2 _ ih1 ih2 => exact .sub ih1 h2 ih2

theorem FormulaText.unique {a a' : Bool} {s : List Chr} {e e' : Formula}
    (h : FormulaText false a 0 s e) (h' : FormulaText false a' 0 s e') : e = e' := by
  have hE : env11.OnText := rfl
  have hs : env11.SupportsSequence 2 := fun h => by cases h
  have ho : env11.SupportsOneOf 2 := fun h => by cases h
  have op : ∀ c, ReadsOp env11 (.transform (.sequence [P.lit c, .repeated P.space])
      GrammarCalc.frontAction) [c] :=
    fun c => readsOp_spaced hE hs (readsChar_space hE) GrammarCalc.frontAction_force c
  have hn := number_reads (D := AnyNumber.CodeIs) hs (readsChar_space hE)
    GrammarCalc.frontAction_force fun s pos v s' pos' => AnyNumber.intP_accepts hE s pos v s' pos'
  have hb : BeginsIn env11 AnyNumber.intTokenP digitChar := by
    intro s pos hb
    obtain ⟨m, hr⟩ := (C28_digit hE).rejects s pos hb
    exact ⟨m, spaced_rejects hs ((C36_transform_rejects ..).2 ((C14_repeated_rejects ..).2.2 hr))⟩
  obtain ⟨h1, h2⟩ := operand_reads ho hn.1 hn.2 hb (op (ch '_')) (f := fun _ => .user 1 [])
    (fun v => by
      show Out.ok (Formula.arg).code = .ok v ↔ _
      simp [AnyNumber.CodeIs, eq_comm])
  have key := fun v => chain_formulas hs AnyNumber.codeIs_represents
    ((op (ch '*')).oneOf ho (op (ch '/'))) ((op (ch '+')).oneOf ho (op (ch '-'))) h1 h2 s v
  obtain ⟨pos, hacc⟩ := (key _).2 ⟨e, h.withArg, rfl⟩
  obtain ⟨pos', hacc'⟩ := (key _).2 ⟨e', h'.withArg, rfl⟩
  exact Formula.code_injective (hacc.unique hacc').1

/-! ## What `grammar_calculator` computes -/

/-- `grammar_calculator` compiles only for formulas without variable, brackets and white space at the
beginning. -/
theorem C65_grammar_calculator_only_formulas (h : E.ParsesRules) (s : List Chr) (v : Val)
    (hv : GrammarCalc.calculatorParser E s = .ok v) : ∃ e, FormulaText false false 0 s e := by
  obtain ⟨e, -, he, -⟩ := (grammar_calculator_ok h s v).1 hv
  exact ⟨e, he⟩

/-- For the text of a formula it compiles exactly if every operation could be computed with both operators of
its precedence; the result is the value. -/
theorem C65_grammar_calculator (h : E.ParsesRules) {s : List Chr} {e : Formula}
    (he : FormulaText false false 0 s e) (v : Val) :
    GrammarCalc.calculatorParser E s = .ok v ↔ ∃ k, e.valueBoth = some k ∧ v = .int k := by
  rw [grammar_calculator_ok h]
  constructor
  · rintro ⟨e', k, he', hk, rfl⟩
    cases he.unique he'
    exact ⟨k, hk, rfl⟩
  · rintro ⟨k, hk, rfl⟩
    exact ⟨e, k, he, hk, rfl⟩

theorem Formula.value_of_both {e : Formula} {k : Int} (h : e.valueBoth = some k) (x : Int) :
    e.value x = some k := by
  have some_of : ∀ {m : Int}, (fits m).isSome → fits m = some m := by
    intro m hm
    obtain ⟨l, hl⟩ := Option.isSome_iff_exists.1 hm
    obtain ⟨rfl, -⟩ := fits_eq_some.1 hl
    exact hl
  induction e generalizing k with
  | num n => exact h
  | arg => cases h
  | add a b iha ihb =>
    obtain ⟨m, hm, h⟩ := option_bind_eq.1 h
    obtain ⟨n, hn, h⟩ := option_bind_eq.1 h
    split at h
    · rename_i hc
      cases h
      simp only [Formula.value, iha hm, ihb hn, Option.bind_some]
      exact some_of hc.1
    · cases h
  | sub a b iha ihb =>
    obtain ⟨m, hm, h⟩ := option_bind_eq.1 h
    obtain ⟨n, hn, h⟩ := option_bind_eq.1 h
    split at h
    · rename_i hc
      cases h
      simp only [Formula.value, iha hm, ihb hn, Option.bind_some]
      exact some_of hc.2
    · cases h
  | mul a b iha ihb =>
    obtain ⟨m, hm, h⟩ := option_bind_eq.1 h
    obtain ⟨n, hn, h⟩ := option_bind_eq.1 h
    split at h
    · rename_i hc
      cases h
      simp only [Formula.value, iha hm, ihb hn, Option.bind_some]
      exact some_of hc.1
    · cases h
  | div a b iha ihb =>
    obtain ⟨m, hm, h⟩ := option_bind_eq.1 h
    obtain ⟨n, hn, h⟩ := option_bind_eq.1 h
    split at h
    · rename_i hc
      cases h
      simp only [Formula.value, iha hm, ihb hn, Option.bind_some, if_neg hc.2.1]
      exact some_of hc.2.2
    · cases h

/-- When it compiles, the result is the value of the formula. -/
theorem C65_grammar_calculator_correct (h : E.ParsesRules) {s : List Chr} {e : Formula}
    (he : FormulaText false false 0 s e) (v : Val) (hv : GrammarCalc.calculatorParser E s = .ok v) :
    ∃ k, e.value 0 = some k ∧ v = .int k := by
  obtain ⟨k, hk, rfl⟩ := (C65_grammar_calculator h he v).1 hv
  exact ⟨k, e.value_of_both hk 0, rfl⟩

/-- The value of `1+ 2*4`, however it was got. -/
example (h : E.ParsesRules) (v : Val) (hv : GrammarCalc.calculatorParser E (txt "1+ 2*4") = .ok v) : v = .int 9 := by
  obtain ⟨k, hk, rfl⟩ := C65_grammar_calculator_correct h (e := .add (.num 1) (.mul (.num 2) (.num 4)))
    (.add (t := txt "1") (ws := txt " ") (u := txt "2*4")
      (.product (.operand (.num (w := txt "1") (ws := []) (by decide) (by decide) (by decide)))) (by decide)
      (.mul (t := txt "2") (ws := []) (u := txt "4")
        (.operand (.num (w := txt "2") (ws := []) (by decide) (by decide) (by decide))) (by decide)
        (.num (w := txt "4") (ws := []) (by decide) (by decide) (by decide)))) v hv
  rw [show Formula.value 0 (.add (.num 1) (.mul (.num 2) (.num 4))) = some 9 by decide] at hk
  cases hk; rfl

theorem formulaText_times_zero : FormulaText false false 0 (txt "2*0") (.mul (.num 2) (.num 0)) :=
  .product (.mul (t := txt "2") (ws := []) (u := txt "0")
    (.operand (.num (w := txt "2") (ws := []) (by decide) (by decide) (by decide))) (by decide)
    (.num (w := txt "0") (ws := []) (by decide) (by decide) (by decide)))

/-- It does not compile for every formula with a value: `2*0` has the value 0, but the division of 2 by 0 is
computed as well. -/
theorem C65_grammar_calculator_incomplete (h : E.ParsesRules) :
    (Formula.mul (.num 2) (.num 0)).value 0 = some 0 ∧
    ∀ v, GrammarCalc.calculatorParser E (txt "2*0") ≠ .ok v := by
  refine ⟨by decide, fun v hv => ?_⟩
  obtain ⟨k, hk, -⟩ := (C65_grammar_calculator h formulaText_times_zero v).1 hv
  rw [show (Formula.mul (.num 2) (.num 0)).valueBoth = none by decide] at hk
  cases hk

theorem formulaText_example : FormulaText false false 0 (txt "1+ 2*4") (.add (.num 1) (.mul (.num 2) (.num 4))) :=
  .add (t := txt "1") (ws := txt " ") (u := txt "2*4")
    (.product (.operand (.num (w := txt "1") (ws := []) (by decide) (by decide) (by decide)))) (by decide)
    (.mul (t := txt "2") (ws := []) (u := txt "4")
      (.operand (.num (w := txt "2") (ws := []) (by decide) (by decide) (by decide))) (by decide)
      (.num (w := txt "4") (ws := []) (by decide) (by decide) (by decide)))

example (h : E.ParsesRules) : GrammarCalc.calculatorParser E (txt "1+ 2*4") = .ok (.int 9) :=
  (C65_grammar_calculator h formulaText_example _).2 ⟨9, by decide, rfl⟩

/-! ## `meta_metaparse` -/

namespace MetaMetaparse

/-- What the chain of rules makes. -/
def grammar : Grammar where
  start := txt "plus_exp"
  rules := [
    (txt "arg_exp", .parsed (.name (txt "arg_token"))),
    (txt "value_exp", .parsed (.sel (.name (txt "int_token")) (.name (txt "arg_exp")))),
    (txt "prod_exp", .parsed (chainExp "value_exp" "mult_token" "div_token")),
    (txt "plus_exp", .parsed (chainExp "prod_exp" "plus_token" "minus_token")),
    (txt "arg_token", .parsed (.seq (.chr (ch '_')) (.name (txt "ws")))),
    (txt "div_token", .parsed (.seq (.chr (ch '/')) (.name (txt "ws")))),
    (txt "mult_token", .parsed (.seq (.chr (ch '*')) (.name (txt "ws")))),
    (txt "minus_token", .parsed (.seq (.chr (ch '-')) (.name (txt "ws")))),
    (txt "plus_token", .parsed (.seq (.chr (ch '+')) (.name (txt "ws")))),
    (txt "ws", .parsed wsExp),
    (txt "int_token", .native (.token (.transform P.int_ buildValue)))]
  actions := [(txt "arg_exp", buildArg), (txt "prod_exp", buildMult), (txt "plus_exp", buildPlus),
    (txt "arg_token", keepFront), (txt "div_token", keepFront), (txt "mult_token", keepFront),
    (txt "minus_token", keepFront), (txt "plus_token", keepFront)]

theorem g_eq (h : E.ParsesRules) : g E = .ok grammar := by
  unfold g rules
  rw [addAll_import h 100 (name := txt "int_token") (by decide +kernel),
    addAll_rule h 100 (name := txt "ws") (e := wsExp) (by decide +kernel),
    addAll_rule h 100 (name := txt "plus_token") (e := .seq (.chr (ch '+')) (.name (txt "ws")))
      (by decide +kernel),
    addAll_rule h 100 (name := txt "minus_token") (e := .seq (.chr (ch '-')) (.name (txt "ws")))
      (by decide +kernel),
    addAll_rule h 100 (name := txt "mult_token") (e := .seq (.chr (ch '*')) (.name (txt "ws")))
      (by decide +kernel),
    addAll_rule h 100 (name := txt "div_token") (e := .seq (.chr (ch '/')) (.name (txt "ws")))
      (by decide +kernel),
    addAll_rule h 100 (name := txt "arg_token") (e := .seq (.chr (ch '_')) (.name (txt "ws")))
      (by decide +kernel),
    addAll_rule h 100 (name := txt "plus_exp") (e := chainExp "prod_exp" "plus_token" "minus_token")
      (by decide +kernel),
    addAll_rule h 100 (name := txt "prod_exp") (e := chainExp "value_exp" "mult_token" "div_token")
      (by decide +kernel),
    addAll_rule h 100 (name := txt "value_exp")
      (e := .sel (.name (txt "int_token")) (.name (txt "arg_exp"))) (by decide +kernel),
    addAll_rule h 100 (name := txt "arg_exp") (e := .name (txt "arg_token")) (by decide +kernel)]
  rfl

/-- The parser of an operator or the variable. -/
def opToken (c : Char) : P := .transform (.sequence [P.lit (ch c), .repeated wsCharP]) keepFront

/-- The parser of an operand. -/
def valueP : P :=
  .oneOf [.token (.transform P.int_ buildValue), .transform (opToken '_') buildArg]

/-- The parser of the start symbol. -/
def wholeP : P :=
  chainOf (.oneOf [opToken '+', opToken '-'])
    (chainOf (.oneOf [opToken '*', opToken '/']) valueP buildMultImpl) buildPlusImpl

theorem parserOf_eq : grammar.parserOf (txt "plus_exp") = .ok wholeP := by
  have ws : Grammar.Builds grammar.ruleSet (.name (txt "ws")) (.repeated wsCharP) :=
    .rule (e := wsExp) rfl (.star (by decide) (.sel (.sel (.sel (.chr _) (.chr _)) (.chr _)) (.chr _))) rfl
  have plus : Grammar.Builds grammar.ruleSet (.name (txt "plus_token")) (opToken '+') :=
    .ruleAction rfl (.seq (.chr _) ws) rfl
  have minus : Grammar.Builds grammar.ruleSet (.name (txt "minus_token")) (opToken '-') :=
    .ruleAction rfl (.seq (.chr _) ws) rfl
  have mult : Grammar.Builds grammar.ruleSet (.name (txt "mult_token")) (opToken '*') :=
    .ruleAction rfl (.seq (.chr _) ws) rfl
  have div : Grammar.Builds grammar.ruleSet (.name (txt "div_token")) (opToken '/') :=
    .ruleAction rfl (.seq (.chr _) ws) rfl
  have arg : Grammar.Builds grammar.ruleSet (.name (txt "arg_token")) (opToken '_') :=
    .ruleAction rfl (.seq (.chr _) ws) rfl
  have argExp : Grammar.Builds grammar.ruleSet (.name (txt "arg_exp")) (.transform (opToken '_') buildArg) :=
    .ruleAction rfl arg rfl
  have int : Grammar.Builds grammar.ruleSet (.name (txt "int_token"))
      (.token (.transform P.int_ buildValue)) := .native rfl rfl
  have value : Grammar.Builds grammar.ruleSet (.name (txt "value_exp")) valueP :=
    .rule rfl (.sel int argExp) rfl
  have prod : Grammar.Builds grammar.ruleSet (.name (txt "prod_exp"))
      (chainOf (.oneOf [opToken '*', opToken '/']) valueP buildMultImpl) :=
    .ruleAction (e := chainExp "value_exp" "mult_token" "div_token") rfl
      (.seq value (.star (by decide) (.seq (.sel mult div) value))) rfl
  exact Grammar.parserOf_eq_ok.2 (.ruleAction (e := chainExp "prod_exp" "plus_token" "minus_token") rfl
    (.seq prod (.star (by decide) (.seq (.sel plus minus) prod))) rfl)

theorem keepFront_force (a b : Val) : (keepFront (.seq [a, b])).force = .ok a := rfl

theorem number_onlyReads (hE : E.OnText) (hs : E.SupportsNth 2) (n : Nat) :
    OnlyReads E n (.token (.transform P.int_ buildValue)) (NumLang CodeOf) := by
  intro s pos v s' pos' _ ha
  obtain ⟨ws, pos1, ha, h2, h3, -⟩ := (C29_token_accepts hE hs ..).1 ha
  obtain ⟨x, ha, hx⟩ := (C36_transform_accepts ..).1 ha
  obtain ⟨w, rfl, hne, hw, hb, rfl, hle, -⟩ := (C30_int_accepts hE ..).1 ha
  cases hx
  exact ⟨w ++ ws, by simp, w, ws, rfl, hne, hw, h2, decimal_fits hw hle, rfl⟩

theorem number_readsAll (hE : E.OnText) (hs : E.SupportsNth 2) :
    ReadsAll E (.token (.transform P.int_ buildValue)) (NumLang CodeOf) numCont := by
  rintro t v s' pos ⟨w, ws, rfl, hne, hw, hws, hfit, rfl⟩ hb
  obtain ⟨-, -, hle⟩ := fits_eq_some.1 hfit
  refine ⟨_, (C29_token_accepts hE hs ..).2 ⟨ws, moveOver pos w, ?_, hws,
    beginsWith_mono (fun c hc => by simp [numCont, hc]) hb, rfl⟩⟩
  refine (C36_transform_accepts ..).2 ⟨_, (C30_int_accepts hE ..).2 ⟨w, by simp, hne, hw, ?_, rfl, hle, rfl⟩,
    rfl⟩
  cases ws with
  | nil => exact beginsWith_mono (fun c hc => by simp [numCont, hc]) hb
  | cons c ws => exact digit_not_space (hws c (by simp))

theorem number_beginsIn (hE : E.OnText) (hs : E.SupportsNth 2) :
    BeginsIn E (.token (.transform P.int_ buildValue)) digitChar := fun _ _ hb =>
  ⟨.digitExpected, (C29_token_rejects hE hs ..).2 ((C36_transform_rejects ..).2
    ((C30_int_rejects hE ..).2 ⟨hb, rfl, rfl⟩))⟩

end MetaMetaparse

theorem meta_metaparse_ok (h : E.ParsesRules) (s : List Chr) (v : Val) :
    MetaMetaparse.functionParser E s = .ok v ↔
      ∃ e, FormulaText false true 0 s e ∧ e.LiteralsFit ∧ v = e.code := by
  have hf := h.readsFormulas
  have hw := readsChar_ws h.onText hf.oneOf2
  have op : ∀ c, ReadsOp E (MetaMetaparse.opToken c) [ch c] := fun c =>
    readsOp_spaced h.onText hf.seq2 hw MetaMetaparse.keepFront_force _
  obtain ⟨h1, h2⟩ := operand_reads hf.oneOf2
    (fun n => MetaMetaparse.number_onlyReads h.onText hf.nth2 n)
    (MetaMetaparse.number_readsAll h.onText hf.nth2) (MetaMetaparse.number_beginsIn h.onText hf.nth2)
    (op '_') (f := MetaMetaparse.buildArg) (fun v => by
      show Out.ok (Formula.arg).code = .ok v ↔ _
      simp [CodeOf, Formula.LiteralsFit, eq_comm])
  unfold MetaMetaparse.functionParser
  rw [MetaMetaparse.g_eq h,
    parseWholeWith_ok h (rebuild_of_check h 100 (name := txt "plus_exp") (by decide +kernel))
      MetaMetaparse.parserOf_eq]
  exact chain_formulas hf.seq2 codeOf_represents ((op '*').oneOf hf.oneOf2 (op '/'))
    ((op '+').oneOf hf.oneOf2 (op '-')) h1 h2 s v

/-- `meta_metaparse` compiles exactly for the formulas without brackets and white space at the beginning
whose numbers fit in `int`. -/
theorem C66_meta_metaparse_compiles (h : E.ParsesRules) (s : List Chr) :
    (∃ f, MetaMetaparse.functionParser E s = .ok f) ↔
      ∃ e, FormulaText false true 0 s e ∧ e.LiteralsFit := by
  constructor
  · rintro ⟨f, hf⟩
    obtain ⟨e, he, hfit, -⟩ := (meta_metaparse_ok h s f).1 hf
    exact ⟨e, he, hfit⟩
  · rintro ⟨e, he, hfit⟩
    exact ⟨_, (meta_metaparse_ok h s _).2 ⟨e, he, hfit, rfl⟩⟩

/-- Calling the function object with an `int` gives the value of the formula; the behaviour is undefined
exactly if the formula has no value there. -/
theorem C66_meta_metaparse_int (h : E.ParsesRules) {s : List Chr} {e : Formula} {f : Val}
    (he : FormulaText false true 0 s e) (hf : MetaMetaparse.functionParser E s = .ok f) (x : Int) :
    (Native.call Native.Num.int f x).map (Native.Operand.toT Native.Num.int) = e.value x := by
  obtain ⟨e', he', hfit, rfl⟩ := (meta_metaparse_ok h s f).1 hf
  cases he.unique he'
  rw [(native_call_valueIn _ x (literalOperations_int e)).1, valueIn_int hfit]

/-- Calling the function object with a value of another arithmetic type `T`. -/
theorem C66_meta_metaparse_other_types (h : E.ParsesRules) {s : List Chr} {e : Formula} {f : Val}
    (he : FormulaText false true 0 s e) {T : Type} (N : Native.Num T)
    (hno : e.LiteralOperations N (Converts N)) (hf : MetaMetaparse.functionParser E s = .ok f) (x : T) :
    (Native.call N f x).map (Native.Operand.toT N) = e.valueIn N x := by
  obtain ⟨e', he', hfit, rfl⟩ := (meta_metaparse_ok h s f).1 hf
  cases he.unique he'
  exact (native_call_valueIn N x hno).1

/-- The parser written as a grammar and the hand-written one of `compile_to_native_code` give the same
function objects, except that only the latter accepts white space at the beginning. -/
theorem C66_same_as_handwritten (h : E.ParsesRules) (s : List Chr) (v : Val) :
    MetaMetaparse.functionParser E s = .ok v ↔
      Native.functionParser E s = .ok v ∧ beginsWith spaceChar s = false := by
  rw [meta_metaparse_ok h, native_parser h.readsFormulas]
  constructor
  · rintro ⟨e, he, hfit, rfl⟩
    exact ⟨⟨e, ⟨[], s, rfl, by simp [AllSpace], he⟩, hfit, rfl⟩, he.begins.1⟩
  · rintro ⟨⟨e, ⟨ws, t, rfl, hws, he⟩, hfit, rfl⟩, hb⟩
    cases ws with
    | nil => exact ⟨e, he, hfit, rfl⟩
    | cons c ws =>
      have := hws c (by simp)
      rw [show beginsWith spaceChar (c :: ws ++ t) = spaceChar c from rfl, this] at hb
      cases hb

theorem formulaText_arg : FormulaText false true 0 (txt "2 * _") (.mul (.num 2) .arg) :=
  .product (.mul (t := txt "2 ") (ws := txt " ") (u := txt "_")
    (.operand (.num (w := txt "2") (ws := txt " ") (by decide) (by decide) (by decide))) (by decide)
    (.arg (ws := []) rfl (by decide)))

example (h : E.ParsesRules) : ∃ f, MetaMetaparse.functionParser E (txt "2 * _") = .ok f ∧
    (Native.call Native.Num.int f 11).map (Native.Operand.toT Native.Num.int) = some 22 ∧
    (Native.call halves f 3).map (Native.Operand.toT halves) = some 6 := by
  obtain ⟨f, hf⟩ := (C66_meta_metaparse_compiles h _).2 ⟨_, formulaText_arg, rfl, trivial⟩
  refine ⟨f, hf, ?_, ?_⟩
  · rw [C66_meta_metaparse_int h formulaText_arg hf]; decide
  · exact C66_meta_metaparse_other_types h formulaText_arg halves
      ⟨by simp [Formula.isNum], trivial, trivial⟩ hf 3

/-- A text that `C65_grammar_calculator_only_formulas` is about. -/
example (h : E.ParsesRules) : ∃ e, FormulaText false false 0 (txt "1+ 2*4") e :=
  C65_grammar_calculator_only_formulas h _ (.int 9)
    ((C65_grammar_calculator h formulaText_example _).2 ⟨9, by decide, rfl⟩)

end Metaparse
