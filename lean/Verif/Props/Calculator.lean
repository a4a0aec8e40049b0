import Verif.Lemmas.Calculator
import Verif.Lemmas.Modular
import Verif.Props.Termination
/-!
# The calculator of the examples (C52)
-/

namespace Metaparse

variable {E : Env (List Chr)}

theorem expression_accepts (h : E.Calculates) (s : List Chr) (pos : Pos) (v : Val) :
    (∃ pos', Accepts E Calc.expression s pos v [] pos') ↔
      ∃ e k, IsExpression s e ∧ e.value = some k ∧ v = .int k := by
  constructor
  · rintro ⟨pos', ha⟩
    obtain ⟨vs, hi⟩ := (C23_lastOf_accepts _ _ h.nth2 ..).1 ha
    obtain ⟨a, b, s1, pos1, hab, h1, h2⟩ := hi.two
    obtain ⟨m, hm⟩ := (C28_space h.onText).maximalRun' s pos
    have h1' : Accepts E (.repeated .space) s pos _ _ _ := (C14_repeated ..).2 ⟨_, _, _, hm, rfl⟩
    obtain ⟨-, rfl, -⟩ := h1.unique h1'
    obtain ⟨e, ts, k, rfl, hv, ht, hd⟩ := calc_sound h _ _ _ _ _ _ (Nat.le_refl _) h2
    refine ⟨e, k, ⟨s.takeWhile spaceChar, s.dropWhile spaceChar, ts, ?_, all_takeWhile _ _,
      beginsWith_dropWhile _ _, ht, hd⟩, hv, ?_⟩
    · rw [List.takeWhile_append_dropWhile]
    · have := congrArg List.getLast? hab
      simpa using this
  · rintro ⟨e, k, ⟨spaces, s1, ts, rfl, hsp, hs1, ht, hd⟩, hv, rfl⟩
    obtain ⟨m, hm⟩ := (C28_space h.onText).maximalRun spaces s1 pos hsp hs1
    obtain ⟨pos', ha⟩ := (calc_complete h hd).sum h (moveOver pos spaces) hv ht rfl rfl
    exact ⟨pos', (C23_lastOf_accepts _ _ h.nth2 ..).2
      ⟨[_], .cons ((C14_repeated ..).2 ⟨_, _, _, hm, rfl⟩) (.cons ha (.nil ..))⟩⟩

/-- The calculator compiles exactly for the texts of expressions that have a value, and gives that
value. -/
theorem C52_calculator (h : E.Calculates) (s : List Chr) (v : Val) :
    Calc.calculatorParser E s = .ok v ↔ ∃ e k, IsExpression s e ∧ e.value = some k ∧ v = .int k := by
  unfold Calc.calculatorParser
  rw [C34_buildParser_accepts, ← expression_accepts h s start v]
  constructor
  · rintro ⟨s', pos', ha⟩
    obtain ⟨ha', rfl⟩ := (C33_entireInput_accepts h.onText h.nth2 ..).1 ha
    exact ⟨pos', ha'⟩
  · rintro ⟨pos', ha⟩
    exact ⟨[], pos', (C33_entireInput_accepts h.onText h.nth2 ..).2 ⟨ha, rfl⟩⟩

/-- Two readings of a text as expressions with values have the same value. -/
theorem C52_unambiguous {s : List Chr} {e e' : AExp} {k k' : Int} (h : IsExpression s e)
    (h' : IsExpression s e') (hv : e.value = some k) (hv' : e'.value = some k') : k = k' := by
  have hE : ({ input := listInput, rules := fun _ => Calc.plusExp } : Env (List Chr)).Calculates :=
    ⟨rfl, rfl, by simp, by simp⟩
  have h1 := (C52_calculator hE s (.int k)).2 ⟨e, k, h, hv, rfl⟩
  have h2 := (C52_calculator hE s (.int k')).2 ⟨e', k', h', hv', rfl⟩
  rw [h1] at h2
  cases h2; rfl

/-! ## The calculator always finishes -/

/-- Only the class `plus_exp` is used. -/
def calcClasses : Classes := ⟨fun i => i = Calc.plusExpId, fun _ => False, fun _ => False⟩

/-- The other classes of the program replaced by ones that do nothing. -/
def Env.onlyCalc (E : Env (List Chr)) : Env (List Chr) :=
  { E with rules := fun _ => Calc.plusExp, native := fun _ _ pos => .ok (.rej (.user 0) pos),
           onError := fun _ m pos => .ok (.rej m pos) }

theorem calc_uses : (P.entireInput Calc.expression).Every (P.Uses calcClasses) ∧
    Calc.plusExp.Every (P.Uses calcClasses) := by
  constructor <;>
  simp [P.every_iff, P.EveryL, P.parts, P.Uses, calcClasses, P.entireInput, P.firstOf, Calc.expression,
    Calc.plusExp, Calc.prodExp, Calc.simpleExp, Calc.parenExp, Calc.plusToken, Calc.minusToken,
    Calc.multToken, Calc.divToken, Calc.openParenToken, Calc.closeParenToken, Calc.intToken, P.token,
    P.litC, P.int_, P.foldl1, P.digitVal, P.digit, P.space, P.repeated]

theorem calc_functions : (P.entireInput Calc.expression).Every P.FunctionsFinish ∧
    Calc.plusExp.Every P.FunctionsFinish := by
  constructor <;>
  simp [P.every_iff, P.EveryL, P.parts, P.FunctionsFinish, P.entireInput, P.firstOf, Calc.expression,
    Calc.plusExp, Calc.prodExp, Calc.simpleExp, Calc.parenExp, Calc.plusToken, Calc.minusToken,
    Calc.multToken, Calc.divToken, Calc.openParenToken, Calc.closeParenToken, Calc.intToken, P.token,
    P.litC, P.int_, P.foldl1, P.digitVal, P.digit, P.space, P.repeated, isDigit, inRangeC, isCharC,
    isWhitespace, Out.bind_eq_deep, Val.value_ne_deep]

theorem Env.Calculates.honest (h : E.Calculates) : E.onlyCalc.Honest where
  onText := h.onText
  native := by
    intro i s pos r hr
    cases hr
    exact ⟨[], s, rfl, rfl⟩
  onError := by
    intro k m pos r hr
    cases hr
    exact ⟨m, rfl⟩

/-- Evaluating the calculator always finishes, with a number or with a compile error. -/
theorem C52_finishes (h : E.Calculates) (s : List Chr) : Calc.calculatorParser E s ≠ .deep := by
  have hN : ∀ i, (E.onlyCalc.rules i).mayBeEmpty (fun _ => true) (fun _ => false) = true → true = true :=
    fun _ _ => rfl
  have hNN : ∀ i : Nat, false = false → ∀ s pos v s' pos',
      E.onlyCalc.native i s pos = .ok (.acc v s' pos') → s'.length < s.length := by
    intro i _ s pos v s' pos' h; cases h
  have hwf : E.onlyCalc.WellFormed :=
    C10_checkable (N := fun _ => true) (NN := fun _ => false) (rank := fun i => i) h.honest
      ⟨by simp [Env.onlyCalc], by simp [Env.onlyCalc]⟩ hN hNN 
        (fun _ => show Calc.plusExp.repeatsOk _ _ = true by decide +kernel)
      (fun _ => calc_functions.2) (fun i j hj => by
        have : Calc.plusExp.leftRefs (fun _ => true) (fun _ => false) = [] := by decide +kernel
        rw [show E.onlyCalc.rules i = Calc.plusExp from rfl, this] at hj
        cases hj)
  have hfin := C10_well_formed_finishes hwf
    (repeatsOk_sound h.honest (N := fun _ => true) (NN := fun _ => false) hN hNN
      (P.entireInput Calc.expression) (by decide +kernel) calc_functions.1) s start
  have heq := run_modular (K := calcClasses) (E := E) (E' := E.onlyCalc)
    ⟨rfl, rfl, rfl, rfl, rfl, by
      rintro i rfl
      exact ⟨h.plusExp, by rw [h.plusExp]; exact calc_uses.2⟩, fun _ h => h.elim, fun _ h => h.elim⟩ _
    calc_uses.1 s start
  unfold Calc.calculatorParser buildParser
  rw [heq]
  intro hd
  rcases Out.bind_eq_deep.1 hd with hd | ⟨r, hr, hd⟩
  · exact hfin hd
  · cases r <;> cases hd

/-- All other texts are compile errors. -/
theorem C52_compile_error (h : E.Calculates) (s : List Chr) :
    (∃ f, Calc.calculatorParser E s = .ill f) ↔ ¬ ∃ e k, IsExpression s e ∧ e.value = some k := by
  have h1 := C52_finishes h s
  have h2 := C52_calculator h s
  cases hr : Calc.calculatorParser E s with
  | ok v =>
    obtain ⟨e, k, he, hv, -⟩ := (h2 v).1 hr
    constructor
    · rintro ⟨f, hf⟩; cases hf
    · intro hn; exact absurd ⟨e, k, he, hv⟩ hn
  | ill f =>
    refine ⟨fun _ => ?_, fun _ => ⟨f, rfl⟩⟩
    rintro ⟨e, k, he, hv⟩
    have := (h2 (.int k)).2 ⟨e, k, he, hv, rfl⟩
    rw [hr] at this; cases this
  | deep => exact absurd hr h1

/-! ## Written expressions -/

/-- No number directly follows a number. -/
def Apart : List CTok → Prop
  | t :: u :: ts => ¬ ((∃ n, t = .num n) ∧ ∃ n, u = .num n) ∧ Apart (u :: ts)
  | _ => True

theorem Apart.cons {t : CTok} {c : Chr} (ht : t.IsOp c) {us : List CTok} (h : Apart us) :
    Apart (t :: us) := by
  cases us with
  | nil => trivial
  | cons u us =>
    refine ⟨?_, h⟩
    rintro ⟨⟨n, rfl⟩, -⟩
    cases ht

theorem Apart.append {us : List CTok} {c : Chr} {t : CTok} (ht : t.IsOp c) (hus : Apart us) :
    ∀ {ts : List CTok}, Apart ts → Apart (ts ++ ([t] ++ us)) := by
  intro ts
  induction ts with
  | nil => intro _; exact hus.cons ht
  | cons a ts ih =>
    intro h
    cases ts with
    | nil =>
      refine ⟨?_, hus.cons ht⟩
      rintro ⟨-, n, rfl⟩
      cases ht
    | cons b ts => exact ⟨h.1, ih h.2⟩

theorem CDerives.apart {X : CNonTerminal} {ts : List CTok} {e : AExp} (h : CDerives X ts e) :
    Apart ts := by
  induction h with
  | num n => trivial
  | bracket _ ih =>
    have := (Apart.append (us := []) .close trivial ih).cons .open_
    simpa using this
  | plain _ ih => exact ih
  | pos _ ih => exact ih.cons .plus
  | neg _ ih => exact ih.cons .minus
  | factor _ ih => exact ih
  | mul _ _ ih1 ih2 => exact ih2.append .times ih1
  | div _ _ ih1 ih2 => exact ih2.append .over ih1
  | summand _ ih => exact ih
  | add _ _ ih1 ih2 => exact ih2.append .plus ih1
  | sub _ _ ih1 ih2 => exact ih2.append .minus ih1

theorem CTok.written_text {t : CTok} (h : ∀ n, t = .num n → 0 ≤ n) : t.Written t.text := by
  cases t with
  | num n =>
    have h0 := h n rfl
    have := CTok.Written.num (decimalText_ne_nil n.toNat) (decimalText_digits n.toNat)
    rw [decimal_decimalText, Int.toNat_of_nonneg h0] at this
    exact this
  | _ => constructor

theorem CTok.text_begins {t : CTok} (s : List Chr) : beginsWith spaceChar (t.text ++ s) = false ∧
    ((¬ ∃ n, t = .num n) → beginsWith digitChar (t.text ++ s) = false) := by
  cases t with
  | num n =>
    refine ⟨?_, fun h => absurd ⟨n, rfl⟩ h⟩
    have h1 := decimalText_ne_nil n.toNat
    have h2 := decimalText_digits n.toNat
    show beginsWith spaceChar (decimalText n.toNat ++ s) = false
    cases hd : decimalText n.toNat with
    | nil => exact absurd hd h1
    | cons c w =>
      have := h2 c (by simp [hd])
      simp only [List.cons_append, beginsWith]
      cases hs : spaceChar c with
      | false => rfl
      | true => rw [digit_not_space hs] at this; cases this
  | _ => exact ⟨rfl, fun _ => rfl⟩

theorem writeTokens_tokens : ∀ (ts : List CTok) (gap : Nat → List Chr), Apart ts →
    (∀ n, .num n ∈ ts → 0 ≤ n) → (∀ i, ∀ c ∈ gap i, spaceChar c = true) →
    CTokens (writeTokens gap ts) ts [] ∧ beginsWith spaceChar (writeTokens gap ts) = false := by
  intro ts
  induction ts with
  | nil => intro gap _ _ _; exact ⟨.nil _, rfl⟩
  | cons t ts ih =>
    intro gap ha hn hg
    have ha' : Apart ts := by
      cases ts with
      | nil => trivial
      | cons u us => exact ha.2
    obtain ⟨h1, h2⟩ := ih (fun i => gap (i + 1)) ha' (fun n h => hn n (by simp [h]))
      (fun i => hg (i + 1))
    refine ⟨.cons (CTok.written_text fun n h => hn n (by simp [h])) (hg 0) h2 ?_ h1, ?_⟩
    · rintro hnum -
      cases ts with
      | nil => rfl
      | cons u us =>
        simp only [writeTokens, List.append_assoc]
        exact (CTok.text_begins _).2 fun hu => ha.1 ⟨hnum, hu⟩
    · simp only [writeTokens, List.append_assoc]
      exact (CTok.text_begins _).1

/-- The non-terminal symbol of a level. -/
def levelSymbol : Nat → CNonTerminal
  | 0 => .plusExp
  | 1 => .prodExp
  | 2 => .simpleExp
  | _ => .primary

theorem CDerives.weaken {ts : List CTok} {e : AExp} : ∀ {l k : Nat}, k ≤ l →
    CDerives (levelSymbol l) ts e → CDerives (levelSymbol k) ts e := by
  have h3 : CDerives .primary ts e → ∀ k, CDerives (levelSymbol k) ts e := by
    intro h k
    rcases k with _ | _ | _ | k
    · exact .summand (.factor (.plain h))
    · exact .factor (.plain h)
    · exact .plain h
    · exact h
  intro l k hk h
  rcases l with _ | _ | _ | l
  · obtain rfl : k = 0 := by omega
    exact h
  · rcases k with _ | _ | k
    · exact .summand h
    · exact h
    · omega
  · rcases k with _ | _ | _ | k
    · exact .summand (.factor h)
    · exact .factor h
    · exact h
    · omega
  · exact h3 h k

theorem CDerives.bracketed {ts : List CTok} {e : AExp} {l : Nat} (needed : Nat)
    (h : CDerives (levelSymbol l) ts e) : CDerives (levelSymbol needed) (bracketed needed l ts) e := by
  unfold Metaparse.bracketed
  by_cases hl : needed ≤ l
  · rw [if_pos hl]; exact h.weaken hl
  · rw [if_neg hl]
    have : CDerives (levelSymbol (needed + 3)) ([.open_] ++ ts ++ [.close]) e :=
      .bracket (h.weaken (k := 0) (Nat.zero_le _))
    exact this.weaken (by omega)

theorem AExp.derives (e : AExp) : CDerives (levelSymbol e.level) e.tokens e := by
  induction e with
  | num n => exact .num n
  | pos e ih => exact .pos (ih.bracketed 2)
  | neg e ih => exact .neg (ih.bracketed 2)
  | add a b iha ihb => exact .add (iha.weaken (k := 0) (Nat.zero_le _)) (ihb.bracketed 1)
  | sub a b iha ihb => exact .sub (iha.weaken (k := 0) (Nat.zero_le _)) (ihb.bracketed 1)
  | mul a b iha ihb => exact .mul (iha.bracketed 1) (ihb.bracketed 2)
  | div a b iha ihb => exact .div (iha.bracketed 1) (ihb.bracketed 2)

theorem mem_bracketed {n : Int} {k l : Nat} {ts : List CTok} (h : .num n ∈ bracketed k l ts) :
    .num n ∈ ts := by
  unfold bracketed at h
  by_cases hl : k ≤ l
  · rwa [if_pos hl] at h
  · rw [if_neg hl] at h; simpa using h

theorem AExp.Unsigned.tokens {e : AExp} (h : e.Unsigned) (n : Int) (hn : .num n ∈ e.tokens) :
    0 ≤ n := by
  induction e with
  | num m =>
    simp only [AExp.tokens, List.mem_singleton, CTok.num.injEq] at hn
    subst hn; exact h
  | pos e ih =>
    simp [AExp.tokens] at hn
    exact ih h (mem_bracketed hn)
  | neg e ih =>
    simp [AExp.tokens] at hn
    exact ih h (mem_bracketed hn)
  | add a b iha ihb =>
    simp [AExp.tokens] at hn
    exact hn.elim (iha h.1) fun hn => ihb h.2 (mem_bracketed hn)
  | sub a b iha ihb =>
    simp [AExp.tokens] at hn
    exact hn.elim (iha h.1) fun hn => ihb h.2 (mem_bracketed hn)
  | mul a b iha ihb =>
    simp [AExp.tokens] at hn
    exact hn.elim (fun hn => iha h.1 (mem_bracketed hn)) fun hn => ihb h.2 (mem_bracketed hn)
  | div a b iha ihb =>
    simp [AExp.tokens] at hn
    exact hn.elim (fun hn => iha h.1 (mem_bracketed hn)) fun hn => ihb h.2 (mem_bracketed hn)

/-- Any expression, written with the necessary brackets only and with any white space, is evaluated to
its value. -/
theorem C52_written (h : E.Calculates) (e : AExp) (k : Int) (hv : e.value = some k)
    (hu : e.Unsigned) (before : List Chr) (gap : Nat → List Chr)
    (hb : ∀ c ∈ before, spaceChar c = true) (hg : ∀ i, ∀ c ∈ gap i, spaceChar c = true) :
    Calc.calculatorParser E (before ++ writeTokens gap e.tokens) = .ok (.int k) := by
  have hd := e.derives.weaken (k := 0) (Nat.zero_le _)
  obtain ⟨h1, h2⟩ := writeTokens_tokens e.tokens gap hd.apart (fun n hn => hu.tokens n hn) hg
  exact (C52_calculator h ..).2 ⟨e, k, ⟨before, _, e.tokens, rfl, hb, h2, h1, hd⟩, hv, rfl⟩

/-! ## Concrete cases -/

/-- The environments of the example. -/
def calcEnv (std : Std) : Env (List Chr) :=
  { input := listInput, std := std, rules := fun _ => Calc.plusExp }

theorem calcEnv_calculates (std : Std) : (calcEnv std).Calculates :=
  by
  cases std <;> exact ⟨rfl, rfl, fun _ => by decide, fun _ => by decide⟩

/-- `-(1 - 2) * 6 / 4 - 1 - 1`: unary operators bind tighter, the others associate to the left, division
truncates. -/
example : Calc.calculatorParser (calcEnv .cpp98) (txt " - (1 - 2) * 6/4 - 1-1") = .ok (.int (-1)) := by
  have := C52_written (calcEnv_calculates .cpp98)
    (.sub (.sub (.div (.mul (.neg (.sub (.num 1) (.num 2))) (.num 6)) (.num 4)) (.num 1)) (.num 1)) (-1)
    (by decide) (by simp [AExp.Unsigned]) (txt " ")
    (fun i => if i ∈ [0, 2, 3, 5, 6, 9, 10] then txt " " else []) (by decide)
    (by intro i; by_cases hi : i ∈ [0, 2, 3, 5, 6, 9, 10] <;> simp only [hi, if_true, if_false] <;> decide)
  rwa [show txt " " ++ writeTokens _ _ = txt " - (1 - 2) * 6/4 - 1-1" by decide +kernel] at this

/-- Division by zero has no value. -/
example : (AExp.div (.num 1) (.sub (.num 2) (.num 2))).value = none := by decide

/-- Not an expression: there is no binary operator at the end of one. -/
example : ¬ ∃ e k, IsExpression (txt "1+") e ∧ e.value = some k := by
  refine (C52_compile_error (calcEnv_calculates .cpp11) _).1 ⟨.parsingFailed 1 3
    .noneOfTheExpectedCasesFound, C34_buildParser_rejects _ _ _ ⟨1, 3, ch '+'⟩ ?_⟩
  exact rejects_of_eval 60 (by decide +kernel)

/-- `1+1` has one value, and `exp` reads it. -/
example {e : AExp} {k : Int} (h : IsExpression (txt " - (1 - 2) * 6/4 - 1-1") e) (hk : e.value = some k) : k = -1 := by
  have hv := C52_written (calcEnv_calculates .cpp98)
    (.sub (.sub (.div (.mul (.neg (.sub (.num 1) (.num 2))) (.num 6)) (.num 4)) (.num 1)) (.num 1)) (-1)
    (by decide) (by simp [AExp.Unsigned]) (txt " ")
    (fun i => if i ∈ [0, 2, 3, 5, 6, 9, 10] then txt " " else []) (by decide)
    (by intro i; by_cases hi : i ∈ [0, 2, 3, 5, 6, 9, 10] <;> simp only [hi, if_true, if_false] <;> decide)
  rw [show txt " " ++ writeTokens _ _ = txt " - (1 - 2) * 6/4 - 1-1" by decide +kernel] at hv
  obtain ⟨e', k', h', hk', e1⟩ := (C52_calculator (calcEnv_calculates .cpp98) _ _).1 hv
  cases e1
  exact C52_unambiguous h h' hk hk'

example : Calc.calculatorParser (calcEnv .cpp11) (txt "((((1)))") ≠ .deep := C52_finishes (calcEnv_calculates .cpp11) _

end Metaparse
