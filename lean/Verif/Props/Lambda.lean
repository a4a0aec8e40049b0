import Verif.Model.Lambda
import Verif.Props.Calculators
/-!
# The examples that parse functions (C61)
-/

namespace Metaparse

variable {E : Env (List Chr)}

/-- The numbers written in a formula fit in `int`. -/
def Formula.LiteralsFit : Formula → Prop
  | .num n => fits n = some n
  | .arg => True
  | .add a b => a.LiteralsFit ∧ b.LiteralsFit
  | .sub a b => a.LiteralsFit ∧ b.LiteralsFit
  | .mul a b => a.LiteralsFit ∧ b.LiteralsFit
  | .div a b => a.LiteralsFit ∧ b.LiteralsFit

/-- The class that stands for a formula; it is the same for both examples. -/
def Formula.code : Formula → Val
  | .num n => .user 0 [.int n]
  | .arg => .user 1 []
  | .add a b => .user 2 [a.code, b.code]
  | .sub a b => .user 3 [a.code, b.code]
  | .mul a b => .user 4 [a.code, b.code]
  | .div a b => .user 5 [a.code, b.code]

/-- The class represents the formula. -/
def CodeOf (e : Formula) (v : Val) : Prop := e.LiteralsFit ∧ v = e.code

theorem Formula.code_force (e : Formula) : e.code.force = .ok e.code := by cases e <;> rfl

theorem codeOf_represents : RepresentsOps CodeOf Lambda.buildMult Lambda.buildPlus where
  forced := by rintro e v ⟨-, rfl⟩; exact e.code_force
  mul := by
    rintro a b x y z ⟨ha, rfl⟩ ⟨hb, rfl⟩
    show Out.ok (Formula.mul a b).code = .ok z ↔ _
    simp [CodeOf, Formula.LiteralsFit, ha, hb, eq_comm]
  div := by
    rintro a b x y z ⟨ha, rfl⟩ ⟨hb, rfl⟩
    show Out.ok (Formula.div a b).code = .ok z ↔ _
    simp [CodeOf, Formula.LiteralsFit, ha, hb, eq_comm]
  add := by
    rintro a b x y z ⟨ha, rfl⟩ ⟨hb, rfl⟩
    show Out.ok (Formula.add a b).code = .ok z ↔ _
    simp [CodeOf, Formula.LiteralsFit, ha, hb, eq_comm]
  sub := by
    rintro a b x y z ⟨ha, rfl⟩ ⟨hb, rfl⟩
    show Out.ok (Formula.sub a b).code = .ok z ↔ _
    simp [CodeOf, Formula.LiteralsFit, ha, hb, eq_comm]
  ofMul := by rintro a b z ⟨⟨ha, hb⟩, -⟩; exact ⟨⟨_, ha, rfl⟩, _, hb, rfl⟩
  ofDiv := by rintro a b z ⟨⟨ha, hb⟩, -⟩; exact ⟨⟨_, ha, rfl⟩, _, hb, rfl⟩
  ofAdd := by rintro a b z ⟨⟨ha, hb⟩, -⟩; exact ⟨⟨_, ha, rfl⟩, _, hb, rfl⟩
  ofSub := by rintro a b z ⟨⟨ha, hb⟩, -⟩; exact ⟨⟨_, ha, rfl⟩, _, hb, rfl⟩

/-! ## The operands -/

theorem function_operand {t : List Chr} {v : Val} : FormulaLang false true CodeOf 2 t v ↔
    (∃ n, IntText t (.int n) ∧ v = .user 0 [.int n]) ∨
    (∃ c ∈ [ch '_'], ∃ ws, t = c :: ws ∧ AllSpace ws) ∧ v = .user 1 [] := by
  constructor
  · rintro ⟨e, he, hfit, rfl⟩
    cases he with
    | num hne hw hws =>
      obtain ⟨-, -, hle⟩ := fits_eq_some.1 hfit
      exact .inl ⟨_, ⟨_, _, rfl, hne, hw, hws, hle, rfl⟩, rfl⟩
    | arg _ hws => exact .inr ⟨⟨_, by simp, _, rfl, hws⟩, rfl⟩
    | bracket h => cases h
  · rintro (⟨n, ⟨w, ws, rfl, hne, hw, hws, hle, hn⟩, rfl⟩ | ⟨⟨c, hc, ws, rfl, hws⟩, rfl⟩)
    · cases hn
      exact ⟨_, .num hne hw hws, decimal_fits hw hle, rfl⟩
    · simp only [List.mem_singleton] at hc
      subst hc
      exact ⟨.arg, .arg rfl hws, trivial, rfl⟩

/-- The operand parser of both examples, with the function that makes a class from a number. -/
theorem function_operand_reads (h : E.ReadsFormulas) {mk : Val → Val} {arg : Val}
    (hmk : ∀ n, (mk (.int n)).force = .ok (.user 0 [.int n])) (harg : arg = .user 1 []) :
    (∀ n, OnlyReads E n (.oneOf [.transform Calc.intToken mk, .always Lambda.argToken arg])
      (FormulaLang false true CodeOf 2)) ∧
    ReadsAll E (.oneOf [.transform Calc.intToken mk, .always Lambda.argToken arg])
      (FormulaLang false true CodeOf 2) numCont := by
  subst harg
  have ho := readsOp_token h.onText h.nth2 (ch '_')
  constructor
  · intro n
    refine (OnlyReads.oneOf h.oneOf2 ?_ ?_).mono fun _ _ => function_operand.2
    · intro s pos v s' pos' hn ha
      obtain ⟨w, ha, hw⟩ := (C36_transform_accepts ..).1 ha
      obtain ⟨t, ht, hl⟩ := OnlyReads.intToken h.onText h.nth2 n _ _ _ _ _ hn ha
      obtain ⟨_, _, _, _, _, _, _, rfl⟩ := id hl
      rw [hmk] at hw
      cases hw
      exact ⟨t, ht, _, hl, rfl⟩
    · intro s pos v s' pos' hn ha
      obtain ⟨⟨w, ha'⟩, rfl⟩ := (C36_always_accepts ..).1 ha
      obtain ⟨t, ht, c, hc, ws, hws, hsp, -⟩ := ho.onlyReads n _ _ _ _ _ hn ha'
      exact ⟨t, ht, ⟨c, hc, ws, hws, hsp⟩, rfl⟩
  · refine (ReadsAll.oneOf (L := fun t v => ∃ n, IntText t (.int n) ∧ v = .user 0 [.int n])
      (L' := fun t v => (∃ c ∈ [ch '_'], ∃ ws, t = c :: ws ∧ AllSpace ws) ∧ v = .user 1 [])
      h.oneOf2 ?_ ?_ (f := digitChar) (g := [ch '_'].contains) ?_ ?_ ?_ ?_ ?_).mono
      (fun _ _ => function_operand.1) fun _ hc => hc
    · rintro t v s' pos ⟨n, hl, rfl⟩ hb
      obtain ⟨pos', ha⟩ := ReadsAll.intToken h.onText h.nth2 t _ s' pos hl hb
      exact ⟨pos', (C36_transform_accepts ..).2 ⟨_, ha, hmk n⟩⟩
    · rintro t v s' pos ⟨⟨c, hc, ws, rfl, hws⟩, rfl⟩ hb
      obtain ⟨pos', ha⟩ := ho.accepts (s' := s') pos hc hws
        (beginsWith_mono (fun c hc => by simp [numCont, hc]) hb)
      exact ⟨pos', (C36_always_accepts ..).2 ⟨⟨_, ha⟩, rfl⟩⟩
    · intro s pos hb
      obtain ⟨m, hr⟩ := BeginsIn.intToken h.onText h.nth2 s pos hb
      exact ⟨m, (C36_transform_rejects ..).2 hr⟩
    · intro s pos hb
      obtain ⟨m, hr⟩ := ho.rejects pos hb
      exact ⟨m, (C36_always_rejects ..).2 hr⟩
    · rintro t v ⟨n, hl, -⟩; exact hl.begins.1
    · rintro t v ⟨⟨c, hc, ws, rfl, hws⟩, -⟩; simpa [beginsWith] using hc
    · intro c hc
      simp only [List.contains_cons, List.contains_nil, Bool.or_false, beq_eq_false_iff_ne]
      rintro rfl
      exact absurd hc (by decide)

theorem function_parser (h : E.ReadsFormulas) {mk : Val → Val} {arg : Val}
    (hmk : ∀ n, (mk (.int n)).force = .ok (.user 0 [.int n])) (harg : arg = .user 1 [])
    (s : List Chr) (v : Val) :
    buildParser E (.entireInput (.lastOf [.repeated P.space, plusOf (prodOf
      (.oneOf [.transform Calc.intToken mk, .always Lambda.argToken arg]) Lambda.buildMult)
      Lambda.buildPlus])) s = .ok v ↔
      ∃ e, IsFormula false true s e ∧ e.LiteralsFit ∧ v = e.code := by
  obtain ⟨h1, h2⟩ := function_operand_reads h hmk harg
  refine (buildParser_spaces h.onText h.nth2
    (fun n => formula_onlyReads h codeOf_represents (h1 n))
    (L := FormulaLang false true CodeOf 0) (cont := plusCont) ?_ ?_ s v).trans ?_
  · intro t v s' pos hl hb
    exact formula_readsAll h codeOf_represents (n := t.length)
      (h2.mono (fun t v hv => hv.1) fun _ hc => hc) t v s' pos ⟨hl, Nat.le_refl _⟩ hb
  · rintro t v ⟨e, he, -⟩; exact he.begins.1
  · constructor
    · rintro ⟨ws, t, rfl, hws, e, he, hf, rfl⟩
      exact ⟨e, ⟨ws, t, rfl, hws, he⟩, hf, rfl⟩
    · rintro ⟨e, ⟨ws, t, rfl, hws, he⟩, hf, rfl⟩
      exact ⟨ws, t, rfl, hws, e, he, hf, rfl⟩

/-! ## Metafunction classes -/

theorem metafunction_parser (h : E.ReadsFormulas) (s : List Chr) (v : Val) :
    Lambda.metafunctionParser E s = .ok v ↔
      ∃ e, IsFormula false true s e ∧ e.LiteralsFit ∧ v = e.code :=
  function_parser h (mk := Lambda.buildValue) (fun _ => rfl) rfl s v

theorem arith_ok {f : Int → Int → Int} {a b : Out Val} {o p : Option Int}
    (ha : ∀ v, a = .ok v ↔ ∃ k, o = some k ∧ v = .int k)
    (hb : ∀ v, b = .ok v ↔ ∃ k, p = some k ∧ v = .int k) (v : Val) :
    (a.bind fun x => b.bind fun y => Calc.arith f x y) = .ok v ↔
      ∃ k, (o.bind fun m => p.bind fun n => fits (f m n)) = some k ∧ v = .int k := by
  have key : ∀ m n : Int, Calc.arith f (.int m) (.int n) = .ok v ↔ ∃ k, fits (f m n) = some k ∧ v = .int k := by
    intro m n
    rw [show Calc.arith f (.int m) (.int n) = ((intC (f m n)).bind fun z => .ok (.int z)) from rfl,
      intC_bind, ofOption_eq_ok]
  constructor
  · intro h
    obtain ⟨x, hx, h⟩ := Out.bind_eq_ok.1 h
    obtain ⟨y, hy, h⟩ := Out.bind_eq_ok.1 h
    obtain ⟨m, hm, rfl⟩ := (ha x).1 hx
    obtain ⟨n, hn, rfl⟩ := (hb y).1 hy
    rw [hm, hn]
    exact (key m n).1 h
  · rintro ⟨k, hk, rfl⟩
    obtain ⟨m, hm, hk⟩ := option_bind_eq.1 hk
    obtain ⟨n, hn, hk⟩ := option_bind_eq.1 hk
    rw [(ha _).2 ⟨m, hm, rfl⟩, (hb _).2 ⟨n, hn, rfl⟩]
    exact (key m n).2 ⟨k, hk, rfl⟩

theorem divides_ok {a b : Out Val} {o p : Option Int}
    (ha : ∀ v, a = .ok v ↔ ∃ k, o = some k ∧ v = .int k)
    (hb : ∀ v, b = .ok v ↔ ∃ k, p = some k ∧ v = .int k) (v : Val) :
    (a.bind fun x => b.bind fun y => Calc.divides x y) = .ok v ↔
      ∃ k, (o.bind fun m => p.bind fun n => if n = 0 then none else fits (m.tdiv n)) = some k ∧
        v = .int k := by
  have key : ∀ m n : Int, Calc.divides (.int m) (.int n) = .ok v ↔
      ∃ k, (if n = 0 then none else fits (m.tdiv n)) = some k ∧ v = .int k := by
    intro m n
    rw [show Calc.divides (.int m) (.int n) = (if n = 0 then .ill .divByZero else
      (intC (m.tdiv n)).bind fun z => .ok (.int z)) from rfl]
    by_cases h0 : n = 0
    · simp [h0]
    · rw [if_neg h0, if_neg h0, intC_bind, ofOption_eq_ok]
  constructor
  · intro h
    obtain ⟨x, hx, h⟩ := Out.bind_eq_ok.1 h
    obtain ⟨y, hy, h⟩ := Out.bind_eq_ok.1 h
    obtain ⟨m, hm, rfl⟩ := (ha x).1 hx
    obtain ⟨n, hn, rfl⟩ := (hb y).1 hy
    rw [hm, hn]
    exact (key m n).1 h
  · rintro ⟨k, hk, rfl⟩
    obtain ⟨m, hm, hk⟩ := option_bind_eq.1 hk
    obtain ⟨n, hn, hk⟩ := option_bind_eq.1 hk
    rw [(ha _).2 ⟨m, hm, rfl⟩, (hb _).2 ⟨n, hn, rfl⟩]
    exact (key m n).2 ⟨k, hk, rfl⟩

theorem Formula.code_apply {e : Formula} (hf : e.LiteralsFit) (x : Int) : ∀ v,
    Lambda.applyWrap1 e.code (.int x) = .ok v ↔ ∃ k, e.value x = some k ∧ v = .int k := by
  induction e with
  | num n =>
    intro v
    have hn : fits n = some n := hf
    simp [Formula.code, Lambda.applyWrap1, Formula.value, hn, Val.force, eq_comm]
  | arg => intro v; simp [Formula.code, Lambda.applyWrap1, Formula.value, eq_comm]
  | add a b iha ihb =>
    intro v
    rw [Formula.code, Lambda.applyWrap1, Formula.value]
    exact arith_ok (iha hf.1) (ihb hf.2) v
  | sub a b iha ihb =>
    intro v
    rw [Formula.code, Lambda.applyWrap1, Formula.value]
    exact arith_ok (iha hf.1) (ihb hf.2) v
  | mul a b iha ihb =>
    intro v
    rw [Formula.code, Lambda.applyWrap1, Formula.value]
    exact arith_ok (iha hf.1) (ihb hf.2) v
  | div a b iha ihb =>
    intro v
    rw [Formula.code, Lambda.applyWrap1, Formula.value]
    exact divides_ok (iha hf.1) (ihb hf.2) v

/-- `meta_lambda` compiles exactly for the texts of formulas whose numbers fit in `int`. -/
theorem C61_meta_lambda_compiles (h : E.ReadsFormulas) (s : List Chr) :
    (∃ f, Lambda.metafunctionParser E s = .ok f) ↔ ∃ e, IsFormula false true s e ∧ e.LiteralsFit := by
  constructor
  · rintro ⟨f, hf⟩
    obtain ⟨e, he, hfit, -⟩ := (metafunction_parser h s f).1 hf
    exact ⟨e, he, hfit⟩
  · rintro ⟨e, he, hfit⟩
    exact ⟨_, (metafunction_parser h s _).2 ⟨e, he, hfit, rfl⟩⟩

/-- Applying the metafunction class to a number gives the value of the formula at that number, and compiles
exactly if it has a value there. -/
theorem C61_meta_lambda_applies (h : E.ReadsFormulas) {s : List Chr} {e : Formula} {f : Val}
    (he : IsFormula false true s e) (hfit : e.LiteralsFit)
    (hf : Lambda.metafunctionParser E s = .ok f) (x : Int) (v : Val) :
    Lambda.applyWrap1 f (.int x) = .ok v ↔ ∃ k, e.value x = some k ∧ v = .int k := by
  rw [(metafunction_parser h s _).2 ⟨e, he, hfit, rfl⟩] at hf
  cases hf
  exact Formula.code_apply hfit x v

/-! ## Function objects -/

theorem native_parser (h : E.ReadsFormulas) (s : List Chr) (v : Val) :
    Native.functionParser E s = .ok v ↔
      ∃ e, IsFormula false true s e ∧ e.LiteralsFit ∧ v = e.code :=
  function_parser h (mk := Native.valueC) (fun _ => rfl) rfl s v

/-- The value of a formula computed in the arithmetic of a type `T`, the numbers being converted first. -/
def Formula.valueIn {T : Type} (N : Native.Num T) (x : T) : Formula → Option T
  | .num n => some (N.ofInt n)
  | .arg => some x
  | .add a b => (a.valueIn N x).bind fun m => (b.valueIn N x).bind fun n => N.add m n
  | .sub a b => (a.valueIn N x).bind fun m => (b.valueIn N x).bind fun n => N.sub m n
  | .mul a b => (a.valueIn N x).bind fun m => (b.valueIn N x).bind fun n => N.mul m n
  | .div a b => (a.valueIn N x).bind fun m => (b.valueIn N x).bind fun n => N.div m n

/-- The formula is a number. -/
def Formula.isNum : Formula → Bool
  | .num _ => true
  | _ => false

/-- `Q` holds for the operators, given by their functions on `int` and `T`, that have numbers on both
sides. -/
def Formula.LiteralOperations {T : Type} (N : Native.Num T)
    (Q : (Int → Int → Option Int) → (T → T → Option T) → Prop) : Formula → Prop
  | .num _ => True
  | .arg => True
  | .add a b => (a.isNum = true → b.isNum = true → Q Native.Num.int.add N.add) ∧
      a.LiteralOperations N Q ∧ b.LiteralOperations N Q
  | .sub a b => (a.isNum = true → b.isNum = true → Q Native.Num.int.sub N.sub) ∧
      a.LiteralOperations N Q ∧ b.LiteralOperations N Q
  | .mul a b => (a.isNum = true → b.isNum = true → Q Native.Num.int.mul N.mul) ∧
      a.LiteralOperations N Q ∧ b.LiteralOperations N Q
  | .div a b => (a.isNum = true → b.isNum = true → Q Native.Num.int.div N.div) ∧
      a.LiteralOperations N Q ∧ b.LiteralOperations N Q

/-- The operator of `int` and then the conversion is the conversion and then the operator of `T`. -/
def Converts {T : Type} (N : Native.Num T) (onInt : Int → Int → Option Int) (onT : T → T → Option T) :
    Prop := ∀ a b, (onInt a b).map N.ofInt = onT (N.ofInt a) (N.ofInt b)

theorem native_call_valueIn {T : Type} (N : Native.Num T) (x : T) {e : Formula}
    (hno : e.LiteralOperations N (Converts N)) :
    (Native.call N e.code x).map (Native.Operand.toT N) = e.valueIn N x ∧
      (e.isNum = false → ∀ o, Native.call N e.code x = some o → ∃ y, o = .t y) := by
  have opT : ∀ {onInt onT} {o p q : Native.Operand T}, N.op onInt onT o p = some q → ∃ y, q = .t y := by
    intro onInt onT o p q hq
    cases o <;> cases p <;> simp only [Native.Num.op, Option.map_eq_some_iff] at hq <;>
      obtain ⟨y, -, rfl⟩ := hq <;> exact ⟨_, rfl⟩
  have key : ∀ {a b : Formula} (onInt : Int → Int → Option Int) (onT : T → T → Option T),
      (a.isNum = true → b.isNum = true → Converts N onInt onT) →
      ((Native.call N a.code x).map (Native.Operand.toT N) = a.valueIn N x ∧
        (a.isNum = false → ∀ o, Native.call N a.code x = some o → ∃ y, o = .t y)) →
      ((Native.call N b.code x).map (Native.Operand.toT N) = b.valueIn N x ∧
        (b.isNum = false → ∀ o, Native.call N b.code x = some o → ∃ y, o = .t y)) →
      (((Native.call N a.code x).bind fun o => (Native.call N b.code x).bind fun p =>
          N.op onInt onT o p).map (Native.Operand.toT N) =
        (a.valueIn N x).bind fun m => (b.valueIn N x).bind fun n => onT m n) ∧
      (∀ q, ((Native.call N a.code x).bind fun o => (Native.call N b.code x).bind fun p =>
          N.op onInt onT o p) = some q → ∃ y, q = .t y) := by
    intro a b onInt onT hab ha hb
    rw [← ha.1, ← hb.1]
    cases hao : Native.call N a.code x with
    | none => exact ⟨rfl, fun q hq => by cases hq⟩
    | some o =>
      cases hbo : Native.call N b.code x with
      | none => exact ⟨rfl, fun q hq => by cases hq⟩
      | some p =>
        refine ⟨?_, fun q hq => opT hq⟩
        show (N.op onInt onT o p).map (Native.Operand.toT N) = onT (o.toT N) (p.toT N)
        have hT : (∃ y, o = .t y) ∨ (∃ y, p = .t y) ∨ Converts N onInt onT := by
          cases han : a.isNum with
          | false => exact .inl (ha.2 han o hao)
          | true =>
            cases hbn : b.isNum with
            | false => exact .inr (.inl (hb.2 hbn p hbo))
            | true => exact .inr (.inr (hab han hbn))
        have ht : ∀ o : Option T, (o.map Native.Operand.t).map (Native.Operand.toT N) = o := by
          intro o; cases o <;> rfl
        rcases hT with ⟨y, rfl⟩ | ⟨y, rfl⟩ | hc
        · cases p <;> exact ht _
        · cases o <;> exact ht _
        · cases o <;> cases p <;> first | exact ht _ | skip
          rename_i m n
          simp only [Native.Num.op, Native.Operand.toT, Option.map_map]
          exact hc m n
  induction e with
  | num n =>
    refine ⟨?_, fun h => by cases h⟩
    simp [Formula.code, Native.call, Formula.valueIn, Native.Operand.toT, Val.value, Val.force, Out.bind]
  | arg =>
    refine ⟨by simp [Formula.code, Native.call, Formula.valueIn, Native.Operand.toT], fun _ o ho => ?_⟩
    simp only [Formula.code, Native.call, Option.some.injEq] at ho
    exact ⟨x, ho.symm⟩
  | add a b iha ihb =>
    have := key Native.Num.int.add N.add hno.1 (iha hno.2.1) (ihb hno.2.2)
    rw [Formula.code, Native.call, Formula.valueIn]
    exact ⟨this.1, fun _ => this.2⟩
  | sub a b iha ihb =>
    have := key Native.Num.int.sub N.sub hno.1 (iha hno.2.1) (ihb hno.2.2)
    rw [Formula.code, Native.call, Formula.valueIn]
    exact ⟨this.1, fun _ => this.2⟩
  | mul a b iha ihb =>
    have := key Native.Num.int.mul N.mul hno.1 (iha hno.2.1) (ihb hno.2.2)
    rw [Formula.code, Native.call, Formula.valueIn]
    exact ⟨this.1, fun _ => this.2⟩
  | div a b iha ihb =>
    have := key Native.Num.int.div N.div hno.1 (iha hno.2.1) (ihb hno.2.2)
    rw [Formula.code, Native.call, Formula.valueIn]
    exact ⟨this.1, fun _ => this.2⟩

theorem valueIn_int {e : Formula} (hf : e.LiteralsFit) (x : Int) :
    e.valueIn Native.Num.int x = e.value x := by
  induction e with
  | num n => have hn : fits n = some n := hf; rw [Formula.value, hn]; rfl
  | arg => rfl
  | add a b iha ihb => rw [Formula.valueIn, iha hf.1, ihb hf.2]; rfl
  | sub a b iha ihb => rw [Formula.valueIn, iha hf.1, ihb hf.2]; rfl
  | mul a b iha ihb => rw [Formula.valueIn, iha hf.1, ihb hf.2]; rfl
  | div a b iha ihb => rw [Formula.valueIn, iha hf.1, ihb hf.2]; rfl

theorem literalOperations_int (e : Formula) :
    e.LiteralOperations Native.Num.int (Converts Native.Num.int) := by
  have key : ∀ f : Int → Int → Option Int, Converts Native.Num.int f f := by
    intro f a b
    show (f a b).map (fun n => n) = f a b
    cases f a b <;> rfl
  induction e with
  | num n => trivial
  | arg => trivial
  | add a b iha ihb => exact ⟨fun _ _ => key _, iha, ihb⟩
  | sub a b iha ihb => exact ⟨fun _ _ => key _, iha, ihb⟩
  | mul a b iha ihb => exact ⟨fun _ _ => key _, iha, ihb⟩
  | div a b iha ihb => exact ⟨fun _ _ => key _, iha, ihb⟩

/-- Both examples compile for the same texts. -/
theorem C61_native_compiles (h : E.ReadsFormulas) (s : List Chr) :
    (∃ f, Native.functionParser E s = .ok f) ↔ ∃ e, IsFormula false true s e ∧ e.LiteralsFit := by
  constructor
  · rintro ⟨f, hf⟩
    obtain ⟨e, he, hfit, -⟩ := (native_parser h s f).1 hf
    exact ⟨e, he, hfit⟩
  · rintro ⟨e, he, hfit⟩
    exact ⟨_, (native_parser h s _).2 ⟨e, he, hfit, rfl⟩⟩

/-- Calling the function object with an `int` gives the value of the formula; the behaviour is undefined
exactly if the formula has no value there. -/
theorem C61_native_int (h : E.ReadsFormulas) {s : List Chr} {e : Formula} {f : Val}
    (he : IsFormula false true s e) (hfit : e.LiteralsFit) (hf : Native.functionParser E s = .ok f)
    (x : Int) :
    (Native.call Native.Num.int f x).map (Native.Operand.toT Native.Num.int) = e.value x := by
  rw [(native_parser h s _).2 ⟨e, he, hfit, rfl⟩] at hf
  cases hf
  rw [(native_call_valueIn _ x (literalOperations_int e)).1, valueIn_int hfit]

/-- Calling the function object with a value of another arithmetic type `T` gives the value of the formula
computed in `T`, if for the operators that have numbers on both sides it makes no difference whether the
numbers are converted to `T` before or after the operation. -/
theorem C61_native_other_types (h : E.ReadsFormulas) {s : List Chr} {e : Formula} {f : Val}
    (he : IsFormula false true s e) (hfit : e.LiteralsFit) {T : Type} (N : Native.Num T)
    (hno : e.LiteralOperations N (Converts N)) (hf : Native.functionParser E s = .ok f) (x : T) :
    (Native.call N f x).map (Native.Operand.toT N) = e.valueIn N x := by
  rw [(native_parser h s _).2 ⟨e, he, hfit, rfl⟩] at hf
  cases hf
  exact (native_call_valueIn N x hno).1

/-! ## Examples -/

/-- A type with exact division by two: halves of integers. -/
def halves : Native.Num Int where
  ofInt n := 2 * n
  add a b := some (a + b)
  sub a b := some (a - b)
  mul a b := some (a * b / 2)
  div a b := if b = 0 then none else some (2 * a / b)

theorem isFormula_half : IsFormula false true (txt "1/2") (.div (.num 1) (.num 2)) :=
  ⟨[], txt "1/2", rfl, by decide, .product (.div (t := txt "1") (ws := []) (u := txt "2")
    (.operand (.num (w := txt "1") (ws := []) (by decide) (by decide) (by decide))) (by decide)
    (.num (w := txt "2") (ws := []) (by decide) (by decide) (by decide)))⟩

theorem isFormula_arg_half : IsFormula false true (txt "_/ 2") (.div .arg (.num 2)) :=
  ⟨[], txt "_/ 2", rfl, by decide, .product (.div (t := txt "_") (ws := txt " ") (u := txt "2")
    (.operand (.arg (ws := []) rfl (by decide))) (by decide)
    (.num (w := txt "2") (ws := []) (by decide) (by decide) (by decide)))⟩

/-- For a quotient of two numbers it does make a difference: `1/2` called with a type that has halves, such
as `double`, is 0, since the division is done on `int`s. -/
theorem C61_native_literal_division (h : E.ReadsFormulas) : ∃ f,
    Native.functionParser E (txt "1/2") = .ok f ∧ ∀ x,
      (Native.call halves f x).map (Native.Operand.toT halves) = some (halves.ofInt 0) ∧
      (Formula.div (.num 1) (.num 2)).valueIn halves x = some 1 ∧ halves.ofInt 0 ≠ 1 :=
  ⟨_, (native_parser h _ _).2 ⟨_, isFormula_half, ⟨rfl, rfl⟩, rfl⟩, fun _ => ⟨rfl, rfl, by decide⟩⟩

/-- The hypotheses of the theorems are met, for instance, by `_/ 2`. -/
example (h : E.ReadsFormulas) : ∃ f, Native.functionParser E (txt "_/ 2") = .ok f ∧
    (Native.call halves f 3).map (Native.Operand.toT halves) = some 1 ∧
    (Native.call Native.Num.int f 7).map (Native.Operand.toT Native.Num.int) = some 3 := by
  have hf := (native_parser h (txt "_/ 2") _).2 ⟨_, isFormula_arg_half, ⟨trivial, rfl⟩, rfl⟩
  refine ⟨_, hf, ?_, ?_⟩
  · exact C61_native_other_types h isFormula_arg_half ⟨trivial, rfl⟩ halves
      ⟨by simp [Formula.isNum], trivial, trivial⟩ hf 3
  · rw [C61_native_int h isFormula_arg_half ⟨trivial, rfl⟩ hf]
    decide

example (h : E.ReadsFormulas) : ∃ f, Lambda.metafunctionParser E (txt "_/ 2") = .ok f ∧
    Lambda.applyWrap1 f (.int 7) = .ok (.int 3) := by
  have hf := (metafunction_parser h (txt "_/ 2") _).2 ⟨_, isFormula_arg_half, ⟨trivial, rfl⟩, rfl⟩
  exact ⟨_, hf, (C61_meta_lambda_applies h isFormula_arg_half ⟨trivial, rfl⟩ hf 7 _).2
    ⟨3, by decide, rfl⟩⟩

/-- `_/ 2` compiles, since its numbers fit; a text that is no formula does not. -/
example (h : E.ReadsFormulas) : (∃ f, Lambda.metafunctionParser E (txt "_/ 2") = .ok f) ∧
    ∃ f, Native.functionParser E (txt "_/ 2") = .ok f :=
  ⟨(C61_meta_lambda_compiles h _).2 ⟨_, isFormula_arg_half, trivial, rfl⟩,
    (C61_native_compiles h _).2 ⟨_, isFormula_arg_half, trivial, rfl⟩⟩

end Metaparse
