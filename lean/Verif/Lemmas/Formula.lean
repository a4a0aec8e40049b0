import Verif.Model.Calculators
import Verif.Spec.Formula
import Verif.Lemmas.Levels
/-!
# Parsers of formulas
-/

namespace Metaparse

variable {E : Env (List Chr)}

namespace Env.ReadsFormulas

theorem nth3 (h : E.ReadsFormulas) : E.SupportsNth 3 := h.limSequence
theorem nth2 (h : E.ReadsFormulas) : E.SupportsNth 2 := fun e => Nat.lt_trans (by decide) (h.nth3 e)
theorem seq2 (h : E.ReadsFormulas) : E.SupportsSequence 2 :=
  fun e => ⟨Nat.lt_trans (by decide) (h.nth2 e), h.nth2 e⟩
theorem oneOf2 (h : E.ReadsFormulas) : E.SupportsOneOf 2 := h.limOneOf

end Env.ReadsFormulas

/-- How the result of a parser of formulas represents a formula, and that the operations of the parser
make the representation of a compound formula from those of its parts. -/
structure RepresentsOps (D : Formula → Val → Prop) (opMul opPlus : Val → Val → Val) : Prop where
  forced : ∀ {e v}, D e v → v.force = .ok v
  mul : ∀ {a b x y z}, D a x → D b y → ((opMul x (.seq [.chr (ch '*'), y])).force = .ok z ↔ D (.mul a b) z)
  div : ∀ {a b x y z}, D a x → D b y → ((opMul x (.seq [.chr (ch '/'), y])).force = .ok z ↔ D (.div a b) z)
  add : ∀ {a b x y z}, D a x → D b y → ((opPlus x (.seq [.chr (ch '+'), y])).force = .ok z ↔ D (.add a b) z)
  sub : ∀ {a b x y z}, D a x → D b y → ((opPlus x (.seq [.chr (ch '-'), y])).force = .ok z ↔ D (.sub a b) z)
  ofMul : ∀ {a b z}, D (.mul a b) z → (∃ x, D a x) ∧ ∃ y, D b y
  ofDiv : ∀ {a b z}, D (.div a b) z → (∃ x, D a x) ∧ ∃ y, D b y
  ofAdd : ∀ {a b z}, D (.add a b) z → (∃ x, D a x) ∧ ∃ y, D b y
  ofSub : ∀ {a b z}, D (.sub a b) z → (∃ x, D a x) ∧ ∃ y, D b y

/-- The texts of a level and what the parser makes of them. -/
def FormulaLang (b a : Bool) (D : Formula → Val → Prop) (l : Nat) (t : List Chr) (v : Val) : Prop :=
  ∃ e, FormulaText b a l t e ∧ D e v

variable {b a : Bool} {D : Formula → Val → Prop} {opMul opPlus : Val → Val → Val}

theorem FormulaText.begins {l : Nat} {t : List Chr} {e : Formula} (h : FormulaText b a l t e) :
    beginsWith spaceChar t = false ∧ t ≠ [] := by
  induction h with
  | num h1 h2 h3 =>
    rename_i w ws
    cases w with
    | nil => exact absurd rfl h1
    | cons c w =>
      refine ⟨?_, by simp⟩
      simp only [List.cons_append, beginsWith]
      cases hsp : spaceChar c with
      | false => rfl
      | true => have := h2 c (by simp); rw [digit_not_space hsp] at this; cases this
  | arg | bracket => exact ⟨rfl, by simp⟩
  | operand _ ih | product _ ih => exact ih
  | mul _ _ _ ih | div _ _ _ ih | add _ _ _ ih | sub _ _ _ ih =>
    exact ⟨by rw [beginsWith_append ih.2]; exact ih.1, by simp⟩

theorem leftAssoc_mul (hD : RepresentsOps D opMul opPlus) {t : List Chr} {x : Val} :
    LeftAssoc (FormulaLang b a D 2) [ch '*', ch '/'] opMul t x ↔ FormulaLang b a D 1 t x := by
  constructor
  · intro h
    induction h with
    | one h hx =>
      obtain ⟨e, he, hd⟩ := h
      rw [hD.forced hd] at hx; cases hx
      exact ⟨e, .operand he, hd⟩
    | more _ hc hws hu hz ih =>
      obtain ⟨e, he, hd⟩ := ih
      obtain ⟨e', he', hd'⟩ := hu
      simp only [List.mem_cons, List.not_mem_nil, or_false] at hc
      rcases hc with rfl | rfl
      · exact ⟨_, .mul he hws he', (hD.mul hd hd').1 hz⟩
      · exact ⟨_, .div he hws he', (hD.div hd hd').1 hz⟩
  · rintro ⟨e, he, hd⟩
    generalize hl : 1 = l at he
    induction he generalizing x with
    | num | arg | bracket | add | sub | product => cases hl
    | operand h _ => exact .one ⟨_, h, hd⟩ (hD.forced hd)
    | mul h hws hu ih _ =>
      obtain ⟨⟨y, hy⟩, z, hz⟩ := hD.ofMul hd
      exact .more (ih hy hl) (by simp) hws ⟨_, hu, hz⟩ ((hD.mul hy hz).2 hd)
    | div h hws hu ih _ =>
      obtain ⟨⟨y, hy⟩, z, hz⟩ := hD.ofDiv hd
      exact .more (ih hy hl) (by simp) hws ⟨_, hu, hz⟩ ((hD.div hy hz).2 hd)

theorem leftAssoc_plus (hD : RepresentsOps D opMul opPlus) {t : List Chr} {x : Val} :
    LeftAssoc (FormulaLang b a D 1) [ch '+', ch '-'] opPlus t x ↔ FormulaLang b a D 0 t x := by
  constructor
  · intro h
    induction h with
    | one h hx =>
      obtain ⟨e, he, hd⟩ := h
      rw [hD.forced hd] at hx; cases hx
      exact ⟨e, .product he, hd⟩
    | more _ hc hws hu hz ih =>
      obtain ⟨e, he, hd⟩ := ih
      obtain ⟨e', he', hd'⟩ := hu
      simp only [List.mem_cons, List.not_mem_nil, or_false] at hc
      rcases hc with rfl | rfl
      · exact ⟨_, .add he hws he', (hD.add hd hd').1 hz⟩
      · exact ⟨_, .sub he hws he', (hD.sub hd hd').1 hz⟩
  · rintro ⟨e, he, hd⟩
    generalize hl : 0 = l at he
    induction he generalizing x with
    | num | arg | bracket | mul | div | operand => cases hl
    | product h _ => exact .one ⟨_, h, hd⟩ (hD.forced hd)
    | add h hws hu ih _ =>
      obtain ⟨⟨y, hy⟩, z, hz⟩ := hD.ofAdd hd
      exact .more (ih hy hl) (by simp) hws ⟨_, hu, hz⟩ ((hD.add hy hz).2 hd)
    | sub h hws hu ih _ =>
      obtain ⟨⟨y, hy⟩, z, hz⟩ := hD.ofSub hd
      exact .more (ih hy hl) (by simp) hws ⟨_, hu, hz⟩ ((hD.sub hy hz).2 hd)

/-- Texts in a language up to a length. -/
def Short (n : Nat) (L : List Chr → Val → Prop) (t : List Chr) (v : Val) : Prop := L t v ∧ t.length ≤ n

theorem LeftAssoc.short {A : List Chr → Val → Prop} {ops : List Chr} {op : Val → Val → Val} {n : Nat}
    {t : List Chr} {x : Val} (h : LeftAssoc A ops op t x) (hn : t.length ≤ n) :
    LeftAssoc (Short n A) ops op t x := by
  induction h with
  | one h hx => exact .one ⟨h, hn⟩ hx
  | more _ hc hws hu hz ih =>
    simp only [List.length_append, List.length_cons] at hn
    exact .more (ih (by omega)) hc hws ⟨hu, by omega⟩ hz

/-! ## Two levels of operators above an operand -/

/-- The characters that continue a product. -/
def prodCont (c : Chr) : Bool := numCont c || [ch '*', ch '/'].contains c

/-- The characters that continue a sum. -/
def plusCont (c : Chr) : Bool := prodCont c || [ch '+', ch '-'].contains c

/-- `prod_exp` above an operand `p` -/
abbrev prodOf (p : P) (op : Val → Val → Val) : P :=
  .foldlRejectIncompleteStartWithParser (.sequence [.oneOf [Calc.multToken, Calc.divToken], p]) p op

/-- `plus_exp` above a product `p` -/
abbrev plusOf (p : P) (op : Val → Val → Val) : P :=
  .foldlRejectIncompleteStartWithParser (.sequence [.oneOf [Calc.plusToken, Calc.minusToken], p]) p op

theorem ReadsFormulas.multOps (h : E.ReadsFormulas) :
    ReadsOp E (.oneOf [Calc.multToken, Calc.divToken]) [ch '*', ch '/'] :=
  (readsOp_token h.onText h.nth2 _).oneOf h.oneOf2 (readsOp_token h.onText h.nth2 _)

theorem ReadsFormulas.plusOps (h : E.ReadsFormulas) :
    ReadsOp E (.oneOf [Calc.plusToken, Calc.minusToken]) [ch '+', ch '-'] :=
  (readsOp_token h.onText h.nth2 _).oneOf h.oneOf2 (readsOp_token h.onText h.nth2 _)

theorem formula_onlyReads (h : E.ReadsFormulas) (hD : RepresentsOps D opMul opPlus) {n : Nat} {p : P}
    (hp : OnlyReads E n p (FormulaLang b a D 2)) :
    OnlyReads E n (plusOf (prodOf p opMul) opPlus) (FormulaLang b a D 0) :=
  (OnlyReads.leftAssoc h.seq2 (ReadsFormulas.plusOps h) ((OnlyReads.leftAssoc h.seq2
    (ReadsFormulas.multOps h) hp).mono fun _ _ => (leftAssoc_mul hD).1)).mono
      fun _ _ => (leftAssoc_plus hD).1

theorem formula_readsAll (h : E.ReadsFormulas) (hD : RepresentsOps D opMul opPlus) {n : Nat} {p : P}
    (hp : ReadsAll E p (Short n (FormulaLang b a D 2)) numCont) :
    ReadsAll E (plusOf (prodOf p opMul) opPlus) (Short n (FormulaLang b a D 0)) plusCont := by
  have h1 : ReadsAll E (prodOf p opMul) (Short n (FormulaLang b a D 1)) prodCont :=
    (hp.leftAssoc h.seq2 (ReadsFormulas.multOps h) (by decide) (by
      rintro t v ⟨⟨e, he, -⟩, -⟩; exact he.begins) (op := opMul)).mono
      (fun t v hv => ((leftAssoc_mul hD).2 hv.1).short hv.2) (fun _ hc => hc)
  exact (h1.leftAssoc h.seq2 (ReadsFormulas.plusOps h) (by decide) (by
      rintro t v ⟨⟨e, he, -⟩, -⟩; exact he.begins) (op := opPlus)).mono
      (fun t v hv => ((leftAssoc_plus hD).2 hv.1).short hv.2) (fun _ hc => hc)

/-! ## Brackets -/

theorem InSequence.three {p q r : P} {s : List Chr} {pos : Pos} {vs : List Val} {s' : List Chr}
    {pos' : Pos} (h : InSequence E [p, q, r] s pos vs s' pos') :
    ∃ a b c s1 pos1 s2 pos2, vs = [a, b, c] ∧ Accepts E p s pos a s1 pos1 ∧
      Accepts E q s1 pos1 b s2 pos2 ∧ Accepts E r s2 pos2 c s' pos' := by
  cases h with
  | cons h1 h2 =>
    obtain ⟨b, c, s2, pos2, rfl, h3, h4⟩ := h2.two
    exact ⟨_, b, c, _, _, s2, pos2, rfl, h1, h3, h4⟩

theorem brackets_onlyReads {o c : P} {oc cc : Chr} {n : Nat} {p : P} {L : List Chr → Val → Prop}
    (hs : E.SupportsNth 3) (ho : ReadsOp E o [oc]) (hc : ReadsOp E c [cc]) (hp : OnlyReads E n p L) :
    OnlyReads E (n + 1) (.middleOf o p c) fun t v => ∃ ws t' ws', t = oc :: (ws ++ (t' ++ cc :: ws')) ∧
      AllSpace ws ∧ AllSpace ws' ∧ L t' v := by
  intro s pos v s' pos' hn ha
  obtain ⟨v1, v3, hi⟩ := (C25_middleOf_accepts _ _ _ hs ..).1 ha
  obtain ⟨x, y, z, s1, pos1, s2, pos2, he, h1, h2, h3⟩ := hi.three
  simp only [List.cons.injEq, and_true] at he
  obtain ⟨rfl, rfl, rfl⟩ := he
  obtain ⟨c1, hc1, ws, rfl, hws, -, -⟩ := ho.sound h1
  obtain ⟨c3, hc3, ws', rfl, hws', -, -⟩ := hc.sound h3
  simp only [List.mem_singleton] at hc1 hc3
  subst hc1 hc3
  simp only [List.length_cons, List.length_append] at hn
  obtain ⟨t, rfl, hl⟩ := hp _ _ _ _ _ (by omega) h2
  exact ⟨c1 :: (ws ++ (t ++ c3 :: ws')), by simp, ws, t, ws', rfl, hws, hws', hl⟩

theorem brackets_readsAll {o c : P} {oc cc : Chr} {p : P} {L : List Chr → Val → Prop}
    {cont : Chr → Bool} (hs : E.SupportsNth 3) (ho : ReadsOp E o [oc]) (hc : ReadsOp E c [cc])
    (hp : ReadsAll E p L cont) (hcc : cont cc = false)
    (hL : ∀ t v, L t v → beginsWith spaceChar t = false ∧ t ≠ []) :
    ReadsAll E (.middleOf o p c) (fun t v => ∃ ws t' ws', t = oc :: (ws ++ (t' ++ cc :: ws')) ∧
      AllSpace ws ∧ AllSpace ws' ∧ L t' v) spaceChar := by
  rintro _ v s' pos ⟨ws, t, ws', rfl, hws, hws', hl⟩ hb
  obtain ⟨h1, h2⟩ := hL t v hl
  obtain ⟨pos1, a1⟩ := ho.accepts (c := oc) (ws := ws) (s' := t ++ cc :: (ws' ++ s')) pos (by simp) hws
    (by rw [beginsWith_append h2]; exact h1)
  obtain ⟨pos2, a2⟩ := hp t v (cc :: (ws' ++ s')) pos1 hl hcc
  obtain ⟨pos3, a3⟩ := hc.accepts (c := cc) (ws := ws') (s' := s') pos2 (by simp) hws' hb
  exact ⟨pos3, (C25_middleOf_accepts _ _ _ hs ..).2 ⟨_, _, .cons (s1 := t ++ cc :: (ws' ++ s'))
    (pos1 := pos1) (by simpa using a1) (.cons a2 (.cons a3 (.nil ..)))⟩⟩

theorem brackets_beginsIn {o c : P} {oc : Chr} {p : P} (hs : E.SupportsNth 3)
    (ho : ReadsOp E o [oc]) : BeginsIn E (.middleOf o p c) [oc].contains := by
  intro s pos hb
  obtain ⟨m, hr⟩ := ho.rejects pos hb
  exact ⟨m, (C25_middleOf_rejects _ _ _ hs ..).2 (.inl ⟨[], _, _, [], s, pos, rfl, .nil .., hr⟩)⟩

/-! ## Numbers as values -/

/-- The values of formulas without the variable, as the calculators represent them. -/
def ValueOf (e : Formula) (v : Val) : Prop := ∃ k, e.value 0 = some k ∧ v = .int k

theorem option_bind_eq {α β : Type} {o : Option α} {f : α → Option β} {b : β} :
    o.bind f = some b ↔ ∃ a, o = some a ∧ f a = some b := by
  cases o <;> simp

theorem valueOf_represents : RepresentsOps ValueOf Calc.evalMult Calc.evalPlus where
  forced := by rintro e v ⟨k, -, rfl⟩; rfl
  mul := by
    rintro a b x y z ⟨i, hi, rfl⟩ ⟨j, hj, rfl⟩
    rw [evalMult_times, ofOption_eq_ok]
    simp [ValueOf, Formula.value, hi, hj]
  div := by
    rintro a b x y z ⟨i, hi, rfl⟩ ⟨j, hj, rfl⟩
    rw [evalMult_over]
    by_cases h0 : j = 0
    · simp [ValueOf, Formula.value, hi, hj, h0]
    · rw [if_neg h0, ofOption_eq_ok]
      simp [ValueOf, Formula.value, hi, hj, h0]
  add := by
    rintro a b x y z ⟨i, hi, rfl⟩ ⟨j, hj, rfl⟩
    rw [evalPlus_plus, ofOption_eq_ok]
    simp [ValueOf, Formula.value, hi, hj]
  sub := by
    rintro a b x y z ⟨i, hi, rfl⟩ ⟨j, hj, rfl⟩
    rw [evalPlus_minus, ofOption_eq_ok]
    simp [ValueOf, Formula.value, hi, hj]
  ofMul := by
    rintro a b z ⟨k, hk, rfl⟩
    obtain ⟨m, hm, hk⟩ := option_bind_eq.1 hk
    obtain ⟨n, hn, hk⟩ := option_bind_eq.1 hk
    exact ⟨⟨_, m, hm, rfl⟩, _, n, hn, rfl⟩
  ofDiv := by
    rintro a b z ⟨k, hk, rfl⟩
    obtain ⟨m, hm, hk⟩ := option_bind_eq.1 hk
    obtain ⟨n, hn, hk⟩ := option_bind_eq.1 hk
    exact ⟨⟨_, m, hm, rfl⟩, _, n, hn, rfl⟩
  ofAdd := by
    rintro a b z ⟨k, hk, rfl⟩
    obtain ⟨m, hm, hk⟩ := option_bind_eq.1 hk
    obtain ⟨n, hn, hk⟩ := option_bind_eq.1 hk
    exact ⟨⟨_, m, hm, rfl⟩, _, n, hn, rfl⟩
  ofSub := by
    rintro a b z ⟨k, hk, rfl⟩
    obtain ⟨m, hm, hk⟩ := option_bind_eq.1 hk
    obtain ⟨n, hn, hk⟩ := option_bind_eq.1 hk
    exact ⟨⟨_, m, hm, rfl⟩, _, n, hn, rfl⟩

theorem fits_eq_some {n k : Int} : fits n = some k ↔ k = n ∧ -2147483648 ≤ n ∧ n ≤ 2147483647 := by
  unfold fits
  by_cases h : -2147483648 ≤ n ∧ n ≤ 2147483647
  · rw [if_pos h]; simp [h, eq_comm]
  · rw [if_neg h]; simp [h]

theorem decimal_fits {w : List Chr} (hw : ∀ c ∈ w, digitChar c = true)
    (hle : decimal w ≤ 2147483647) : fits (decimal w) = some (decimal w) := by
  have := decimal_nonneg hw
  exact fits_eq_some.2 ⟨rfl, by omega, hle⟩

/-- A number is an operand with a value. -/
theorem intText_value {t : List Chr} {v : Val} (h : IntText t v) : FormulaLang b a ValueOf 2 t v := by
  obtain ⟨w, ws, rfl, hne, hw, hws, hle, rfl⟩ := h
  exact ⟨_, .num hne hw hws, _, decimal_fits hw hle, rfl⟩

end Metaparse
