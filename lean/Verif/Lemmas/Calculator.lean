import Verif.Spec.Calculator
import Verif.Lemmas.GrammarRules
/-!
# The calculator accepts exactly the expressions
-/

namespace Metaparse

variable {E : Env (List Chr)}

namespace Env.Calculates

theorem nth3 (h : E.Calculates) : E.SupportsNth 3 := h.limSequence
theorem nth2 (h : E.Calculates) : E.SupportsNth 2 := fun e => Nat.lt_trans (by decide) (h.nth3 e)
theorem seq2 (h : E.Calculates) : E.SupportsSequence 2 := fun e => ⟨Nat.lt_trans (by decide) (h.nth2 e), h.nth2 e⟩
theorem oneOf2 (h : E.Calculates) : E.SupportsOneOf 2 := h.limOneOf

end Env.Calculates

/-! ## Tokens -/

theorem CTokens.one {s : List Chr} {t : CTok} {s' : List Chr} :
    CTokens s [t] s' ↔ ∃ w ws, s = w ++ ws ++ s' ∧ t.Written w ∧ (∀ c ∈ ws, spaceChar c = true) ∧
      beginsWith spaceChar s' = false ∧
      ((∃ n, t = .num n) → ws = [] → beginsWith digitChar s' = false) := by
  constructor
  · rintro (_ | ⟨h1, h2, h3, h4, h5⟩)
    cases h5
    exact ⟨_, _, rfl, h1, h2, h3, h4⟩
  · rintro ⟨w, ws, rfl, h1, h2, h3, h4⟩
    exact .cons h1 h2 h3 h4 (.nil _)

theorem CTokens.head {s : List Chr} {t : CTok} {ts : List CTok} {s' : List Chr} :
    CTokens s (t :: ts) s' ↔ ∃ s1, CTokens s [t] s1 ∧ CTokens s1 ts s' := by
  constructor
  · rintro (_ | ⟨h1, h2, h3, h4, h5⟩)
    exact ⟨_, .cons h1 h2 h3 h4 (.nil _), h5⟩
  · rintro ⟨s1, h, h'⟩
    obtain ⟨w, ws, rfl, h1, h2, h3, h4⟩ := CTokens.one.1 h
    exact .cons h1 h2 h3 h4 h'

theorem CTokens.append {ts us : List CTok} : ∀ {s s' : List Chr},
    CTokens s (ts ++ us) s' ↔ ∃ s1, CTokens s ts s1 ∧ CTokens s1 us s' := by
  induction ts with
  | nil =>
    intro s s'
    constructor
    · intro h; exact ⟨s, .nil _, h⟩
    · rintro ⟨s1, h, h'⟩; cases h; exact h'
  | cons t ts ih =>
    intro s s'
    rw [List.cons_append, CTokens.head]
    constructor
    · rintro ⟨s1, h1, h2⟩
      obtain ⟨s2, h3, h4⟩ := ih.1 h2
      exact ⟨s2, CTokens.head.2 ⟨s1, h1, h3⟩, h4⟩
    · rintro ⟨s2, h1, h2⟩
      obtain ⟨s1, h3, h4⟩ := CTokens.head.1 h1
      exact ⟨s1, h3, ih.2 ⟨s2, h4, h2⟩⟩

theorem CTok.Written.ne_nil {t : CTok} {w : List Chr} (h : t.Written w) : w ≠ [] := by
  cases h <;> first | assumption | simp

theorem CTokens.length_le {ts : List CTok} : ∀ {s s' : List Chr}, CTokens s ts s' →
    s'.length + ts.length ≤ s.length := by
  induction ts with
  | nil => intro s s' h; cases h; simp
  | cons t ts ih =>
    intro s s' h
    obtain ⟨s1, h1, h2⟩ := CTokens.head.1 h
    obtain ⟨w, ws, rfl, hw, -⟩ := CTokens.one.1 h1
    have := List.length_pos_iff.2 hw.ne_nil
    have := ih h2
    simp only [List.length_cons, List.length_append]
    omega

/-- The operator a token is. -/
inductive CTok.IsOp : CTok → Chr → Prop
  | plus : CTok.IsOp .plus (ch '+')
  | minus : CTok.IsOp .minus (ch '-')
  | times : CTok.IsOp .times (ch '*')
  | over : CTok.IsOp .over (ch '/')
  | open_ : CTok.IsOp .open_ (ch '(')
  | close : CTok.IsOp .close (ch ')')

theorem CTokens.op {t : CTok} {c : Chr} (ht : t.IsOp c) {s s' : List Chr} :
    CTokens s [t] s' ↔ ∃ ws, s = c :: (ws ++ s') ∧ (∀ c ∈ ws, spaceChar c = true) ∧
      beginsWith spaceChar s' = false := by
  rw [CTokens.one]
  constructor
  · rintro ⟨w, ws, rfl, h1, h2, h3, -⟩
    refine ⟨ws, ?_, h2, h3⟩
    cases ht <;> cases h1 <;> simp
  · rintro ⟨ws, rfl, h2, h3⟩
    refine ⟨[c], ws, by simp, ?_, h2, h3, ?_⟩
    · cases ht <;> constructor
    · rintro ⟨n, rfl⟩; cases ht

theorem CTokens.op_begins {t : CTok} {c : Chr} (ht : t.IsOp c) {ts : List CTok} {s s' : List Chr}
    (h : CTokens s (t :: ts) s') (cls : Chr → Bool) : beginsWith cls s = cls c := by
  obtain ⟨s1, h1, -⟩ := CTokens.head.1 h
  obtain ⟨ws, rfl, -⟩ := (CTokens.op ht).1 h1
  rfl

/-! ## Parsers of operators -/

/-- `p` reads one of the characters `ops` and the white space after it. -/
structure ReadsOp (E : Env (List Chr)) (p : P) (ops : List Chr) : Prop where
  accepts : ∀ {c ws s'} pos, c ∈ ops → (∀ c ∈ ws, spaceChar c = true) → beginsWith spaceChar s' = false →
    ∃ pos', Accepts E p (c :: (ws ++ s')) pos (.chr c) s' pos'
  sound : ∀ {s pos v s' pos'}, Accepts E p s pos v s' pos' →
    ∃ c ∈ ops, ∃ ws, s = c :: (ws ++ s') ∧ (∀ c ∈ ws, spaceChar c = true) ∧
      beginsWith spaceChar s' = false ∧ v = .chr c
  rejects : ∀ {s} pos, beginsWith ops.contains s = false → ∃ m, Rejects E p s pos m pos

theorem readsOp_token (hE : E.OnText) (hs : E.SupportsNth 2) (c : Chr) :
    ReadsOp E (.token (.litC c)) [c] where
  accepts := by
    intro d ws s' pos hd h2 h3
    simp at hd
    subst hd
    refine ⟨_, (C29_token_accepts hE hs ..).2 ⟨ws, moveOver pos [d], ?_, h2, h3, rfl⟩⟩
    exact (C28_lit hE d).1.accepts d (ws ++ s') pos (by simp)
  sound := by
    intro s pos v s' pos' h
    obtain ⟨ws, pos1, h, h2, h3, -⟩ := (C29_token_accepts hE hs ..).1 h
    cases s with
    | nil => exact (h.not_rejects ((C28_lit hE c).1.empty pos)).elim
    | cons d s =>
      by_cases hd : d = c
      · subst hd
        obtain ⟨rfl, rfl, -⟩ := h.unique ((C28_lit hE d).1.accepts d s pos (by simp))
        exact ⟨d, by simp, ws, rfl, h2, h3, rfl⟩
      · exact (h.not_rejects ((C28_lit hE c).1.other d s pos (by simp [hd]))).elim
  rejects := by
    intro s pos h
    obtain ⟨m, hr⟩ := (C28_lit hE c).1.rejects s pos (by
      cases s with
      | nil => rfl
      | cons d s => simpa [beginsWith] using h)
    exact ⟨m, (C29_token_rejects hE hs ..).2 hr⟩

theorem ReadsOp.finishes {p : P} {ops : List Chr} (h : ReadsOp E p ops) {c : Chr} {ws s' : List Chr}
    (pos : Pos) (hws : ∀ c ∈ ws, spaceChar c = true) (hs' : beginsWith spaceChar s' = false) :
    ∃ r, run E p (c :: (ws ++ s')) pos = .ok r := by
  by_cases hc : c ∈ ops
  · obtain ⟨pos', ha⟩ := h.accepts pos hc hws hs'
    exact ⟨_, ha⟩
  · obtain ⟨m, hr⟩ := h.rejects (s := c :: (ws ++ s')) pos (by simpa [beginsWith] using hc)
    exact ⟨_, hr⟩

theorem ReadsOp.oneOf {p q : P} {os os' : List Chr} (hs : E.SupportsOneOf 2) (h : ReadsOp E p os)
    (h' : ReadsOp E q os') : ReadsOp E (.oneOf [p, q]) (os ++ os') where
  accepts := by
    intro c ws s' pos hc h2 h3
    have hfin : AllFinish E [p, q] (c :: (ws ++ s')) pos := by
      intro r hr
      simp only [List.mem_cons, List.not_mem_nil, or_false] at hr
      rcases hr with rfl | rfl
      · exact h.finishes pos h2 h3
      · exact h'.finishes pos h2 h3
    by_cases h1 : c ∈ os
    · obtain ⟨pos', ha⟩ := h.accepts pos h1 h2 h3
      exact ⟨pos', (C19_oneOf_accepts _ hs ..).2 ⟨hfin, [], p, [q], rfl, by simp, ha⟩⟩
    · have hc' : c ∈ os' := by
        rcases List.mem_append.1 hc with hc | hc
        · exact absurd hc h1
        · exact hc
      obtain ⟨pos', ha⟩ := h'.accepts pos hc' h2 h3
      obtain ⟨m, hr⟩ := h.rejects (s := c :: (ws ++ s')) pos (by simpa [beginsWith] using h1)
      exact ⟨pos', (C19_oneOf_accepts _ hs ..).2
        ⟨hfin, [p], q, [], rfl, by simpa using ⟨m, pos, hr⟩, ha⟩⟩
  sound := by
    intro s pos v s' pos' ha
    obtain ⟨-, b, r, a, hl, -, hr⟩ := (C19_oneOf_accepts _ hs ..).1 ha
    have hm : r ∈ [p, q] := by rw [hl]; simp
    simp only [List.mem_cons, List.not_mem_nil, or_false] at hm
    rcases hm with rfl | rfl
    · obtain ⟨c, hc, h⟩ := h.sound hr
      exact ⟨c, by simp [hc], h⟩
    · obtain ⟨c, hc, h⟩ := h'.sound hr
      exact ⟨c, by simp [hc], h⟩
  rejects := by
    intro s pos hb
    have hb1 : beginsWith os.contains s = false ∧ beginsWith os'.contains s = false := by
      cases s with
      | nil => exact ⟨rfl, rfl⟩
      | cons c s => simpa [beginsWith] using hb
    obtain ⟨m1, hr1⟩ := h.rejects pos hb1.1
    obtain ⟨m2, hr2⟩ := h'.rejects pos hb1.2
    obtain ⟨m, e, hr⟩ := (C20_oneOf_rejects_iff [p, q] hs s pos).2 (by
      intro r hr
      simp only [List.mem_cons, List.not_mem_nil, or_false] at hr
      rcases hr with rfl | rfl
      · exact ⟨_, _, hr1⟩
      · exact ⟨_, _, hr2⟩)
    rcases (C20_oneOf_furthest _ _ _ _ _ hr).reached with rfl | ⟨r, hm, m', hr'⟩
    · exact ⟨m, hr⟩
    · simp only [List.mem_cons, List.not_mem_nil, or_false] at hm
      rcases hm with rfl | rfl
      · obtain ⟨-, rfl⟩ := hr'.unique hr1; exact ⟨m, hr⟩
      · obtain ⟨-, rfl⟩ := hr'.unique hr2; exact ⟨m, hr⟩

/-- The characters of the additive operators. -/
def addOps : List Chr := [ch '+', ch '-']
/-- The characters of the multiplicative operators. -/
def mulOps : List Chr := [ch '*', ch '/']

theorem reads_addOps (h : E.Calculates) :
    ReadsOp E (.oneOf [Calc.plusToken, Calc.minusToken]) addOps :=
  (readsOp_token h.onText h.nth2 _).oneOf h.oneOf2 (readsOp_token h.onText h.nth2 _)

theorem reads_mulOps (h : E.Calculates) :
    ReadsOp E (.oneOf [Calc.multToken, Calc.divToken]) mulOps :=
  (readsOp_token h.onText h.nth2 _).oneOf h.oneOf2 (readsOp_token h.onText h.nth2 _)

/-! ## Numbers -/

theorem digit_not_space {c : Chr} (h : spaceChar c = true) : digitChar c = false := by
  cases hd : digitChar c with
  | false => rfl
  | true =>
    have := nameChar_not_space (c := c) (by simp [nameChar, hd])
    rw [h] at this; cases this

theorem decimal_nonneg {w : List Chr} (h : ∀ c ∈ w, digitChar c = true) : 0 ≤ decimal w := by
  have key : ∀ (w : List Chr) (n : Int), 0 ≤ n → (∀ c ∈ w, digitChar c = true) →
      0 ≤ w.foldl (fun n c => 10 * n + (c - 48)) n := by
    intro w
    induction w with
    | nil => intro n hn _; exact hn
    | cons c w ih =>
      intro n hn hw
      refine ih _ ?_ fun d hd => hw d (by simp [hd])
      have := hw c (by simp)
      simp only [digitChar, Bool.and_eq_true, decide_eq_true_eq] at this
      show 0 ≤ 10 * n + (c - 48)
      omega
  exact key w 0 (Int.le_refl _) h

theorem intToken_sound (h : E.Calculates) {s : List Chr} {pos : Pos} {v : Val} {s' : List Chr}
    {pos' : Pos} (ha : Accepts E Calc.intToken s pos v s' pos') :
    ∃ n, v = .int n ∧ (AExp.num n).value = some n ∧ CTokens s [.num n] s' := by
  obtain ⟨ws, pos1, ha, h2, h3, -⟩ := (C29_token_accepts h.onText h.nth2 ..).1 ha
  obtain ⟨w, rfl, hne, hw, hb, rfl, hle, -⟩ := (C30_int_accepts h.onText ..).1 ha
  refine ⟨decimal w, rfl, ?_, CTokens.one.2 ⟨w, ws, by simp, .num hne hw, h2, h3, ?_⟩⟩
  · have := decimal_nonneg hw
    simp only [AExp.value, fits]
    rw [if_pos ⟨by omega, hle⟩]
  · rintro - rfl; exact hb

theorem intToken_accepts (h : E.Calculates) {s s' : List Chr} {n : Int} (pos : Pos)
    (ht : CTokens s [.num n] s') (hn : fits n = some k) :
    k = n ∧ ∃ pos', Accepts E Calc.intToken s pos (.int n) s' pos' := by
  obtain ⟨w, ws, rfl, hw, h2, h3, h4⟩ := CTokens.one.1 ht
  cases hw with
  | num hne hw =>
    simp only [fits] at hn
    by_cases hf : -2147483648 ≤ decimal w ∧ decimal w ≤ 2147483647
    · rw [if_pos hf] at hn
      cases hn
      refine ⟨rfl, _, (C29_token_accepts h.onText h.nth2 ..).2 ⟨ws, moveOver pos w, ?_, h2, h3, rfl⟩⟩
      refine (C30_int_accepts h.onText ..).2 ⟨w, by simp, hne, hw, ?_, rfl, hf.2, rfl⟩
      cases ws with
      | nil => exact h4 ⟨_, rfl⟩ rfl
      | cons c ws => exact digit_not_space (h2 c (by simp))
    · rw [if_neg hf] at hn; cases hn

theorem intToken_rejects (h : E.Calculates) {s : List Chr} (pos : Pos)
    (hb : beginsWith digitChar s = false) : Rejects E Calc.intToken s pos .digitExpected pos :=
  (C29_token_rejects h.onText h.nth2 ..).2 ((C30_int_rejects h.onText ..).2 ⟨hb, rfl, rfl⟩)

theorem CTokens.num_begins {n : Int} {ts : List CTok} {s s' : List Chr}
    (h : CTokens s (.num n :: ts) s') : beginsWith digitChar s = true := by
  obtain ⟨s1, h1, -⟩ := CTokens.head.1 h
  obtain ⟨w, ws, rfl, hw, -⟩ := CTokens.one.1 h1
  cases hw with
  | num hne hw =>
    cases w with
    | nil => exact absurd rfl hne
    | cons c w => exact hw c (by simp)

/-! ## The operations -/

theorem intC_eq (n : Int) : intC n = match fits n with | some k => .ok k | none => .ill .overflow := by
  unfold intC fits
  by_cases h : -2147483648 ≤ n ∧ n ≤ 2147483647
  · rw [if_pos h, if_pos (show intMin ≤ n ∧ n ≤ intMax from h)]
  · rw [if_neg h, if_neg (show ¬ (intMin ≤ n ∧ n ≤ intMax) from h)]

/-- The value of an operation. -/
def ofOption (f : Fault) : Option Int → Out Val
  | some k => .ok (.int k)
  | none => .ill f

theorem force_ofOption (f : Fault) (o : Option Int) :
    (Val.ofOut (ofOption f o)).force = ofOption f o := by
  cases o <;> rfl

theorem intC_bind (n : Int) : ((intC n).bind fun z => .ok (.int z)) = ofOption .overflow (fits n) := by
  rw [intC_eq]
  cases fits n <;> rfl

theorem evalPlus_plus (x y : Int) :
    (Calc.evalPlus (.int x) (.seq [.chr (ch '+'), .int y])).force
      = ofOption .overflow (fits (x + y)) := by
  refine Eq.trans ?_ (force_ofOption _ _)
  rw [← intC_bind]
  rfl

theorem evalPlus_minus (x y : Int) :
    (Calc.evalPlus (.int x) (.seq [.chr (ch '-'), .int y])).force
      = ofOption .overflow (fits (x - y)) := by
  refine Eq.trans ?_ (force_ofOption _ _)
  rw [← intC_bind]
  rfl

theorem evalMult_times (x y : Int) :
    (Calc.evalMult (.int x) (.seq [.chr (ch '*'), .int y])).force
      = ofOption .overflow (fits (x * y)) := by
  refine Eq.trans ?_ (force_ofOption _ _)
  rw [← intC_bind]
  rfl

theorem evalMult_over (x y : Int) :
    (Calc.evalMult (.int x) (.seq [.chr (ch '/'), .int y])).force
      = if y = 0 then .ill .divByZero else ofOption .overflow (fits (x.tdiv y)) := by
  have : Calc.evalMult (.int x) (.seq [.chr (ch '/'), .int y])
      = Val.ofOut (if y = 0 then .ill .divByZero else (intC (x.tdiv y)).bind fun z => .ok (.int z)) := rfl
  rw [this]
  by_cases hy : y = 0
  · rw [if_pos hy, if_pos hy]; rfl
  · rw [if_neg hy, if_neg hy, intC_bind, force_ofOption]

theorem evalUnary_plus (x : Int) :
    (Calc.evalUnaryPlus (.int x) (.chr (ch '+'))).force = .ok (.int x) := rfl

theorem evalUnary_minus (x : Int) :
    (Calc.evalUnaryPlus (.int x) (.chr (ch '-'))).force = ofOption .overflow (fits (-x)) := by
  refine Eq.trans ?_ (force_ofOption _ _)
  rw [← intC_bind]
  rfl

theorem ofOption_eq_ok {f : Fault} {o : Option Int} {v : Val} :
    ofOption f o = .ok v ↔ ∃ k, o = some k ∧ v = .int k := by
  cases o <;> simp [ofOption, eq_comm]

/-! ## Everything accepted is an expression with a value -/

/-- Up to length `n`, what `p` accepts is derived from `X`, and the result is the value. -/
def SoundAt (E : Env (List Chr)) (p : P) (X : CNonTerminal) (n : Nat) : Prop :=
  ∀ s pos v s' pos', s.length ≤ n → Accepts E p s pos v s' pos' →
    ∃ e ts k, v = .int k ∧ e.value = some k ∧ CTokens s ts s' ∧ CDerives X ts e

/-- Up to length `n`, what `p` accepts extends what is derived from `X`, the value being computed by
`op`. -/
def SoundStep (E : Env (List Chr)) (p : P) (op : Val → Val → Val) (X : CNonTerminal) (n : Nat) : Prop :=
  ∀ s pos v s' pos', s.length ≤ n → Accepts E p s pos v s' pos' →
    ∃ ts, CTokens s ts s' ∧ ∀ us x k y, CDerives X us x → x.value = some k →
      (op (.int k) v).force = .ok y →
      ∃ e k', y = .int k' ∧ e.value = some k' ∧ CDerives X (us ++ ts) e

theorem SoundStep.steps {p : P} {op : Val → Val → Val} {X : CNonTerminal} {n : Nat}
    (h : SoundStep E p op X n) {s : List Chr} {pos : Pos} {vs : List Val} {s' : List Chr} {pos' : Pos}
    (hst : Steps E p s pos vs s' pos') (hn : s.length ≤ n) :
    ∃ ts, CTokens s ts s' ∧ ∀ us x k y, CDerives X us x → x.value = some k →
      leftFold op (.int k) vs = .ok y →
      ∃ e k', y = .int k' ∧ e.value = some k' ∧ CDerives X (us ++ ts) e := by
  induction hst with
  | nil s pos =>
    refine ⟨[], .nil _, ?_⟩
    intro us x k y hd hv hf
    cases hf
    exact ⟨x, k, rfl, hv, by simpa using hd⟩
  | cons ha _ ih =>
    obtain ⟨ts, ht, hop⟩ := h _ _ _ _ _ hn ha
    have := ht.length_le
    obtain ⟨ts2, ht2, hop2⟩ := ih (by omega)
    refine ⟨ts ++ ts2, CTokens.append.2 ⟨_, ht, ht2⟩, ?_⟩
    intro us x k y hd hv hf
    obtain ⟨z, hz, hf⟩ := Out.bind_eq_ok.1 hf
    obtain ⟨e, k', rfl, hv', hd'⟩ := hop us x k z hd hv hz
    obtain ⟨e2, k2, rfl, hv2, hd2⟩ := hop2 _ e k' y hd' hv' hf
    exact ⟨e2, k2, rfl, hv2, by rwa [List.append_assoc] at hd2⟩

theorem SoundAt.fold {p sp : P} {op : Val → Val → Val} {X Y : CNonTerminal} {n : Nat}
    (hYX : ∀ ts e, CDerives Y ts e → CDerives X ts e) (h0 : SoundAt E sp Y n)
    (h : SoundStep E p op X n) : SoundAt E (.foldlRejectIncompleteStartWithParser p sp op) X n := by
  intro s pos v s' pos' hn ha
  obtain ⟨x, s0, pos0, vs, m, x', ha, hm, hx, hf⟩ :=
    (C18_foldl_reject_incomplete_start_with_parser ..).1 ha
  obtain ⟨e, ts, k, rfl, hv, ht, hd⟩ := h0 _ _ _ _ _ hn ha
  cases hx
  have := ht.length_le
  obtain ⟨ts2, ht2, hop⟩ := h.steps hm.1 (by omega)
  obtain ⟨e2, k2, rfl, hv2, hd2⟩ := hop ts e k v (hYX _ _ hd) hv hf
  exact ⟨e2, _, k2, rfl, hv2, CTokens.append.2 ⟨s0, ht, ht2⟩, hd2⟩

theorem InSequence.two {p q : P} {s : List Chr} {pos : Pos} {vs : List Val} {s' : List Chr} {pos' : Pos}
    (h : InSequence E [p, q] s pos vs s' pos') : ∃ a b s1 pos1, vs = [a, b] ∧
      Accepts E p s pos a s1 pos1 ∧ Accepts E q s1 pos1 b s' pos' := by
  cases h with
  | cons h1 h => cases h with
    | cons h2 h => cases h; exact ⟨_, _, _, _, rfl, h1, h2⟩

/-- The step of a left associative level: an operator, then something derived from `Y`. -/
theorem SoundAt.step {o p : P} {ops : List Chr} {op : Val → Val → Val} {X Y : CNonTerminal} {n : Nat}
    (h : E.Calculates) (ho : ReadsOp E o ops) (hp : SoundAt E p Y n)
    (hop : ∀ c ∈ ops, ∃ t, CTok.IsOp t c ∧ ∀ us x k ws y j z, CDerives X us x → x.value = some k →
      CDerives Y ws y → y.value = some j → (op (.int k) (.seq [.chr c, .int j])).force = .ok z →
      ∃ e k', z = .int k' ∧ e.value = some k' ∧ CDerives X (us ++ ([t] ++ ws)) e) :
    SoundStep E (.sequence [o, p]) op X n := by
  intro s pos v s' pos' hn ha
  obtain ⟨vs, hi, rfl⟩ := (C22_sequence_accepts _ h.seq2 ..).1 ha
  obtain ⟨a, b, s1, pos1, rfl, h1, h2⟩ := hi.two
  obtain ⟨c, hc, ws, rfl, hws, hs1, rfl⟩ := ho.sound h1
  obtain ⟨t, ht, hop⟩ := hop c hc
  obtain ⟨e, ts, k, rfl, hv, htk, hd⟩ := hp s1 pos1 b s' pos' (by
    simp only [List.length_cons, List.length_append] at hn; omega) h2
  refine ⟨[t] ++ ts, CTokens.append.2 ⟨s1, (CTokens.op ht).2 ⟨ws, rfl, hws, hs1⟩, htk⟩, ?_⟩
  intro us x j y hx hxv hy
  exact hop us x j ts e k y hx hxv hd hv hy

theorem run_plusExp (h : E.Calculates) (s : List Chr) (pos : Pos) :
    run E (.ref Calc.plusExpId) s pos = run E Calc.plusExp s pos := by
  rw [run_ref, h.plusExp]

theorem calc_sound (h : E.Calculates) : ∀ n, SoundAt E Calc.plusExp .plusExp n := by
  intro n
  induction n using Nat.strongRecOn with
  | ind n ih =>
    have hprim : SoundAt E (.oneOf [Calc.intToken, Calc.parenExp]) .primary n := by
      intro s pos v s' pos' hn ha
      obtain ⟨-, b, r, a, hl, -, hr⟩ := (C19_oneOf_accepts _ h.oneOf2 ..).1 ha
      have hm : r ∈ [Calc.intToken, Calc.parenExp] := by rw [hl]; simp
      simp only [List.mem_cons, List.not_mem_nil, or_false] at hm
      rcases hm with rfl | rfl
      · obtain ⟨k, rfl, hv, ht⟩ := intToken_sound h hr
        exact ⟨.num k, _, k, rfl, hv, ht, .num k⟩
      · obtain ⟨v1, v3, hi⟩ := (C25_middleOf_accepts _ _ _ h.nth3 ..).1 hr
        cases hi with
        | cons h1 hi => cases hi with
          | cons h2 hi => cases hi with
            | cons h3 hi =>
              cases hi
              obtain ⟨c, hc, ws, rfl, hws, hs1, rfl⟩ := (readsOp_token h.onText h.nth2 _).sound h1
              simp at hc; subst hc
              obtain ⟨c, hc, ws', rfl, hws', hs3, rfl⟩ := (readsOp_token h.onText h.nth2 _).sound h3
              simp at hc; subst hc
              simp only [List.length_cons, List.length_append] at hn
              obtain ⟨e, ts, k, rfl, hv, ht, hd⟩ := ih _ (by omega) _ _ _ _ _ (Nat.le_refl _)
                ((run_plusExp h ..).symm.trans h2)
              exact ⟨e, _, k, rfl, hv, CTokens.append.2 ⟨_, CTokens.append.2
                ⟨_, (CTokens.op .open_).2 ⟨ws, rfl, hws, hs1⟩, ht⟩,
                (CTokens.op .close).2 ⟨ws', rfl, hws', hs3⟩⟩, .bracket hd⟩
    have hsimple : SoundAt E Calc.simpleExp .simpleExp n := by
      intro s pos v s' pos' hn ha
      obtain ⟨vs, s0, pos0, m, e, x, ⟨hst, -⟩, hx, hf⟩ := (C18_foldr_start_with_parser ..).1 ha
      clear ha
      induction hst generalizing v with
      | nil s pos =>
        cases hf
        obtain ⟨e, ts, k, rfl, hv, ht, hd⟩ := hprim _ _ _ _ _ hn hx
        exact ⟨e, ts, k, rfl, hv, ht, .plain hd⟩
      | cons h1 _ ih =>
        obtain ⟨c, hc, ws, rfl, hws, hs1, rfl⟩ := (reads_addOps h).sound h1
        obtain ⟨y, hy, hf⟩ := Out.bind_eq_ok.1 hf
        simp only [List.length_cons, List.length_append] at hn
        obtain ⟨e, ts, k, rfl, hv, ht, hd⟩ := ih y (by omega) hx hy
        simp only [addOps, List.mem_cons, List.not_mem_nil, or_false] at hc
        rcases hc with rfl | rfl
        · rw [evalUnary_plus] at hf
          cases hf
          exact ⟨.pos e, _, k, rfl, hv, CTokens.append.2
            ⟨_, (CTokens.op .plus).2 ⟨ws, rfl, hws, hs1⟩, ht⟩, .pos hd⟩
        · rw [evalUnary_minus, ofOption_eq_ok] at hf
          obtain ⟨k', hk, rfl⟩ := hf
          exact ⟨.neg e, _, k', rfl, by simp [AExp.value, hv, hk], CTokens.append.2
            ⟨_, (CTokens.op .minus).2 ⟨ws, rfl, hws, hs1⟩, ht⟩, .neg hd⟩
    have hprod : SoundAt E Calc.prodExp .prodExp n := by
      refine SoundAt.fold (fun _ _ => .factor) hsimple (SoundAt.step h (reads_mulOps h) hsimple ?_)
      intro c hc
      simp only [mulOps, List.mem_cons, List.not_mem_nil, or_false] at hc
      rcases hc with rfl | rfl
      · refine ⟨.times, .times, ?_⟩
        intro us x k ws y j z hx hk hy hj hz
        rw [evalMult_times, ofOption_eq_ok] at hz
        obtain ⟨k', hk', rfl⟩ := hz
        exact ⟨.mul x y, k', rfl, by simp [AExp.value, hk, hj, hk'], .mul hx hy⟩
      · refine ⟨.over, .over, ?_⟩
        intro us x k ws y j z hx hk hy hj hz
        rw [evalMult_over] at hz
        by_cases h0 : j = 0
        · rw [if_pos h0] at hz; cases hz
        · rw [if_neg h0, ofOption_eq_ok] at hz
          obtain ⟨k', hk', rfl⟩ := hz
          exact ⟨.div x y, k', rfl, by simp [AExp.value, hk, hj, hk', h0], .div hx hy⟩
    refine SoundAt.fold (fun _ _ => .summand) hprod (SoundAt.step h (reads_addOps h) hprod ?_)
    intro c hc
    simp only [addOps, List.mem_cons, List.not_mem_nil, or_false] at hc
    rcases hc with rfl | rfl
    · refine ⟨.plus, .plus, ?_⟩
      intro us x k ws y j z hx hk hy hj hz
      rw [evalPlus_plus, ofOption_eq_ok] at hz
      obtain ⟨k', hk', rfl⟩ := hz
      exact ⟨.add x y, k', rfl, by simp [AExp.value, hk, hj, hk'], .add hx hy⟩
    · refine ⟨.minus, .minus, ?_⟩
      intro us x k ws y j z hx hk hy hj hz
      rw [evalPlus_minus, ofOption_eq_ok] at hz
      obtain ⟨k', hk', rfl⟩ := hz
      exact ⟨.sub x y, k', rfl, by simp [AExp.value, hk, hj, hk'], .sub hx hy⟩

/-! ## Every expression with a value is accepted -/

/-- What completeness says of each non-terminal symbol. -/
def CComplete (E : Env (List Chr)) (X : CNonTerminal) (ts : List CTok) (e : AExp) : Prop :=
  ∀ k s s' pos, e.value = some k → CTokens s ts s' →
    match X with
    | .primary => beginsWith addOps.contains s = false ∧
      ∃ pos', Accepts E (.oneOf [Calc.intToken, Calc.parenExp]) s pos (.int k) s' pos'
    | .simpleExp => ∃ pos', Accepts E Calc.simpleExp s pos (.int k) s' pos'
    | .prodExp =>
      ∃ x s0 pos0 vs pos', Accepts E Calc.simpleExp s pos (.int x) s0 pos0 ∧
        Steps E (.sequence [.oneOf [Calc.multToken, Calc.divToken], Calc.simpleExp]) s0 pos0 vs s' pos' ∧
        leftFold Calc.evalMult (.int x) vs = .ok (.int k)
    | .plusExp => beginsWith mulOps.contains s' = false →
      ∃ x s0 pos0 vs pos', Accepts E Calc.prodExp s pos (.int x) s0 pos0 ∧
        Steps E (.sequence [.oneOf [Calc.plusToken, Calc.minusToken], Calc.prodExp]) s0 pos0 vs s' pos' ∧
        leftFold Calc.evalPlus (.int x) vs = .ok (.int k)

theorem ReadsOp.sequence_rejects {o p : P} {ops : List Chr} (h : E.Calculates) (ho : ReadsOp E o ops)
    {s : List Chr} (pos : Pos) (hb : beginsWith ops.contains s = false) :
    ∃ m, Rejects E (.sequence [o, p]) s pos m pos := by
  obtain ⟨m, hr⟩ := ho.rejects pos hb
  exact ⟨m, (C22_sequence_rejects _ h.seq2 ..).2 ⟨[], _, _, [], s, pos, rfl, .nil .., hr⟩⟩

theorem CComplete.prod (h : E.Calculates) {ts : List CTok} {e : AExp}
    (hc : CComplete E .prodExp ts e) {k : Int} {s s' : List Chr} (pos : Pos) (hv : e.value = some k)
    (ht : CTokens s ts s') (hf : beginsWith mulOps.contains s' = false) :
    ∃ pos', Accepts E Calc.prodExp s pos (.int k) s' pos' := by
  obtain ⟨x, s0, pos0, vs, pos', h1, h2, h3⟩ := hc k s s' pos hv ht
  obtain ⟨m, hr⟩ := (reads_mulOps h).sequence_rejects h (p := Calc.simpleExp) pos' hf
  exact ⟨pos', (C18_foldl_reject_incomplete_start_with_parser ..).2
    ⟨_, s0, pos0, vs, m, _, h1, ⟨h2, hr⟩, rfl, h3⟩⟩

theorem CComplete.sum (h : E.Calculates) {ts : List CTok} {e : AExp}
    (hc : CComplete E .plusExp ts e) {k : Int} {s s' : List Chr} (pos : Pos) (hv : e.value = some k)
    (ht : CTokens s ts s') (hf : beginsWith mulOps.contains s' = false)
    (hf' : beginsWith addOps.contains s' = false) :
    ∃ pos', Accepts E Calc.plusExp s pos (.int k) s' pos' := by
  obtain ⟨x, s0, pos0, vs, pos', h1, h2, h3⟩ := hc k s s' pos hv ht hf
  obtain ⟨m, hr⟩ := (reads_addOps h).sequence_rejects h (p := Calc.prodExp) pos' hf'
  exact ⟨pos', (C18_foldl_reject_incomplete_start_with_parser ..).2
    ⟨_, s0, pos0, vs, m, _, h1, ⟨h2, hr⟩, rfl, h3⟩⟩

theorem option_bind_eq_some' {α β : Type} {o : Option α} {f : α → Option β} {b : β}
    (h : o.bind f = some b) : ∃ a, o = some a ∧ f a = some b := by
  cases o with
  | none => cases h
  | some a => exact ⟨a, rfl, h⟩

/-- An operator, and then something. -/
theorem ReadsOp.sequence_accepts {o p : P} {ops : List Chr} (h : E.Calculates) (ho : ReadsOp E o ops)
    {t : CTok} {c : Chr} (ht : t.IsOp c) (hc : c ∈ ops) {s s1 s' : List Chr} (pos : Pos) {v : Val}
    (hs : CTokens s [t] s1) (hp : ∀ pos1, ∃ pos', Accepts E p s1 pos1 v s' pos') :
    ∃ pos', Accepts E (.sequence [o, p]) s pos (.seq [.chr c, v]) s' pos' := by
  obtain ⟨ws, rfl, h1, h2⟩ := (CTokens.op ht).1 hs
  obtain ⟨pos1, ha⟩ := ho.accepts pos hc h1 h2
  obtain ⟨pos', ha'⟩ := hp pos1
  exact ⟨pos', (C22_sequence_accepts _ h.seq2 ..).2 ⟨_, .cons ha (.cons ha' (.nil ..)), rfl⟩⟩

theorem simple_cons (h : E.Calculates) {t : CTok} {c : Chr} (ht : t.IsOp c) (hc : c ∈ addOps)
    {s s1 s' : List Chr} (pos : Pos) {j k : Int} (hs : CTokens s [t] s1)
    (hp : ∀ pos1, ∃ pos', Accepts E Calc.simpleExp s1 pos1 (.int j) s' pos')
    (hop : (Calc.evalUnaryPlus (.int j) (.chr c)).force = .ok (.int k)) :
    ∃ pos', Accepts E Calc.simpleExp s pos (.int k) s' pos' := by
  obtain ⟨ws, rfl, h1, h2⟩ := (CTokens.op ht).1 hs
  obtain ⟨pos1, ha⟩ := (reads_addOps h).accepts pos hc h1 h2
  obtain ⟨pos', ha'⟩ := hp pos1
  obtain ⟨vs, s0, pos0, m, e, x, hm, hx, hf⟩ := (C18_foldr_start_with_parser ..).1 ha'
  refine ⟨pos', (C18_foldr_start_with_parser ..).2
    ⟨.chr c :: vs, s0, pos0, m, e, x, ⟨.cons ha hm.1, hm.2⟩, hx, ?_⟩⟩
  simp only [rightFold, hf, Out.bind_ok, hop]

theorem calc_complete (h : E.Calculates) {X : CNonTerminal} {ts : List CTok} {e : AExp}
    (hd : CDerives X ts e) : CComplete E X ts e := by
  induction hd with
  | num n =>
    intro k s s' pos hv ht
    obtain ⟨rfl, pos', ha⟩ := intToken_accepts h pos ht hv
    have hb := ht.num_begins
    have hb' : ∀ c : Chr, digitChar c = false → beginsWith [c].contains s = false := by
      intro c hc
      cases s with
      | nil => rfl
      | cons d s =>
        simp only [beginsWith] at hb ⊢
        simp
        rintro rfl
        rw [hb] at hc; cases hc
    obtain ⟨m, hr⟩ := (readsOp_token h.onText h.nth2 (ch '(')).rejects pos (hb' _ (by decide))
    refine ⟨?_, pos', (C19_oneOf_accepts _ h.oneOf2 ..).2 ⟨?_, [], _, [_], rfl, by simp, ha⟩⟩
    · have h1 := hb' (ch '+') (by decide)
      have h2 := hb' (ch '-') (by decide)
      cases s with
      | nil => rfl
      | cons d s =>
        simp only [beginsWith, addOps] at *
        simp at *
        exact ⟨h1, h2⟩
    · intro p hp
      simp only [List.mem_cons, List.not_mem_nil, or_false] at hp
      rcases hp with rfl | rfl
      · exact ⟨_, ha⟩
      · exact ⟨_, (C25_middleOf_rejects _ _ _ h.nth3 ..).2
          (.inl ⟨[], _, _, [], s, pos, rfl, .nil .., hr⟩)⟩
  | bracket hd ih =>
    intro k s s' pos hv ht
    obtain ⟨s2, ht, ht3⟩ := CTokens.append.1 ht
    obtain ⟨s1, ht1, ht2⟩ := CTokens.append.1 ht
    have hb : beginsWith addOps.contains s = false := CTokens.op_begins .open_ ht1 _
    have hb' : beginsWith digitChar s = false := CTokens.op_begins .open_ ht1 _
    obtain ⟨ws, rfl, h1, h2⟩ := (CTokens.op .open_).1 ht1
    obtain ⟨pos1, ha1⟩ := (readsOp_token h.onText h.nth2 (ch '(')).accepts pos (List.mem_singleton.2 rfl) h1 h2
    obtain ⟨pos2, ha2⟩ := ih.sum h pos1 hv ht2 (CTokens.op_begins .close ht3 _)
      (CTokens.op_begins .close ht3 _)
    have ha2 : Accepts E (.ref Calc.plusExpId) s1 pos1 (.int k) s2 pos2 := (run_plusExp h ..).trans ha2
    obtain ⟨ws', rfl, h3, h4⟩ := (CTokens.op .close).1 ht3
    obtain ⟨pos3, ha3⟩ := (readsOp_token h.onText h.nth2 (ch ')')).accepts pos2 (List.mem_singleton.2 rfl) h3 h4
    have ha : Accepts E Calc.parenExp (ch '(' :: (ws ++ s1)) pos (.int k) s' pos3 :=
      (C25_middleOf_accepts _ _ _ h.nth3 ..).2 ⟨_, _, .cons ha1 (.cons ha2 (.cons ha3 (.nil ..)))⟩
    have hr := intToken_rejects h pos hb'
    refine ⟨hb, pos3, (C19_oneOf_accepts _ h.oneOf2 ..).2
      ⟨?_, [_], _, [], rfl, by simpa using ⟨_, _, hr⟩, ha⟩⟩
    intro p hp
    simp only [List.mem_cons, List.not_mem_nil, or_false] at hp
    rcases hp with rfl | rfl
    · exact ⟨_, hr⟩
    · exact ⟨_, ha⟩
  | plain hd ih =>
    intro k s s' pos hv ht
    obtain ⟨hb, pos', ha⟩ := ih k s s' pos hv ht
    obtain ⟨m, hr⟩ := (reads_addOps h).rejects pos hb
    exact ⟨pos', (C18_foldr_start_with_parser ..).2 ⟨[], s, pos, m, pos, _, ⟨.nil .., hr⟩, ha, rfl⟩⟩
  | pos hd ih =>
    intro k s s' pos hv ht
    obtain ⟨s1, ht1, ht2⟩ := CTokens.append.1 ht
    exact simple_cons h .plus (by simp [addOps]) pos ht1 (fun pos1 => ih k s1 s' pos1 hv ht2)
      (evalUnary_plus k)
  | neg hd ih =>
    intro k s s' pos hv ht
    obtain ⟨s1, ht1, ht2⟩ := CTokens.append.1 ht
    obtain ⟨j, hj, hv⟩ := option_bind_eq_some' hv
    exact simple_cons h .minus (by simp [addOps]) pos ht1 (fun pos1 => ih j s1 s' pos1 hj ht2)
      (by rw [evalUnary_minus, hv]; rfl)
  | factor hd ih =>
    intro k s s' pos hv ht
    obtain ⟨pos', ha⟩ := ih k s s' pos hv ht
    exact ⟨_, s', pos', [], pos', ha, .nil .., rfl⟩
  | mul _ _ ih1 ih2 =>
    intro k s s' pos hv ht
    obtain ⟨a, ha, hv⟩ := option_bind_eq_some' hv
    obtain ⟨b, hb, hv⟩ := option_bind_eq_some' hv
    obtain ⟨s1, ht1, ht⟩ := CTokens.append.1 ht
    obtain ⟨s2, ht2, ht3⟩ := CTokens.append.1 ht
    obtain ⟨x, s0, pos0, vs, pos1, h1, h2, h3⟩ := ih1 a s s1 pos ha ht1
    obtain ⟨pos2, h4⟩ := (reads_mulOps h).sequence_accepts h .times (by simp [mulOps]) pos1 ht2
      (fun pos => ih2 b s2 s' pos hb ht3)
    exact ⟨x, s0, pos0, _, pos2, h1, h2.snoc h4, by
      rw [leftFold_snoc, h3, Out.bind_ok, evalMult_times, hv]; rfl⟩
  | div _ _ ih1 ih2 =>
    intro k s s' pos hv ht
    obtain ⟨a, ha, hv⟩ := option_bind_eq_some' hv
    obtain ⟨b, hb, hv⟩ := option_bind_eq_some' hv
    obtain ⟨s1, ht1, ht⟩ := CTokens.append.1 ht
    obtain ⟨s2, ht2, ht3⟩ := CTokens.append.1 ht
    obtain ⟨x, s0, pos0, vs, pos1, h1, h2, h3⟩ := ih1 a s s1 pos ha ht1
    obtain ⟨pos2, h4⟩ := (reads_mulOps h).sequence_accepts h .over (by simp [mulOps]) pos1 ht2
      (fun pos => ih2 b s2 s' pos hb ht3)
    refine ⟨x, s0, pos0, _, pos2, h1, h2.snoc h4, ?_⟩
    rw [leftFold_snoc, h3, Out.bind_ok, evalMult_over]
    by_cases h0 : b = 0
    · rw [if_pos h0] at hv; cases hv
    · rw [if_neg h0] at hv ⊢
      rw [hv]; rfl
  | summand _ ih =>
    intro k s s' pos hv ht hf
    obtain ⟨pos', ha⟩ := ih.prod h pos hv ht hf
    exact ⟨_, s', pos', [], pos', ha, .nil .., rfl⟩
  | add _ _ ih1 ih2 =>
    intro k s s' pos hv ht hf
    obtain ⟨a, ha, hv⟩ := option_bind_eq_some' hv
    obtain ⟨b, hb, hv⟩ := option_bind_eq_some' hv
    obtain ⟨s1, ht1, ht⟩ := CTokens.append.1 ht
    obtain ⟨s2, ht2, ht3⟩ := CTokens.append.1 ht
    obtain ⟨x, s0, pos0, vs, pos1, h1, h2, h3⟩ := ih1 a s s1 pos ha ht1 (CTokens.op_begins .plus ht2 _)
    obtain ⟨pos2, h4⟩ := (reads_addOps h).sequence_accepts h .plus (by simp [addOps]) pos1 ht2
      (fun pos => ih2.prod h pos hb ht3 hf)
    exact ⟨x, s0, pos0, _, pos2, h1, h2.snoc h4, by
      rw [leftFold_snoc, h3, Out.bind_ok, evalPlus_plus, hv]; rfl⟩
  | sub _ _ ih1 ih2 =>
    intro k s s' pos hv ht hf
    obtain ⟨a, ha, hv⟩ := option_bind_eq_some' hv
    obtain ⟨b, hb, hv⟩ := option_bind_eq_some' hv
    obtain ⟨s1, ht1, ht⟩ := CTokens.append.1 ht
    obtain ⟨s2, ht2, ht3⟩ := CTokens.append.1 ht
    obtain ⟨x, s0, pos0, vs, pos1, h1, h2, h3⟩ := ih1 a s s1 pos ha ht1 (CTokens.op_begins .minus ht2 _)
    obtain ⟨pos2, h4⟩ := (reads_addOps h).sequence_accepts h .minus (by simp [addOps]) pos1 ht2
      (fun pos => ih2.prod h pos hb ht3 hf)
    exact ⟨x, s0, pos0, _, pos2, h1, h2.snoc h4, by
      rw [leftFold_snoc, h3, Out.bind_ok, evalPlus_minus, hv]; rfl⟩

end Metaparse
