import Verif.Lemmas.Typing
import Verif.Model.GettingStarted
import Verif.Model.Calculators
/-!
# Types of the parsers of the library and of the examples
-/

namespace Metaparse

variable {E : Env (List Chr)} {Γ : Nat → Option (Val → Prop)} {F : Fault → Prop} {T A B : Val → Prop}

theorem GivesType.of_force {v w : Val} (h : v.force = .ok w) (hw : T w) : GivesType F T v :=
  ⟨fun w' h' => by rw [h] at h'; cases h'; exact hw, fun f hf => by rw [h] at hf; cases hf⟩

/-- What an outcome has to give for `Val.ofOut` of it. -/
theorem GivesType.ofOut {o : Out Val} (hok : ∀ v, o = .ok v → v.force = .ok v ∧ T v) (hill : ∀ f, o = .ill f → F f)
    (hdeep : o ≠ .deep) : GivesType F T (Val.ofOut o) := by
  cases o with
  | ok v => exact .of_force (hok v rfl).1 (hok v rfl).2
  | ill f => exact ⟨fun w hw => (by cases hw), fun g hg => (by cases hg; exact hill f rfl)⟩
  | deep => exact absurd rfl hdeep

/-- The results are digits. -/
def IsDigitChr (v : Val) : Prop := ∃ c, ch '0' ≤ c ∧ c ≤ ch '9' ∧ v = .chr c

theorem HasType.digit : HasType E Γ F P.digit IsDigitChr := by
  refine .weaken (.acceptWhen (.changeErrorMessage .oneChar) fun v f hv hf => ?_) fun v hv => ?_
  · obtain ⟨d, rfl⟩ := hv
    cases hf
  · obtain ⟨⟨d, rfl⟩, hd⟩ := hv
    simp only [isDigit, inRangeC, value_chr, Out.bind, Out.ok.injEq, Bool.and_eq_true, decide_eq_true_eq] at hd
    exact ⟨d, hd.1, hd.2, rfl⟩

theorem digitToInt_digit {v : Val} (h : IsDigitChr v) :
    ∃ k : Int, 0 ≤ k ∧ k ≤ 9 ∧ digitToInt v = .int k := by
  obtain ⟨c, h0, h9, rfl⟩ := h
  have h0' : (48 : Int) ≤ c := h0
  have h9' : c ≤ (57 : Int) := h9
  have : c = 48 ∨ c = 49 ∨ c = 50 ∨ c = 51 ∨ c = 52 ∨ c = 53 ∨ c = 54 ∨ c = 55 ∨ c = 56 ∨ c = 57 := by omega
  rcases this with rfl | rfl | rfl | rfl | rfl | rfl | rfl | rfl | rfl | rfl
  · exact ⟨0, by decide, by decide, rfl⟩
  · exact ⟨1, by decide, by decide, rfl⟩
  · exact ⟨2, by decide, by decide, rfl⟩
  · exact ⟨3, by decide, by decide, rfl⟩
  · exact ⟨4, by decide, by decide, rfl⟩
  · exact ⟨5, by decide, by decide, rfl⟩
  · exact ⟨6, by decide, by decide, rfl⟩
  · exact ⟨7, by decide, by decide, rfl⟩
  · exact ⟨8, by decide, by decide, rfl⟩
  · exact ⟨9, by decide, by decide, rfl⟩

/-- The results are numbers that an `int` can hold. -/
def IsInt (v : Val) : Prop := ∃ k, v = .int k ∧ intMin ≤ k ∧ k ≤ intMax

theorem IsInt.value {v : Val} (h : IsInt v) : ∃ k, v.value = .ok k ∧ v.force = .ok v := by
  obtain ⟨k, rfl, -⟩ := h
  exact ⟨k, rfl, rfl⟩

theorem IsInt.force {v : Val} (h : IsInt v) : v.force = .ok v := by
  obtain ⟨k, rfl, -⟩ := h
  rfl

theorem HasType.digitVal : HasType E Γ F P.digitVal IsInt := by
  refine .transform .digit fun v hv => ?_
  obtain ⟨k, h0, h9, hk⟩ := digitToInt_digit hv
  rw [hk]
  exact .of_force rfl ⟨k, rfl, by unfold intMin; omega, by unfold intMax; omega⟩

/-- A number computed from numbers. -/
theorem gives_intC (hF : F .overflow) (n : Int) :
    GivesType F IsInt (Val.ofOut ((intC n).bind fun z => .ok (.int z))) := by
  unfold intC
  split
  · next h => exact .of_force rfl ⟨n, rfl, h.1, h.2⟩
  · exact ⟨fun w hw => (by cases hw), fun g hg => (by cases hg; exact hF)⟩

theorem gives_nextDigit (hF : F .overflow) {x d : Val} (hx : IsInt x) (hd : IsInt d) :
    GivesType F IsInt (nextDigit x d) := by
  obtain ⟨k, rfl, -⟩ := hx
  obtain ⟨l, rfl, -⟩ := hd
  simp only [nextDigit, Val.value, Val.force, Out.bind]
  cases hy : intC (k * 10) with
  | ok y => exact gives_intC hF (y + l)
  | ill f =>
    unfold intC at hy
    split at hy
    · cases hy
    · cases hy
      exact ⟨fun w hw => (by cases hw), fun g hg => (by cases hg; exact hF)⟩
  | deep =>
    unfold intC at hy
    split at hy <;> cases hy

theorem HasType.int_ (hF : F .overflow) : HasType E Γ F P.int_ IsInt :=
  .ifAccepts .digitVal (.foldl .digitVal (.of_force rfl ⟨0, rfl, by decide, by decide⟩)
    fun _ _ hx hr => gives_nextDigit hF hx hr)

/-- The results are sequences of elements of one type. -/
def IsSeqOf (A : Val → Prop) (v : Val) : Prop := ∃ vs, v = .seq vs ∧ ∀ x ∈ vs, A x

theorem HasType.repeated {p : P} (h : HasType E Γ F p A) : HasType E Γ F (P.repeated p) (IsSeqOf A) := by
  refine .foldl h (.of_force rfl ⟨[], rfl, by simp⟩) ?_
  rintro _ r ⟨vs, rfl, hvs⟩ hr
  refine .of_force rfl ⟨vs ++ [r], rfl, fun x hx => ?_⟩
  rcases List.mem_append.1 hx with hx | hx
  · exact hvs x hx
  · rw [List.mem_singleton.1 hx]
    exact hr

theorem HasType.space : HasType E Γ F P.space IsChr := by
  refine .weaken (.acceptWhen .oneChar fun v f hv hf => ?_) fun v hv => hv.1
  obtain ⟨d, rfl⟩ := hv
  cases hf

/-- Two types by position. -/
def two (A B : Val → Prop) : Nat → Val → Prop
  | 0 => A
  | _ => B

theorem HasType.two {p q : P} (hp : HasType E Γ F p A) (hq : HasType E Γ F q B) :
    ∀ i r, [p, q][i]? = some r → HasType E Γ F r (Metaparse.two A B i)
  | 0, _, h => by cases h; exact hp
  | 1, _, h => by cases h; exact hq

/-- `first_of` with two parsers. -/
theorem HasType.firstOf2 {p q : P} (hs : E.SupportsNth 2) (hp : HasType E Γ F p T) (hq : HasType E Γ F q B) :
    HasType E Γ F (P.firstOf [p, q]) T := .nthOfC (Metaparse.two T B) hs (.two hp hq)

theorem HasType.token {p : P} (hs : E.SupportsNth 2) (hp : HasType E Γ F p T) : HasType E Γ F (P.token p) T :=
  .firstOf2 hs hp (.repeated .space)

/-- `last_of` with two parsers. -/
theorem HasType.lastOf2 {p q : P} (hs : E.SupportsNth 2) (hp : HasType E Γ F p B) (hq : HasType E Γ F q T) :
    HasType E Γ F (.lastOf [p, q]) T := .lastOf (Metaparse.two B T) hs (.two hp hq)

theorem HasType.entireInput {p : P} {m : Msg} (hs : E.SupportsNth 2) (hp : HasType E Γ F p T) :
    HasType E Γ F (P.entireInput p m) T := by
  have he : HasType E Γ F (.empty .cvoid) fun _ => True := .empty trivial
  unfold P.entireInput
  split
  · exact .firstOf2 hs hp he
  · exact .firstOf2 hs hp (.changeErrorMessage he)

/-- `sequence` with two parsers. -/
theorem HasType.sequence2 {p q : P} (hs : E.SupportsSequence 2) (hp : HasType E Γ F p A) (hq : HasType E Γ F q B) :
    HasType E Γ F (.sequence [p, q]) fun v => ∃ a b, v = .seq [a, b] ∧ A a ∧ B b := by
  refine .weaken (.sequence (Metaparse.two A B) hs (.two hp hq)) ?_
  rintro v ⟨vs, rfl, hl, h⟩
  match vs, hl, h with
  | [a, b], _, h => exact ⟨a, b, rfl, h 0 a rfl, h 1 b rfl⟩

/-! ## Expressions -/

/-- The results are some of these characters. -/
def IsOneOf (cs : List Chr) (v : Val) : Prop := ∃ c ∈ cs, v = .chr c

/-- The errors of arithmetic. -/
def IsArithmetic (f : Fault) : Prop := f = .overflow ∨ f = .divByZero

theorem HasType.opToken (hs : E.SupportsNth 2) {c : Chr} {cs : List Chr} (hc : c ∈ cs) :
    HasType E Γ F (P.token (P.litC c)) (IsOneOf cs) := .token hs (.weaken (.litC c) fun _ hv => ⟨c, hc, hv⟩)

theorem HasType.ops (hs : E.SupportsNth 2) {cs : List Chr} (ho : E.SupportsOneOf cs.length) :
    HasType E Γ F (.oneOf (cs.map fun c => P.token (P.litC c))) (IsOneOf cs) := by
  refine .oneOf (by simpa using ho) fun p hp => ?_
  obtain ⟨c, hc, rfl⟩ := List.mem_map.1 hp
  exact .opToken hs hc

theorem gives_arith (hF : F .overflow) (f : Int → Int → Int) {a b : Val} (ha : IsInt a) (hb : IsInt b) :
    GivesType F IsInt (Val.ofOut (Calc.arith f a b)) := by
  obtain ⟨x, rfl, -⟩ := ha
  obtain ⟨y, rfl, -⟩ := hb
  exact gives_intC hF (f x y)

theorem gives_divides (hF : F .overflow) (hZ : F .divByZero) {a b : Val} (ha : IsInt a) (hb : IsInt b) :
    GivesType F IsInt (Val.ofOut (Calc.divides a b)) := by
  obtain ⟨x, rfl, -⟩ := ha
  obtain ⟨y, rfl, -⟩ := hb
  simp only [Calc.divides, Val.value, Val.force, Out.bind]
  split
  · exact ⟨fun w hw => (by cases hw), fun g hg => (by cases hg; exact hZ)⟩
  · exact gives_intC hF (x.tdiv y)

theorem gives_negate (hF : F .overflow) {a : Val} (ha : IsInt a) : GivesType F IsInt (Val.ofOut (Calc.negate a)) := by
  obtain ⟨x, rfl, -⟩ := ha
  exact gives_intC hF (-x)

/-- Two results: an operator and a number. -/
def IsItem (v : Val) : Prop := ∃ a b, v = .seq [a, b] ∧ IsOneOf [ch '+', ch '-', ch '*', ch '/'] a ∧ IsInt b

theorem HasType.item {o p : P} {cs : List Chr} (hs : E.SupportsSequence 2) (ho : HasType E Γ F o (IsOneOf cs))
    (hcs : ∀ c ∈ cs, c ∈ [ch '+', ch '-', ch '*', ch '/']) (hp : HasType E Γ F p IsInt) :
    HasType E Γ F (.sequence [o, p]) IsItem := by
  refine .weaken (.sequence2 hs ho hp) ?_
  rintro v ⟨a, b, rfl, ⟨c, hc, rfl⟩, hb⟩
  exact ⟨_, b, rfl, ⟨c, hcs c hc, rfl⟩, hb⟩

theorem gives_evalBinaryOp {a b : Val} {c : Chr} (ha : IsInt a) (hb : IsInt b)
    (hc : c ∈ [ch '+', ch '-', ch '*', ch '/']) :
    GivesType IsArithmetic IsInt (Val.ofOut (Tutorial.evalBinaryOp a c b)) := by
  unfold Tutorial.evalBinaryOp
  simp only [List.mem_cons, List.not_mem_nil, or_false] at hc
  split
  · exact gives_arith (.inl rfl) _ ha hb
  split
  · exact gives_arith (.inl rfl) _ ha hb
  split
  · exact gives_arith (.inl rfl) _ ha hb
  split
  · exact gives_divides (.inl rfl) (.inr rfl) ha hb
  · next h1 h2 h3 h4 => exact absurd hc (by simp [h1, h2, h3, h4])

theorem gives_binaryOp {s item : Val} (hs : IsInt s) (hi : IsItem item) :
    GivesType IsArithmetic IsInt (Tutorial.binaryOp s item) := by
  obtain ⟨_, b, rfl, ⟨c, hc, rfl⟩, hb⟩ := hi
  exact gives_evalBinaryOp hs hb hc

theorem gives_sumItems {s item : Val} (hs : IsInt s) (hi : IsItem item) :
    GivesType IsArithmetic IsInt (Tutorial.sumItems s item) := by
  obtain ⟨_, b, rfl, ⟨c, hc, rfl⟩, hb⟩ := hi
  exact gives_arith (.inl rfl) _ hs hb

theorem gives_evalPlus {s item : Val} (hs : IsInt s) (hi : IsItem item) :
    GivesType IsArithmetic IsInt (Calc.evalPlus s item) := by
  obtain ⟨_, b, rfl, ⟨c, hc, rfl⟩, hb⟩ := hi
  simp only [Calc.evalPlus, Calc.back, Calc.front, hs.force, Out.bind, List.getLast?, List.getLast, value_chr]
  split
  · exact gives_arith (.inl rfl) _ hs hb
  · exact gives_arith (.inl rfl) _ hs hb

theorem gives_evalMult {s item : Val} (hs : IsInt s) (hi : IsItem item) :
    GivesType IsArithmetic IsInt (Calc.evalMult s item) := by
  obtain ⟨_, b, rfl, ⟨c, hc, rfl⟩, hb⟩ := hi
  simp only [Calc.evalMult, Calc.back, Calc.front, hs.force, Out.bind, List.getLast?, List.getLast, value_chr]
  split
  · exact gives_arith (.inl rfl) _ hs hb
  · exact gives_divides (.inl rfl) (.inr rfl) hs hb

theorem gives_evalUnaryPlus {s o : Val} {cs : List Chr} (hs : IsInt s) (ho : IsOneOf cs o) :
    GivesType IsArithmetic IsInt (Calc.evalUnaryPlus s o) := by
  obtain ⟨c, hc, rfl⟩ := ho
  simp only [Calc.evalUnaryPlus, hs.force, Out.bind, value_chr]
  split
  · exact .of_force hs.force hs
  · exact gives_negate (.inl rfl) hs

theorem gives_int {F : Fault → Prop} {v : Val} (h : IsInt v) : GivesType F IsInt v := .of_force h.force h

end Metaparse
