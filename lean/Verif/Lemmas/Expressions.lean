import Verif.Lemmas.GettingStarted
/-!
# Reading the expressions of the tutorial
-/

namespace Metaparse

variable {E : Env (List Chr)}

/-- The texts in `T` that have a value, with the value. -/
def Values (T : List Chr → AExp → Prop) (t : List Chr) (v : Val) : Prop :=
  ∃ e k, T t e ∧ e.value = some k ∧ v = .int k

/-- If `p` gives an outcome for a text in `T`, then the text has a value, and the outcome is that it is
accepted with this value. `cont` are characters that may not follow. -/
def Decides (E : Env (List Chr)) (p : P) (T : List Chr → AExp → Prop) (cont : Chr → Bool) : Prop :=
  ∀ t e rest pos r, T t e → beginsWith cont rest = false → run E p (t ++ rest) pos = .ok r →
    ∃ k pos', e.value = some k ∧ r = .acc (.int k) rest pos'

theorem Decides.mono {p : P} {T T' : List Chr → AExp → Prop} {f g : Chr → Bool} (h : Decides E p T f)
    (hT : ∀ t e, T' t e → T t e) (hfg : ∀ c, f c = true → g c = true) : Decides E p T' g :=
  fun t e rest pos r ht hb hr => h t e rest pos r (hT t e ht) (beginsWith_mono hfg hb) hr

/-! ## Numbers -/

theorem Decides.intToken (hE : E.OnText) (hs : E.SupportsNth 2) :
    Decides E Tutorial.intToken (fun t e => ∃ n, NumberText t n ∧ e = .num n) numCont := by
  rintro t e rest pos r ⟨n, ht, rfl⟩ hb hr
  have hb' : beginsWith digitChar (t ++ rest) = true := by
    rw [beginsWith_append ht.begins.2.2]; exact ht.begins.1
  cases r with
  | rej m e => rw [((number_rejects hE hs).1 hr).1] at hb'; cases hb'
  | acc v s' pos' =>
    obtain ⟨u, k, hu, hk, rfl⟩ := takes_of_accepts hE hs hr
    have ht' : TakesNumber (t ++ rest) t n rest := by
      obtain ⟨w, ws, rfl, h1, h2, h3, rfl⟩ := ht
      refine ⟨w, ws, rfl, by simp, h1, h2, h3, rfl, ?_,
        beginsWith_mono (fun c hc => by simp [numCont, hc]) hb⟩
      cases ws with
      | nil => exact beginsWith_mono (fun c hc => by simp [numCont, hc]) hb
      | cons c ws => exact digit_not_space (h3 c (by simp))
    obtain ⟨rfl, rfl, rfl⟩ := takesNumber_unique hu ht'
    have := ht.nonneg
    exact ⟨k, pos', fits_eq_some.2 ⟨rfl, by omega, hk⟩, rfl⟩

theorem intText_values {t : List Chr} {v : Val} :
    IntText t v ↔ Values (fun t e => ∃ n, NumberText t n ∧ e = .num n) t v := by
  rw [intText_iff]
  constructor
  · rintro ⟨n, h1, h2, rfl⟩
    have := h1.nonneg
    exact ⟨_, n, ⟨n, h1, rfl⟩, fits_eq_some.2 ⟨rfl, by omega, h2⟩, rfl⟩
  · rintro ⟨_, k, ⟨n, h1, rfl⟩, hk, rfl⟩
    obtain ⟨rfl, -, hle⟩ := fits_eq_some.1 hk
    exact ⟨k, h1, hle, rfl⟩

/-! ## Left associative operators -/

/-- The expression that an operator makes of two. -/
def mkOp (c : Chr) (a b : AExp) : AExp :=
  if c = ch '+' then .add a b
  else if c = ch '-' then .sub a b
  else if c = ch '*' then .mul a b
  else .div a b

/-- Texts in `A` separated by operators, which associate to the left. -/
inductive LeftChain (A : List Chr → AExp → Prop) (ops : List Chr) : List Chr → AExp → Prop
  | one {t : List Chr} {e : AExp} : A t e → LeftChain A ops t e
  | more {t ws u : List Chr} {c : Chr} {a b : AExp} : LeftChain A ops t a → c ∈ ops → AllSpace ws →
      A u b → LeftChain A ops (t ++ c :: (ws ++ u)) (mkOp c a b)

/-- The operators of expressions. -/
def expOps : List Chr := [ch '+', ch '-', ch '*', ch '/']

theorem binaryOp_value {c : Chr} (hc : c ∈ expOps) {a b : AExp} {x y : Int} (ha : a.value = some x)
    (hb : b.value = some y) (v : Val) : (Tutorial.binaryOp (.int x) (.seq [.chr c, .int y])).force = .ok v ↔
      ∃ k, (mkOp c a b).value = some k ∧ v = .int k := by
  have h0 : ∀ (o : Option Int), (Val.ofOut (ofOption .overflow o)).force = ofOption .overflow o :=
    fun o => force_ofOption _ _
  simp only [expOps, List.mem_cons, List.not_mem_nil, or_false] at hc
  rcases hc with rfl | rfl | rfl | rfl
  · have : (mkOp (ch '+') a b).value = fits (x + y) := by
      show (AExp.add a b).value = _
      simp [AExp.value, ha, hb]
    rw [this, ← ofOption_eq_ok (f := .overflow), ← h0, ← intC_bind]
    exact Iff.rfl
  · have : (mkOp (ch '-') a b).value = fits (x - y) := by
      show (AExp.sub a b).value = _
      simp [AExp.value, ha, hb]
    rw [this, ← ofOption_eq_ok (f := .overflow), ← h0, ← intC_bind]
    exact Iff.rfl
  · have : (mkOp (ch '*') a b).value = fits (x * y) := by
      show (AExp.mul a b).value = _
      simp [AExp.value, ha, hb]
    rw [this, ← ofOption_eq_ok (f := .overflow), ← h0, ← intC_bind]
    exact Iff.rfl
  · have h1 : (mkOp (ch '/') a b).value = if y = 0 then none else fits (x.tdiv y) := by
      show (AExp.div a b).value = _
      simp [AExp.value, ha, hb]
    have h2 : Tutorial.binaryOp (.int x) (.seq [.chr (ch '/'), .int y])
        = Val.ofOut (if y = 0 then .ill .divByZero else (intC (x.tdiv y)).bind fun z => .ok (.int z)) := rfl
    rw [h1, h2]
    by_cases hy : y = 0
    · rw [if_pos hy, if_pos hy]
      constructor
      · intro h; cases h
      · rintro ⟨k, h, -⟩; cases h
    · rw [if_neg hy, if_neg hy, intC_bind, h0, ofOption_eq_ok]

theorem mkOp_values {c : Chr} {a b : AExp} {k : Int} (h : (mkOp c a b).value = some k) :
    (∃ x, a.value = some x) ∧ ∃ y, b.value = some y := by
  unfold mkOp at h
  split at h
  · obtain ⟨x, hx, h⟩ := option_bind_eq.1 h
    obtain ⟨y, hy, h⟩ := option_bind_eq.1 h
    exact ⟨⟨x, hx⟩, y, hy⟩
  split at h
  · obtain ⟨x, hx, h⟩ := option_bind_eq.1 h
    obtain ⟨y, hy, h⟩ := option_bind_eq.1 h
    exact ⟨⟨x, hx⟩, y, hy⟩
  split at h
  · obtain ⟨x, hx, h⟩ := option_bind_eq.1 h
    obtain ⟨y, hy, h⟩ := option_bind_eq.1 h
    exact ⟨⟨x, hx⟩, y, hy⟩
  · obtain ⟨x, hx, h⟩ := option_bind_eq.1 h
    obtain ⟨y, hy, h⟩ := option_bind_eq.1 h
    exact ⟨⟨x, hx⟩, y, hy⟩

theorem leftAssoc_iff {A : List Chr → AExp → Prop} {ops : List Chr} (hops : ∀ c ∈ ops, c ∈ expOps)
    {t : List Chr} {v : Val} :
    LeftAssoc (Values A) ops Tutorial.binaryOp t v ↔ Values (LeftChain A ops) t v := by
  constructor
  · intro h
    induction h with
    | one h hx =>
      obtain ⟨e, k, he, hk, rfl⟩ := h
      cases hx
      exact ⟨e, k, .one he, hk, rfl⟩
    | more _ hc hws hu hz ih =>
      obtain ⟨a, x, ha, hx, rfl⟩ := ih
      obtain ⟨b, y, hb, hy, rfl⟩ := hu
      obtain ⟨k, hk, rfl⟩ := (binaryOp_value (hops _ hc) hx hy _).1 hz
      exact ⟨_, k, .more ha hc hws hb, hk, rfl⟩
  · rintro ⟨e, k, he, hk, rfl⟩
    induction he generalizing k with
    | one h => exact .one ⟨_, k, h, hk, rfl⟩ rfl
    | more _ hc hws hu ih =>
      obtain ⟨⟨x, hx⟩, y, hy⟩ := mkOp_values hk
      exact .more (ih x hx) hc hws ⟨_, y, hu, hy, rfl⟩ ((binaryOp_value (hops _ hc) hx hy _).2 ⟨k, hk, rfl⟩)

/-- What the folds of the tutorial that start with a parser have in common: the outcome comes from an operand
and then operators with operands as long as possible. -/
structure FoldsLeft (E : Env (List Chr)) (q o p : P) : Prop where
  accepts : ∀ {s pos v s' pos'}, Accepts E q s pos v s' pos' → ∃ x s0 pos0 vs m e x',
    Accepts E p s pos x s0 pos0 ∧ MaximalRun E (.sequence [o, p]) s0 pos0 vs s' pos' m e ∧
      x.force = .ok x' ∧ leftFold Tutorial.binaryOp x' vs = .ok v
  ofRun : ∀ {s pos x s0 pos0 vs s' pos' m x' v}, Accepts E p s pos x s0 pos0 →
    MaximalRun E (.sequence [o, p]) s0 pos0 vs s' pos' m pos' → x.force = .ok x' →
      leftFold Tutorial.binaryOp x' vs = .ok v → Accepts E q s pos v s' pos'
  rejects : ∀ {s pos m e}, Rejects E q s pos m e → Rejects E p s pos m e ∨
    ∃ x s0 pos0 vs s' pos', Accepts E p s pos x s0 pos0 ∧
      MaximalRun E (.sequence [o, p]) s0 pos0 vs s' pos' m e ∧ e ≠ pos'

theorem FoldsLeft.foldl (o p : P) :
    FoldsLeft E (.foldlStartWithParser (.sequence [o, p]) p Tutorial.binaryOp) o p where
  accepts h := (C18_foldl_start_with_parser ..).1 h
  ofRun h1 hm h2 h3 := (C18_foldl_start_with_parser ..).2 ⟨_, _, _, _, _, _, _, h1, hm, h2, h3⟩
  rejects h := .inl ((C18_foldl_start_with_parser_rejects ..).1 h)

theorem FoldsLeft.rejectIncomplete (o p : P) :
    FoldsLeft E (.foldlRejectIncompleteStartWithParser (.sequence [o, p]) p Tutorial.binaryOp) o p where
  accepts h := by
    obtain ⟨x, s0, pos0, vs, m, x', h1, h2, h3, h4⟩ :=
      (C18_foldl_reject_incomplete_start_with_parser ..).1 h
    exact ⟨x, s0, pos0, vs, m, _, x', h1, h2, h3, h4⟩
  ofRun h1 hm h2 h3 := (C18_foldl_reject_incomplete_start_with_parser ..).2 ⟨_, _, _, _, _, _, h1, hm, h2, h3⟩
  rejects h := by
    rcases (C18_foldl_reject_incomplete_start_with_parser_rejects ..).1 h with h |
      ⟨x, s0, pos0, vs, s', pos', h1, h2, h3, -⟩
    · exact .inl h
    · exact .inr ⟨x, s0, pos0, vs, s', pos', h1, h2, h3⟩

variable {q o p : P} {ops : List Chr} {A : List Chr → AExp → Prop} {cont : Chr → Bool}

theorem FoldsLeft.onlyReads (h : FoldsLeft E q o p) (hs : E.SupportsSequence 2) (ho : ReadsOp E o ops)
    (hops : ∀ c ∈ ops, c ∈ expOps) {n : Nat} (hp : OnlyReads E n p (Values A)) :
    OnlyReads E n q (Values (LeftChain A ops)) :=
  (OnlyReads.leftAssocOf hs ho hp fun ha => by
    obtain ⟨x, s0, pos0, vs, m, e, x', h1, h2, h3, h4⟩ := h.accepts ha
    exact ⟨x, s0, pos0, vs, x', h1, h2.1, h3, h4⟩).mono fun _ _ => (leftAssoc_iff hops).1

theorem FoldsLeft.readsAll (h : FoldsLeft E q o p) (hs : E.SupportsSequence 2) (ho : ReadsOp E o ops)
    (hops : ∀ c ∈ ops, c ∈ expOps) (hp : ReadsAll E p (Values A) cont) (hc : ∀ c ∈ ops, cont c = false)
    (hA : ∀ t e, A t e → beginsWith spaceChar t = false ∧ t ≠ []) :
    ReadsAll E q (Values (LeftChain A ops)) fun c => cont c || ops.contains c :=
  (ReadsAll.leftAssocOf hs ho hp hc (by rintro t v ⟨e, k, he, -⟩; exact hA t e he) h.ofRun).mono
    (fun _ _ => (leftAssoc_iff hops).2) fun _ h => h

theorem LeftChain.begins (hA : ∀ t e, A t e → beginsWith spaceChar t = false ∧ t ≠ []) {t : List Chr}
    {e : AExp} (h : LeftChain A ops t e) : beginsWith spaceChar t = false ∧ t ≠ [] := by
  induction h with
  | one h => exact hA _ _ h
  | more _ _ _ _ ih => exact ⟨by rw [beginsWith_append ih.2]; exact ih.1, by simp⟩

theorem LeftChain.head {t : List Chr} {e : AExp} (h : LeftChain A ops t e) {cont : Chr → Bool}
    (hc : ∀ c ∈ ops, cont c = false) {rest : List Chr} (hb : beginsWith cont rest = false) :
    ∃ a u rest', t ++ rest = u ++ rest' ∧ A u a ∧ beginsWith cont rest' = false := by
  induction h generalizing rest with
  | one h => exact ⟨_, _, _, rfl, h, hb⟩
  | @more t ws u c a b _ hco _ _ ih =>
    obtain ⟨a', u', rest', he, hu, hb'⟩ := ih (rest := c :: (ws ++ u) ++ rest) (hc c hco)
    exact ⟨a', u', rest', by rw [← he]; simp, hu, hb'⟩

theorem FoldsLeft.decides (h : FoldsLeft E q o p) (hs : E.SupportsSequence 2) (ho : ReadsOp E o ops)
    (hops : ∀ c ∈ ops, c ∈ expOps) (hp : Decides E p A cont) (hc : ∀ c ∈ ops, cont c = false)
    (hA : ∀ t e, A t e → beginsWith spaceChar t = false ∧ t ≠ []) :
    Decides E q (LeftChain A ops) fun c => cont c || ops.contains c := by
  -- the elements that belong to the text
  have key : ∀ {t a}, LeftChain A ops t a → ∀ {rest pos x s0 pos0 vs s' pos' m e},
      beginsWith cont rest = false → Accepts E p (t ++ rest) pos x s0 pos0 →
      MaximalRun E (.sequence [o, p]) s0 pos0 vs s' pos' m e →
      ∃ x', x.force = .ok x' ∧ ∃ vs1 vs2 pos1, vs = vs1 ++ vs2 ∧
        MaximalRun E (.sequence [o, p]) rest pos1 vs2 s' pos' m e ∧
        ∀ v, leftFold Tutorial.binaryOp x' vs1 = .ok v → ∃ k, a.value = some k ∧ v = .int k := by
    intro t a ht
    induction ht with
    | one hA =>
      intro rest pos x s0 pos0 vs s' pos' m e hb ha hm
      obtain ⟨k, pos1, hk, hr⟩ := hp _ _ _ _ _ hA hb ha
      cases hr
      exact ⟨_, rfl, [], vs, pos0, rfl, hm, fun v hv => ⟨k, hk, by cases hv; rfl⟩⟩
    | @more t ws u c a b ht hco hws hu ih =>
      intro rest pos x s0 pos0 vs s' pos' m e hb ha hm
      rw [List.append_assoc] at ha
      obtain ⟨x', hx', vs1, vs2, pos1, rfl, hm, hf⟩ := ih (rest := c :: (ws ++ u) ++ rest) (hc c hco) ha hm
      have hu' := hA u b hu
      obtain ⟨pos2, ho2⟩ := ho.accepts (c := c) (ws := ws) (s' := u ++ rest) pos1 hco hws
        (by rw [beginsWith_append hu'.2]; exact hu'.1)
      have heq : c :: (ws ++ u) ++ rest = c :: (ws ++ (u ++ rest)) := by simp
      rw [heq] at hm
      cases vs2 with
      | nil =>
        obtain ⟨hst, hr⟩ := hm
        cases hst
        rcases (sequence_two_rejects hs).1 hr with hr | ⟨v, s1, pos1', ha', hr⟩
        · exact absurd hr ho2.not_rejects
        · obtain ⟨-, rfl, rfl⟩ := ho2.unique ha'
          obtain ⟨k, pos3, -, hk⟩ := hp _ _ _ _ _ hu hb hr
          cases hk
      | cons v2 vs2 =>
        obtain ⟨hst, hr⟩ := hm
        cases hst with
        | cons h1 h2 =>
          obtain ⟨ws', hi, rfl⟩ := (C22_sequence_accepts _ hs ..).1 h1
          obtain ⟨y1, y2, s1, pos3, rfl, h3, h4⟩ := hi.two
          obtain ⟨rfl, rfl, rfl⟩ := ho2.unique h3
          obtain ⟨k, pos4, hk, hk'⟩ := hp _ _ _ _ _ hu hb h4
          cases hk'
          refine ⟨x', hx', vs1 ++ [.seq [.chr c, .int k]], vs2, _, by simp, ⟨h2, hr⟩, fun v hv => ?_⟩
          rw [leftFold_snoc] at hv
          obtain ⟨y, hy, hv⟩ := Out.bind_eq_ok.1 hv
          obtain ⟨j, hj, rfl⟩ := hf y hy
          exact (binaryOp_value (hops c hco) hj hk v).1 hv
  have done : ∀ {rest pos vs s' pos' m e}, beginsWith (fun c => cont c || ops.contains c) rest = false →
      MaximalRun E (.sequence [o, p]) rest pos vs s' pos' m e → vs = [] ∧ s' = rest ∧ pos' = pos ∧ e = pos := by
    intro rest pos vs s' pos' m e hb hm
    obtain ⟨m', hr⟩ := ho.rejects (s := rest) pos
      (beginsWith_mono (fun c hc => Bool.or_eq_true_iff.2 (.inr hc)) hb)
    have hr' : Rejects E (.sequence [o, p]) rest pos m' pos := (sequence_two_rejects hs).2 (.inl hr)
    obtain ⟨hst, hrr⟩ := hm
    cases hst with
    | nil => obtain ⟨-, rfl⟩ := hrr.unique hr'; exact ⟨rfl, rfl, rfl, rfl⟩
    | cons h1 _ => exact absurd hr' h1.not_rejects
  intro t a rest pos r ht hb hr
  have hb' : beginsWith cont rest = false := beginsWith_mono (fun c hc => by simp [hc]) hb
  cases r with
  | acc v s' pos' =>
    obtain ⟨x, s0, pos0, vs, m, e, x', h1, hm, hx, hf⟩ := h.accepts hr
    obtain ⟨y, hy, vs1, vs2, pos1, rfl, hm', hv⟩ := key ht hb' h1 hm
    rw [hy] at hx; cases hx
    obtain ⟨rfl, rfl, rfl, -⟩ := done hb hm'
    rw [List.append_nil] at hf
    obtain ⟨k, hk, rfl⟩ := hv v hf
    exact ⟨k, _, hk, rfl⟩
  | rej m e =>
    exfalso
    rcases h.rejects hr with hr | ⟨x, s0, pos0, vs, s', pos', h1, hm, hne⟩
    · have := ht.head hc hb'
      obtain ⟨a', u, rest', he, hu, hb2⟩ := this
      rw [he] at hr
      obtain ⟨k, pos3, -, hk⟩ := hp _ _ _ _ _ hu hb2 hr
      cases hk
    · obtain ⟨y, hy, vs1, vs2, pos1, rfl, hm', hv⟩ := key ht hb' h1 hm
      obtain ⟨-, -, rfl, rfl⟩ := done hb hm'
      exact hne rfl

end Metaparse
