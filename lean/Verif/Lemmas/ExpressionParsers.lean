import Verif.Lemmas.ExpressionTexts
/-!
# The parsers of the expressions of the tutorial
-/

namespace Metaparse

variable {E : Env (List Chr)}

/-- If the input begins with a text in `T` then `p` does not reject it and takes at least that text. -/
def AtLeast (E : Env (List Chr)) (p : P) (T : List Chr → AExp → Prop) : Prop :=
  ∀ t e rest pos r, T t e → run E p (t ++ rest) pos = .ok r →
    ∃ v s' pos', r = .acc v s' pos' ∧ s'.length ≤ rest.length

/-- `p` takes the longest prefix in `T` if it has a value and rejects if there is none. -/
structure Exact (E : Env (List Chr)) (p : P) (T : List Chr → AExp → Prop) : Prop where
  rejects : ∀ s pos, (∀ t e, T t e → ¬ t <+: s) → ∃ m e, Rejects E p s pos m e
  accepts : ∀ t e k rest pos, T t e → (∀ t' e', T t' e' → t' <+: t ++ rest → t'.length ≤ t.length) →
    e.value = some k → ∃ pos', Accepts E p (t ++ rest) pos (.int k) rest pos'

theorem AtLeast.mono {p : P} {T T' : List Chr → AExp → Prop} (h : AtLeast E p T)
    (hT : ∀ t e, T' t e → T t e) : AtLeast E p T' :=
  fun t e rest pos r ht hr => h t e rest pos r (hT t e ht) hr

theorem Exact.congr {p : P} {T T' : List Chr → AExp → Prop} (h : Exact E p T)
    (hT : ∀ t e, T' t e ↔ T t e) : Exact E p T' := by
  have : T' = T := funext fun t => funext fun e => propext (hT t e)
  rw [this]; exact h

theorem AtLeast.not_rejects {p : P} {T : List Chr → AExp → Prop} (h : AtLeast E p T) {t rest : List Chr}
    {e : AExp} {pos e' : Pos} {m : Msg} (ht : T t e) (hr : Rejects E p (t ++ rest) pos m e') : False := by
  obtain ⟨v, s', pos', h, -⟩ := h t e rest pos _ ht hr
  cases h

theorem AtLeast.length {p : P} {T : List Chr → AExp → Prop} (h : AtLeast E p T) {t rest s' : List Chr}
    {e : AExp} {pos pos' : Pos} {v : Val} (ht : T t e) (ha : Accepts E p (t ++ rest) pos v s' pos') :
    s'.length ≤ rest.length := by
  obtain ⟨v, s', pos', h, hl⟩ := h t e rest pos _ ht ha
  cases h
  exact hl

/-! ## Numbers -/

theorem OnlyReads.num (h : E.Tutorial) (n : Nat) : OnlyReads E n Tutorial.intToken (Values NumText) :=
  (OnlyReads.intToken h.onText h.nth2 n).mono fun _ _ => intText_values.1

theorem ReadsAll.num (h : E.Tutorial) : ReadsAll E Tutorial.intToken (Values NumText) numCont :=
  (ReadsAll.intToken h.onText h.nth2).mono (fun _ _ => intText_values.2) fun _ h => h

theorem Decides.num (h : E.Tutorial) : Decides E Tutorial.intToken NumText numCont :=
  Decides.intToken h.onText h.nth2

theorem AtLeast.num (h : E.Tutorial) : AtLeast E Tutorial.intToken NumText := by
  rintro t e rest pos r ⟨n, ht, rfl⟩ hr
  cases r with
  | rej m e =>
    have := ((number_rejects h.onText h.nth2).1 hr).1
    rw [beginsWith_append ht.begins.2.2, ht.begins.1] at this
    cases this
  | acc v s' pos' =>
    obtain ⟨u, k, hu, -, rfl⟩ := takes_of_accepts h.onText h.nth2 hr
    have hl := (hu.longest ht (List.prefix_append ..)).length_le
    have := congrArg List.length hu.number.1
    simp only [List.length_append] at this
    exact ⟨_, _, _, rfl, by omega⟩

theorem Exact.num (h : E.Tutorial) : Exact E Tutorial.intToken NumText where
  rejects := by
    intro s pos hno
    cases hb : beginsWith digitChar s with
    | false => exact ⟨_, _, (number_rejects h.onText h.nth2).2 ⟨hb, rfl, rfl⟩⟩
    | true =>
      obtain ⟨t, n, s', ht⟩ := TakesNumber.exists hb
      obtain ⟨rfl, hn⟩ := ht.number
      exact absurd (List.prefix_append ..) (hno _ _ ⟨n, hn, rfl⟩)
  accepts := by
    rintro t e k rest pos ⟨n, ht, rfl⟩ hl hk
    have hb : beginsWith digitChar (t ++ rest) = true := by
      rw [beginsWith_append ht.begins.2.2]; exact ht.begins.1
    obtain ⟨u, j, s', hu⟩ := TakesNumber.exists hb
    obtain ⟨he, hj⟩ := hu.number
    have h1 := (hu.longest ht (List.prefix_append ..)).length_le
    have h2 := hl _ _ ⟨j, hj, rfl⟩ ⟨s', he.symm⟩
    obtain ⟨rfl, rfl⟩ := append_eq_of_length he (by omega)
    rw [number_unique hj ht] at hu
    obtain ⟨rfl, -, hle⟩ := fits_eq_some.1 hk
    exact hu.accepts h.onText h.nth2 hle pos

/-! ## Left associative operators -/

variable {o p : P} {ops : List Chr} {A A' : List Chr → AExp → Prop} {cont : Chr → Bool}

theorem Steps.length_le_of {q : P} (h : ∀ {s pos v s' pos'}, Accepts E q s pos v s' pos' → s'.length ≤ s.length)
    {s : List Chr} {pos : Pos} {vs : List Val} {s' : List Chr} {pos' : Pos}
    (hst : Steps E q s pos vs s' pos') : s'.length ≤ s.length := by
  induction hst with
  | nil => exact Nat.le_refl _
  | cons h1 _ ih => exact Nat.le_trans ih (h h1)

theorem item_length (hs : E.SupportsSequence 2) (ho : ReadsOp E o ops) {L : List Chr → Val → Prop}
    (hp : ∀ n, OnlyReads E n p L) {s : List Chr} {pos : Pos} {v : Val} {s' : List Chr} {pos' : Pos}
    (h : Accepts E (.sequence [o, p]) s pos v s' pos') : s'.length ≤ s.length := by
  obtain ⟨ws', hi, rfl⟩ := (C22_sequence_accepts _ hs ..).1 h
  obtain ⟨y1, y2, s1, pos3, rfl, h3, h4⟩ := hi.two
  obtain ⟨c, -, ws, rfl, -⟩ := ho.sound h3
  obtain ⟨t, rfl, -⟩ := hp _ _ _ _ _ _ (Nat.le_refl _) h4
  simp only [List.length_cons, List.length_append]
  omega

theorem AtLeast.foldl (hs : E.SupportsSequence 2) (ho : ReadsOp E o ops) (hp : AtLeast E p A)
    (hr : ∀ n, OnlyReads E n p (Values A')) (hA' : Prefixes A' cont) (hA : ∀ t e, A t e → A' t e)
    (hS : Solid A') (hc : ∀ c ∈ ops, cont c = false) :
    AtLeast E (.foldlStartWithParser (.sequence [o, p]) p Tutorial.binaryOp) (LeftChain A ops) := by
  -- after an operand
  have after : ∀ {u a w items rest pos v s' pos'}, A u a → Items A ops w items →
      Accepts E p (u ++ (w ++ rest)) pos v s' pos' →
      s' = w ++ rest ∨ w = [] ∧ s'.length ≤ rest.length := by
    intro u a w items rest pos v s' pos' hu hw ha
    have hl := hp.length hu ha
    cases hw with
    | nil => exact .inr ⟨rfl, hl⟩
    | cons hco =>
      obtain ⟨t, ht, e, k, hte, -⟩ := hr _ _ _ _ _ _ (Nat.le_refl _) ha
      have hle := (hA'.holds (hA _ _ hu) hte ht (hc _ hco)).1
      have := congrArg List.length ht
      simp only [List.length_append] at this hl
      exact .inl (append_eq_of_length ht (by omega)).2.symm
  have key : ∀ {w items}, Items A ops w items → ∀ {rest s0 pos0 vs s' pos' m e},
      s0 = w ++ rest ∨ w = [] ∧ s0.length ≤ rest.length →
      MaximalRun E (.sequence [o, p]) s0 pos0 vs s' pos' m e → s'.length ≤ rest.length := by
    intro w items hw
    induction hw with
    | nil =>
      intro rest s0 pos0 vs s' pos' m e h hm
      have := hm.1.length_le_of (item_length hs ho hr)
      rcases h with rfl | ⟨-, h⟩
      · exact this
      · omega
    | @cons c ws u w b items hco hws hu hw ih =>
      intro rest s0 pos0 vs s' pos' m e h hm
      rcases h with rfl | ⟨h, -⟩
      · have hu' := hS u b (hA _ _ hu)
        obtain ⟨pos2, ho2⟩ := ho.accepts (c := c) (ws := ws) (s' := u ++ (w ++ rest)) pos0 hco hws
          (by rw [beginsWith_append hu'.2]; exact hu'.1)
        have heq : c :: (ws ++ (u ++ w)) ++ rest = c :: (ws ++ (u ++ (w ++ rest))) := by simp
        rw [heq] at hm
        obtain ⟨hst, hrj⟩ := hm
        cases hst with
        | nil =>
          exfalso
          rcases (sequence_two_rejects hs).1 hrj with hrj | ⟨v, s1, pos1', ha', hrj⟩
          · exact ho2.not_rejects hrj
          · obtain ⟨-, rfl, rfl⟩ := ho2.unique ha'
            exact hp.not_rejects hu hrj
        | cons h1 h2 =>
          obtain ⟨ws', hi, rfl⟩ := (C22_sequence_accepts _ hs ..).1 h1
          obtain ⟨y1, y2, s1, pos3, rfl, h3, h4⟩ := hi.two
          obtain ⟨rfl, rfl, rfl⟩ := ho2.unique h3
          exact ih (after hu hw h4) ⟨h2, hrj⟩
      · cases h
  intro t e rest pos r ht hrun
  obtain ⟨u, a, w, items, rfl, hu, hw, rfl⟩ := leftChain_iff.1 ht
  rw [List.append_assoc] at hrun
  cases r with
  | acc v s' pos' =>
    obtain ⟨x, s0, pos0, vs, m, e, x', h1, hm, -, -⟩ := (C18_foldl_start_with_parser ..).1 hrun
    exact ⟨_, _, _, rfl, key hw (after hu hw h1) hm⟩
  | rej m e =>
    exact (hp.not_rejects hu ((C18_foldl_start_with_parser_rejects ..).1 hrun)).elim

theorem Exact.foldl (hs : E.SupportsSequence 2) (ho : ReadsOp E o ops) (hops : ∀ c ∈ ops, c ∈ expOps)
    (hp : Exact E p A) (hA : Prefixes A cont) (hS : Solid A) (hc : ∀ c ∈ ops, cont c = false) :
    Exact E (.foldlStartWithParser (.sequence [o, p]) p Tutorial.binaryOp) (LeftChain A ops) where
  rejects := by
    intro s pos hno
    obtain ⟨m, e, hr⟩ := hp.rejects s pos fun t e ht => hno t e (.one ht)
    exact ⟨m, e, (C18_foldl_start_with_parser_rejects ..).2 hr⟩
  accepts := by
    have key : ∀ {t e}, LeftChain A ops t e → ∀ k rest pos, e.value = some k →
        (beginsWith cont rest = false ∨
          ∀ t' e', LeftChain A ops t' e' → t' <+: t ++ rest → t'.length ≤ t.length) →
        ∃ x s0 pos0 vs pos', Accepts E p (t ++ rest) pos (.int x) s0 pos0 ∧
          Steps E (.sequence [o, p]) s0 pos0 vs rest pos' ∧
          leftFold Tutorial.binaryOp (.int x) vs = .ok (.int k) := by
      intro t e h
      induction h with
      | @one t e h =>
        intro k rest pos hk hl
        obtain ⟨pos', ha⟩ := hp.accepts t e k rest pos h (by
          rcases hl with hl | hl
          · rintro t' e' ht' ⟨r', he⟩
            exact (hA.holds h ht' he.symm hl).1
          · exact fun t' e' ht' => hl t' e' (.one ht')) hk
        exact ⟨k, rest, pos', [], pos', ha, .nil .., rfl⟩
      | @more t ws u c a b ht hco hws hu ih =>
        intro k rest pos hk hl
        obtain ⟨⟨x, hx⟩, y, hy⟩ := mkOp_values hk
        obtain ⟨x0, s0, pos0, vs, pos1, h1, h2, h3⟩ := ih x (c :: (ws ++ (u ++ rest))) pos hx
          (.inl (hc c hco))
        have hu' := hS u b hu
        obtain ⟨pos2, ho2⟩ := ho.accepts (c := c) (ws := ws) (s' := u ++ rest) pos1 hco hws
          (by rw [beginsWith_append hu'.2]; exact hu'.1)
        obtain ⟨pos3, ha⟩ := hp.accepts u b y rest pos2 hu (by
          rcases hl with hl | hl
          · rintro t' e' ht' ⟨r', he⟩
            exact (hA.holds hu ht' he.symm hl).1
          · rintro t' e' ht' ⟨r', he⟩
            have := hl _ _ (.more ht hco hws ht') ⟨r', by simp [he]⟩
            simp only [List.length_append, List.length_cons] at this
            omega) hy
        refine ⟨x0, s0, pos0, vs ++ [.seq [.chr c, .int y]], pos3, by simpa using h1, h2.snoc' ?_, ?_⟩
        · exact (C22_sequence_accepts _ hs ..).2 ⟨_, .cons ho2 (.cons ha (.nil ..)), rfl⟩
        · rw [leftFold_snoc, h3, Out.bind_ok]
          exact (binaryOp_value (hops c hco) hx hy _).2 ⟨k, hk, rfl⟩
    intro t e k rest pos ht hl hk
    obtain ⟨x, s0, pos0, vs, pos', h1, h2, h3⟩ := key ht k rest pos hk (.inr hl)
    have hr : ∃ m e, Rejects E (.sequence [o, p]) rest pos' m e := by
      cases hb : beginsWith ops.contains rest with
      | false =>
        obtain ⟨m, hr⟩ := ho.rejects pos' hb
        exact ⟨m, _, (sequence_two_rejects hs).2 (.inl hr)⟩
      | true =>
        obtain ⟨c, r, rfl⟩ : ∃ c r, rest = c :: r := by
          cases rest with
          | nil => cases hb
          | cons c r => exact ⟨c, r, rfl⟩
        have hco : c ∈ ops := by simpa [beginsWith] using hb
        obtain ⟨pos2, ho2⟩ := ho.accepts (c := c) (ws := r.takeWhile spaceChar)
          (s' := r.dropWhile spaceChar) pos' hco (all_takeWhile _ _) (beginsWith_dropWhile _ _)
        rw [List.takeWhile_append_dropWhile] at ho2
        obtain ⟨m, e, hr⟩ := hp.rejects (r.dropWhile spaceChar) pos2 (by
          rintro u b hu ⟨r', he⟩
          have := hl _ _ (.more ht hco (all_takeWhile spaceChar r) hu) ⟨r', by
            rw [List.append_assoc, List.cons_append, List.append_assoc, he,
              List.takeWhile_append_dropWhile]⟩
          simp only [List.length_append, List.length_cons] at this
          omega)
        exact ⟨m, e, (sequence_two_rejects hs).2 (.inr ⟨_, _, _, ho2, hr⟩)⟩
    obtain ⟨m, e', hr⟩ := hr
    exact ⟨pos', (C18_foldl_start_with_parser ..).2 ⟨_, _, _, _, _, _, _, h1, ⟨h2, hr⟩, rfl, h3⟩⟩

/-! ## Unary minus -/

/-- The operation of unary minus. -/
def negateOp (s _c : Val) : Val := Val.ofOut (Calc.negate s)

theorem negateOp_value {a : AExp} {x : Int} (ha : a.value = some x) (c v : Val) :
    (negateOp (.int x) c).force = .ok v ↔ ∃ k, (AExp.neg a).value = some k ∧ v = .int k := by
  have : (AExp.neg a).value = fits (-x) := by simp [AExp.value, ha]
  rw [this, ← ofOption_eq_ok (f := .overflow), ← force_ofOption, ← intC_bind]
  exact Iff.rfl

variable {D : Dialect} {d : Nat}

theorem minus_first {c : Chr} {u : List Chr} {e : AExp} (h : TutorialText D d 3 u e) (rest : List Chr)
    (hc : c = ch '-') : beginsWith ([c].contains) (u ++ rest) = false := by
  subst hc
  have := text3_begins h
  cases u with
  | nil => cases this
  | cons b u =>
    simp only [beginsWith] at this
    simp only [List.cons_append, beginsWith, List.contains_cons, List.contains_nil, Bool.or_false,
      beq_eq_false_iff_ne, ne_eq]
    rintro rfl
    exact absurd this (by decide)

theorem unary_run (hE : E.Tutorial) {t : List Chr} {e : AExp} (h : TutorialText D d 2 t e) :
    ∀ rest pos, ∃ vs pos0 u a m pre, MaximalRun E Tutorial.minusToken (t ++ rest) pos vs (u ++ rest) pos0 m pos0 ∧
      TutorialText D d 3 u a ∧ t = pre ++ u ∧
      (∀ u' a', TutorialText D d 3 u' a' → ∃ e', TutorialText D d 2 (pre ++ u') e') ∧
      ∀ v, (∃ k0, a.value = some k0 ∧ rightFold negateOp (.int k0) vs = .ok v) ↔
        ∃ k, e.value = some k ∧ v = .int k := by
  generalize hl : 2 = l at h
  induction h with
  | @primary d t e h _ =>
    intro rest pos
    obtain ⟨m, hr⟩ := hE.minus.rejects pos (minus_first h rest rfl)
    refine ⟨[], pos, t, e, m, [], ⟨.nil .., hr⟩, h, rfl, fun u' a' h => ⟨a', .primary h⟩, fun v => ?_⟩
    constructor
    · rintro ⟨k, hk, h⟩; cases h; exact ⟨k, hk, rfl⟩
    · rintro ⟨k, hk, rfl⟩; exact ⟨k, hk, rfl⟩
  | @neg d ws t e hD hws h ih =>
    intro rest pos
    have hs := solid_text _ _ _ _ _ h
    obtain ⟨pos1, h1⟩ := hE.minus.accepts (c := ch '-') (ws := ws) (s' := t ++ rest) pos (by simp) hws
      (by rw [beginsWith_append hs.2]; exact hs.1)
    obtain ⟨vs, pos0, u, a, m, pre, ⟨hst, hr⟩, hu, hpre, hpre', hv⟩ := ih hl rest pos1
    refine ⟨.chr (ch '-') :: vs, pos0, u, a, m, ch '-' :: (ws ++ pre), ⟨.cons ?_ hst, hr⟩, hu,
      by simp [hpre], ?_, fun v => ?_⟩
    · simpa using h1
    · intro u' a' hu'
      obtain ⟨e', he'⟩ := hpre' u' a' hu'
      exact ⟨_, by simpa using TutorialText.neg hD hws he'⟩
    · constructor
      · rintro ⟨k0, hk0, hf⟩
        obtain ⟨y, hy, hf⟩ := Out.bind_eq_ok.1 hf
        obtain ⟨k1, hk1, rfl⟩ := (hv y).1 ⟨k0, hk0, hy⟩
        exact (negateOp_value hk1 _ v).1 hf
      · rintro ⟨k, hk, rfl⟩
        obtain ⟨k1, hk1, -⟩ := option_bind_eq.1 hk
        obtain ⟨k0, hk0, hf⟩ := (hv (.int k1)).2 ⟨k1, hk1, rfl⟩
        refine ⟨k0, hk0, ?_⟩
        simp only [rightFold, hf, Out.bind_ok]
        exact (negateOp_value hk1 _ _).2 ⟨k, hk, rfl⟩
  | _ => cases hl

theorem minus_steps (hE : E.Tutorial) (hD : D.neg = true) {s : List Chr} {pos : Pos} {vs : List Val}
    {s' : List Chr} {pos' : Pos} (h : Steps E Tutorial.minusToken s pos vs s' pos') :
    ∃ pre, s = pre ++ s' ∧ ∀ u a, TutorialText D d 2 u a → ∃ e, TutorialText D d 2 (pre ++ u) e := by
  induction h with
  | nil => exact ⟨[], rfl, fun u a h => ⟨a, h⟩⟩
  | cons h1 _ ih =>
    obtain ⟨c, hc, ws, rfl, hws, -, -⟩ := hE.minus.sound h1
    obtain ⟨pre, rfl, hpre⟩ := ih
    simp only [List.mem_cons, List.not_mem_nil, or_false] at hc
    subst hc
    refine ⟨ch '-' :: (ws ++ pre), by simp, fun u a h => ?_⟩
    obtain ⟨e, he⟩ := hpre u a h
    exact ⟨_, by simpa using TutorialText.neg hD hws he⟩

theorem minus_maximal (hE : E.Tutorial) (s : List Chr) (pos : Pos) :
    ∃ vs s' pos' m e, MaximalRun E Tutorial.minusToken s pos vs s' pos' m e := by
  suffices ∀ n (s : List Chr) pos, s.length ≤ n →
      ∃ vs s' pos' m e, MaximalRun E Tutorial.minusToken s pos vs s' pos' m e from
    this _ s pos (Nat.le_refl _)
  intro n
  induction n with
  | zero =>
    intro s pos hn
    have : s = [] := List.length_eq_zero_iff.1 (by omega)
    subst this
    obtain ⟨m, hr⟩ := hE.minus.rejects (s := []) pos rfl
    exact ⟨[], [], pos, m, pos, .nil .., hr⟩
  | succ n ih =>
    intro s pos hn
    cases hb : beginsWith ([ch '-'].contains) s with
    | false =>
      obtain ⟨m, hr⟩ := hE.minus.rejects pos hb
      exact ⟨[], s, pos, m, pos, .nil .., hr⟩
    | true =>
      obtain ⟨r, rfl⟩ : ∃ r, s = ch '-' :: r := by
        cases s with
        | nil => cases hb
        | cons c r => exact ⟨r, by simp [beginsWith] at hb; rw [hb]⟩
      obtain ⟨pos2, ho2⟩ := hE.minus.accepts (c := ch '-') (ws := r.takeWhile spaceChar)
        (s' := r.dropWhile spaceChar) pos (by simp) (all_takeWhile _ _) (beginsWith_dropWhile _ _)
      rw [List.takeWhile_append_dropWhile] at ho2
      have hl := congrArg List.length (List.takeWhile_append_dropWhile (p := spaceChar) (l := r))
      simp only [List.length_append, List.length_cons] at hl hn
      obtain ⟨vs, s', pos', m, e, hst, hr⟩ := ih (r.dropWhile spaceChar) pos2 (by omega)
      exact ⟨_, _, _, _, _, .cons ho2 hst, hr⟩

theorem OnlyReads.unary (hE : E.Tutorial) (hD : D.neg = true) {n : Nat}
    (hp : OnlyReads E n p (Values (TutorialText D d 3))) :
    OnlyReads E n (Tutorial.unaryExp p) (Values (TutorialText D d 2)) := by
  intro s pos v s' pos' hn ha
  obtain ⟨vs, s0, pos0, m, e, x, hm, hx, hf⟩ := (C18_foldr_start_with_parser ..).1 ha
  obtain ⟨pre, rfl, hpre⟩ := minus_steps (d := d) hE hD hm.1
  rw [List.length_append] at hn
  obtain ⟨u, rfl, a, k0, hu, hk0, rfl⟩ := hp _ _ _ _ _ (by omega) hx
  obtain ⟨e', he'⟩ := hpre u a (.primary hu)
  refine ⟨pre ++ u, by simp, e', ?_⟩
  obtain ⟨vs', pos0', u', a', m', pre', hm', hu', -, -, hv⟩ := unary_run hE he' s' pos
  rw [List.append_assoc] at hm'
  obtain ⟨rfl, he, rfl, rfl, rfl⟩ := hm.unique hm'
  have : u = u' := by simpa using he
  subst this
  have : a = a' := ((prefixes_three D d).holds hu' hu (r := []) rfl rfl).2 rfl
  subst this
  obtain ⟨k, hk, rfl⟩ := (hv v).1 ⟨k0, hk0, hf⟩
  exact ⟨k, he', hk, rfl⟩

theorem ReadsAll.unary (hE : E.Tutorial) {cont : Chr → Bool}
    (hp : ReadsAll E p (Values (TutorialText D d 3)) cont) :
    ReadsAll E (Tutorial.unaryExp p) (Values (TutorialText D d 2)) cont := by
  rintro t v rest pos ⟨e, k, ht, hk, rfl⟩ hb
  obtain ⟨vs, pos0, u, a, m, pre, hm, hu, -, -, hv⟩ := unary_run hE ht rest pos
  obtain ⟨k0, hk0, hf⟩ := (hv (.int k)).2 ⟨k, hk, rfl⟩
  obtain ⟨pos', ha⟩ := hp u _ rest pos0 ⟨a, k0, hu, hk0, rfl⟩ hb
  exact ⟨pos', (C18_foldr_start_with_parser ..).2 ⟨_, _, _, _, _, _, hm, ha, hf⟩⟩

theorem Decides.unary (hE : E.Tutorial) {cont : Chr → Bool} (hp : Decides E p (TutorialText D d 3) cont) :
    Decides E (Tutorial.unaryExp p) (TutorialText D d 2) cont := by
  intro t e rest pos r ht hb hr
  obtain ⟨vs, pos0, u, a, m, pre, hm, hu, -, -, hv⟩ := unary_run hE ht rest pos
  cases r with
  | acc v s' pos' =>
    obtain ⟨vs', s0, pos0', m', e', x, hm', hx, hf⟩ := (C18_foldr_start_with_parser ..).1 hr
    obtain ⟨rfl, rfl, rfl, -, -⟩ := hm.unique hm'
    obtain ⟨k0, pos1, hk0, h⟩ := hp _ _ _ _ _ hu hb hx
    cases h
    obtain ⟨k, hk, rfl⟩ := (hv v).1 ⟨k0, hk0, hf⟩
    exact ⟨k, _, hk, rfl⟩
  | rej m e =>
    obtain ⟨vs', s0, pos0', m', e', hm', hx⟩ := (C18_foldr_start_with_parser_rejects ..).1 hr
    obtain ⟨rfl, rfl, rfl, -, -⟩ := hm.unique hm'
    obtain ⟨k0, pos1, hk0, h⟩ := hp _ _ _ _ _ hu hb hx
    cases h

theorem AtLeast.unary (hE : E.Tutorial) (hp : AtLeast E p (TutorialText D d 3)) :
    AtLeast E (Tutorial.unaryExp p) (TutorialText D d 2) := by
  intro t e rest pos r ht hr
  obtain ⟨vs, pos0, u, a, m, pre, hm, hu, -, -, hv⟩ := unary_run hE ht rest pos
  cases r with
  | acc v s' pos' =>
    obtain ⟨vs', s0, pos0', m', e', x, hm', hx, hf⟩ := (C18_foldr_start_with_parser ..).1 hr
    obtain ⟨rfl, rfl, rfl, -, -⟩ := hm.unique hm'
    exact ⟨_, _, _, rfl, hp.length hu hx⟩
  | rej m e =>
    obtain ⟨vs', s0, pos0', m', e', hm', hx⟩ := (C18_foldr_start_with_parser_rejects ..).1 hr
    obtain ⟨rfl, rfl, rfl, -, -⟩ := hm.unique hm'
    exact (hp.not_rejects hu hx).elim

theorem Exact.unary (hE : E.Tutorial) (hD : D.neg = true) (hp : Exact E p (TutorialText D d 3)) :
    Exact E (Tutorial.unaryExp p) (TutorialText D d 2) where
  rejects := by
    intro s pos hno
    obtain ⟨vs, s', pos', m, e, hm⟩ := minus_maximal hE s pos
    obtain ⟨pre, rfl, hpre⟩ := minus_steps (d := d) hE hD hm.1
    obtain ⟨m', e', hr⟩ := hp.rejects s' pos' (by
      rintro u a hu ⟨r, rfl⟩
      obtain ⟨e1, h1⟩ := hpre u a (.primary hu)
      exact hno _ _ h1 ⟨r, by simp⟩)
    exact ⟨m', e', (C18_foldr_start_with_parser_rejects ..).2 ⟨_, _, _, _, _, hm, hr⟩⟩
  accepts := by
    intro t e k rest pos ht hl hk
    obtain ⟨vs, pos0, u, a, m, pre, hm, hu, rfl, hpre, hv⟩ := unary_run hE ht rest pos
    obtain ⟨k0, hk0, hf⟩ := (hv (.int k)).2 ⟨k, hk, rfl⟩
    obtain ⟨pos', ha⟩ := hp.accepts u a k0 rest pos0 hu (by
      rintro u' a' hu' ⟨r, hr⟩
      obtain ⟨e1, h1⟩ := hpre u' a' hu'
      have := hl _ _ h1 ⟨r, by simp [hr]⟩
      simp only [List.length_append] at this
      omega) hk0
    exact ⟨pos', (C18_foldr_start_with_parser ..).2 ⟨_, _, _, _, _, _, hm, ha, hf⟩⟩

end Metaparse
