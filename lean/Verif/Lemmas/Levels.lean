import Verif.Lemmas.Calculator
/-!
# Parsers of languages given by texts

What a parser of the examples reads, as a relation between texts and results; and how the relation of
a parser is obtained from those of its parts.
-/

namespace Metaparse

variable {E : Env (List Chr)}

/-- Up to length `n`, everything `p` accepts is in the language `L`. -/
def OnlyReads (E : Env (List Chr)) (n : Nat) (p : P) (L : List Chr → Val → Prop) : Prop :=
  ∀ s pos v s' pos', s.length ≤ n → Accepts E p s pos v s' pos' → ∃ t, s = t ++ s' ∧ L t v

/-- `p` accepts the texts in the language `L`, whenever the text after it does not begin with a
character in `cont`. -/
def ReadsAll (E : Env (List Chr)) (p : P) (L : List Chr → Val → Prop) (cont : Chr → Bool) : Prop :=
  ∀ t v s' pos, L t v → beginsWith cont s' = false → ∃ pos', Accepts E p (t ++ s') pos v s' pos'

/-- `p` rejects at the beginning what does not begin with a character in `first`. -/
def BeginsIn (E : Env (List Chr)) (p : P) (first : Chr → Bool) : Prop :=
  ∀ s pos, beginsWith first s = false → ∃ m, Rejects E p s pos m pos

theorem OnlyReads.mono {n : Nat} {p : P} {L L' : List Chr → Val → Prop} (h : OnlyReads E n p L)
    (hL : ∀ t v, L t v → L' t v) : OnlyReads E n p L' := by
  intro s pos v s' pos' hn ha
  obtain ⟨t, ht, hl⟩ := h s pos v s' pos' hn ha
  exact ⟨t, ht, hL t v hl⟩

theorem OnlyReads.le {n k : Nat} {p : P} {L : List Chr → Val → Prop} (h : OnlyReads E n p L)
    (hk : k ≤ n) : OnlyReads E k p L :=
  fun s pos v s' pos' hn ha => h s pos v s' pos' (Nat.le_trans hn hk) ha

theorem beginsWith_mono {f g : Chr → Bool} (h : ∀ c, f c = true → g c = true) {s : List Chr}
    (hb : beginsWith g s = false) : beginsWith f s = false := by
  cases s with
  | nil => rfl
  | cons c s =>
    simp only [beginsWith] at hb ⊢
    cases hf : f c with
    | false => rfl
    | true => rw [h c hf] at hb; cases hb

theorem ReadsAll.mono {p : P} {L L' : List Chr → Val → Prop} {f g : Chr → Bool}
    (h : ReadsAll E p L f) (hL : ∀ t v, L' t v → L t v) (hfg : ∀ c, f c = true → g c = true) :
    ReadsAll E p L' g :=
  fun t v s' pos hl hb => h t v s' pos (hL t v hl) (beginsWith_mono hfg hb)

theorem beginsWith_append {f : Chr → Bool} {t s : List Chr} (h : t ≠ []) :
    beginsWith f (t ++ s) = beginsWith f t := by
  cases t with
  | nil => exact absurd rfl h
  | cons c t => rfl

/-! ## Alternatives -/

theorem OnlyReads.oneOf {n : Nat} {p q : P} {L L' : List Chr → Val → Prop} (hs : E.SupportsOneOf 2)
    (h : OnlyReads E n p L) (h' : OnlyReads E n q L') :
    OnlyReads E n (.oneOf [p, q]) fun t v => L t v ∨ L' t v := by
  intro s pos v s' pos' hn ha
  obtain ⟨-, b, r, a, hl, -, hr⟩ := (C19_oneOf_accepts _ hs ..).1 ha
  have hm : r ∈ [p, q] := by rw [hl]; simp
  simp only [List.mem_cons, List.not_mem_nil, or_false] at hm
  rcases hm with rfl | rfl
  · obtain ⟨t, ht, hl⟩ := h _ _ _ _ _ hn hr; exact ⟨t, ht, .inl hl⟩
  · obtain ⟨t, ht, hl⟩ := h' _ _ _ _ _ hn hr; exact ⟨t, ht, .inr hl⟩

theorem BeginsIn.oneOf {p q : P} {f g : Chr → Bool} (hs : E.SupportsOneOf 2)
    (h : BeginsIn E p f) (h' : BeginsIn E q g) :
    BeginsIn E (.oneOf [p, q]) fun c => f c || g c := by
  intro s pos hb
  obtain ⟨m1, hr1⟩ := h s pos (beginsWith_mono (fun c hc => by simp [hc]) hb)
  obtain ⟨m2, hr2⟩ := h' s pos (beginsWith_mono (fun c hc => by simp [hc]) hb)
  obtain ⟨m, e, hr⟩ := (C20_oneOf_rejects_iff [p, q] hs s pos).2 (by
    intro r hr
    simp only [List.mem_cons, List.not_mem_nil, or_false] at hr
    rcases hr with rfl | rfl
    · exact ⟨_, _, hr1⟩
    · exact ⟨_, _, hr2⟩)
  rcases (C20_oneOf_furthest _ _ _ _ _ hr).reached with rfl | ⟨r, hm, m', hr'⟩
  · exact ⟨m, hr⟩
  · simp only [List.mem_cons, List.not_mem_nil, or_false] at hm
    rcases hm with rfl | rfl
    · obtain ⟨-, rfl⟩ := hr'.unique hr1; exact ⟨m, hr⟩
    · obtain ⟨-, rfl⟩ := hr'.unique hr2; exact ⟨m, hr⟩

/-- Two alternatives that begin with different characters. -/
theorem ReadsAll.oneOf {p q : P} {L L' : List Chr → Val → Prop} {cont f g : Chr → Bool}
    (hs : E.SupportsOneOf 2) (h : ReadsAll E p L cont) (h' : ReadsAll E q L' cont)
    (hp : BeginsIn E p f) (hq : BeginsIn E q g)
    (hL : ∀ t v, L t v → beginsWith f t = true) (hL' : ∀ t v, L' t v → beginsWith g t = true)
    (hfg : ∀ c, f c = true → g c = false) :
    ReadsAll E (.oneOf [p, q]) (fun t v => L t v ∨ L' t v) cont := by
  have cross : ∀ {f g : Chr → Bool} {t s' : List Chr}, (∀ c, f c = true → g c = false) →
      beginsWith f t = true → beginsWith g (t ++ s') = false := by
    intro f g t s' hfg hb
    cases t with
    | nil => cases hb
    | cons c t => exact hfg c hb
  have hgf : ∀ c, g c = true → f c = false := by
    intro c hc
    cases hf : f c with
    | false => rfl
    | true => rw [hfg c hf] at hc; cases hc
  intro t v s' pos hl hb
  rcases hl with hl | hl
  · obtain ⟨pos', ha⟩ := h t v s' pos hl hb
    obtain ⟨m, hr⟩ := hq (t ++ s') pos (cross hfg (hL t v hl))
    refine ⟨pos', (C19_oneOf_accepts _ hs ..).2 ⟨?_, [], p, [q], rfl, by simp, ha⟩⟩
    intro r hm
    simp only [List.mem_cons, List.not_mem_nil, or_false] at hm
    rcases hm with rfl | rfl
    · exact ⟨_, ha⟩
    · exact ⟨_, hr⟩
  · obtain ⟨pos', ha⟩ := h' t v s' pos hl hb
    obtain ⟨m, hr⟩ := hp (t ++ s') pos (cross hgf (hL' t v hl))
    refine ⟨pos', (C19_oneOf_accepts _ hs ..).2 ⟨?_, [p], q, [], rfl, by simpa using ⟨_, _, hr⟩, ha⟩⟩
    intro r hm
    simp only [List.mem_cons, List.not_mem_nil, or_false] at hm
    rcases hm with rfl | rfl
    · exact ⟨_, hr⟩
    · exact ⟨_, ha⟩

/-! ## Left associative operators -/

/-- `LeftAssoc A ops op t x`: the text `t` consists of texts in `A` separated by one of the characters
`ops` with white space after it; `x` is the value that results from applying the operation from left to
right. -/
inductive LeftAssoc (A : List Chr → Val → Prop) (ops : List Chr) (op : Val → Val → Val) :
    List Chr → Val → Prop
  | one {t : List Chr} {v x : Val} : A t v → v.force = .ok x → LeftAssoc A ops op t x
  | more {t : List Chr} {x : Val} {c : Chr} {ws u : List Chr} {y z : Val} : LeftAssoc A ops op t x →
      c ∈ ops → (∀ c ∈ ws, spaceChar c = true) → A u y → (op x (.seq [.chr c, y])).force = .ok z →
      LeftAssoc A ops op (t ++ c :: (ws ++ u)) z

theorem Steps.snoc' {p : P} {s : List Chr} {pos : Pos} {vs : List Val} {s1 : List Chr} {pos1 : Pos}
    {v : Val} {s2 : List Chr} {pos2 : Pos} (h : Steps E p s pos vs s1 pos1)
    (h' : Accepts E p s1 pos1 v s2 pos2) : Steps E p s pos (vs ++ [v]) s2 pos2 :=
  h.append (.cons h' (.nil ..))

/-- `q` reads an operand and then operators with operands, and applies the operation. -/
theorem OnlyReads.leftAssocOf {n : Nat} {o p q : P} {ops : List Chr} {op : Val → Val → Val}
    {A : List Chr → Val → Prop} (hs : E.SupportsSequence 2) (ho : ReadsOp E o ops)
    (hp : OnlyReads E n p A)
    (hq : ∀ {s pos v s' pos'}, Accepts E q s pos v s' pos' → ∃ x s0 pos0 vs x',
      Accepts E p s pos x s0 pos0 ∧ Steps E (.sequence [o, p]) s0 pos0 vs s' pos' ∧
        x.force = .ok x' ∧ leftFold op x' vs = .ok v) :
    OnlyReads E n q (LeftAssoc A ops op) := by
  intro s pos v s' pos' hn ha
  obtain ⟨x, s0, pos0, vs, x', ha, hm, hx, hf⟩ := hq ha
  obtain ⟨t, rfl, hA⟩ := hp _ _ _ _ _ hn ha
  have key : ∀ {s pos vs s' pos'}, Steps E (.sequence [o, p]) s pos vs s' pos' → s.length ≤ n →
      ∀ t x v, LeftAssoc A ops op t x → leftFold op x vs = .ok v →
        ∃ u, s = u ++ s' ∧ LeftAssoc A ops op (t ++ u) v := by
    intro s pos vs s' pos' hst
    induction hst with
    | nil s pos =>
      intro _ t x v hl hf
      cases hf
      exact ⟨[], rfl, by simpa using hl⟩
    | cons ha _ ih =>
      intro hn t x v hl hf
      obtain ⟨vs, hi, rfl⟩ := (C22_sequence_accepts _ hs ..).1 ha
      obtain ⟨a, b, s1, pos1, rfl, h1, h2⟩ := hi.two
      obtain ⟨c, hc, ws, rfl, hws, hs1, rfl⟩ := ho.sound h1
      simp only [List.length_cons, List.length_append] at hn
      obtain ⟨u, rfl, hu⟩ := hp _ _ _ _ _ (by omega) h2
      obtain ⟨z, hz, hf⟩ := Out.bind_eq_ok.1 hf
      simp only [List.length_append] at hn
      obtain ⟨w, rfl, hw⟩ := ih (by omega) _ z v (.more hl hc hws hu hz) hf
      exact ⟨c :: (ws ++ u) ++ w, by simp, by simpa using hw⟩
  simp only [List.length_append] at hn
  obtain ⟨u, rfl, hu⟩ := key hm (by omega) t x' v (.one hA hx) hf
  exact ⟨t ++ u, by simp, hu⟩

theorem OnlyReads.leftAssoc {n : Nat} {o p : P} {ops : List Chr} {op : Val → Val → Val}
    {A : List Chr → Val → Prop} (hs : E.SupportsSequence 2) (ho : ReadsOp E o ops)
    (hp : OnlyReads E n p A) :
    OnlyReads E n (.foldlRejectIncompleteStartWithParser (.sequence [o, p]) p op)
      (LeftAssoc A ops op) :=
  OnlyReads.leftAssocOf hs ho hp fun ha => by
    obtain ⟨x, s0, pos0, vs, m, x', ha, ⟨hm, -⟩, hx, hf⟩ :=
      (C18_foldl_reject_incomplete_start_with_parser ..).1 ha
    exact ⟨x, s0, pos0, vs, x', ha, hm, hx, hf⟩

theorem ReadsAll.leftAssocOf {o p q : P} {ops : List Chr} {op : Val → Val → Val}
    {A : List Chr → Val → Prop} {cont : Chr → Bool} (hs : E.SupportsSequence 2)
    (ho : ReadsOp E o ops) (hp : ReadsAll E p A cont) (hops : ∀ c ∈ ops, cont c = false)
    (hA : ∀ t v, A t v → beginsWith spaceChar t = false ∧ t ≠ [])
    (hq : ∀ {s pos x s0 pos0 vs s' pos' m x' v}, Accepts E p s pos x s0 pos0 →
      MaximalRun E (.sequence [o, p]) s0 pos0 vs s' pos' m pos' → x.force = .ok x' →
        leftFold op x' vs = .ok v → Accepts E q s pos v s' pos') :
    ReadsAll E q
      (LeftAssoc A ops op) fun c => cont c || ops.contains c := by
  have key : ∀ t x, LeftAssoc A ops op t x → ∀ s' pos, beginsWith cont s' = false →
      ∃ v s0 pos0 vs x' pos', Accepts E p (t ++ s') pos v s0 pos0 ∧ v.force = .ok x' ∧
        Steps E (.sequence [o, p]) s0 pos0 vs s' pos' ∧ leftFold op x' vs = .ok x := by
    intro t x h
    induction h with
    | one hA hx =>
      intro s' pos hb
      obtain ⟨pos', ha⟩ := hp _ _ s' pos hA hb
      exact ⟨_, _, pos', [], _, pos', ha, hx, .nil .., rfl⟩
    | @more t x c ws u y z hl hc hws hu hz ih =>
      intro s' pos hb
      obtain ⟨v, s0, pos0, vs, x', pos1, h1, h2, h3, h4⟩ := ih (c :: (ws ++ u) ++ s') pos
        (by simpa [beginsWith] using hops c hc)
      obtain ⟨hu1, hu2⟩ := hA u y hu
      obtain ⟨pos2, h5⟩ := ho.accepts (c := c) (ws := ws) (s' := u ++ s') pos1 hc hws
        (by rw [beginsWith_append hu2]; exact hu1)
      obtain ⟨pos3, h6⟩ := hp u y s' pos2 hu hb
      refine ⟨v, s0, pos0, vs ++ [.seq [.chr c, y]], x', pos3, by simpa using h1, h2,
        h3.snoc' ?_, ?_⟩
      · refine (C22_sequence_accepts _ hs ..).2 ⟨_, .cons (s1 := u ++ s') (pos1 := pos2) ?_
          (.cons h6 (.nil ..)), rfl⟩
        simpa using h5
      · rw [leftFold_snoc, h4, Out.bind_ok, hz]
  intro t x s' pos hl hb
  obtain ⟨v, s0, pos0, vs, x', pos', h1, h2, h3, h4⟩ := key t x hl s' pos
    (beginsWith_mono (fun c hc => by simp [hc]) hb)
  obtain ⟨m, hr⟩ := ho.rejects (s := s') pos'
    (beginsWith_mono (fun c hc => Bool.or_eq_true_iff.2 (.inr hc)) hb)
  exact ⟨pos', hq h1 ⟨h3, (C22_sequence_rejects _ hs ..).2 ⟨[], _, _, [], s', pos', rfl, .nil .., hr⟩⟩
    h2 h4⟩

theorem ReadsAll.leftAssoc {o p : P} {ops : List Chr} {op : Val → Val → Val}
    {A : List Chr → Val → Prop} {cont : Chr → Bool} (hs : E.SupportsSequence 2)
    (ho : ReadsOp E o ops) (hp : ReadsAll E p A cont) (hops : ∀ c ∈ ops, cont c = false)
    (hA : ∀ t v, A t v → beginsWith spaceChar t = false ∧ t ≠ []) :
    ReadsAll E (.foldlRejectIncompleteStartWithParser (.sequence [o, p]) p op)
      (LeftAssoc A ops op) fun c => cont c || ops.contains c :=
  ReadsAll.leftAssocOf hs ho hp hops hA fun h1 hm h2 h4 =>
    (C18_foldl_reject_incomplete_start_with_parser ..).2 ⟨_, _, _, _, _, _, h1, hm, h2, h4⟩

theorem BeginsIn.leftAssoc {o p : P} {op : Val → Val → Val} {f : Chr → Bool}
    (hp : BeginsIn E p f) :
    BeginsIn E (.foldlRejectIncompleteStartWithParser o p op) f := by
  intro s pos hb
  obtain ⟨m, hr⟩ := hp s pos hb
  exact ⟨m, (C18_foldl_reject_incomplete_start_with_parser_rejects ..).2 (.inl hr)⟩

theorem LeftAssoc.begins {A : List Chr → Val → Prop} {ops : List Chr} {op : Val → Val → Val}
    {f : Chr → Bool} {b : Bool} (hA : ∀ t v, A t v → beginsWith f t = b ∧ t ≠ []) {t : List Chr}
    {x : Val} (h : LeftAssoc A ops op t x) : beginsWith f t = b ∧ t ≠ [] := by
  induction h with
  | one h _ => exact hA _ _ h
  | more _ _ _ _ _ ih => exact ⟨by rw [beginsWith_append ih.2]; exact ih.1, by simp⟩

/-! ## Numbers -/

/-- A number and white space after it, with its value. -/
def IntText (t : List Chr) (v : Val) : Prop :=
  ∃ w ws, t = w ++ ws ∧ w ≠ [] ∧ (∀ c ∈ w, digitChar c = true) ∧ (∀ c ∈ ws, spaceChar c = true) ∧
    decimal w ≤ 2147483647 ∧ v = .int (decimal w)

theorem OnlyReads.intToken (hE : E.OnText) (hs : E.SupportsNth 2) (n : Nat) :
    OnlyReads E n (.token P.int_) IntText := by
  intro s pos v s' pos' _ ha
  obtain ⟨ws, pos1, ha, h2, h3, -⟩ := (C29_token_accepts hE hs ..).1 ha
  obtain ⟨w, rfl, hne, hw, hb, rfl, hle, -⟩ := (C30_int_accepts hE ..).1 ha
  exact ⟨w ++ ws, by simp, w, ws, rfl, hne, hw, h2, hle, rfl⟩

/-- The characters that continue a number with white space after it. -/
def numCont (c : Chr) : Bool := digitChar c || spaceChar c

theorem ReadsAll.intToken (hE : E.OnText) (hs : E.SupportsNth 2) :
    ReadsAll E (.token P.int_) IntText numCont := by
  rintro t v s' pos ⟨w, ws, rfl, hne, hw, hws, hle, rfl⟩ hb
  refine ⟨_, (C29_token_accepts hE hs ..).2 ⟨ws, moveOver pos w, ?_, hws,
    beginsWith_mono (fun c hc => by simp [numCont, hc]) hb, rfl⟩⟩
  refine (C30_int_accepts hE ..).2 ⟨w, by simp, hne, hw, ?_, rfl, hle, rfl⟩
  cases ws with
  | nil => exact beginsWith_mono (fun c hc => by simp [numCont, hc]) hb
  | cons c ws => exact digit_not_space (hws c (by simp))

theorem BeginsIn.intToken (hE : E.OnText) (hs : E.SupportsNth 2) :
    BeginsIn E (.token P.int_) digitChar := fun _ _ hb =>
  ⟨.digitExpected, (C29_token_rejects hE hs ..).2 ((C30_int_rejects hE ..).2 ⟨hb, rfl, rfl⟩)⟩

theorem IntText.begins {t : List Chr} {v : Val} (h : IntText t v) :
    beginsWith digitChar t = true ∧ beginsWith spaceChar t = false ∧ t ≠ [] := by
  obtain ⟨w, ws, rfl, hne, hw, -⟩ := h
  cases w with
  | nil => exact absurd rfl hne
  | cons c w =>
    have hc := hw c (by simp)
    refine ⟨hc, ?_, by simp⟩
    simp only [List.cons_append, beginsWith]
    cases hsp : spaceChar c with
    | false => rfl
    | true => rw [digit_not_space hsp] at hc; cases hc

/-! ## Operators as languages -/

theorem ReadsOp.onlyReads {p : P} {ops : List Chr} (h : ReadsOp E p ops) (n : Nat) :
    OnlyReads E n p fun t v => ∃ c ∈ ops, ∃ ws, t = c :: ws ∧ (∀ c ∈ ws, spaceChar c = true) ∧
      v = .chr c := by
  intro s pos v s' pos' _ ha
  obtain ⟨c, hc, ws, rfl, hws, -, rfl⟩ := h.sound ha
  exact ⟨c :: ws, by simp, c, hc, ws, rfl, hws, rfl⟩

theorem ReadsOp.readsAll {p : P} {ops : List Chr} (h : ReadsOp E p ops) :
    ReadsAll E p (fun t v => ∃ c ∈ ops, ∃ ws, t = c :: ws ∧ (∀ c ∈ ws, spaceChar c = true) ∧
      v = .chr c) spaceChar := by
  rintro t v s' pos ⟨c, hc, ws, rfl, hws, rfl⟩ hb
  exact h.accepts pos hc hws hb

theorem ReadsOp.beginsIn {p : P} {ops : List Chr} (h : ReadsOp E p ops) :
    BeginsIn E p ops.contains := fun _ pos hb => h.rejects pos hb

/-! ## A whole text -/

/-- `last_of<repeated<space>, p>` with `entire_input` and `build_parser`, as the examples use it. -/
theorem buildParser_spaces {p : P} {L : List Chr → Val → Prop} {cont : Chr → Bool} (hE : E.OnText)
    (hs : E.SupportsNth 2) (h : ∀ n, OnlyReads E n p L) (h' : ReadsAll E p L cont)
    (hL : ∀ t v, L t v → beginsWith spaceChar t = false) (s : List Chr) (v : Val) :
    buildParser E (.entireInput (.lastOf [.repeated P.space, p])) s = .ok v ↔
      ∃ spaces t, s = spaces ++ t ∧ (∀ c ∈ spaces, spaceChar c = true) ∧ L t v := by
  rw [C34_buildParser_accepts]
  constructor
  · rintro ⟨s', pos', he⟩
    obtain ⟨ha, rfl⟩ := (C33_entireInput_accepts hE hs ..).1 he
    obtain ⟨vs, hi⟩ := (C23_lastOf_accepts _ _ hs ..).1 ha
    obtain ⟨a, b, s1, pos1, hab, h1, h2⟩ := hi.two
    obtain ⟨m, hm⟩ := (C28_space hE).maximalRun' s start
    have h1' : Accepts E (.repeated .space) s start _ _ _ := (C14_repeated ..).2 ⟨_, _, _, hm, rfl⟩
    obtain ⟨-, rfl, -⟩ := h1.unique h1'
    obtain ⟨t, ht, hl⟩ := h _ _ _ _ _ _ (Nat.le_refl _) h2
    rw [List.append_nil] at ht
    have hv : b = v := by
      have := congrArg List.getLast? hab
      simpa using this.symm
    subst hv
    exact ⟨s.takeWhile spaceChar, t, by rw [← ht, List.takeWhile_append_dropWhile],
      all_takeWhile _ _, hl⟩
  · rintro ⟨spaces, t, rfl, hsp, hl⟩
    obtain ⟨m, hm⟩ := (C28_space hE).maximalRun spaces t start hsp (hL t v hl)
    obtain ⟨pos', ha⟩ := h' t v [] (moveOver start spaces) hl rfl
    rw [List.append_nil] at ha
    exact ⟨[], pos', (C33_entireInput_accepts hE hs ..).2 ⟨(C23_lastOf_accepts _ _ hs ..).2
      ⟨[_], .cons ((C14_repeated ..).2 ⟨_, _, _, hm, rfl⟩) (.cons ha (.nil ..))⟩, rfl⟩⟩

end Metaparse
