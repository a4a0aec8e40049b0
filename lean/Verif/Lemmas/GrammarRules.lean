import Verif.Lemmas.GrammarTokens
/-!
# The parser of rule texts accepts exactly the rules
-/

namespace Metaparse

variable {E : Env (List Chr)}

namespace Env.ParsesRules

theorem nth3 (h : E.ParsesRules) : E.SupportsNth 3 := h.limSequence
theorem nth2 (h : E.ParsesRules) : E.SupportsNth 2 := fun e => Nat.lt_trans (by decide) (h.nth3 e)
theorem oneOf5 (h : E.ParsesRules) : E.SupportsOneOf 5 := h.limOneOf
theorem oneOf3 (h : E.ParsesRules) : E.SupportsOneOf 3 :=
  fun e => Nat.le_trans (by decide) (h.oneOf5 e)
theorem oneOf2 (h : E.ParsesRules) : E.SupportsOneOf 2 :=
  fun e => Nat.le_trans (by decide) (h.oneOf5 e)

end Env.ParsesRules

/-! ## The tokens -/

theorem reads_chr (h : E.ParsesRules) :
    Reads E (.transform Gram.charToken Gram.buildChar)
      (fun | .chr c => some (.gexp (.chr c)) | _ => none) :=
  (reads_charToken h.onText h.nth3 h.oneOf5 h.limOneCharExcept).transform _
    (by
      intro t v hv
      cases t <;> cases hv
      exact ⟨_, rfl, rfl⟩)
    (by intro t ht; cases t <;> first | rfl | cases ht)

theorem reads_nameExp (h : E.ParsesRules) :
    Reads E (.transform Gram.nameToken Gram.buildName)
      (fun | .name n => some (.gexp (.name n)) | _ => none) :=
  (reads_name h.onText h.nth2 h.oneOf2).transform _
    (by
      intro t v hv
      cases t <;> cases hv
      exact ⟨_, rfl, rfl⟩)
    (by intro t ht; cases t <;> first | rfl | cases ht)

theorem reads_one (h : E.ParsesRules) (c : Chr) (T : Tok) (hT : T.Written [c])
    (hname : ∀ n, T ≠ .name n) (honly : ∀ w, T.Written w → w = [c]) :
    Reads E (.token (.litC c)) (fun t => if t = T then some (.chr c) else none) :=
  reads_char h.onText h.nth2 c T hT hname honly

theorem reads_star (h : E.ParsesRules) :
    Reads E Gram.repeatedToken (fun t => if t = .star then some (.chr (ch '*')) else none) :=
  reads_one h _ _ .star (by intro n; simp) (by intro w h; cases h; rfl)

theorem reads_plus (h : E.ParsesRules) :
    Reads E Gram.repeated1Token (fun t => if t = .plus then some (.chr (ch '+')) else none) :=
  reads_one h _ _ .plus (by intro n; simp) (by intro w h; cases h; rfl)

theorem reads_bar (h : E.ParsesRules) :
    Reads E Gram.orToken (fun t => if t = .bar then some (.chr (ch '|')) else none) :=
  reads_one h _ _ .bar (by intro n; simp) (by intro w h; cases h; rfl)

theorem reads_open (h : E.ParsesRules) :
    Reads E Gram.openBracketToken (fun t => if t = .open_ then some (.chr (ch '(')) else none) :=
  reads_one h _ _ .open_ (by intro n; simp) (by intro w h; cases h; rfl)

theorem reads_close (h : E.ParsesRules) :
    Reads E Gram.closeBracketToken (fun t => if t = .close then some (.chr (ch ')')) else none) :=
  reads_one h _ _ .close (by intro n; simp) (by intro w h; cases h; rfl)

/-- The value of a repetition token. -/
def repVal (t : Tok) : Option Val :=
  if t = .star then some (.chr (ch '*')) else if t = .plus then some (.chr (ch '+')) else none

theorem reads_rep (h : E.ParsesRules) :
    Reads E (.oneOf [Gram.repeatedToken, Gram.repeated1Token]) repVal := by
  have := (reads_star h).oneOf h.oneOf2 (reads_plus h) (by
    intro t v ht
    cases t <;> simp at ht
    rfl)
  have e : (fun t : Tok => ((if t = .star then some (.chr (ch '*')) else none : Option Val).or
      (if t = .plus then some (.chr (ch '+')) else none))) = repVal := by
    funext t; cases t <;> rfl
  rwa [e] at this

theorem run_ref (E : Env (List Chr)) (i : Nat) (s : List Chr) (pos : Pos) :
    run E (.ref i) s pos = run E (E.rules i) s pos := by
  rw [run_step]; rfl

theorem run_expression (h : E.ParsesRules) (s : List Chr) (pos : Pos) :
    run E (.ref Gram.expressionId) s pos = run E Gram.expression s pos := by
  rw [run_ref, h.expression]

/-! ## Derivations -/

/-- The tokens an expression can begin with. -/
def Tok.starts : Tok → Bool
  | .chr _ => true
  | .name _ => true
  | .open_ => true
  | _ => false

theorem Derives.starts {X : NonTerminal} {ts : List Tok} {e : GExp} (h : Derives X ts e) :
    ∃ t us, ts = t :: us ∧ t.starts = true := by
  induction h with
  | chr c => exact ⟨_, _, rfl, rfl⟩
  | name n => exact ⟨_, _, rfl, rfl⟩
  | bracket _ _ => exact ⟨_, _, rfl, rfl⟩
  | once _ ih => exact ih
  | star _ ih => obtain ⟨t, us, rfl, h⟩ := ih; exact ⟨_, _, rfl, h⟩
  | plus _ ih => obtain ⟨t, us, rfl, h⟩ := ih; exact ⟨_, _, rfl, h⟩
  | single _ ih => exact ih
  | seq _ _ ih _ => obtain ⟨t, us, rfl, h⟩ := ih; exact ⟨_, _, rfl, h⟩
  | alone _ ih => exact ih
  | sel _ _ ih _ => obtain ⟨t, us, rfl, h⟩ := ih; exact ⟨_, _, rfl, h⟩

theorem Derives.ne_nil {X : NonTerminal} {ts : List Tok} {e : GExp} (h : Derives X ts e) :
    0 < ts.length := by
  obtain ⟨t, us, rfl, -⟩ := h.starts
  simp

/-! ## Everything accepted is derived, and nothing else can happen -/

/-- `p` rejects, or it accepts tokens derived from `X`. -/
def GoodAt (E : Env (List Chr)) (p : P) (X : NonTerminal) (s : List Chr) (pos : Pos) : Prop :=
  (∃ m e, Rejects E p s pos m e) ∨
    ∃ e ts s' pos', Accepts E p s pos (.gexp e) s' pos' ∧ Tokens s ts s' ∧ Derives X ts e

/-- `p` rejects, or it accepts tokens that extend what is derived from `X`, the new value being
computed by `op`. -/
def GoodStep (E : Env (List Chr)) (p : P) (op : Val → Val → Val) (X : NonTerminal) (s : List Chr)
    (pos : Pos) : Prop :=
  (∃ m e, Rejects E p s pos m e) ∨
    ∃ v ts s' pos', Accepts E p s pos v s' pos' ∧ Tokens s ts s' ∧ 0 < ts.length ∧
      ∀ x us, Derives X us x → ∃ y, (op (.gexp x) v).force = .ok (.gexp y) ∧ Derives X (us ++ ts) y

theorem GoodAt.finishes {p : P} {X : NonTerminal} {s : List Chr} {pos : Pos}
    (h : GoodAt E p X s pos) : ∃ r, run E p s pos = .ok r := by
  rcases h with ⟨m, e, h⟩ | ⟨e, ts, s', pos', h, -⟩
  · exact ⟨_, h⟩
  · exact ⟨_, h⟩

theorem GoodAt.oneOf {ps : List P} {X : NonTerminal} {s : List Chr} {pos : Pos}
    (hs : E.SupportsOneOf ps.length) (h : ∀ p ∈ ps, GoodAt E p X s pos) :
    GoodAt E (.oneOf ps) X s pos := by
  obtain ⟨r, hr⟩ := oneOf_total ps hs s pos fun p hp => (h p hp).finishes
  cases r with
  | rej m e => exact .inl ⟨m, e, hr⟩
  | acc v s' pos' =>
    obtain ⟨-, b, p, a, rfl, -, hp⟩ := (C19_oneOf_accepts ps hs ..).1 hr
    rcases h p (by simp) with ⟨m, e, h⟩ | ⟨e, ts, s'', pos'', h, h', h''⟩
    · exact (hp.not_rejects h).elim
    · obtain ⟨rfl, rfl, rfl⟩ := hp.unique h
      exact .inr ⟨_, _, _, _, hr, h', h''⟩

theorem goodRun {p : P} {op : Val → Val → Val} {X : NonTerminal} {n : Nat}
    (h : ∀ s pos, s.length ≤ n → GoodStep E p op X s pos) : ∀ k s pos, s.length ≤ k → k ≤ n →
    ∃ vs s' pos' m e ts, MaximalRun E p s pos vs s' pos' m e ∧ Tokens s ts s' ∧
      ∀ x us, Derives X us x → ∃ y, leftFold op (.gexp x) vs = .ok (.gexp y) ∧ Derives X (us ++ ts) y := by
  intro k
  induction k with
  | zero =>
    intro s pos hk hn
    rcases h s pos (by omega) with ⟨m, e, hr⟩ | ⟨v, ts, s', pos', -, ht, hpos, -⟩
    · exact ⟨[], s, pos, m, e, [], ⟨.nil .., hr⟩, .nil _,
        fun x us hx => ⟨x, rfl, by simpa using hx⟩⟩
    · have := ht.length_le
      omega
  | succ k ih =>
    intro s pos hk hn
    rcases h s pos (by omega) with ⟨m, e, hr⟩ | ⟨v, ts, s', pos', ha, ht, hpos, hop⟩
    · exact ⟨[], s, pos, m, e, [], ⟨.nil .., hr⟩, .nil _,
        fun x us hx => ⟨x, rfl, by simpa using hx⟩⟩
    · have := ht.length_le
      obtain ⟨vs, s2, pos2, m, e, ts2, hm, ht2, hop2⟩ := ih s' pos' (by omega) (by omega)
      refine ⟨v :: vs, s2, pos2, m, e, ts ++ ts2, ⟨.cons ha hm.1, hm.2⟩, Tokens.append.2 ⟨s', ht, ht2⟩, ?_⟩
      intro x us hx
      obtain ⟨y, h1, h2⟩ := hop x us hx
      obtain ⟨z, h3, h4⟩ := hop2 y _ h2
      refine ⟨z, ?_, by rwa [List.append_assoc] at h4⟩
      simp only [leftFold, h1, Out.bind_ok, h3]

theorem GoodAt.fold {p sp : P} {op : Val → Val → Val} {X Y : NonTerminal} {n : Nat}
    (hYX : ∀ ts e, Derives Y ts e → Derives X ts e)
    (h0 : ∀ s pos, s.length ≤ n → GoodAt E sp Y s pos)
    (h : ∀ s pos, s.length ≤ n → GoodStep E p op X s pos) (s : List Chr) (pos : Pos)
    (hn : s.length ≤ n) : GoodAt E (.foldlStartWithParser p sp op) X s pos := by
  rcases h0 s pos hn with ⟨m, e, hr⟩ | ⟨x, ts, s', pos', ha, ht, hd⟩
  · exact .inl ⟨m, e, (C18_foldl_start_with_parser_rejects ..).2 hr⟩
  · have := ht.length_le
    obtain ⟨vs, s2, pos2, m, e, ts2, hm, ht2, hop⟩ := goodRun h n s' pos' (by omega) (by omega)
    obtain ⟨y, h1, h2⟩ := hop x ts (hYX _ _ hd)
    exact .inr ⟨y, ts ++ ts2, s2, pos2, (C18_foldl_start_with_parser ..).2
      ⟨_, s', pos', vs, m, e, _, ha, hm, rfl, h1⟩, Tokens.append.2 ⟨s', ht, ht2⟩, h2⟩

theorem Reads.step {p : P} {val : Tok → Option Val} (h : Reads E p val) {op : Val → Val → Val}
    {X : NonTerminal}
    (hop : ∀ t v x us, val t = some v → Derives X us x →
      ∃ y, (op (.gexp x) v).force = .ok (.gexp y) ∧ Derives X (us ++ [t]) y)
    (s : List Chr) (pos : Pos) : GoodStep E p op X s pos := by
  rcases h.total s pos with h | ⟨t, v, s', pos', hv, ht, ha⟩
  · exact .inl h
  · exact .inr ⟨v, [t], s', pos', ha, ht, by simp, fun x us hx => hop t v x us hv hx⟩

theorem good (h : E.ParsesRules) : ∀ n s pos, s.length ≤ n →
    GoodAt E Gram.expression .expression s pos := by
  intro n
  induction n using Nat.strongRecOn with
  | ind n ih =>
    have hname : ∀ s pos, s.length ≤ n → GoodAt E Gram.nameExpression .nameExpression s pos := by
      intro s pos hn
      refine GoodAt.oneOf h.oneOf3 fun p hp => ?_
      simp only [List.mem_cons, List.not_mem_nil, or_false] at hp
      rcases hp with rfl | rfl | rfl
      · rcases (reads_chr h).total s pos with hr | ⟨t, v, s', pos', hv, ht, ha⟩
        · exact .inl hr
        · cases t <;> cases hv
          exact .inr ⟨_, _, _, _, ha, ht, .chr _⟩
      · rcases (reads_nameExp h).total s pos with hr | ⟨t, v, s', pos', hv, ht, ha⟩
        · exact .inl hr
        · cases t <;> cases hv
          exact .inr ⟨_, _, _, _, ha, ht, .name _⟩
      · rcases (reads_open h).total s pos with ⟨m, e, hr⟩ | ⟨t, v, s1, pos1, hv, ht, ha⟩
        · exact .inl ⟨m, e, (C25_middleOf_rejects _ _ _ h.nth3 ..).2
            (.inl ⟨[], _, _, [], s, pos, rfl, .nil .., hr⟩)⟩
        · have : t = .open_ := by
            cases t <;> simp at hv
            rfl
          subst this
          have hlt := ht.shorter
          rcases ih s1.length (by omega) s1 pos1 (Nat.le_refl _) with
            ⟨m, e, hr⟩ | ⟨e, ts, s2, pos2, ha2, ht2, hd⟩
          · have hr : Rejects E (.ref Gram.expressionId) s1 pos1 m e := (run_expression h ..).trans hr
            exact .inl ⟨m, e, (C25_middleOf_rejects _ _ _ h.nth3 ..).2
              (.inl ⟨[_], _, [], _, s1, pos1, rfl, .cons ha (.nil ..), hr⟩)⟩
          · have ha2 : Accepts E (.ref Gram.expressionId) s1 pos1 _ s2 pos2 :=
              (run_expression h ..).trans ha2
            rcases (reads_close h).total s2 pos2 with ⟨m, e, hr⟩ | ⟨t, v, s3, pos3, hv3, ht3, ha3⟩
            · exact .inl ⟨_, e, (C25_middleOf_rejects _ _ _ h.nth3 ..).2
                (.inr ⟨_, s2, pos2, m, .cons ha (.cons ha2 (.nil ..)), hr, rfl⟩)⟩
            · have : t = .close := by
                cases t <;> simp at hv3
                rfl
              subst this
              exact .inr ⟨e, _, s3, pos3, (C25_middleOf_accepts _ _ _ h.nth3 ..).2
                ⟨_, _, .cons ha (.cons ha2 (.cons ha3 (.nil ..)))⟩,
                Tokens.append.2 ⟨s2, Tokens.append.2 ⟨s1, ht, ht2⟩, ht3⟩, .bracket hd⟩
    have hrep : ∀ s pos, s.length ≤ n →
        GoodAt E Gram.repeatedExpression .repeatedExpression s pos := by
      intro s pos hn
      refine GoodAt.fold (fun ts e => .once) hname (fun s pos _ => (reads_rep h).step ?_ s pos) s pos hn
      intro t v x us hv hx
      cases t with
      | star => cases hv; exact ⟨_, rfl, .star hx⟩
      | plus => cases hv; exact ⟨_, rfl, .plus hx⟩
      | _ => cases hv
    have hseq : ∀ s pos, s.length ≤ n → GoodAt E Gram.seqExpression .seqExpression s pos := by
      intro s pos hn
      refine GoodAt.fold (fun ts e => .single) hrep (fun s pos hn => ?_) s pos hn
      rcases hrep s pos hn with hr | ⟨e, ts, s', pos', ha, ht, hd⟩
      · exact .inl hr
      · exact .inr ⟨_, ts, s', pos', ha, ht, hd.ne_nil, fun x us hx => ⟨_, rfl, .seq hx hd⟩⟩
    intro s pos hn
    refine GoodAt.fold (fun ts e => .alone) hseq (fun s pos hn => ?_) s pos hn
    rcases (reads_bar h).total s pos with ⟨m, e, hr⟩ | ⟨t, v, s1, pos1, hv, ht, ha⟩
    · exact .inl ⟨m, e, (C23_lastOf_rejects _ _ h.nth2 ..).2
        ⟨[], _, _, [], s, pos, rfl, .nil .., hr⟩⟩
    · have : t = .bar := by
        cases t <;> simp at hv
        rfl
      subst this
      have hlt := ht.shorter
      rcases hseq s1 pos1 (by omega) with ⟨m, e, hr⟩ | ⟨e, ts, s2, pos2, ha2, ht2, hd⟩
      · exact .inl ⟨m, e, (C23_lastOf_rejects _ _ h.nth2 ..).2
          ⟨[_], _, [], _, s1, pos1, rfl, .cons ha (.nil ..), hr⟩⟩
      · refine .inr ⟨_, [.bar] ++ ts, s2, pos2, (C23_lastOf_accepts _ _ h.nth2 ..).2
          ⟨[_], .cons ha (.cons ha2 (.nil ..))⟩, Tokens.append.2 ⟨s1, ht, ht2⟩, by simp, ?_⟩
        intro x us hx
        exact ⟨_, rfl, by simpa using Derives.sel hx hd⟩

/-! ## Everything derived is accepted -/

/-- The text does not begin with a token of the kind `bad`. -/
def Follow (bad : Tok → Bool) (s : List Chr) : Prop := ∀ t s', Tokens s [t] s' → bad t = false

/-- Tokens a repeated expression would go on with. -/
def Tok.repeats : Tok → Bool
  | .star => true
  | .plus => true
  | _ => false

theorem Follow.of_token {bad : Tok → Bool} {s : List Chr} {t : Tok} {ts : List Tok} {s' : List Chr}
    (h : Tokens s (t :: ts) s') (hb : bad t = false) : Follow bad s := by
  intro t' s'' h'
  obtain ⟨s1, h1, -⟩ := Tokens.head.1 h
  obtain ⟨rfl, -⟩ := h'.one_unique h1
  exact hb

theorem Follow.nil (bad : Tok → Bool) : Follow bad [] := by
  intro t s' h
  have := h.shorter
  simp at this

theorem Follow.mono {bad bad' : Tok → Bool} {s : List Chr} (h : Follow bad s)
    (hb : ∀ t, bad' t = true → bad t = true) : Follow bad' s := by
  intro t s' ht
  have := h t s' ht
  cases e : bad' t with
  | false => rfl
  | true => rw [hb t e] at this; cases this

theorem Reads.follow {p : P} {val : Tok → Option Val} (h : Reads E p val) {bad : Tok → Bool}
    {s : List Chr} (hf : Follow bad s) (hv : ∀ t, bad t = false → val t = none) (pos : Pos) :
    ∃ m e, Rejects E p s pos m e := by
  rcases h.total s pos with h | ⟨t, v, s', pos', hv', ht, -⟩
  · exact h
  · rw [hv t (hf t s' ht)] at hv'; cases hv'

/-- Tokens a sequence would go on with. -/
def Tok.continues (t : Tok) : Bool := t.repeats || t.starts

/-- Tokens an expression would go on with. -/
def Tok.selects (t : Tok) : Bool := t.continues || decide (t = .bar)

/-- What completeness says of each non-terminal symbol: the start parser of the fold accepts, its
step parser accepts a number of times, and the fold of the results is `e`. -/
def Complete (E : Env (List Chr)) (X : NonTerminal) (ts : List Tok) (e : GExp) : Prop :=
  ∀ s s' pos, Tokens s ts s' →
    match X with
    | .nameExpression => ∃ pos', Accepts E Gram.nameExpression s pos (.gexp e) s' pos'
    | .repeatedExpression =>
      ∃ x s0 pos0 vs pos', Accepts E Gram.nameExpression s pos (.gexp x) s0 pos0 ∧
        Steps E (.oneOf [Gram.repeatedToken, Gram.repeated1Token]) s0 pos0 vs s' pos' ∧
        leftFold Gram.buildRepeated (.gexp x) vs = .ok (.gexp e)
    | .seqExpression => Follow Tok.repeats s' →
      ∃ x s0 pos0 vs pos', Accepts E Gram.repeatedExpression s pos (.gexp x) s0 pos0 ∧
        Steps E Gram.repeatedExpression s0 pos0 vs s' pos' ∧
        leftFold Gram.buildSequence (.gexp x) vs = .ok (.gexp e)
    | .expression => Follow Tok.continues s' →
      ∃ x s0 pos0 vs pos', Accepts E Gram.seqExpression s pos (.gexp x) s0 pos0 ∧
        Steps E (.lastOf [Gram.orToken, Gram.seqExpression]) s0 pos0 vs s' pos' ∧
        leftFold Gram.buildSelection (.gexp x) vs = .ok (.gexp e)

theorem leftFold_snoc (op : Val → Val → Val) (x : Val) (vs : List Val) (v : Val) :
    leftFold op x (vs ++ [v]) = (leftFold op x vs).bind fun y => (op y v).force := by
  induction vs generalizing x with
  | nil =>
    simp only [List.nil_append, leftFold, Out.bind_ok]
    cases (op x v).force <;> rfl
  | cons w vs ih =>
    simp only [List.cons_append, leftFold]
    cases (op x w).force with
    | ok y => simp only [Out.bind_ok, ih]
    | ill f => rfl
    | deep => rfl

theorem nameExpression_rejects (h : E.ParsesRules) {s : List Chr} (hf : Follow Tok.starts s)
    (pos : Pos) : ∃ m e, Rejects E Gram.nameExpression s pos m e := by
  refine (C20_oneOf_rejects_iff _ h.oneOf3 ..).2 fun p hp => ?_
  simp only [List.mem_cons, List.not_mem_nil, or_false] at hp
  rcases hp with rfl | rfl | rfl
  · exact (reads_chr h).follow hf (by intro t ht; cases t <;> first | rfl | cases ht) pos
  · exact (reads_nameExp h).follow hf (by intro t ht; cases t <;> first | rfl | cases ht) pos
  · obtain ⟨m, e, hr⟩ := (reads_open h).follow hf
      (by intro t ht; cases t <;> first | rfl | cases ht) pos
    exact ⟨m, e, (C25_middleOf_rejects _ _ _ h.nth3 ..).2
      (.inl ⟨[], _, _, [], s, pos, rfl, .nil .., hr⟩)⟩

theorem repeatedExpression_rejects (h : E.ParsesRules) {s : List Chr} (hf : Follow Tok.starts s)
    (pos : Pos) : ∃ m e, Rejects E Gram.repeatedExpression s pos m e := by
  obtain ⟨m, e, hr⟩ := nameExpression_rejects h hf pos
  exact ⟨m, e, (C18_foldl_start_with_parser_rejects ..).2 hr⟩

theorem Complete.repeated (h : E.ParsesRules) {ts : List Tok} {e : GExp}
    (hc : Complete E .repeatedExpression ts e) {s s' : List Chr} (pos : Pos) (ht : Tokens s ts s')
    (hf : Follow Tok.repeats s') :
    ∃ pos', Accepts E Gram.repeatedExpression s pos (.gexp e) s' pos' := by
  obtain ⟨x, s0, pos0, vs, pos', h1, h2, h3⟩ := hc s s' pos ht
  obtain ⟨m, e', hr⟩ := (reads_rep h).follow hf
    (by intro t ht; cases t <;> first | rfl | cases ht) pos'
  exact ⟨pos', (C18_foldl_start_with_parser ..).2 ⟨_, s0, pos0, vs, m, e', _, h1, ⟨h2, hr⟩, rfl, h3⟩⟩

theorem Complete.seq (h : E.ParsesRules) {ts : List Tok} {e : GExp}
    (hc : Complete E .seqExpression ts e) {s s' : List Chr} (pos : Pos) (ht : Tokens s ts s')
    (hf : Follow Tok.continues s') :
    ∃ pos', Accepts E Gram.seqExpression s pos (.gexp e) s' pos' := by
  obtain ⟨x, s0, pos0, vs, pos', h1, h2, h3⟩ := hc s s' pos ht
    (hf.mono fun t ht => by simp [Tok.continues, ht])
  obtain ⟨m, e', hr⟩ := repeatedExpression_rejects h
    (hf.mono (bad' := Tok.starts) fun t ht => by simp [Tok.continues, ht]) pos'
  exact ⟨pos', (C18_foldl_start_with_parser ..).2 ⟨_, s0, pos0, vs, m, e', _, h1, ⟨h2, hr⟩, rfl, h3⟩⟩

theorem Complete.expr (h : E.ParsesRules) {ts : List Tok} {e : GExp}
    (hc : Complete E .expression ts e) {s s' : List Chr} (pos : Pos) (ht : Tokens s ts s')
    (hf : Follow Tok.selects s') :
    ∃ pos', Accepts E Gram.expression s pos (.gexp e) s' pos' := by
  obtain ⟨x, s0, pos0, vs, pos', h1, h2, h3⟩ := hc s s' pos ht
    (hf.mono fun t ht => by simp [Tok.selects, ht])
  obtain ⟨m, e', hr⟩ := (reads_bar h).follow hf
    (by
      intro t ht
      by_cases hb : t = .bar
      · subst hb; cases ht
      · simp [hb]) pos'
  exact ⟨pos', (C18_foldl_start_with_parser ..).2 ⟨_, s0, pos0, vs, m, e', _, h1,
    ⟨h2, (C23_lastOf_rejects _ _ h.nth2 ..).2 ⟨[], _, _, [], s', pos', rfl, .nil .., hr⟩⟩, rfl, h3⟩⟩

theorem complete (h : E.ParsesRules) {X : NonTerminal} {ts : List Tok} {e : GExp}
    (hd : Derives X ts e) : Complete E X ts e := by
  have hfin : ∀ s pos p, p ∈ [P.transform Gram.charToken Gram.buildChar,
      .transform Gram.nameToken Gram.buildName, Gram.bracketExpression] →
      ∃ r, run E p s pos = .ok r := by
    intro s pos p hp
    simp only [List.mem_cons, List.not_mem_nil, or_false] at hp
    rcases hp with rfl | rfl | rfl
    · rcases (reads_chr h).total s pos with hr | ⟨t, v, s', pos', hv, ht, ha⟩
      · exact Rejects.finishes hr
      · exact ⟨_, ha⟩
    · rcases (reads_nameExp h).total s pos with hr | ⟨t, v, s', pos', hv, ht, ha⟩
      · exact Rejects.finishes hr
      · exact ⟨_, ha⟩
    · rcases (reads_open h).total s pos with ⟨m, e, hr⟩ | ⟨t, v, s1, pos1, hv, ht, ha⟩
      · exact ⟨_, (C25_middleOf_rejects _ _ _ h.nth3 ..).2
          (.inl ⟨[], _, _, [], s, pos, rfl, .nil .., hr⟩)⟩
      · rcases good h _ s1 pos1 (Nat.le_refl _) with ⟨m, e, hr⟩ | ⟨e, ts, s2, pos2, ha2, -, -⟩
        · have hr : Rejects E (.ref Gram.expressionId) s1 pos1 m e := (run_expression h ..).trans hr
          exact ⟨_, (C25_middleOf_rejects _ _ _ h.nth3 ..).2
            (.inl ⟨[_], _, [], _, s1, pos1, rfl, .cons ha (.nil ..), hr⟩)⟩
        · have ha2 : Accepts E (.ref Gram.expressionId) s1 pos1 _ s2 pos2 :=
            (run_expression h ..).trans ha2
          rcases (reads_close h).total s2 pos2 with ⟨m, e, hr⟩ | ⟨t, v, s3, pos3, hv3, ht3, ha3⟩
          · exact ⟨_, (C25_middleOf_rejects _ _ _ h.nth3 ..).2
              (.inr ⟨_, s2, pos2, m, .cons ha (.cons ha2 (.nil ..)), hr, rfl⟩)⟩
          · exact ⟨_, (C25_middleOf_accepts _ _ _ h.nth3 ..).2
              ⟨_, _, .cons ha (.cons ha2 (.cons ha3 (.nil ..)))⟩⟩
  induction hd with
  | chr c =>
    intro s s' pos ht
    obtain ⟨pos', ha⟩ := (reads_chr h).accepts ht rfl (pos := pos)
    exact ⟨pos', (C19_oneOf_accepts _ h.oneOf3 ..).2 ⟨hfin s pos, [], _, _, rfl, by simp, ha⟩⟩
  | name n =>
    intro s s' pos ht
    obtain ⟨pos', ha⟩ := (reads_nameExp h).accepts ht rfl (pos := pos)
    have hr := (reads_chr h).rejects ht rfl (pos := pos)
    exact ⟨pos', (C19_oneOf_accepts _ h.oneOf3 ..).2
      ⟨hfin s pos, [_], _, _, rfl, by simpa using hr, ha⟩⟩
  | @bracket ts e hd ih =>
    intro s s' pos ht
    obtain ⟨s2, ht, ht3⟩ := Tokens.append.1 ht
    obtain ⟨s1, ht1, ht2⟩ := Tokens.append.1 ht
    obtain ⟨pos1, ha1⟩ := (reads_open h).accepts ht1 rfl (pos := pos)
    obtain ⟨pos2, ha2⟩ := ih.expr h pos1 ht2 (Follow.of_token ht3 rfl)
    obtain ⟨pos3, ha3⟩ := (reads_close h).accepts ht3 rfl (pos := pos2)
    have hr1 := (reads_chr h).rejects ht1 rfl (pos := pos)
    have hr2 := (reads_nameExp h).rejects ht1 rfl (pos := pos)
    have ha2 : Accepts E (.ref Gram.expressionId) s1 pos1 _ s2 pos2 :=
      (run_expression h ..).trans ha2
    exact ⟨pos3, (C19_oneOf_accepts _ h.oneOf3 ..).2
      ⟨hfin s pos, [_, _], Gram.bracketExpression, [], rfl, by simpa using ⟨hr1, hr2⟩,
        (C25_middleOf_accepts _ _ _ h.nth3 ..).2
          ⟨_, _, .cons ha1 (.cons ha2 (.cons ha3 (.nil ..)))⟩⟩⟩
  | once _ ih =>
    intro s s' pos ht
    obtain ⟨pos', ha⟩ := ih s s' pos ht
    exact ⟨_, s', pos', [], pos', ha, .nil .., rfl⟩
  | star _ ih =>
    intro s s' pos ht
    obtain ⟨s1, ht1, ht2⟩ := Tokens.append.1 ht
    obtain ⟨x, s0, pos0, vs, pos1, h1, h2, h3⟩ := ih s s1 pos ht1
    obtain ⟨pos2, ha⟩ := (reads_rep h).accepts ht2 rfl (pos := pos1)
    exact ⟨x, s0, pos0, _, pos2, h1, h2.snoc ha, by rw [leftFold_snoc, h3]; rfl⟩
  | plus _ ih =>
    intro s s' pos ht
    obtain ⟨s1, ht1, ht2⟩ := Tokens.append.1 ht
    obtain ⟨x, s0, pos0, vs, pos1, h1, h2, h3⟩ := ih s s1 pos ht1
    obtain ⟨pos2, ha⟩ := (reads_rep h).accepts ht2 rfl (pos := pos1)
    exact ⟨x, s0, pos0, _, pos2, h1, h2.snoc ha, by rw [leftFold_snoc, h3]; rfl⟩
  | single _ ih =>
    intro s s' pos ht hf
    obtain ⟨pos', ha⟩ := ih.repeated h pos ht hf
    exact ⟨_, s', pos', [], pos', ha, .nil .., rfl⟩
  | seq _ hd2 ih1 ih2 =>
    intro s s' pos ht hf
    obtain ⟨s1, ht1, ht2⟩ := Tokens.append.1 ht
    have hf1 : Follow Tok.repeats s1 := by
      obtain ⟨t, us, rfl, hst⟩ := hd2.starts
      refine Follow.of_token ht2 ?_
      cases t <;> first | rfl | cases hst
    obtain ⟨x, s0, pos0, vs, pos1, h1, h2, h3⟩ := ih1 s s1 pos ht1 hf1
    obtain ⟨pos2, ha⟩ := ih2.repeated h pos1 ht2 hf
    exact ⟨x, s0, pos0, _, pos2, h1, h2.snoc ha, by rw [leftFold_snoc, h3]; rfl⟩
  | alone _ ih =>
    intro s s' pos ht hf
    obtain ⟨pos', ha⟩ := ih.seq h pos ht hf
    exact ⟨_, s', pos', [], pos', ha, .nil .., rfl⟩
  | sel _ hd2 ih1 ih2 =>
    intro s s' pos ht hf
    obtain ⟨s2, ht, ht3⟩ := Tokens.append.1 ht
    obtain ⟨s1, ht1, ht2⟩ := Tokens.append.1 ht
    obtain ⟨x, s0, pos0, vs, pos1, h1, h2, h3⟩ := ih1 s s1 pos ht1 (Follow.of_token ht2 rfl)
    obtain ⟨pos2, ha2⟩ := (reads_bar h).accepts ht2 rfl (pos := pos1)
    obtain ⟨pos3, ha3⟩ := ih2.seq h pos2 ht3 hf
    exact ⟨x, s0, pos0, _, pos3, h1, h2.snoc ((C23_lastOf_accepts _ _ h.nth2 ..).2
      ⟨[_], .cons ha2 (.cons ha3 (.nil ..))⟩), by rw [leftFold_snoc, h3]; rfl⟩

end Metaparse
