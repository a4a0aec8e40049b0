import Verif.Lemmas.Out
import Verif.Spec.Sequences
/-!
# Lists of parsers
-/

namespace Metaparse

variable {I : Type}

/-- Outcome of applying parsers one after the other. -/
inductive ChainRes (I : Type) where
  | done (vs : List Val) (s : I) (pos : Pos)
  | failed (m : Msg) (pos : Pos)

/-- Put a result in front. -/
def ChainRes.cons (v : Val) : ChainRes I → ChainRes I
  | .done vs s pos => .done (v :: vs) s pos
  | .failed m pos => .failed m pos

/-- Apply parsers one after the other. -/
def chain : List (Sem I) → I → Pos → Out (ChainRes I)
  | [], s, pos => .ok (.done [] s pos)
  | f :: fs, s, pos => (f s pos).bind fun
      | .rej m q => .ok (.failed m q)
      | .acc v s' q => (chain fs s' q).bind fun r => .ok (r.cons v)

/-- Make a parser outcome of it, given what to do with the results. -/
def ChainRes.toRes (k : List Val → Val) : ChainRes I → Res I
  | .done vs s pos => .acc (k vs) s pos
  | .failed m pos => .rej m pos

theorem chain_length : ∀ (fs : List (Sem I)) (s : I) (pos : Pos) (vs : List Val) (s' : I)
    (pos' : Pos), chain fs s pos = .ok (.done vs s' pos') → vs.length = fs.length := by
  intro fs
  induction fs with
  | nil => intro s pos vs s' pos' h; cases h; rfl
  | cons f fs ih =>
    intro s pos vs s' pos' h
    simp only [chain, Out.bind_eq_ok] at h
    obtain ⟨r, hr, h⟩ := h
    cases r with
    | rej m q => cases h
    | acc v s1 q =>
      simp only [Out.bind_eq_ok] at h
      obtain ⟨r, hr, h⟩ := h
      cases r with
      | failed m q => cases h
      | done vs' s2 q2 => cases h; simp [ih _ _ _ _ _ hr]

theorem sequence11_chain : ∀ (fs : List (Sem I)) (s : I) (pos : Pos),
    Comb.sequence11 fs s pos = (chain fs s pos).bind fun r => .ok (r.toRes .seq) := by
  intro fs
  induction fs with
  | nil => intro s pos; rfl
  | cons f fs ih =>
    intro s pos
    simp only [Comb.sequence11, chain, Out.bind_assoc]
    congr 1
    funext r
    cases r with
    | rej m q => rfl
    | acc v s1 q =>
      simp only [Comb.transform, ih, Out.bind_assoc]
      congr 1
      funext r
      cases r <;> rfl

theorem sequence98Loop_rej (fs : List (Sem I)) (m : Msg) (q : Pos) :
    Comb.sequence98Loop fs (.rej m q) = .ok (.rej m q) := by
  induction fs with
  | nil => rfl
  | cons f fs ih => exact ih

theorem sequence98Loop_chain : ∀ (fs : List (Sem I)) (l : List Val) (s : I) (pos : Pos),
    Comb.sequence98Loop fs (.acc (.seq l) s pos) =
      (chain fs s pos).bind fun r => .ok (r.toRes fun vs => .seq (l ++ vs)) := by
  intro fs
  induction fs with
  | nil => intro l s pos; simp [Comb.sequence98Loop, chain, ChainRes.toRes]
  | cons f fs ih =>
    intro l s pos
    simp only [Comb.sequence98Loop, chain, Out.bind_assoc, Val.force, Out.bind_ok, Comb.transform]
    congr 1
    funext r
    cases r with
    | rej m q => exact sequence98Loop_rej fs m q
    | acc v s1 q =>
      simp only [Comb.pushBack, Out.bind_ok, ih, Out.bind_assoc]
      congr 1
      funext r
      cases r <;> simp [ChainRes.cons, ChainRes.toRes]

theorem skipRemaining_chain (w : Val) : ∀ (fs : List (Sem I)) (s : I) (pos : Pos),
    Comb.skipRemaining w fs s pos = (chain fs s pos).bind fun r => .ok (r.toRes fun _ => w) := by
  intro fs
  induction fs with
  | nil => intro s pos; rfl
  | cons f fs ih =>
    intro s pos
    simp only [Comb.skipRemaining, chain, Out.bind_assoc]
    congr 1
    funext r
    cases r with
    | rej m q => rfl
    | acc v s1 q =>
      simp only [ih, Out.bind_assoc]
      congr 1
      funext r
      cases r <;> rfl

/-- The `k`-th of a list of results. -/
def pick (k : Nat) (vs : List Val) : Val := vs.getD k .void_

theorem nthGo11_chain : ∀ (fs : List (Sem I)) (k : Nat), k < fs.length → ∀ (s : I) (pos : Pos),
    Comb.nthGo11 (k : Int) fs s pos = (chain fs s pos).bind fun r => .ok (r.toRes (pick k)) := by
  intro fs
  induction fs with
  | nil => intro k hk; simp at hk
  | cons f fs ih =>
    intro k hk s pos
    simp only [Comb.nthGo11, chain, Out.bind_assoc]
    congr 1
    funext r
    cases r with
    | rej m q => rfl
    | acc v s1 q =>
      cases k with
      | zero =>
        simp only [Int.natCast_zero, if_true, skipRemaining_chain, Out.bind_assoc]
        congr 1
        funext r
        cases r <;> rfl
      | succ k =>
        have h0 : ¬ ((k + 1 : Nat) : Int) = 0 := by omega
        have h1 : ((k + 1 : Nat) : Int) - 1 = (k : Int) := by omega
        simp only [h0, if_false, h1, ih k (by simpa using hk), Out.bind_assoc]
        congr 1
        funext r
        cases r <;> rfl

theorem skipSeq98_rej (fs : List (Sem I)) (m : Msg) (q : Pos) :
    Comb.skipSeq98 fs (.rej m q) = .ok (.rej m q) := by
  induction fs with
  | nil => rfl
  | cons f fs ih => exact ih

theorem skipSeq98_chain (w : Val) : ∀ (fs : List (Sem I)) (s : I) (pos : Pos),
    Comb.skipSeq98 fs (.acc w s pos) = (chain fs s pos).bind fun r => .ok (r.toRes fun _ => w) := by
  intro fs
  induction fs with
  | nil => intro s pos; rfl
  | cons f fs ih =>
    intro s pos
    simp only [Comb.skipSeq98, chain, Out.bind_assoc]
    congr 1
    funext r
    cases r with
    | rej m q => exact skipSeq98_rej fs m q
    | acc v s1 q =>
      simp only [ih, Out.bind_assoc]
      congr 1
      funext r
      cases r <;> rfl

theorem nthGo98_chain : ∀ (fs : List (Sem I)) (k : Nat), k < fs.length → ∀ (s : I) (pos : Pos),
    Comb.nthGo98 (k : Int) fs s pos = (chain fs s pos).bind fun r => .ok (r.toRes (pick k)) := by
  intro fs
  induction fs with
  | nil => intro k hk; simp at hk
  | cons f fs ih =>
    intro k hk s pos
    cases k with
    | zero =>
      simp only [Comb.nthGo98, chain, Out.bind_assoc, Int.natCast_zero, if_true]
      congr 1
      funext r
      cases r with
      | rej m q => exact skipSeq98_rej fs m q
      | acc v s1 q =>
        simp only [skipSeq98_chain, Out.bind_assoc]
        congr 1
        funext r
        cases r <;> rfl
    | succ k =>
      have h0 : ¬ ((k + 1 : Nat) : Int) = 0 := by omega
      have h1 : ((k + 1 : Nat) : Int) - 1 = (k : Int) := by omega
      simp only [Comb.nthGo98, chain, Out.bind_assoc, h0, if_false, h1]
      congr 1
      funext r
      cases r with
      | rej m q => rfl
      | acc v s1 q =>
        simp only [ih k (by simpa using hk), Out.bind_assoc]
        congr 1
        funext r
        cases r <;> rfl

theorem nthOf_chain (E : Env I) (fs : List (Sem I)) (k : Nat) (hk : k < fs.length)
    (hs : E.SupportsNth fs.length) (s : I) (pos : Pos) :
    Comb.nthOf E (k : Int) fs s pos = (chain fs s pos).bind fun r => .ok (r.toRes (pick k)) := by
  have h11 : Comb.nthOf11 (k : Int) fs s pos =
      (chain fs s pos).bind fun r => .ok (r.toRes (pick k)) := by
    cases fs with
    | nil => simp at hk
    | cons f fs =>
      simp only [Comb.nthOf11]
      rw [if_pos ⟨by omega, by exact_mod_cast hk⟩]
      exact nthGo11_chain _ k hk s pos
  unfold Comb.nthOf
  cases h : E.std
  · simp only [Comb.nthOf98]
    rw [if_pos (hs h), if_pos ⟨by omega, by exact_mod_cast hk⟩]
    exact nthGo98_chain _ k hk s pos
  · exact h11
  · exact h11

/-- The chain of the meanings of parsers, characterised. -/
theorem chain_done_iff (E : Env I) : ∀ (ps : List P) (s : I) (pos : Pos) (vs : List Val) (s' : I)
    (pos' : Pos), chain (ps.map (run E)) s pos = .ok (.done vs s' pos') ↔
      InSequence E ps s pos vs s' pos' := by
  intro ps
  induction ps with
  | nil =>
    intro s pos vs s' pos'
    constructor
    · intro h; cases h; exact .nil _ _
    · intro h; cases h; rfl
  | cons p ps ih =>
    intro s pos vs s' pos'
    simp only [List.map, chain, Out.bind_eq_ok]
    constructor
    · rintro ⟨r, hr, h⟩
      cases r with
      | rej m q => cases h
      | acc v s1 q =>
        simp only [Out.bind_eq_ok] at h
        obtain ⟨r, hr', h⟩ := h
        cases r with
        | failed m q => cases h
        | done vs' s2 q2 => cases h; exact .cons hr ((ih _ _ _ _ _).1 hr')
    · intro h
      cases h with
      | cons h1 h2 => exact ⟨_, h1, by simp only [(ih _ _ _ _ _).2 h2]; rfl⟩

theorem InSequence.length {E : Env I} {ps : List P} {s : I} {pos : Pos} {vs : List Val} {s' : I}
    {pos' : Pos} (h : InSequence E ps s pos vs s' pos') : vs.length = ps.length := by
  have := chain_length _ _ _ _ _ _ ((chain_done_iff E ..).2 h)
  simpa using this

theorem FirstRejection.cons {E : Env I} {p : P} {ps : List P} {s : I} {pos : Pos} {v : Val} {s1 : I}
    {q : Pos} {m : Msg} {e : Pos} (h : Accepts E p s pos v s1 q)
    (h' : FirstRejection E ps s1 q m e) : FirstRejection E (p :: ps) s pos m e := by
  obtain ⟨b, p', a, vs, s2, q2, rfl, h1, h2⟩ := h'
  exact ⟨p :: b, p', a, v :: vs, s2, q2, rfl, .cons h h1, h2⟩

theorem chain_failed_iff (E : Env I) : ∀ (ps : List P) (s : I) (pos : Pos) (m : Msg) (e : Pos),
    chain (ps.map (run E)) s pos = .ok (.failed m e) ↔ FirstRejection E ps s pos m e := by
  intro ps
  induction ps with
  | nil =>
    intro s pos m e
    constructor
    · intro h; cases h
    · rintro ⟨b, p, a, vs, s1, pos1, h, _⟩; simp at h
  | cons p ps ih =>
    intro s pos m e
    simp only [List.map, chain, Out.bind_eq_ok]
    constructor
    · rintro ⟨r, hr, h⟩
      cases r with
      | rej m q => cases h; exact ⟨[], p, ps, [], s, pos, rfl, .nil _ _, hr⟩
      | acc v s1 q =>
        simp only [Out.bind_eq_ok] at h
        obtain ⟨r, hr', h⟩ := h
        cases r with
        | failed m q => cases h; exact .cons hr ((ih _ _ _ _).1 hr')
        | done vs' s2 q2 => cases h
    · rintro ⟨b, p', a, vs, s1, pos1, h, h1, h2⟩
      cases b with
      | nil =>
        cases h1
        simp only [List.nil_append, List.cons.injEq] at h
        obtain ⟨rfl, rfl⟩ := h
        exact ⟨_, h2, rfl⟩
      | cons b bs =>
        cases h1 with
        | cons h1 h1' =>
          simp only [List.cons_append, List.cons.injEq] at h
          obtain ⟨rfl, rfl⟩ := h
          refine ⟨_, h1, ?_⟩
          have := (ih _ _ _ _).2 ⟨bs, p', a, _, _, _, rfl, h1', h2⟩
          simp only [this]; rfl

theorem chain_ill_iff (E : Env I) : ∀ (ps : List P) (s : I) (pos : Pos) (f : Fault),
    chain (ps.map (run E)) s pos = .ill f ↔ FirstFault E ps s pos f := by
  intro ps
  induction ps with
  | nil =>
    intro s pos f
    constructor
    · intro h; cases h
    · rintro ⟨b, p, a, vs, s1, pos1, h, _⟩; simp at h
  | cons p ps ih =>
    intro s pos f
    simp only [List.map, chain, Out.bind_eq_ill]
    constructor
    · rintro (hr | ⟨r, hr, h⟩)
      · exact ⟨[], p, ps, [], s, pos, rfl, .nil _ _, hr⟩
      · cases r with
        | rej m q => cases h
        | acc v s1 q =>
          simp only [Out.bind_eq_ill, reduceCtorEq, and_false, exists_false, or_false] at h
          obtain ⟨b, p', a, vs, s2, q2, rfl, h1, h2⟩ := (ih _ _ _).1 h
          exact ⟨p :: b, p', a, v :: vs, s2, q2, rfl, .cons hr h1, h2⟩
    · rintro ⟨b, p', a, vs, s1, pos1, h, h1, h2⟩
      cases b with
      | nil =>
        cases h1
        simp only [List.nil_append, List.cons.injEq] at h
        obtain ⟨rfl, rfl⟩ := h
        exact .inl h2
      | cons b bs =>
        cases h1 with
        | cons h1 h1' =>
          simp only [List.cons_append, List.cons.injEq] at h
          obtain ⟨rfl, rfl⟩ := h
          refine .inr ⟨_, h1, ?_⟩
          have := (ih _ _ _).2 ⟨bs, p', a, _, _, _, rfl, h1', h2⟩
          simp only [this]; rfl

theorem chain_deep_iff (E : Env I) : ∀ (ps : List P) (s : I) (pos : Pos),
    chain (ps.map (run E)) s pos = .deep ↔ FirstDivergence E ps s pos := by
  intro ps
  induction ps with
  | nil =>
    intro s pos
    constructor
    · intro h; cases h
    · rintro ⟨b, p, a, vs, s1, pos1, h, _⟩; simp at h
  | cons p ps ih =>
    intro s pos
    simp only [List.map, chain, Out.bind_eq_deep]
    constructor
    · rintro (hr | ⟨r, hr, h⟩)
      · exact ⟨[], p, ps, [], s, pos, rfl, .nil _ _, hr⟩
      · cases r with
        | rej m q => cases h
        | acc v s1 q =>
          simp only [Out.bind_eq_deep, reduceCtorEq, and_false, exists_false, or_false] at h
          obtain ⟨b, p', a, vs, s2, q2, rfl, h1, h2⟩ := (ih _ _).1 h
          exact ⟨p :: b, p', a, v :: vs, s2, q2, rfl, .cons hr h1, h2⟩
    · rintro ⟨b, p', a, vs, s1, pos1, h, h1, h2⟩
      cases b with
      | nil =>
        cases h1
        simp only [List.nil_append, List.cons.injEq] at h
        obtain ⟨rfl, rfl⟩ := h
        exact .inl h2
      | cons b bs =>
        cases h1 with
        | cons h1 h1' =>
          simp only [List.cons_append, List.cons.injEq] at h
          obtain ⟨rfl, rfl⟩ := h
          refine .inr ⟨_, h1, ?_⟩
          have := (ih _ _).2 ⟨bs, p', a, _, _, _, rfl, h1', h2⟩
          simp only [this]; rfl

/-- `nth_of_c` through the chain. -/
theorem run_nthOfC (E : Env I) (ps : List P) (k : Nat) (hk : k < ps.length)
    (hs : E.SupportsNth ps.length) (s : I) (pos : Pos) :
    run E (.nthOfC (k : Int) ps) s pos =
      (chain (ps.map (run E)) s pos).bind fun r => .ok (r.toRes (pick k)) := by
  rw [run_step]
  exact nthOf_chain E _ k (by simpa using hk) (by simpa using hs) s pos

/-- `first_of` two parsers. -/
theorem run_firstOf2 (E : Env I) (hs : E.SupportsNth 2) (p q : P) (s : I) (pos : Pos) :
    run E (P.firstOf [p, q]) s pos = (run E p s pos).bind fun
      | .rej m e => .ok (.rej m e)
      | .acc v s' pos' => (run E q s' pos').bind fun
          | .rej m e => .ok (.rej m e)
          | .acc _ s'' pos'' => .ok (.acc v s'' pos'') := by
  have := run_nthOfC E [p, q] 0 (by simp) hs s pos
  unfold P.firstOf
  rw [show (0 : Int) = ((0 : Nat) : Int) from rfl, this]
  simp only [List.map, chain, Out.bind_assoc]
  congr 1
  funext r
  cases r with
  | rej m e => rfl
  | acc v s1 q1 =>
    simp only [Out.bind_assoc]
    congr 1
    funext r
    cases r <;> rfl

end Metaparse
