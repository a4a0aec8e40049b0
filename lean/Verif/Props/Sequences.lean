import Verif.Lemmas.Lists
import Verif.Lemmas.Honest
import Verif.Lemmas.Check
/-!
# Parsers applied one after the other

C22 (`sequence`), C23 (`nth_of`, `first_of`, `last_of`), C24 (index out of range),
C25 (`middle_of`), C26 (`iterate`), C33 (`entire_input`), C34 (`build_parser`),
C53 (`sequence_apply`).
-/

namespace Metaparse

variable {I : Type} {E : Env I}

theorem supportsNth_of_cpp11 (h : E.std ≠ .cpp98) (n : Nat) : E.SupportsNth n :=
  fun h' => absurd h' h

/-! ## C22 -/

theorem run_sequence (ps : List P) (hs : E.SupportsSequence ps.length) (s : I) (pos : Pos) :
    run E (.sequence ps) s pos =
      (chain (ps.map (run E)) s pos).bind fun r => .ok (r.toRes .seq) := by
  rw [run_step]
  simp only [step]
  cases h : E.std
  · simp only [Comb.sequence98, List.length_map]
    rw [if_pos (hs h)]
    simpa using sequence98Loop_chain (ps.map (run E)) [] s pos
  · exact sequence11_chain _ s pos
  · exact sequence11_chain _ s pos

/-- `sequence` accepts iff its parsers accept one after the other; it returns all results. -/
theorem C22_sequence_accepts (ps : List P) (hs : E.SupportsSequence ps.length) (s : I) (pos : Pos)
    (v : Val) (s' : I) (pos' : Pos) :
    Accepts E (.sequence ps) s pos v s' pos' ↔
      ∃ vs, InSequence E ps s pos vs s' pos' ∧ v = .seq vs := by
  unfold Accepts
  rw [run_sequence ps hs]
  simp only [← chain_done_iff, Out.bind_eq_ok]
  constructor
  · rintro ⟨r, hr, h⟩
    cases r <;> cases h
    exact ⟨_, hr, rfl⟩
  · rintro ⟨vs, h, rfl⟩; exact ⟨_, h, rfl⟩

theorem seq3_run : InSequence env98 [P.int_, P.space, P.letter] (txt "12 x!") start [.int 12, .chr (ch ' '), .chr (ch 'x')] (txt "!")
    ⟨1, 5, ch 'x'⟩ := by
  have h1 : Accepts env98 P.int_ (txt "12 x!") start (.int 12) (txt " x!") ⟨1, 3, ch '2'⟩ := accepts_of_eval 20 (by decide +kernel)
  have h2 : Accepts env98 P.space (txt " x!") ⟨1, 3, ch '2'⟩ (.chr (ch ' ')) (txt "x!") ⟨1, 4, ch ' '⟩ :=
    accepts_of_eval 20 (by decide +kernel)
  have h3 : Accepts env98 P.letter (txt "x!") ⟨1, 4, ch ' '⟩ (.chr (ch 'x')) (txt "!") ⟨1, 5, ch 'x'⟩ :=
    accepts_of_eval 20 (by decide +kernel)
  exact .cons h1 (.cons h2 (.cons h3 (.nil ..)))

theorem seq3_supports : env98.SupportsSequence 3 := fun _ => ⟨by decide, by decide⟩

theorem seq3_nth : env98.SupportsNth 3 := fun _ => by decide

example : Accepts env98 (.sequence [P.int_, P.space, P.letter]) (txt "12 x!") start
    (.seq [.int 12, .chr (ch ' '), .chr (ch 'x')]) (txt "!") ⟨1, 5, ch 'x'⟩ :=
  (C22_sequence_accepts _ seq3_supports _ _ _ _ _).2 ⟨_, seq3_run, rfl⟩

/-- `sequence` rejects iff one of its parsers is the first to reject, with its error; the parsers
after it do not matter. -/
theorem C22_sequence_rejects (ps : List P) (hs : E.SupportsSequence ps.length) (s : I) (pos : Pos)
    (m : Msg) (e : Pos) :
    Rejects E (.sequence ps) s pos m e ↔ FirstRejection E ps s pos m e := by
  unfold Rejects
  rw [run_sequence ps hs]
  simp only [← chain_failed_iff, Out.bind_eq_ok]
  constructor
  · rintro ⟨r, hr, h⟩
    cases r <;> cases h
    exact hr
  · intro h; exact ⟨_, h, rfl⟩

theorem seq3_reject : FirstRejection env98 [P.int_, P.space, P.letter] (txt "12 3") start .letterExpected ⟨1, 4, ch ' '⟩ := by
  have h1 : Accepts env98 P.int_ (txt "12 3") start (.int 12) (txt " 3") ⟨1, 3, ch '2'⟩ := accepts_of_eval 20 (by decide +kernel)
  have h2 : Accepts env98 P.space (txt " 3") ⟨1, 3, ch '2'⟩ (.chr (ch ' ')) (txt "3") ⟨1, 4, ch ' '⟩ :=
    accepts_of_eval 20 (by decide +kernel)
  exact ⟨[P.int_, P.space], P.letter, [], _, _, _, rfl, .cons h1 (.cons h2 (.nil ..)), rejects_of_eval 20 (by decide +kernel)⟩

example : Rejects env98 (.sequence [P.int_, P.space, P.letter]) (txt "12 3") start .letterExpected ⟨1, 4, ch ' '⟩ :=
  (C22_sequence_rejects _ seq3_supports _ _ _ _).2 seq3_reject

/-- `sequence` does not compile or does not finish iff one of its parsers, on what the ones before
left, is the first that does not compile resp. finish. -/
theorem C22_sequence_fails (ps : List P) (hs : E.SupportsSequence ps.length) (s : I) (pos : Pos) :
    (∀ f, run E (.sequence ps) s pos = .ill f ↔ FirstFault E ps s pos f) ∧
    (Diverges E (.sequence ps) s pos ↔ FirstDivergence E ps s pos) := by
  unfold Diverges
  rw [run_sequence ps hs]
  simp only [← chain_ill_iff, ← chain_deep_iff, Out.bind_eq_ill, Out.bind_eq_deep]
  simp

example : run env98 (.sequence [P.letter, .transform P.letter fun _ => .bad .noType]) (txt "ab") start = .ill .noType :=
  (((C22_sequence_fails _ (fun _ => ⟨by decide, by decide⟩)) _ _).1 _).2
    ⟨[P.letter], _, [], [.chr (ch 'a')], txt "b", ⟨1, 2, ch 'a'⟩, rfl,
      .cons (accepts_of_eval 20 (by decide +kernel)) (.nil ..), run_eq_of_eval (n := 20) (by rfl) (by simp)⟩

/-- In C++98 the number of parsers is limited to one less than
`BOOST_METAPARSE_LIMIT_SEQUENCE_SIZE`; with that limit set to 1 there is no `sequence` at all. -/
theorem C22_sequence_limit98 (h98 : E.std = .cpp98) (ps : List P)
    (h : E.limSequence ≤ 1 ∨ E.limSequence ≤ ps.length) (s : I) (pos : Pos) :
    IllFormed E (.sequence ps) s pos := by
  refine ⟨.noSpecialisation, ?_⟩
  rw [run_step]
  simp only [step, h98, Comb.sequence98, List.length_map]
  rw [if_neg]
  omega

example : env98.SupportsSequence 3 ∧ env11.SupportsSequence 30 :=
  ⟨fun _ => by decide, fun h => by cases h⟩
example : Accepts env98 (.sequence [P.digit, P.letter, .oneChar]) (txt "1a;.") start
    (.seq [.chr (ch '1'), .chr (ch 'a'), .chr (ch ';')]) (txt ".") ⟨1, 4, ch ';'⟩ :=
  accepts_of_eval 20 (by decide +kernel)
example : Rejects env11 (.sequence [P.digit, P.letter, .oneChar]) (txt "12;.") start
    .letterExpected ⟨1, 2, ch '1'⟩ := rejects_of_eval 20 (by decide +kernel)

/-! ## C23 -/

/-- `nth_of_c<k, ps...>` accepts iff the whole sequence does, with the `k`-th result and what the
whole sequence left. -/
theorem C23_nthOf_accepts (ps : List P) (k : Nat) (hk : k < ps.length)
    (hs : E.SupportsNth ps.length) (s : I) (pos : Pos) (v : Val) (s' : I) (pos' : Pos) :
    Accepts E (.nthOfC (k : Int) ps) s pos v s' pos' ↔
      ∃ vs, InSequence E ps s pos vs s' pos' ∧ vs[k]? = some v := by
  unfold Accepts
  rw [run_nthOfC E ps k hk hs]
  simp only [← chain_done_iff, Out.bind_eq_ok]
  constructor
  · rintro ⟨r, hr, h⟩
    cases r with
    | failed m q => cases h
    | done vs s1 q =>
      have hl := chain_length _ _ _ _ _ _ hr
      rw [List.length_map] at hl
      cases h
      refine ⟨vs, hr, ?_⟩
      rw [List.getElem?_eq_getElem (by omega)]
      simp [pick, List.getD, List.getElem?_eq_getElem (show k < vs.length by omega)]
  · rintro ⟨vs, h, hv⟩
    refine ⟨_, h, ?_⟩
    simp [ChainRes.toRes, pick, List.getD, hv]

example : Accepts env98 (.nthOfC 1 [P.int_, P.space, P.letter]) (txt "12 x!") start (.chr (ch ' ')) (txt "!") ⟨1, 5, ch 'x'⟩ :=
  (C23_nthOf_accepts _ 1 (by decide) seq3_nth _ _ _ _ _).2 ⟨_, seq3_run, rfl⟩

theorem C23_nthOf_rejects (ps : List P) (k : Nat) (hk : k < ps.length)
    (hs : E.SupportsNth ps.length) (s : I) (pos : Pos) (m : Msg) (e : Pos) :
    Rejects E (.nthOfC (k : Int) ps) s pos m e ↔ FirstRejection E ps s pos m e := by
  unfold Rejects
  rw [run_nthOfC E ps k hk hs]
  simp only [← chain_failed_iff, Out.bind_eq_ok]
  constructor
  · rintro ⟨r, hr, h⟩
    cases r <;> cases h
    exact hr
  · intro h; exact ⟨_, h, rfl⟩

example : Rejects env98 (.nthOfC 1 [P.int_, P.space, P.letter]) (txt "12 3") start .letterExpected ⟨1, 4, ch ' '⟩ :=
  (C23_nthOf_rejects _ 1 (by decide) seq3_nth _ _ _ _).2 seq3_reject

theorem C23_nthOf_fails (ps : List P) (k : Nat) (hk : k < ps.length)
    (hs : E.SupportsNth ps.length) (s : I) (pos : Pos) :
    (∀ f, run E (.nthOfC (k : Int) ps) s pos = .ill f ↔ FirstFault E ps s pos f) ∧
    (Diverges E (.nthOfC (k : Int) ps) s pos ↔ FirstDivergence E ps s pos) := by
  unfold Diverges
  rw [run_nthOfC E ps k hk hs]
  simp only [← chain_ill_iff, ← chain_deep_iff, Out.bind_eq_ill, Out.bind_eq_deep]
  simp

example : run env98 (.nthOfC 0 [P.letter, .transform P.letter fun _ => .bad .noType]) (txt "ab") start = .ill .noType :=
  (((C23_nthOf_fails _ 0 (by decide) (fun _ => by decide)) _ _).1 _).2
    ⟨[P.letter], _, [], [.chr (ch 'a')], txt "b", ⟨1, 2, ch 'a'⟩, rfl,
      .cons (accepts_of_eval 20 (by decide +kernel)) (.nil ..), run_eq_of_eval (n := 20) (by rfl) (by simp)⟩

/-- `first_of` returns the first result. -/
theorem C23_firstOf_accepts (p : P) (ps : List P) (hs : E.SupportsNth (p :: ps).length) (s : I)
    (pos : Pos) (v : Val) (s' : I) (pos' : Pos) :
    Accepts E (P.firstOf (p :: ps)) s pos v s' pos' ↔
      ∃ vs, InSequence E (p :: ps) s pos (v :: vs) s' pos' := by
  have := C23_nthOf_accepts (p :: ps) 0 (by simp) hs s pos v s' pos'
  unfold P.firstOf
  rw [show (0 : Int) = ((0 : Nat) : Int) from rfl, this]
  constructor
  · rintro ⟨vs, h, hv⟩
    cases vs with
    | nil => cases hv
    | cons x xs => simp only [List.getElem?_cons_zero, Option.some.injEq] at hv; subst hv; exact ⟨xs, h⟩
  · rintro ⟨vs, h⟩; exact ⟨_, h, rfl⟩

example : Accepts env98 (P.firstOf [P.int_, P.space, P.letter]) (txt "12 x!") start (.int 12) (txt "!") ⟨1, 5, ch 'x'⟩ :=
  (C23_firstOf_accepts _ _ seq3_nth _ _ _ _ _).2 ⟨_, seq3_run⟩

theorem C23_firstOf_rejects (p : P) (ps : List P) (hs : E.SupportsNth (p :: ps).length) (s : I)
    (pos : Pos) (m : Msg) (e : Pos) :
    Rejects E (P.firstOf (p :: ps)) s pos m e ↔ FirstRejection E (p :: ps) s pos m e :=
  C23_nthOf_rejects (p :: ps) 0 (by simp) hs s pos m e

example : Rejects env98 (P.firstOf [P.int_, P.space, P.letter]) (txt "12 3") start .letterExpected ⟨1, 4, ch ' '⟩ :=
  (C23_firstOf_rejects _ _ seq3_nth _ _ _ _).2 seq3_reject

theorem run_lastOf (p : P) (ps : List P) (hs : E.SupportsNth (p :: ps).length) (s : I) (pos : Pos) :
    run E (.lastOf (p :: ps)) s pos = run E (.nthOfC ((ps.length : Nat) : Int) (p :: ps)) s pos := by
  rw [run_nthOfC E _ _ (by simp) hs, run_step]
  have hl : (((run E p :: ps.map (run E)).length : Nat) : Int) - 1 = ((ps.length : Nat) : Int) := by
    simp
  simp only [step]
  have h11 : Comb.lastOf11 ((p :: ps).map (run E)) s pos =
      (chain ((p :: ps).map (run E)) s pos).bind fun r => .ok (r.toRes (pick ps.length)) := by
    simp only [List.map, Comb.lastOf11, hl]
    exact nthGo11_chain _ _ (by simp) s pos
  cases h : E.std
  · simp only [List.map, Comb.lastOf98, hl, Comb.nthOf98]
    have := hs h
    rw [if_pos (by simpa using this), if_pos ⟨by omega, by simp; omega⟩]
    exact nthGo98_chain _ _ (by simp) s pos
  · exact h11
  · exact h11

/-- `last_of` returns the last result. -/
theorem C23_lastOf_accepts (p : P) (ps : List P) (hs : E.SupportsNth (p :: ps).length) (s : I)
    (pos : Pos) (v : Val) (s' : I) (pos' : Pos) :
    Accepts E (.lastOf (p :: ps)) s pos v s' pos' ↔
      ∃ vs, InSequence E (p :: ps) s pos (vs ++ [v]) s' pos' := by
  have := C23_nthOf_accepts (p :: ps) ps.length (by simp) hs s pos v s' pos'
  unfold Accepts at *
  rw [run_lastOf p ps hs, this]
  constructor
  · rintro ⟨vs, h, hv⟩
    have hl := h.length
    refine ⟨vs.take ps.length, ?_⟩
    have hlt : ps.length < vs.length := by rw [hl]; simp
    have : vs = vs.take ps.length ++ [v] := by
      conv => lhs; rw [← List.take_append_drop ps.length vs]
      congr 1
      rw [List.getElem?_eq_getElem hlt] at hv
      rw [List.drop_eq_getElem_cons hlt]
      simp only [Option.some.injEq] at hv
      rw [hv, List.drop_eq_nil_of_le (by rw [hl]; simp)]
    rw [← this]; exact h
  · rintro ⟨vs, h⟩
    have hl := h.length
    simp only [List.length_append, List.length_cons, List.length_nil] at hl
    refine ⟨_, h, ?_⟩
    have : vs.length = ps.length := by omega
    rw [← this]; simp

example : Accepts env98 (.lastOf [P.int_, P.space, P.letter]) (txt "12 x!") start (.chr (ch 'x')) (txt "!") ⟨1, 5, ch 'x'⟩ :=
  (C23_lastOf_accepts _ _ seq3_nth _ _ _ _ _).2 ⟨[.int 12, .chr (ch ' ')], seq3_run⟩

theorem C23_lastOf_rejects (p : P) (ps : List P) (hs : E.SupportsNth (p :: ps).length) (s : I)
    (pos : Pos) (m : Msg) (e : Pos) :
    Rejects E (.lastOf (p :: ps)) s pos m e ↔ FirstRejection E (p :: ps) s pos m e := by
  have := C23_nthOf_rejects (p :: ps) ps.length (by simp) hs s pos m e
  unfold Rejects at *
  rw [run_lastOf p ps hs, this]

example : Accepts env98 (.nthOfC 1 [P.digit, P.letter, .oneChar]) (txt "1a;.") start
    (.chr (ch 'a')) (txt ".") ⟨1, 4, ch ';'⟩ := accepts_of_eval 20 (by decide +kernel)
example : Accepts env11 (P.firstOf [P.digit, P.letter, .oneChar]) (txt "1a;.") start
    (.chr (ch '1')) (txt ".") ⟨1, 4, ch ';'⟩ := accepts_of_eval 20 (by decide +kernel)
example : Accepts env11 (.lastOf [P.digit, P.letter, .oneChar]) (txt "1a;.") start
    (.chr (ch ';')) (txt ".") ⟨1, 4, ch ';'⟩ := accepts_of_eval 20 (by decide +kernel)
example : env98.SupportsNth 3 := fun _ => by decide

/-! ## C24 -/

/-- An index outside the list is rejected at the start, whatever the parsers do. -/
theorem C24_index_out_of_range (ps : List P) (k : Int) (hk : k < 0 ∨ (ps.length : Int) ≤ k)
    (hs : E.SupportsNth ps.length) (s : I) (pos : Pos) :
    Rejects E (.nthOfC k ps) s pos (.indexOutOfRange 0 ((ps.length : Int) - 1) k) pos := by
  unfold Rejects
  rw [run_step]
  simp only [step, Comb.nthOf]
  have h11 : Comb.nthOf11 k (ps.map (run E)) s pos =
      .ok (.rej (.indexOutOfRange 0 ((ps.length : Int) - 1) k) pos) := by
    cases ps with
    | nil => rfl
    | cons p ps =>
      simp only [List.map, Comb.nthOf11, List.length_cons, List.length_map]
      rw [if_neg (by simp only [List.length_cons] at hk; omega)]
      rfl
  cases h : E.std
  · simp only [Comb.nthOf98, List.length_map]
    rw [if_pos (hs h), if_neg (by omega)]
    rfl
  · exact h11
  · exact h11

/-- A parser that does not compile does not matter when the index is out of range. -/
example : Rejects env11 (.nthOfC 2 [P.int_, .transform .oneChar fun _ => .bad .noType])
    (txt "1x") start (.indexOutOfRange 0 1 2) start := rejects_of_eval 20 (by decide +kernel)
example : Rejects env98 (.nthOfC (-1) [P.int_]) (txt "1x") start (.indexOutOfRange 0 0 (-1)) start :=
  rejects_of_eval 20 (by decide +kernel)

/-! ## C25 -/

theorem run_middleOf (p1 p2 p3 : P) (hs : E.SupportsNth 3) (s : I) (pos : Pos) :
    run E (.middleOf p1 p2 p3) s pos = (run E p1 s pos).bind fun
      | .rej m e => .ok (.rej m e)
      | .acc _ s1 pos1 => (run E p2 s1 pos1).bind fun
          | .rej m e => .ok (.rej m e)
          | .acc v s2 pos2 => (run E p3 s2 pos2).bind fun
              | .rej m e => .ok (.rej (.unpaired pos.line pos.col m) e)
              | .acc _ s3 pos3 => .ok (.acc v s3 pos3) := by
  rw [run_step]
  simp only [step, Comb.middleOf]
  rw [show (1 : Int) = ((1 : Nat) : Int) from rfl, nthOf_chain E _ 1 (by simp) (by simpa using hs)]
  simp only [chain, Out.bind_assoc]
  congr 1
  funext r
  cases r with
  | rej m e => rfl
  | acc v1 s1 q1 =>
    simp only [Out.bind_assoc]
    congr 1
    funext r
    cases r with
    | rej m e => rfl
    | acc v2 s2 q2 =>
      simp only [Comb.transformErrorMessage, Out.bind_assoc]
      congr 1
      funext r
      cases r <;> rfl

theorem C25_middleOf_accepts (p1 p2 p3 : P) (hs : E.SupportsNth 3) (s : I) (pos : Pos)
    (v : Val) (s' : I) (pos' : Pos) :
    Accepts E (.middleOf p1 p2 p3) s pos v s' pos' ↔
      ∃ v1 v3, InSequence E [p1, p2, p3] s pos [v1, v, v3] s' pos' := by
  unfold Accepts
  rw [run_middleOf p1 p2 p3 hs]
  simp only [Out.bind_eq_ok]
  constructor
  · rintro ⟨r1, h1, h⟩
    cases r1 with
    | rej m e => cases h
    | acc v1 s1 q1 =>
      simp only [Out.bind_eq_ok] at h
      obtain ⟨r2, h2, h⟩ := h
      cases r2 with
      | rej m e => cases h
      | acc v2 s2 q2 =>
        simp only [Out.bind_eq_ok] at h
        obtain ⟨r3, h3, h⟩ := h
        cases r3 with
        | rej m e => cases h
        | acc v3 s3 q3 =>
          cases h
          exact ⟨v1, v3, .cons h1 (.cons h2 (.cons h3 (.nil _ _)))⟩
  · rintro ⟨v1, v3, h⟩
    rcases h with _ | ⟨h1, h⟩
    rcases h with _ | ⟨h2, h⟩
    rcases h with _ | ⟨h3, h⟩
    cases h
    unfold Accepts at h1 h2 h3
    exact ⟨_, h1, by simp [h2, h3]⟩

example : Accepts env98 (.middleOf P.int_ P.space P.letter) (txt "12 x!") start (.chr (ch ' ')) (txt "!") ⟨1, 5, ch 'x'⟩ :=
  (C25_middleOf_accepts _ _ _ seq3_nth _ _ _ _ _).2 ⟨_, _, seq3_run⟩

/-- Errors of the first two parsers pass unchanged; an error of the closing parser is at its own
position and names the line and column where `middle_of` started. -/
theorem C25_middleOf_rejects (p1 p2 p3 : P) (hs : E.SupportsNth 3) (s : I) (pos : Pos)
    (m : Msg) (e : Pos) :
    Rejects E (.middleOf p1 p2 p3) s pos m e ↔
      FirstRejection E [p1, p2] s pos m e ∨
      ∃ vs s2 pos2 m3, InSequence E [p1, p2] s pos vs s2 pos2 ∧ Rejects E p3 s2 pos2 m3 e ∧
        m = .unpaired pos.line pos.col m3 := by
  unfold Rejects
  rw [run_middleOf p1 p2 p3 hs]
  simp only [Out.bind_eq_ok]
  constructor
  · rintro ⟨r1, h1, h⟩
    cases r1 with
    | rej m e => cases h; exact .inl ⟨[], p1, [p2], [], s, pos, rfl, .nil _ _, h1⟩
    | acc v1 s1 q1 =>
      simp only [Out.bind_eq_ok] at h
      obtain ⟨r2, h2, h⟩ := h
      cases r2 with
      | rej m e =>
        cases h
        exact .inl ⟨[p1], p2, [], [v1], s1, q1, rfl, .cons h1 (.nil _ _), h2⟩
      | acc v2 s2 q2 =>
        simp only [Out.bind_eq_ok] at h
        obtain ⟨r3, h3, h⟩ := h
        cases r3 with
        | rej m e => cases h; exact .inr ⟨_, _, _, _, .cons h1 (.cons h2 (.nil _ _)), h3, rfl⟩
        | acc v3 s3 q3 => cases h
  · rintro (h | ⟨vs, s2, pos2, m3, h, h3, rfl⟩)
    · rw [← chain_failed_iff] at h
      simp only [List.map, chain, Out.bind_eq_ok] at h
      obtain ⟨r1, h1, h⟩ := h
      refine ⟨r1, h1, ?_⟩
      cases r1 with
      | rej m e => cases h; rfl
      | acc v1 s1 q1 =>
        simp only [Out.bind_eq_ok] at h ⊢
        obtain ⟨r2, ⟨r3, h2, h3⟩, h⟩ := h
        refine ⟨r3, h2, ?_⟩
        cases r3 with
        | rej m e => cases h3; cases h; rfl
        | acc v2 s2 q2 => simp at h3; subst h3; cases h
    · rcases h with _ | ⟨h1, h⟩
      rcases h with _ | ⟨h2, h⟩
      cases h
      unfold Accepts at h1 h2
      exact ⟨_, h1, by simp [h2, h3]⟩

/-- `"(13"` at line 2, column 5: the error is at the end and names 2:5. -/
example : Rejects env11 (.middleOf (P.lit (ch '(')) P.int_ (P.lit (ch ')'))) (txt "(13")
    ⟨2, 5, ch ' '⟩ (.unpaired 2 5 (.literalExpected (ch ')'))) ⟨2, 8, ch '3'⟩ :=
  rejects_of_eval 20 (by decide +kernel)
example : Accepts env98 (.middleOf (P.lit (ch '(')) P.int_ (P.lit (ch ')'))) (txt "(13)x")
    start (.int 13) (txt "x") ⟨1, 5, ch ')'⟩ := accepts_of_eval 20 (by decide +kernel)
example : env98.SupportsNth 3 ∧ env11.SupportsNth 3 := ⟨fun _ => by decide, fun h => by cases h⟩

/-! ## C26 -/

theorem Steps.snoc {p : P} {s : I} {pos : Pos} {vs : List Val} {s1 : I} {pos1 : Pos} {v : Val}
    {s2 : I} {pos2 : Pos} (h : Steps E p s pos vs s1 pos1) (h' : Accepts E p s1 pos1 v s2 pos2) :
    Steps E p s pos (vs ++ [v]) s2 pos2 := by
  induction h with
  | nil => exact .cons h' (.nil _ _)
  | cons h1 _ ih => exact .cons h1 (ih h')

theorem iterate_accepts_aux (p : P) (n : Nat) : ∀ (l : List Val) (s : I) (pos : Pos) (v : Val)
    (s' : I) (pos' : Pos), Accepts E (.iterate (n : Int) p l) s pos v s' pos' ↔
      ∃ vs, Steps E p s pos vs s' pos' ∧ vs.length = n ∧ v = .seq (l ++ vs) := by
  induction n with
  | zero =>
    intro l s pos v s' pos'
    unfold Accepts
    rw [run_step]
    simp only [step, Comb.iterate, Int.natCast_zero, if_true, Out.ok.injEq, Res.acc.injEq]
    constructor
    · rintro ⟨rfl, rfl, rfl⟩; exact ⟨[], .nil _ _, rfl, by simp⟩
    · rintro ⟨vs, h, hl, rfl⟩
      obtain rfl := List.length_eq_zero_iff.1 hl
      cases h; simp
  | succ n ih =>
    intro l s pos v s' pos'
    have h0 : ¬ ((n + 1 : Nat) : Int) = 0 := by omega
    have h1 : ((n + 1 : Nat) : Int) - 1 = (n : Int) := by omega
    unfold Accepts at ih ⊢
    rw [run_step]
    simp only [step, Comb.iterate, h0, if_false, h1, Out.bind_eq_ok]
    constructor
    · rintro ⟨r, hr, h⟩
      cases r with
      | rej m e => cases h
      | acc w s1 q =>
        obtain ⟨vs, h2, hl, rfl⟩ := (ih _ _ _ _ _ _).1 h
        exact ⟨w :: vs, .cons hr h2, by simp [hl], by simp⟩
    · rintro ⟨vs, h, hl, rfl⟩
      cases h with
      | nil => simp at hl
      | cons h2 h3 =>
        refine ⟨_, h2, ?_⟩
        simp only
        rw [ih]
        exact ⟨_, h3, by simpa using hl, by simp⟩

theorem iterate_rejects_aux (p : P) (n : Nat) : ∀ (l : List Val) (s : I) (pos : Pos) (m : Msg)
    (e : Pos), Rejects E (.iterate (n : Int) p l) s pos m e ↔
      ∃ vs s1 pos1, Steps E p s pos vs s1 pos1 ∧ vs.length < n ∧ Rejects E p s1 pos1 m e := by
  induction n with
  | zero =>
    intro l s pos m e
    unfold Rejects
    rw [run_step]
    simp [step, Comb.iterate]
  | succ n ih =>
    intro l s pos m e
    have h0 : ¬ ((n + 1 : Nat) : Int) = 0 := by omega
    have h1 : ((n + 1 : Nat) : Int) - 1 = (n : Int) := by omega
    unfold Rejects at ih ⊢
    rw [run_step]
    simp only [step, Comb.iterate, h0, if_false, h1, Out.bind_eq_ok]
    constructor
    · rintro ⟨r, hr, h⟩
      cases r with
      | rej m e => cases h; exact ⟨[], s, pos, .nil _ _, by simp, hr⟩
      | acc w s1 q =>
        obtain ⟨vs, s2, q2, h2, hl, h3⟩ := (ih _ _ _ _ _).1 h
        exact ⟨w :: vs, s2, q2, .cons hr h2, by simpa using hl, h3⟩
    · rintro ⟨vs, s1, q1, h, hl, h2⟩
      cases h with
      | nil => exact ⟨_, h2, rfl⟩
      | cons h3 h4 =>
        refine ⟨_, h3, ?_⟩
        simp only
        rw [ih]
        exact ⟨_, _, _, h4, by simpa using hl, h2⟩

/-- `iterate_c<P, n>` accepts iff `P` accepts `n` times in a row; it returns the results. -/
theorem C26_iterate_accepts (p : P) (n : Nat) (s : I) (pos : Pos) (v : Val) (s' : I) (pos' : Pos) :
    Accepts E (P.iterateC p n) s pos v s' pos' ↔
      ∃ vs, Steps E p s pos vs s' pos' ∧ vs.length = n ∧ v = .seq vs := by
  have := iterate_accepts_aux (E := E) p n [] s pos v s' pos'
  simp only [List.nil_append] at this
  exact this

/-- It rejects iff one of the first `n` applications rejects, with its error. -/
theorem C26_iterate_rejects (p : P) (n : Nat) (s : I) (pos : Pos) (m : Msg) (e : Pos) :
    Rejects E (P.iterateC p n) s pos m e ↔
      ∃ vs s1 pos1, Steps E p s pos vs s1 pos1 ∧ vs.length < n ∧ Rejects E p s1 pos1 m e :=
  iterate_rejects_aux p n [] s pos m e

/-- With a negative count nothing is ever accepted. -/
theorem C26_iterate_negative (p : P) (n : Int) (hn : n < 0) (s : I) (pos : Pos) (v : Val) (s' : I)
    (pos' : Pos) : ¬ Accepts E (P.iterateC p n) s pos v s' pos' := by
  have key : ∀ k (n : Int), n < 0 → ∀ l s pos v s' pos',
      eval E k (.iterate n p l) s pos ≠ .ok (.acc v s' pos') := by
    intro k
    induction k with
    | zero => intro n _ l s pos v s' pos' h; cases h
    | succ k ih =>
      intro n hn l s pos v s' pos' h
      simp only [eval, step, Comb.iterate, show ¬ n = 0 by omega, if_false, Out.bind_eq_ok] at h
      obtain ⟨r, hr, h⟩ := h
      cases r with
      | rej m e => cases h
      | acc w s1 q => exact ih (n - 1) (by omega) _ _ _ _ _ _ h
  intro h
  obtain ⟨k, hk⟩ := exists_eval E (P.iterateC p n) s pos
  exact key k n hn _ _ _ _ _ _ (hk.trans h)

example : Accepts env11 (P.iterateC P.digit 3) (txt "1234") start
    (.seq [.chr (ch '1'), .chr (ch '2'), .chr (ch '3')]) (txt "4") ⟨1, 4, ch '3'⟩ :=
  accepts_of_eval 20 (by decide +kernel)
example : Rejects env11 (P.iterateC P.digit 3) (txt "12") start .digitExpected ⟨1, 3, ch '2'⟩ :=
  rejects_of_eval 20 (by decide +kernel)
example : Accepts env11 (P.iterateC P.digit 0) (txt "12") start (.seq []) (txt "12") start :=
  accepts_of_eval 20 (by decide +kernel)
example : Rejects env11 (P.iterateC P.digit (-2)) (txt "12") start .digitExpected
    ⟨1, 3, ch '2'⟩ := rejects_of_eval 20 (by decide +kernel)

/-! ## C33 -/

theorem entireInput_empty {E : Env (List Chr)} (hE : E.OnText) (w : Val) (s : List Chr) (pos : Pos) :
    run E (.empty w) s pos =
      if s = [] then .ok (.acc w [] pos) else .ok (.rej .endOfInputExpected pos) := by
  rw [run_step]
  simp only [step, Comb.empty, show E.input = listInput from hE, listInput]
  cases s <;> simp

theorem run_entireInput {E : Env (List Chr)} (hE : E.OnText) (hs : E.SupportsNth 2) (p : P)
    (m : Msg) (s : List Chr) (pos : Pos) :
    run E (P.entireInput p m) s pos = (run E p s pos).bind fun
      | .rej m' e => .ok (.rej m' e)
      | .acc v s' pos' => if s' = [] then .ok (.acc v [] pos') else .ok (.rej m pos') := by
  unfold P.entireInput
  split
  · rename_i h
    rw [run_firstOf2 E hs]
    congr 1
    funext r
    cases r with
    | rej m' e => rfl
    | acc v s' pos' =>
      simp only [entireInput_empty hE]
      split
      · rfl
      · simp [h]
  · rw [run_firstOf2 E hs]
    congr 1
    funext r
    cases r with
    | rej m' e => rfl
    | acc v s' pos' =>
      simp only [run_step E (.changeErrorMessage _ _), step, Comb.changeErrorMessage,
        entireInput_empty hE]
      split <;> rfl

theorem C33_entireInput_accepts {E : Env (List Chr)} (hE : E.OnText) (hs : E.SupportsNth 2) (p : P)
    (m : Msg) (s : List Chr) (pos : Pos) (v : Val) (s' : List Chr) (pos' : Pos) :
    Accepts E (P.entireInput p m) s pos v s' pos' ↔ Accepts E p s pos v [] pos' ∧ s' = [] := by
  unfold Accepts
  rw [run_entireInput hE hs, Out.bind_eq_ok]
  constructor
  · rintro ⟨r, hr, h⟩
    cases r with
    | rej m' e => cases h
    | acc w s1 q =>
      simp only at h
      split at h
      · rename_i h0; subst h0; cases h; exact ⟨hr, rfl⟩
      · cases h
  · rintro ⟨h, rfl⟩; exact ⟨_, h, by simp⟩

example : ¬ ∃ v s' pos', Accepts env98 (P.entireInput P.int_) (txt "13x") start v s' pos' := by
  rintro ⟨v, s', pos', h⟩
  obtain ⟨h, -⟩ := (C33_entireInput_accepts env98_onText (fun _ => by decide) _ _ _ _ _ _ _).1 h
  have h' : Accepts env98 P.int_ (txt "13x") start (.int 13) (txt "x") ⟨1, 3, ch '3'⟩ := accepts_of_eval 20 (by decide +kernel)
  unfold Accepts at h h'
  rw [h] at h'
  cases h'

theorem C33_entireInput_rejects {E : Env (List Chr)} (hE : E.OnText) (hs : E.SupportsNth 2) (p : P)
    (m : Msg) (s : List Chr) (pos : Pos) (m' : Msg) (e : Pos) :
    Rejects E (P.entireInput p m) s pos m' e ↔
      Rejects E p s pos m' e ∨
      (∃ v s', Accepts E p s pos v s' e ∧ s' ≠ [] ∧ m' = m) := by
  unfold Accepts Rejects
  rw [run_entireInput hE hs, Out.bind_eq_ok]
  constructor
  · rintro ⟨r, hr, h⟩
    cases r with
    | rej m' e => cases h; exact .inl hr
    | acc w s1 q =>
      simp only at h
      split at h
      · cases h
      · rename_i h0; cases h; exact .inr ⟨_, _, hr, h0, rfl⟩
  · rintro (h | ⟨v, s', h, h0, rfl⟩)
    · exact ⟨_, h, rfl⟩
    · exact ⟨_, h, by simp [h0]⟩

example : Accepts env11 (P.entireInput P.int_) (txt "13") start (.int 13) [] ⟨1, 3, ch '3'⟩ :=
  accepts_of_eval 20 (by decide +kernel)
example : Rejects env98 (P.entireInput P.int_ (.user 3)) (txt "13 ") start (.user 3)
    ⟨1, 3, ch '3'⟩ := rejects_of_eval 20 (by decide +kernel)
example : Rejects env11 (P.entireInput P.int_) (txt "x") start .digitExpected start :=
  rejects_of_eval 20 (by decide +kernel)

/-! ## C34 -/

theorem C34_buildParser_accepts (p : P) (s : I) (v : Val) :
    buildParser E p s = .ok v ↔ ∃ s' pos', Accepts E p s start v s' pos' := by
  unfold buildParser Accepts
  rw [Out.bind_eq_ok]
  constructor
  · rintro ⟨r, hr, h⟩
    cases r <;> cases h
    exact ⟨_, _, hr⟩
  · rintro ⟨s', pos', h⟩; exact ⟨_, h, rfl⟩

/-- A rejection is a compile error with the line, column and message of the error.  It is the only
way to get a parsing failure, unless `P` itself is ill-formed with that very fault. -/
theorem C34_buildParser_rejects (p : P) (s : I) (m : Msg) (e : Pos) (h : Rejects E p s start m e) :
    buildParser E p s = .ill (.parsingFailed e.line e.col m) := by
  unfold Rejects at h
  simp [buildParser, h]

/-- No third outcome: if `P` accepts or rejects, `build_parser` gives the result or the error. -/
theorem C34_buildParser_fails_iff (p : P) (s : I) (f : Fault) :
    buildParser E p s = .ill f ↔ run E p s start = .ill f ∨
      ∃ m e, Rejects E p s start m e ∧ f = .parsingFailed e.line e.col m := by
  unfold buildParser Rejects
  rw [Out.bind_eq_ill]
  constructor
  · rintro (h | ⟨r, hr, h⟩)
    · exact .inl h
    · cases r <;> cases h
      exact .inr ⟨_, _, hr, rfl⟩
  · rintro (h | ⟨m, e, h, rfl⟩)
    · exact .inl h
    · exact .inr ⟨_, h, rfl⟩

/-- The reported line is the line of the error in the text; the reported column is its column, up
to the CR LF defect of C05. -/
theorem C34_reported_line_column {E : Env (List Chr)} (hE : E.Honest) (p : P) (s : List Chr)
    (m : Msg) (e : Pos) (h : Rejects E p s start m e) :
    ∃ seen rest, s = seen ++ rest ∧ e = moveOver start seen ∧
      buildParser E p s = .ill (.parsingFailed (1 + lineBreaks seen)
        (1 + (lastLine seen).length + (if lastBreakIsCRLF seen then 1 else 0)) m) := by
  obtain ⟨c, t, rfl, he⟩ := h.honest hE
  refine ⟨c, t, rfl, he, ?_⟩
  rw [C34_buildParser_rejects p _ m e h, he, line_moveOver start c (by decide), col_moveOver_start]
  rfl

example : buildParser env11 P.int_ (txt "13") = .ok (.int 13) :=
  (C34_buildParser_accepts ..).2 ⟨[], ⟨1, 3, ch '3'⟩, accepts_of_eval 20 (by decide +kernel)⟩
example : buildParser env11 (P.entireInput (P.repeated (.oneOfC (txt "a\n")))) (txt "aa\nax") =
    .ill (.parsingFailed 2 2 .endOfInputExpected) :=
  C34_buildParser_rejects _ _ _ ⟨2, 2, ch 'a'⟩ (rejects_of_eval 20 (by decide +kernel))

/-! ## C53 -/

theorem atAll_self (vs : List Val) : P.atAll vs.length vs = .ok vs := by
  induction vs with
  | nil => rfl
  | cons v vs ih => simp [P.atAll, ih]

/-- `sequence_applyN<T, P1, …, PN>` accepts iff `sequence<P1, …, PN>` does, with `T` instantiated
with exactly the results in order. -/
theorem C53_sequenceApply_accepts (t : List Val → Val) (ps : List P)
    (hs : E.SupportsSequence ps.length) (s : I) (pos : Pos) (v : Val) (s' : I) (pos' : Pos) :
    Accepts E (P.sequenceApply t ps) s pos v s' pos' ↔
      ∃ vs, InSequence E ps s pos vs s' pos' ∧ v = t vs := by
  have key : ∀ vs : List Val, vs.length = ps.length →
      (P.sequenceApplyTransform ps.length t (.seq vs)).force = .ok (t vs) := by
    intro vs hl
    simp [P.sequenceApplyTransform, ← hl, atAll_self, Val.ofOut, Val.force]
  have h := C22_sequence_accepts ps hs s pos
  unfold Accepts P.sequenceApply at *
  rw [run_step]
  simp only [step, Comb.transform, Out.bind_eq_ok]
  constructor
  · rintro ⟨r, hr, h'⟩
    cases r with
    | rej m q => cases h'
    | acc w s1 q =>
      obtain ⟨vs, hvs, rfl⟩ := (h _ _ _).1 hr
      simp only [key vs hvs.length, Out.bind_ok] at h'
      cases h'
      exact ⟨vs, hvs, rfl⟩
  · rintro ⟨vs, hvs, rfl⟩
    refine ⟨_, (h _ _ _).2 ⟨vs, hvs, rfl⟩, ?_⟩
    simp [key vs hvs.length]

example : Accepts env98 (P.sequenceApply (.user 4) [P.int_, P.space, P.letter]) (txt "12 x!") start
    (.user 4 [.int 12, .chr (ch ' '), .chr (ch 'x')]) (txt "!") ⟨1, 5, ch 'x'⟩ :=
  (C53_sequenceApply_accepts _ _ seq3_supports _ _ _ _ _).2 ⟨_, seq3_run, rfl⟩

theorem C53_sequenceApply_rejects (t : List Val → Val) (ps : List P)
    (hs : E.SupportsSequence ps.length) (s : I) (pos : Pos) (m : Msg) (e : Pos) :
    Rejects E (P.sequenceApply t ps) s pos m e ↔ FirstRejection E ps s pos m e := by
  rw [← C22_sequence_rejects ps hs]
  unfold Rejects P.sequenceApply
  rw [run_step]
  simp only [step, Comb.transform]
  rcases run E (.sequence ps) s pos with (⟨v1, s1, q⟩ | ⟨m1, q⟩) | f | _ <;> simp [Out.bind_eq_ok]

example : Accepts env98 (P.sequenceApply (.user 4) [P.int_, P.space, P.letter]) (txt "12 x!") start
    (.user 4 [.int 12, .chr (ch ' '), .chr (ch 'x')]) (txt "!") ⟨1, 5, ch 'x'⟩ :=
  accepts_of_eval 20 (by decide +kernel)

end Metaparse
