import Verif.Lemmas.Out
import Verif.Lemmas.Check
/-!
# Parsers that wrap one other parser

C35 (looking never consumes), C36 (`transform`, `always`), C37 (error transformers),
C38 (`accept_when`), C39 (`fail_at_first_char_expected`).

All statements are for an arbitrary environment, input representation, parser and position.
-/

namespace Metaparse

variable {I : Type} {E : Env I}

/-! ## C35 -/

theorem C35_return_accepts (w v : Val) (s s' : I) (pos pos' : Pos) :
    Accepts E (.ret w) s pos v s' pos' ↔ v = w ∧ s' = s ∧ pos' = pos := by
  unfold Accepts
  rw [run_step]
  simp [step, Comb.ret, eq_comm]

theorem C35_return_total (w : Val) (s : I) (pos : Pos) : Accepts E (.ret w) s pos w s pos := by
  rw [C35_return_accepts]; simp

theorem C35_fail_rejects (m m' : Msg) (s : I) (pos pos' : Pos) :
    Rejects E (.fail m) s pos m' pos' ↔ m' = m ∧ pos' = pos := by
  unfold Rejects
  rw [run_step]
  simp [step, Comb.fail, eq_comm]

theorem C35_fail_total (m : Msg) (s : I) (pos : Pos) : Rejects E (.fail m) s pos m pos := by
  rw [C35_fail_rejects]; simp

/-- `look_ahead<P>` accepts iff `P` does, with its result, consuming nothing. -/
theorem C35_lookAhead_accepts (p : P) (v : Val) (s s' : I) (pos pos' : Pos) :
    Accepts E (.lookAhead p) s pos v s' pos' ↔
      (∃ s1 q, Accepts E p s pos v s1 q) ∧ s' = s ∧ pos' = pos := by
  unfold Accepts
  rw [run_step]
  simp only [step, Comb.lookAhead]
  rcases run E p s pos with (⟨v1, s1, q⟩ | ⟨m1, q⟩) | f | _ <;> simp [eq_comm]

theorem C35_lookAhead_rejects (p : P) (m : Msg) (s : I) (pos pos' : Pos) :
    Rejects E (.lookAhead p) s pos m pos' ↔ Rejects E p s pos m pos' := by
  unfold Rejects
  rw [run_step]
  simp only [step, Comb.lookAhead]
  rcases run E p s pos with (⟨v1, s1, q⟩ | ⟨m1, q⟩) | f | _ <;> simp

/-- `except<P, R, Msg>` accepts, consuming nothing, iff `P` rejects. -/
theorem C35_except_accepts (p : P) (w : Val) (m : Msg) (v : Val) (s s' : I) (pos pos' : Pos) :
    Accepts E (.except p w m) s pos v s' pos' ↔
      (∃ m1 q, Rejects E p s pos m1 q) ∧ v = w ∧ s' = s ∧ pos' = pos := by
  unfold Accepts Rejects
  rw [run_step]
  simp only [step, Comb.except]
  rcases run E p s pos with (⟨v1, s1, q⟩ | ⟨m1, q⟩) | f | _ <;> simp [eq_comm]

theorem C35_except_rejects (p : P) (w : Val) (m m' : Msg) (s : I) (pos pos' : Pos) :
    Rejects E (.except p w m) s pos m' pos' ↔
      (∃ v s1 q, Accepts E p s pos v s1 q) ∧ m' = m ∧ pos' = pos := by
  unfold Accepts Rejects
  rw [run_step]
  simp only [step, Comb.except]
  rcases run E p s pos with (⟨v1, s1, q⟩ | ⟨m1, q⟩) | f | _ <;> simp [eq_comm]

/-- `if_<P, T, F>` accepts, consuming nothing, whenever `P` accepts or rejects. -/
theorem C35_if_accepts (p : P) (t f v : Val) (s s' : I) (pos pos' : Pos) :
    Accepts E (.if_ p t f) s pos v s' pos' ↔
      (((∃ v1 s1 q, Accepts E p s pos v1 s1 q) ∧ v = t) ∨
        ((∃ m q, Rejects E p s pos m q) ∧ v = f)) ∧ s' = s ∧ pos' = pos := by
  unfold Accepts Rejects
  rw [run_step]
  simp only [step, Comb.if_]
  rcases run E p s pos with (⟨v1, s1, q⟩ | ⟨m1, q⟩) | f | _ <;> simp [eq_comm]

theorem C35_if_never_rejects (p : P) (t f : Val) (m : Msg) (s : I) (pos pos' : Pos) :
    ¬ Rejects E (.if_ p t f) s pos m pos' := by
  unfold Rejects
  rw [run_step]
  simp only [step, Comb.if_]
  rcases run E p s pos with (⟨v1, s1, q⟩ | ⟨m1, q⟩) | f | _ <;> simp

/-- `optional<P, D>` is `P` where `P` accepts and `D`, consuming nothing, where `P` rejects. -/
theorem C35_optional_accepts (p : P) (d v : Val) (s s' : I) (pos pos' : Pos) :
    Accepts E (.optional p d) s pos v s' pos' ↔
      Accepts E p s pos v s' pos' ∨
        ((∃ m q, Rejects E p s pos m q) ∧ v = d ∧ s' = s ∧ pos' = pos) := by
  unfold Accepts Rejects
  rw [run_step]
  simp only [step, Comb.optional]
  rcases run E p s pos with (⟨v1, s1, q⟩ | ⟨m1, q⟩) | f | _ <;> simp [eq_comm]

theorem C35_optional_never_rejects (p : P) (d : Val) (m : Msg) (s : I) (pos pos' : Pos) :
    ¬ Rejects E (.optional p d) s pos m pos' := by
  unfold Rejects
  rw [run_step]
  simp only [step, Comb.optional]
  rcases run E p s pos with (⟨v1, s1, q⟩ | ⟨m1, q⟩) | f | _ <;> simp

/-- `empty<R>` accepts the empty text only. -/
theorem C35_empty_accepts {E : Env (List Chr)} (hE : E.OnText) (w v : Val) (s s' : List Chr)
    (pos pos' : Pos) :
    Accepts E (.empty w) s pos v s' pos' ↔ s = [] ∧ v = w ∧ s' = [] ∧ pos' = pos := by
  unfold Accepts
  rw [run_step]
  simp only [step, Comb.empty, show E.input = listInput from hE, listInput]
  cases s <;> simp [eq_comm]

example : Accepts env98 (.empty (.int 3)) [] ⟨2, 5, ch 'x'⟩ (.int 3) [] ⟨2, 5, ch 'x'⟩ :=
  (C35_empty_accepts env98_onText _ _ _ _ _ _).2 ⟨rfl, rfl, rfl, rfl⟩

theorem C35_empty_rejects {E : Env (List Chr)} (hE : E.OnText) (w : Val) (m : Msg) (s : List Chr)
    (pos pos' : Pos) :
    Rejects E (.empty w) s pos m pos' ↔ s ≠ [] ∧ m = .endOfInputExpected ∧ pos' = pos := by
  unfold Rejects
  rw [run_step]
  simp only [step, Comb.empty, show E.input = listInput from hE, listInput]
  cases s <;> simp [eq_comm]

example : Rejects env98 (.empty (.int 3)) (txt "!") ⟨2, 5, ch 'x'⟩ .endOfInputExpected ⟨2, 5, ch 'x'⟩ :=
  (C35_empty_rejects env98_onText _ _ _ _ _).2 ⟨by decide, rfl, rfl⟩

/-- Where the wrapped parser does not compile or does not finish, neither do `look_ahead`,
`except`, `if_` and `optional`. -/
theorem C35_failures_pass (p : P) (v w : Val) (m : Msg) (s : I) (pos : Pos) :
    (∀ f, run E p s pos = .ill f → run E (.lookAhead p) s pos = .ill f ∧
      run E (.except p v m) s pos = .ill f ∧ run E (.if_ p v w) s pos = .ill f ∧
      run E (.optional p v) s pos = .ill f) ∧
    (run E p s pos = .deep → run E (.lookAhead p) s pos = .deep ∧
      run E (.except p v m) s pos = .deep ∧ run E (.if_ p v w) s pos = .deep ∧
      run E (.optional p v) s pos = .deep) := by
  refine ⟨fun f h => ?_, fun h => ?_⟩ <;> simp only [run_step E (.lookAhead p),
    run_step E (.except p v m), run_step E (.if_ p v w), run_step E (.optional p v), step,
    Comb.lookAhead, Comb.except, Comb.if_, Comb.optional, h] <;> simp

example : Accepts env11 (.lookAhead P.int_) (txt "13 a") start (.int 13) (txt "13 a") start :=
  accepts_of_eval 20 (by decide +kernel)
example : Rejects env11 (.lookAhead (.keyword (txt "ab") .void_)) (txt "ac") start
    (.literalExpected (ch 'b')) ⟨1, 2, ch 'a'⟩ := rejects_of_eval 20 (by decide +kernel)
example : Accepts env11 (.except P.digit (.int 7) (.user 1)) (txt "x") start (.int 7) (txt "x") start :=
  accepts_of_eval 20 (by decide +kernel)
example : Rejects env98 (.except P.digit (.int 7) (.user 1)) (txt "3") start (.user 1) start :=
  rejects_of_eval 20 (by decide +kernel)
example : Accepts env11 (.if_ P.digit (.int 1) (.int 0)) (txt "x") start (.int 0) (txt "x") start :=
  accepts_of_eval 20 (by decide +kernel)
example : Accepts env11 (.optional P.digit (.int 1)) (txt "9x") start (.chr (ch '9')) (txt "x")
    ⟨1, 2, ch '9'⟩ := accepts_of_eval 20 (by decide +kernel)

/-! ## C36 -/

/-- `transform<P, T>` accepts exactly where `P` accepts with a result on which `T` is
well-formed. -/
theorem C36_transform_accepts (p : P) (f : Val → Val) (w : Val) (s s' : I) (pos pos' : Pos) :
    Accepts E (.transform p f) s pos w s' pos' ↔
      ∃ v, Accepts E p s pos v s' pos' ∧ (f v).force = .ok w := by
  unfold Accepts
  rw [run_step]
  simp only [step, Comb.transform]
  rcases run E p s pos with (⟨v1, s1, q⟩ | ⟨m1, q⟩) | f | _ <;> simp [Out.bind_eq_ok]
  constructor
  · rintro ⟨x, h, rfl, rfl, rfl⟩; exact ⟨v1, ⟨rfl, rfl, rfl⟩, h⟩
  · rintro ⟨v, ⟨rfl, rfl, rfl⟩, h⟩; exact ⟨w, h, rfl, rfl, rfl⟩

theorem C36_transform_rejects (p : P) (f : Val → Val) (m : Msg) (s : I) (pos pos' : Pos) :
    Rejects E (.transform p f) s pos m pos' ↔ Rejects E p s pos m pos' := by
  unfold Rejects
  rw [run_step]
  simp only [step, Comb.transform]
  rcases run E p s pos with (⟨v1, s1, q⟩ | ⟨m1, q⟩) | f | _ <;> simp [Out.bind_eq_ok]

theorem C36_transform_illFormed (p : P) (f : Val → Val) (s : I) (pos : Pos) :
    IllFormed E (.transform p f) s pos ↔ IllFormed E p s pos ∨
      ∃ v s' pos' e, Accepts E p s pos v s' pos' ∧ (f v).force = .ill e := by
  unfold IllFormed Accepts
  simp only [run_step E (.transform p f), step, Comb.transform]
  rcases run E p s pos with (⟨v1, s1, q⟩ | ⟨m1, q⟩) | f | _ <;> simp [Out.bind_eq_ill]

theorem C36_always_accepts (p : P) (r w : Val) (s s' : I) (pos pos' : Pos) :
    Accepts E (.always p r) s pos w s' pos' ↔ (∃ v, Accepts E p s pos v s' pos') ∧ w = r := by
  unfold Accepts
  rw [run_step]
  simp only [step, Comb.always]
  rcases run E p s pos with (⟨v1, s1, q⟩ | ⟨m1, q⟩) | f | _ <;> simp
  constructor
  · rintro ⟨rfl, rfl, rfl⟩; simp
  · rintro ⟨⟨rfl, rfl⟩, rfl⟩; simp

theorem C36_always_rejects (p : P) (r : Val) (m : Msg) (s : I) (pos pos' : Pos) :
    Rejects E (.always p r) s pos m pos' ↔ Rejects E p s pos m pos' := by
  unfold Rejects
  rw [run_step]
  simp only [step, Comb.always]
  rcases run E p s pos with (⟨v1, s1, q⟩ | ⟨m1, q⟩) | f | _ <;> simp

/-- Functor law, identity: transforming with a function that evaluates to its argument changes
nothing. -/
theorem C36_transform_id (p : P) (f : Val → Val) (hf : ∀ v, (f v).force = .ok v) :
    Equivalent E (.transform p f) p := by
  intro s pos
  rw [run_step]
  simp only [step, Comb.transform]
  rcases run E p s pos with (⟨v1, s1, q⟩ | ⟨m1, q⟩) | f | _ <;> simp [hf]

example : Equivalent env98 (.transform P.int_ fun v => .delayed v) P.int_ := C36_transform_id _ _ fun _ => rfl

/-- Functor law, composition: two transformations are the transformation with the function that
evaluates the first and passes its value to the second. -/
theorem C36_transform_comp (p : P) (f g h : Val → Val)
    (hh : ∀ v, (h v).force = (f v).force.bind fun w => (g w).force) :
    Equivalent E (.transform (.transform p f) g) (.transform p h) := by
  intro s pos
  rw [run_step, run_step E (.transform p h)]
  simp only [step, Comb.transform]
  rw [run_step E (.transform p f)]
  simp only [step, Comb.transform]
  rcases run E p s pos with (⟨v1, s1, q⟩ | ⟨m1, q⟩) | e | _ <;> simp [hh, Out.bind_assoc]

example : Equivalent env98 (.transform (.transform P.int_ fun v => .user 1 [v]) fun v => .user 2 [v])
    (.transform P.int_ fun v => .user 2 [.user 1 [v]]) := C36_transform_comp _ _ _ _ fun _ => rfl

/-- `always` is `transform` with a constant function. -/
theorem C36_always_is_transform (p : P) (r : Val) (f : Val → Val)
    (hf : ∀ v, (f v).force = .ok r) : Equivalent E (.always p r) (.transform p f) := by
  intro s pos
  rw [run_step, run_step E (.transform p f)]
  simp only [step, Comb.transform, Comb.always]
  rcases run E p s pos with (⟨v1, s1, q⟩ | ⟨m1, q⟩) | e | _ <;> simp [hf]

example : Accepts env11 (.transform P.digit digitToInt) (txt "7;") start (.int 7) (txt ";")
    ⟨1, 2, ch '7'⟩ := accepts_of_eval 20 (by decide +kernel)
/-- The hypotheses of the functor laws are met by ordinary functions. -/
example : (∀ v, (Val.delayed v).force = .ok v) ∧
    (∀ v, (Val.delayed (.seq [.seq [v]])).force =
      (Val.delayed (.seq [v])).force.bind fun w => (Val.delayed (.seq [w])).force) :=
  ⟨fun _ => rfl, fun _ => rfl⟩

/-! ## C37 -/

theorem C37_changeErrorMessage_accepts (p : P) (m : Msg) (v : Val) (s s' : I) (pos pos' : Pos) :
    Accepts E (.changeErrorMessage p m) s pos v s' pos' ↔ Accepts E p s pos v s' pos' := by
  unfold Accepts
  rw [run_step]
  simp only [step, Comb.changeErrorMessage]
  rcases run E p s pos with (⟨v1, s1, q⟩ | ⟨m1, q⟩) | f | _ <;> simp

/-- The changed message is reported where the parser *started*. -/
theorem C37_changeErrorMessage_rejects (p : P) (m m' : Msg) (s : I) (pos pos' : Pos) :
    Rejects E (.changeErrorMessage p m) s pos m' pos' ↔
      (∃ m1 q, Rejects E p s pos m1 q) ∧ m' = m ∧ pos' = pos := by
  unfold Rejects
  rw [run_step]
  simp only [step, Comb.changeErrorMessage]
  rcases run E p s pos with (⟨v1, s1, q⟩ | ⟨m1, q⟩) | f | _ <;> simp [eq_comm]

theorem C37_transformErrorMessage_accepts (p : P) (f : Msg → Out Msg) (v : Val) (s s' : I)
    (pos pos' : Pos) :
    Accepts E (.transformErrorMessage p f) s pos v s' pos' ↔ Accepts E p s pos v s' pos' := by
  unfold Accepts
  rw [run_step]
  simp only [step, Comb.transformErrorMessage]
  rcases run E p s pos with (⟨v1, s1, q⟩ | ⟨m1, q⟩) | f | _ <;> simp [Out.bind_eq_ok]

/-- The transformed message keeps the original error position. -/
theorem C37_transformErrorMessage_rejects (p : P) (f : Msg → Out Msg) (m' : Msg) (s : I)
    (pos pos' : Pos) :
    Rejects E (.transformErrorMessage p f) s pos m' pos' ↔
      ∃ m, Rejects E p s pos m pos' ∧ f m = .ok m' := by
  unfold Rejects
  rw [run_step]
  simp only [step, Comb.transformErrorMessage]
  rcases run E p s pos with (⟨v1, s1, q⟩ | ⟨m1, q⟩) | f | _ <;> simp [Out.bind_eq_ok]
  constructor
  · rintro ⟨x, h, rfl, rfl⟩; exact ⟨m1, ⟨rfl, rfl⟩, h⟩
  · rintro ⟨v, ⟨rfl, rfl⟩, h⟩; exact ⟨m', h, rfl, rfl⟩

/-- Accepted parses are untouched by `transform_error`. -/
theorem C37_transformError_of_accepts (p : P) (k : Nat) (v : Val) (s s' : I) (pos pos' : Pos)
    (h : Accepts E p s pos v s' pos') : Accepts E (.transformError p k) s pos v s' pos' := by
  unfold Accepts at *
  rw [run_step]
  simp [step, Comb.transformError, h]

example : Accepts env98 (.transformError P.int_ 5) (txt "12 x!") start (.int 12) (txt " x!") ⟨1, 3, ch '2'⟩ :=
  C37_transformError_of_accepts _ _ _ _ _ _ _ (accepts_of_eval 20 (by decide +kernel))

/-- On a rejection `transform_error` gives what its function returns for that rejection. -/
theorem C37_transformError_of_rejects (p : P) (k : Nat) (m : Msg) (s : I) (pos pos' : Pos)
    (h : Rejects E p s pos m pos') :
    run E (.transformError p k) s pos = E.onError k m pos' := by
  unfold Rejects at *
  rw [run_step]
  simp [step, Comb.transformError, h]

example : Rejects env11 (.changeErrorMessage (.keyword (txt "ab") .void_) (.user 1)) (txt "ac")
    start (.user 1) start := rejects_of_eval 20 (by decide +kernel)
example : Rejects env11 (.transformErrorMessage (.keyword (txt "ab") .void_)
    (fun m => .ok (.unpaired 9 9 m))) (txt "ac") start
    (.unpaired 9 9 (.literalExpected (ch 'b'))) ⟨1, 2, ch 'a'⟩ :=
  rejects_of_eval 20 (by decide +kernel)
example : Accepts env11 P.digit (txt "1") start (.chr (ch '1')) [] ⟨1, 2, ch '1'⟩ ∧
    Rejects env11 P.digit (txt "a") start .digitExpected start :=
  ⟨accepts_of_eval 20 (by decide +kernel), rejects_of_eval 20 (by decide +kernel)⟩

/-! ## C38 -/

theorem C38_acceptWhen_accepts (p : P) (pred : Val → Out Bool) (m : Msg) (v : Val) (s s' : I)
    (pos pos' : Pos) :
    Accepts E (.acceptWhen p pred m) s pos v s' pos' ↔
      Accepts E p s pos v s' pos' ∧ pred v = .ok true := by
  unfold Accepts
  rw [run_step]
  simp only [step, Comb.acceptWhen]
  rcases run E p s pos with (⟨v1, s1, q⟩ | ⟨m1, q⟩) | f | _ <;> simp
  rcases h : pred v1 with (b | b) | f | _ <;> simp
  · rintro rfl _ _; rw [h]; simp
  · rintro rfl _ _; exact h
  · rintro rfl _ _; rw [h]; simp
  · rintro rfl _ _; rw [h]; simp

/-- Rejection: either `P` rejects, with its error, or the predicate is false, with the given
message at the position where `P` *started*. -/
theorem C38_acceptWhen_rejects (p : P) (pred : Val → Out Bool) (m m' : Msg) (s : I)
    (pos pos' : Pos) :
    Rejects E (.acceptWhen p pred m) s pos m' pos' ↔
      Rejects E p s pos m' pos' ∨
        (∃ v s1 q, Accepts E p s pos v s1 q ∧ pred v = .ok false ∧ m' = m ∧ pos' = pos) := by
  unfold Accepts Rejects
  rw [run_step]
  simp only [step, Comb.acceptWhen]
  rcases run E p s pos with (⟨v1, s1, q⟩ | ⟨m1, q⟩) | f | _ <;> simp
  rcases h : pred v1 with (b | b) | f | _ <;> simp [eq_comm]

example : Accepts env11 (.acceptWhen P.int_ (fun v => isCharC 42 v) (.user 1)) (txt "42x") start
    (.int 42) (txt "x") ⟨1, 3, ch '2'⟩ := accepts_of_eval 20 (by decide +kernel)
example : Rejects env11 (.acceptWhen P.int_ (fun v => isCharC 42 v) (.user 1)) (txt "43x") start
    (.user 1) start := rejects_of_eval 20 (by decide +kernel)
example : Rejects env11 (.acceptWhen P.int_ (fun v => isCharC 42 v) (.user 1)) (txt "x") start
    .digitExpected start := rejects_of_eval 20 (by decide +kernel)

/-! ## C39 -/

/-- It accepts, consuming nothing, iff `P` rejects with its error at the starting position. -/
theorem C39_failAtFirstCharExpected_accepts (p : P) (v : Val) (s s' : I) (pos pos' : Pos) :
    Accepts E (.failAtFirstCharExpected p) s pos v s' pos' ↔
      (∃ m, Rejects E p s pos m pos) ∧ v = .void_ ∧ s' = s ∧ pos' = pos := by
  unfold Accepts Rejects
  rw [run_step]
  simp only [step, Comb.failAtFirstCharExpected]
  rcases run E p s pos with (⟨v1, s1, q⟩ | ⟨m1, q⟩) | f | _ <;> simp
  have this := Pos.equalTo_iff pos q
  by_cases h : q = pos
  · rw [if_pos (this.2 h)]
    subst h
    simp only [Out.ok.injEq, Res.acc.injEq]
    constructor
    · rintro ⟨rfl, rfl, rfl⟩; exact ⟨trivial, rfl, rfl, rfl⟩
    · rintro ⟨_, rfl, rfl, rfl⟩; exact ⟨rfl, rfl, rfl⟩
  · rw [if_neg (fun h' => h (this.1 h'))]
    simp [h]

theorem C39_failAtFirstCharExpected_rejects (p : P) (m : Msg) (s : I) (pos pos' : Pos) :
    Rejects E (.failAtFirstCharExpected p) s pos m pos' ↔
      ((∃ v s1 q, Accepts E p s pos v s1 q) ∧ m = .expectedToFail ∧ pos' = pos) ∨
        (Rejects E p s pos m pos' ∧ pos' ≠ pos) := by
  unfold Accepts Rejects
  rw [run_step]
  simp only [step, Comb.failAtFirstCharExpected]
  rcases run E p s pos with (⟨v1, s1, q⟩ | ⟨m1, q⟩) | f | _
  · simp only [Out.bind_ok, Out.ok.injEq, Res.rej.injEq, reduceCtorEq, false_and, or_false]
    constructor
    · rintro ⟨rfl, rfl⟩; exact ⟨⟨v1, s1, q, rfl⟩, rfl, rfl⟩
    · rintro ⟨_, rfl, rfl⟩; exact ⟨rfl, rfl⟩
  · simp only [Out.bind_ok, Out.ok.injEq, Res.rej.injEq, reduceCtorEq, exists_false, false_and,
      false_or]
    by_cases h : q = pos
    · rw [if_pos ((Pos.equalTo_iff pos q).2 h)]
      simp only [Out.ok.injEq, reduceCtorEq, false_iff]
      rintro ⟨⟨_, rfl⟩, h'⟩
      exact h' h
    · rw [if_neg (fun h' => h ((Pos.equalTo_iff pos q).1 h'))]
      simp only [Out.ok.injEq, Res.rej.injEq]
      constructor
      · rintro ⟨rfl, rfl⟩; exact ⟨⟨rfl, rfl⟩, h⟩
      · rintro ⟨h', _⟩; exact h'
  · simp
  · simp

example : Accepts env11 (.failAtFirstCharExpected (.keyword (txt "ab") .cvoid)) (txt "xb") start
    .void_ (txt "xb") start := accepts_of_eval 20 (by decide +kernel)
example : Rejects env11 (.failAtFirstCharExpected (.keyword (txt "ab") .cvoid)) (txt "ax") start
    (.literalExpected (ch 'b')) ⟨1, 2, ch 'a'⟩ := rejects_of_eval 20 (by decide +kernel)
example : Rejects env11 (.failAtFirstCharExpected (.keyword (txt "ab") .cvoid)) (txt "abc") start
    .expectedToFail start := rejects_of_eval 20 (by decide +kernel)

end Metaparse
