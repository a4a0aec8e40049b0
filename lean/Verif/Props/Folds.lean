import Verif.Lemmas.Folds
import Verif.Lemmas.Check
import Verif.Props.Choice
/-!
# Repetition

C11 (repeating a parser that does not consume), C12 (`foldl`), C13 (the `…1` variants),
C14 (`repeated`), C15 (`foldr`), C16 (the `reject_incomplete` folds), C17 (the documented
equivalences), C18 (the `start_with_parser` folds).
-/

namespace Metaparse

variable {I : Type} {E : Env I}

/-! ## C12 -/

/-- `foldl` accepts iff the parser has a maximal run, with the left fold of its results, at the end
of that run. -/
theorem C12_foldl_accepts (p : P) (st : Val) (op : Val → Val → Val) (s : I) (pos : Pos) (v : Val)
    (s' : I) (pos' : Pos) :
    Accepts E (.foldl p st op) s pos v s' pos' ↔
      ∃ vs m e x, MaximalRun E p s pos vs s' pos' m e ∧ st.force = .ok x ∧
        leftFold op x vs = .ok v := by
  constructor
  · intro h
    obtain ⟨vs, s1, pos1, m, e, hm⟩ := foldl_ok_maximal h
    unfold Accepts at h
    rw [run_foldl_maximal hm, Out.bind_eq_ok] at h
    obtain ⟨w, hw, h⟩ := h
    cases h
    obtain ⟨x, hx, hw⟩ := Out.bind_eq_ok.1 hw
    exact ⟨vs, m, e, x, hm, hx, hw⟩
  · rintro ⟨vs, m, e, x, hm, hx, hv⟩
    unfold Accepts
    rw [run_foldl_maximal hm, hx, Out.bind_ok, hv, Out.bind_ok]

/-- `foldl` never rejects. -/
theorem C12_foldl_never_rejects (p : P) (st : Val) (op : Val → Val → Val) (s : I) (pos : Pos)
    (m : Msg) (e : Pos) : ¬ Rejects E (.foldl p st op) s pos m e := by
  intro h
  obtain ⟨vs, s1, pos1, m1, e1, hm⟩ := foldl_ok_maximal h
  unfold Rejects at h
  rw [run_foldl_maximal hm, Out.bind_eq_ok] at h
  obtain ⟨w, _, h⟩ := h
  cases h

/-- If the operation is an ordinary function `f` on evaluated values, the result is the ordinary
left fold. -/
theorem C12_foldl_function (p : P) (x : Val) (f : Val → Val → Val) (hx : IsValue x)
    (hf : ∀ y v, IsValue (f y v)) (s : I) (pos : Pos) (vs : List Val) (s' : I) (pos' e : Pos)
    (m : Msg) (h : MaximalRun E p s pos vs s' pos' m e) :
    Accepts E (.foldl p x f) s pos (vs.foldl f x) s' pos' := by
  rw [C12_foldl_accepts]
  refine ⟨vs, m, e, x, h, hx, ?_⟩
  clear h hx
  induction vs generalizing x with
  | nil => rfl
  | cons v vs ih =>
    have hv : (f x v).force = .ok (f x v) := hf x v
    simp only [leftFold, hv, Out.bind_ok, List.foldl]
    exact ih _

/-- The digits of `"12x"`, subtracted from 10 one after the other. -/
def subOp (x v : Val) : Val :=
  Val.ofOut (x.value.bind fun a => v.value.bind fun b => .ok (.int (a - b)))

example : Accepts env11 (.foldl P.digitVal (.int 10) subOp) (txt "12x") start (.int 7) (txt "x")
    ⟨1, 3, ch '2'⟩ := accepts_of_eval 20 (by decide +kernel)

theorem steps_digits : Steps env11 P.digitVal (txt "12x") start [.int 1, .int 2] (txt "x")
    ⟨1, 3, ch '2'⟩ :=
  .cons (s1 := txt "2x") (pos1 := ⟨1, 2, ch '1'⟩) (accepts_of_eval 20 (by decide +kernel))
    (.cons (s1 := txt "x") (pos1 := ⟨1, 3, ch '2'⟩) (accepts_of_eval 20 (by decide +kernel))
      (.nil _ _))

theorem maximalRun_digits : MaximalRun env11 P.digitVal (txt "12x") start [.int 1, .int 2] (txt "x")
    ⟨1, 3, ch '2'⟩ .digitExpected ⟨1, 3, ch '2'⟩ :=
  ⟨steps_digits, rejects_of_eval 20 (by decide +kernel)⟩

/-! ## C11 -/

/-- No result of any kind. -/
def NoResult (E : Env I) (p : P) (s : I) (pos : Pos) : Prop := ∀ r, run E p s pos ≠ .ok r

theorem noResult_of_deep {p : P} {s : I} {pos : Pos} (h : Diverges E p s pos) :
    NoResult E p s pos := by
  intro r hr
  unfold Diverges at h
  rw [hr] at h; cases h

/-- If, after some successful applications, `p` accepts without moving, then `foldl` produces no
result. -/
theorem C11_foldl (p : P) (st : Val) (op : Val → Val → Val) (s : I) (pos : Pos) (vs : List Val)
    (s' : I) (pos' : Pos) (v : Val) (h : Steps E p s pos vs s' pos')
    (hstay : Accepts E p s' pos' v s' pos') : NoResult E (.foldl p st op) s pos := by
  intro r hr
  obtain ⟨ws, s1, pos1, m, e, hm⟩ := foldl_ok_maximal hr
  exact (InfiniteRun.after h (infiniteRun_of_stays hstay)).not_maximal hm

/-- It is unlimited recursion when the operation never fails. -/
theorem C11_foldl_diverges (p : P) (st x : Val) (op : Val → Val → Val) (K : Val → Prop)
    (hop : NeverFails K op) (hst : st.force = .ok x) (hx : K x) (s : I) (pos : Pos) (vs : List Val)
    (s' : I) (pos' : Pos) (v : Val) (h : Steps E p s pos vs s' pos')
    (hstay : Accepts E p s' pos' v s' pos') : Diverges E (.foldl p st op) s pos :=
  foldl_infinite hop hst hx (InfiniteRun.after h (infiniteRun_of_stays hstay))

theorem C11_foldl_reject_incomplete (p : P) (st : Val) (op : Val → Val → Val) (s : I) (pos : Pos)
    (vs : List Val) (s' : I) (pos' : Pos) (v : Val) (h : Steps E p s pos vs s' pos')
    (hstay : Accepts E p s' pos' v s' pos') :
    NoResult E (.foldlRejectIncomplete p st op) s pos := by
  intro r hr
  obtain ⟨ws, s1, pos1, m, e, hm⟩ := foldlRI_ok_maximal hr
  exact (InfiniteRun.after h (infiniteRun_of_stays hstay)).not_maximal hm

/-- The right folds recurse without end in any case, whatever the operation and the state parser. -/
theorem C11_foldr_start_with_parser (p sp : P) (op : Val → Val → Val) (s : I) (pos : Pos)
    (vs : List Val) (s' : I) (pos' : Pos) (v : Val) (h : Steps E p s pos vs s' pos')
    (hstay : Accepts E p s' pos' v s' pos') : Diverges E (.foldrStartWithParser p sp op) s pos :=
  foldrSWP_infinite (InfiniteRun.after h (infiniteRun_of_stays hstay))

theorem C11_foldr (p : P) (st : Val) (op : Val → Val → Val) (s : I) (pos : Pos)
    (vs : List Val) (s' : I) (pos' : Pos) (v : Val) (h : Steps E p s pos vs s' pos')
    (hstay : Accepts E p s' pos' v s' pos') :
    Diverges E (P.foldr p st op) s pos ∧ Diverges E (P.foldrRejectIncomplete p st op) s pos :=
  ⟨foldrSWP_infinite (InfiniteRun.after h (infiniteRun_of_stays hstay)),
    foldrSWP_infinite (InfiniteRun.after h (infiniteRun_of_stays hstay))⟩

theorem C11_foldl_start_with_parser (p sp : P) (op : Val → Val → Val) (s : I) (pos : Pos) (x : Val)
    (s0 : I) (pos0 : Pos) (vs : List Val) (s' : I) (pos' : Pos) (v : Val)
    (hsp : Accepts E sp s pos x s0 pos0) (h : Steps E p s0 pos0 vs s' pos')
    (hstay : Accepts E p s' pos' v s' pos') :
    NoResult E (.foldlStartWithParser p sp op) s pos ∧
    NoResult E (.foldlRejectIncompleteStartWithParser p sp op) s pos := by
  constructor
  · intro r hr
    rw [run_foldlSWP, hsp] at hr
    exact C11_foldl p x op s0 pos0 vs s' pos' v h hstay r hr
  · intro r hr
    rw [run_foldlRISWP, hsp] at hr
    exact C11_foldl_reject_incomplete p x op s0 pos0 vs s' pos' v h hstay r hr

theorem backInserter_neverFails : NeverFails (fun x => ∃ l, x = .seq l) backInserter := by
  rintro _ v ⟨l, rfl⟩
  exact ⟨.seq (l ++ [v]), rfl, _, rfl⟩

theorem frontInserter_neverFails : NeverFails (fun x => ∃ l, x = .seq l) frontInserter := by
  rintro _ v ⟨l, rfl⟩
  exact ⟨.seq (v :: l), rfl, _, rfl⟩

theorem C11_repeated (p : P) (s : I) (pos : Pos) (vs : List Val) (s' : I) (pos' : Pos) (v : Val)
    (h : Steps E p s pos vs s' pos') (hstay : Accepts E p s' pos' v s' pos') :
    Diverges E (P.repeated p) s pos ∧ Diverges E (P.repeated1 p) s pos ∧
    Diverges E (P.repeatedRejectIncomplete p) s pos ∧
    Diverges E (P.repeatedRejectIncomplete1 p) s pos := by
  have hi := InfiniteRun.after h (infiniteRun_of_stays hstay)
  have h1 : Diverges E (P.repeated p) s pos :=
    foldl_infinite backInserter_neverFails rfl ⟨[], rfl⟩ hi
  have h2 : Diverges E (P.repeatedRejectIncomplete p) s pos :=
    foldlRI_infinite backInserter_neverFails rfl ⟨[], rfl⟩ hi
  obtain ⟨v0, s0, pos0, ha⟩ := hi.accepts (.nil s pos)
  refine ⟨h1, ?_, h2, ?_⟩
  · show run E (.ifAccepts p _) s pos = _
    rw [run_ifAccepts, ha]; exact h1
  · show run E (.ifAccepts p _) s pos = _
    rw [run_ifAccepts, ha]; exact h2

/-- Repeating "digits, possibly none" on `"12x"`: after the first application it accepts again
without moving. -/
example : Diverges env11 (P.repeated (P.repeated P.digit)) (txt "12x") start :=
  (C11_repeated _ _ _ [.seq [.chr (ch '1'), .chr (ch '2')]] (txt "x") ⟨1, 3, ch '2'⟩ (.seq [])
    (.cons (accepts_of_eval 20 (by decide +kernel)) (.nil _ _))
    (accepts_of_eval 20 (by decide +kernel))).1

/-! ## C13 -/

/-- `foldl1` rejects iff the first application of the parser does, with the same error; where the
parser accepts it is `foldl`. -/
theorem C13_foldl1 (p : P) (st : Val) (op : Val → Val → Val) (s : I) (pos : Pos) :
    (∀ m e, Rejects E (P.foldl1 p st op) s pos m e ↔ Rejects E p s pos m e) ∧
    (∀ v s' pos', Accepts E p s pos v s' pos' →
      run E (P.foldl1 p st op) s pos = run E (.foldl p st op) s pos) := by
  constructor
  · intro m e
    unfold Rejects P.foldl1
    rw [run_ifAccepts]
    rcases outcome E p s pos with ⟨v, s', pos', ha⟩ | ⟨m', e', hr⟩ | ⟨f, hf⟩ | hd
    · rw [ha]
      simp only [Out.bind_ok, Out.ok.injEq, reduceCtorEq, iff_false]
      exact C12_foldl_never_rejects p st op s pos m e
    · rw [hr]; rfl
    · rw [hf]; rfl
    · rw [hd]; rfl
  · intro v s' pos' ha
    unfold P.foldl1
    rw [run_ifAccepts, ha]
    rfl

/-- `foldl1` accepts iff the maximal run is not empty, with the result of `foldl`. -/
theorem C13_foldl1_accepts (p : P) (st : Val) (op : Val → Val → Val) (s : I) (pos : Pos) (v : Val)
    (s' : I) (pos' : Pos) :
    Accepts E (P.foldl1 p st op) s pos v s' pos' ↔
      ∃ vs m e x, vs ≠ [] ∧ MaximalRun E p s pos vs s' pos' m e ∧ st.force = .ok x ∧
        leftFold op x vs = .ok v := by
  constructor
  · intro h
    rcases outcome E p s pos with ⟨v0, s0, pos0, ha⟩ | ⟨m', e', hr⟩ | ⟨f, hf⟩ | hd
    · unfold Accepts at h
      rw [(C13_foldl1 p st op s pos).2 _ _ _ ha] at h
      obtain ⟨vs, m, e, x, hm, hrest⟩ := (C12_foldl_accepts ..).1 h
      refine ⟨vs, m, e, x, ?_, hm, hrest⟩
      rintro rfl
      cases hm.1
      exact ha.not_rejects hm.2
    · exact (h.not_rejects (((C13_foldl1 p st op s pos).1 _ _).2 hr)).elim
    · unfold Accepts P.foldl1 at h; rw [run_ifAccepts, hf] at h; cases h
    · unfold Accepts P.foldl1 at h; rw [run_ifAccepts, hd] at h; cases h
  · rintro ⟨vs, m, e, x, hne, hm, hx, hv⟩
    cases hm' : hm.1 with
    | nil => exact absurd rfl hne
    | cons ha _ =>
      unfold Accepts
      rw [(C13_foldl1 p st op s pos).2 _ _ _ ha]
      exact (C12_foldl_accepts ..).2 ⟨_, m, e, x, hm, hx, hv⟩

/-- The same for `foldr1`. -/
theorem C13_foldr1 (p : P) (st : Val) (op : Val → Val → Val) (s : I) (pos : Pos) :
    (∀ m e, Rejects E (P.foldr1 p st op) s pos m e ↔ Rejects E p s pos m e) ∧
    (∀ v s' pos', Accepts E p s pos v s' pos' →
      run E (P.foldr1 p st op) s pos = run E (P.foldr p st op) s pos) := by
  constructor
  · intro m e
    unfold Rejects P.foldr1
    rw [run_ifAccepts]
    rcases outcome E p s pos with ⟨v, s', pos', ha⟩ | ⟨m', e', hr⟩ | ⟨f, hf⟩ | hd
    · rw [ha]
      simp only [Out.bind_ok, Out.ok.injEq, reduceCtorEq, iff_false]
      intro h
      obtain ⟨vs, s1, pos1, m1, e1, hm⟩ := foldrSWP_ok_maximal h
      unfold P.foldr at h
      rw [run_foldrSWP_maximal hm, run_ret, Out.bind_ok, foldrOver, Out.bind_eq_ok] at h
      obtain ⟨w, _, h⟩ := h
      cases h
    · rw [hr]; rfl
    · rw [hf]; rfl
    · rw [hd]; rfl
  · intro v s' pos' ha
    unfold P.foldr1
    rw [run_ifAccepts, ha]
    rfl

/-- For the `reject_incomplete1` variants: an error of the first application is reported as it is,
and where the parser accepts they are the variant without `1`. -/
theorem C13_reject_incomplete1 (p : P) (st : Val) (op : Val → Val → Val) (s : I) (pos : Pos) :
    (∀ m e, Rejects E p s pos m e → Rejects E (P.foldlRejectIncomplete1 p st op) s pos m e ∧
      Rejects E (P.foldrRejectIncomplete1 p st op) s pos m e) ∧
    (∀ v s' pos', Accepts E p s pos v s' pos' →
      run E (P.foldlRejectIncomplete1 p st op) s pos =
        run E (.foldlRejectIncomplete p st op) s pos ∧
      run E (P.foldrRejectIncomplete1 p st op) s pos =
        run E (P.foldrRejectIncomplete p st op) s pos) := by
  constructor
  · intro m e hr
    unfold Rejects P.foldlRejectIncomplete1 P.foldrRejectIncomplete1
    rw [run_ifAccepts, run_ifAccepts, hr]
    exact ⟨rfl, rfl⟩
  · intro v s' pos' ha
    unfold P.foldlRejectIncomplete1 P.foldrRejectIncomplete1
    rw [run_ifAccepts, run_ifAccepts, ha]
    exact ⟨rfl, rfl⟩

example : Rejects env11 (P.foldl1 P.digitVal (.int 10) subOp) (txt "x") start .digitExpected start :=
  rejects_of_eval 20 (by decide +kernel)
example : Rejects env11 (P.foldr1 P.digitVal (.int 10) subOp) (txt "x") start .digitExpected start :=
  rejects_of_eval 20 (by decide +kernel)
example : Rejects env11 (P.foldlRejectIncomplete1 P.digitVal (.int 10) subOp) (txt "x") start
    .digitExpected start := rejects_of_eval 20 (by decide +kernel)

/-! ## C14 -/

theorem leftFold_backInserter (l vs : List Val) :
    leftFold backInserter (.seq l) vs = .ok (.seq (l ++ vs)) := by
  induction vs generalizing l with
  | nil => simp [leftFold]
  | cons v vs ih =>
    simp only [leftFold, backInserter, Comb.pushBack, Val.force, Out.bind_ok]
    rw [ih]
    simp

/-- `repeated` accepts iff the parser has a maximal run; the result is the sequence of the results
of the run. -/
theorem C14_repeated (p : P) (s : I) (pos : Pos) (v : Val) (s' : I) (pos' : Pos) :
    Accepts E (P.repeated p) s pos v s' pos' ↔
      ∃ vs m e, MaximalRun E p s pos vs s' pos' m e ∧ v = .seq vs := by
  unfold P.repeated
  rw [C12_foldl_accepts]
  constructor
  · rintro ⟨vs, m, e, x, hm, hx, hv⟩
    cases hx
    rw [leftFold_backInserter] at hv
    cases hv
    exact ⟨vs, m, e, hm, by simp⟩
  · rintro ⟨vs, m, e, hm, rfl⟩
    exact ⟨vs, m, e, .seq [], hm, rfl, by rw [leftFold_backInserter]; simp⟩

/-- `repeated1` needs a non-empty run. -/
theorem C14_repeated1 (p : P) (s : I) (pos : Pos) (v : Val) (s' : I) (pos' : Pos) :
    Accepts E (P.repeated1 p) s pos v s' pos' ↔
      ∃ vs m e, vs ≠ [] ∧ MaximalRun E p s pos vs s' pos' m e ∧ v = .seq vs := by
  unfold P.repeated1
  rw [C13_foldl1_accepts]
  constructor
  · rintro ⟨vs, m, e, x, hne, hm, hx, hv⟩
    cases hx
    rw [leftFold_backInserter] at hv
    cases hv
    exact ⟨vs, m, e, hne, hm, by simp⟩
  · rintro ⟨vs, m, e, hne, hm, rfl⟩
    exact ⟨vs, m, e, .seq [], hne, hm, rfl, by rw [leftFold_backInserter]; simp⟩

/-- `repeated` never rejects, `repeated1` rejects iff the first application does. -/
theorem C14_repeated_rejects (p : P) (s : I) (pos : Pos) (m : Msg) (e : Pos) :
    ¬ Rejects E (P.repeated p) s pos m e ∧
    (Rejects E (P.repeated1 p) s pos m e ↔ Rejects E p s pos m e) :=
  ⟨fun h => C12_foldl_never_rejects _ _ _ _ _ _ _ h, (C13_foldl1 ..).1 m e⟩

/-- One application of `one_of`: every alternative finishes, and the first accepting one decides. -/
def StepOfOneOf (E : Env I) (ps : List P) (s : I) (pos : Pos) (v : Val) (s' : I) (pos' : Pos) :
    Prop :=
  AllFinish E ps s pos ∧ FirstAccepting E ps s pos v s' pos'

/-- Repeated choice, until no alternative accepts. -/
inductive StepsOfOneOf (E : Env I) (ps : List P) : I → Pos → List Val → I → Pos → Prop
  | nil {s : I} {pos : Pos} : AllReject E ps s pos → StepsOfOneOf E ps s pos [] s pos
  | cons {s : I} {pos : Pos} {v : Val} {s1 : I} {pos1 : Pos} {vs : List Val} {s2 : I} {pos2 : Pos} :
      StepOfOneOf E ps s pos v s1 pos1 → StepsOfOneOf E ps s1 pos1 vs s2 pos2 →
      StepsOfOneOf E ps s pos (v :: vs) s2 pos2

/-- `repeated_one_of` collects, in order, what the first accepting alternative gives each time. -/
theorem C14_repeated_one_of (ps : List P) (hs : E.SupportsOneOf ps.length) (s : I) (pos : Pos)
    (v : Val) (s' : I) (pos' : Pos) :
    (Accepts E (P.repeatedOneOf ps) s pos v s' pos' ↔
      ∃ vs, StepsOfOneOf E ps s pos vs s' pos' ∧ v = .seq vs) ∧
    (Accepts E (P.repeatedOneOf1 ps) s pos v s' pos' ↔
      ∃ vs, vs ≠ [] ∧ StepsOfOneOf E ps s pos vs s' pos' ∧ v = .seq vs) := by
  have key : ∀ vs, (∃ m e, MaximalRun E (.oneOf ps) s pos vs s' pos' m e) ↔
      StepsOfOneOf E ps s pos vs s' pos' := by
    intro vs
    constructor
    · rintro ⟨m, e, h, hr⟩
      induction h with
      | nil => exact .nil ((C20_oneOf_rejects_iff ps hs _ _).1 ⟨m, e, hr⟩)
      | cons ha _ ih => exact .cons ((C19_oneOf_accepts ps hs ..).1 ha) (ih hr)
    · intro h
      induction h with
      | nil h =>
        obtain ⟨m, e, hr⟩ := (C20_oneOf_rejects_iff ps hs _ _).2 h
        exact ⟨m, e, .nil _ _, hr⟩
      | cons ha _ ih =>
        obtain ⟨m, e, h, hr⟩ := ih
        exact ⟨m, e, .cons ((C19_oneOf_accepts ps hs ..).2 ha) h, hr⟩
  constructor
  · unfold P.repeatedOneOf
    rw [C14_repeated]
    constructor
    · rintro ⟨vs, m, e, hm, hv⟩; exact ⟨vs, (key vs).1 ⟨m, e, hm⟩, hv⟩
    · rintro ⟨vs, hm, hv⟩
      obtain ⟨m, e, hm⟩ := (key vs).2 hm
      exact ⟨vs, m, e, hm, hv⟩
  · unfold P.repeatedOneOf1
    rw [C14_repeated1]
    constructor
    · rintro ⟨vs, m, e, hne, hm, hv⟩; exact ⟨vs, hne, (key vs).1 ⟨m, e, hm⟩, hv⟩
    · rintro ⟨vs, hne, hm, hv⟩
      obtain ⟨m, e, hm⟩ := (key vs).2 hm
      exact ⟨vs, m, e, hne, hm, hv⟩

example : Accepts env11 (P.repeated P.digitVal) (txt "12x") start (.seq [.int 1, .int 2]) (txt "x")
    ⟨1, 3, ch '2'⟩ :=
  (C14_repeated ..).2 ⟨_, _, _, maximalRun_digits, rfl⟩
example : Accepts env11 (P.repeated1 P.digitVal) (txt "12x") start (.seq [.int 1, .int 2]) (txt "x")
    ⟨1, 3, ch '2'⟩ :=
  (C14_repeated1 ..).2 ⟨_, _, _, by simp, maximalRun_digits, rfl⟩
example : Accepts env98 (P.repeatedOneOf1 [P.digit, P.letter]) (txt "1a!") start
    (.seq [.chr (ch '1'), .chr (ch 'a')]) (txt "!") ⟨1, 3, ch 'a'⟩ :=
  accepts_of_eval 20 (by decide +kernel)

/-! ## C18 -/

/-- `foldl_start_with_parser`: the state parser first, then the left fold over the maximal run. -/
theorem C18_foldl_start_with_parser (p sp : P) (op : Val → Val → Val) (s : I) (pos : Pos) (v : Val)
    (s' : I) (pos' : Pos) :
    Accepts E (.foldlStartWithParser p sp op) s pos v s' pos' ↔
      ∃ x s0 pos0 vs m e x', Accepts E sp s pos x s0 pos0 ∧
        MaximalRun E p s0 pos0 vs s' pos' m e ∧ x.force = .ok x' ∧ leftFold op x' vs = .ok v := by
  have key : Accepts E (.foldlStartWithParser p sp op) s pos v s' pos' ↔
      ∃ x s0 pos0, Accepts E sp s pos x s0 pos0 ∧ Accepts E (.foldl p x op) s0 pos0 v s' pos' := by
    unfold Accepts
    rw [run_foldlSWP, Out.bind_eq_ok]
    constructor
    · rintro ⟨r, hr, h⟩
      cases r with
      | rej m e => cases h
      | acc x s0 pos0 => exact ⟨x, s0, pos0, hr, h⟩
    · rintro ⟨x, s0, pos0, hr, h⟩; exact ⟨_, hr, h⟩
  rw [key]
  simp only [C12_foldl_accepts]
  constructor
  · rintro ⟨x, s0, pos0, h1, vs, m, e, x', h⟩; exact ⟨x, s0, pos0, vs, m, e, x', h1, h⟩
  · rintro ⟨x, s0, pos0, vs, m, e, x', h1, h⟩; exact ⟨x, s0, pos0, h1, vs, m, e, x', h⟩

/-- It rejects iff the state parser rejects, with the same error. -/
theorem C18_foldl_start_with_parser_rejects (p sp : P) (op : Val → Val → Val) (s : I) (pos : Pos)
    (m : Msg) (e : Pos) :
    Rejects E (.foldlStartWithParser p sp op) s pos m e ↔ Rejects E sp s pos m e := by
  unfold Rejects
  rw [run_foldlSWP, Out.bind_eq_ok]
  constructor
  · rintro ⟨r, hr, h⟩
    cases r with
    | rej m' e' => cases h; exact hr
    | acc x s0 pos0 => exact (C12_foldl_never_rejects p x op s0 pos0 m e h).elim
  · intro h; exact ⟨_, h, rfl⟩

/-- `foldr_start_with_parser`: the maximal run first, then the state parser on what is left, then
the right fold. -/
theorem C18_foldr_start_with_parser (p sp : P) (op : Val → Val → Val) (s : I) (pos : Pos) (v : Val)
    (s' : I) (pos' : Pos) :
    Accepts E (.foldrStartWithParser p sp op) s pos v s' pos' ↔
      ∃ vs s0 pos0 m e x, MaximalRun E p s pos vs s0 pos0 m e ∧
        Accepts E sp s0 pos0 x s' pos' ∧ rightFold op x vs = .ok v := by
  constructor
  · intro h
    obtain ⟨vs, s0, pos0, m, e, hm⟩ := foldrSWP_ok_maximal h
    unfold Accepts at h
    rw [run_foldrSWP_maximal hm, Out.bind_eq_ok] at h
    obtain ⟨r, hr, h⟩ := h
    cases r with
    | rej m' e' => cases h
    | acc x s2 pos2 =>
      obtain ⟨w, hw, h⟩ := Out.bind_eq_ok.1 h
      cases h
      exact ⟨vs, s0, pos0, m, e, x, hm, hr, hw⟩
  · rintro ⟨vs, s0, pos0, m, e, x, hm, ha, hv⟩
    unfold Accepts
    rw [run_foldrSWP_maximal hm, ha, Out.bind_ok, foldrOver, hv, Out.bind_ok]

/-- It rejects iff the state parser rejects what the maximal run leaves, with the same error. -/
theorem C18_foldr_start_with_parser_rejects (p sp : P) (op : Val → Val → Val) (s : I) (pos : Pos)
    (m : Msg) (e : Pos) :
    Rejects E (.foldrStartWithParser p sp op) s pos m e ↔
      ∃ vs s0 pos0 m' e', MaximalRun E p s pos vs s0 pos0 m' e' ∧ Rejects E sp s0 pos0 m e := by
  constructor
  · intro h
    obtain ⟨vs, s0, pos0, m', e', hm⟩ := foldrSWP_ok_maximal h
    unfold Rejects at h
    rw [run_foldrSWP_maximal hm, Out.bind_eq_ok] at h
    obtain ⟨r, hr, h⟩ := h
    cases r with
    | rej m2 e2 => cases h; exact ⟨vs, s0, pos0, m', e', hm, hr⟩
    | acc x s2 pos2 =>
      obtain ⟨w, hw, h⟩ := Out.bind_eq_ok.1 h
      cases h
  · rintro ⟨vs, s0, pos0, m', e', hm, hr⟩
    unfold Rejects
    rw [run_foldrSWP_maximal hm, hr, Out.bind_ok, foldrOver]

/-- The run is greedy: an identifier of letters followed by a letter never parses, although a
shorter run would leave a letter for the state parser. -/
theorem C18_greedy (p : P) (op : Val → Val → Val) (s : I) (pos : Pos) (v : Val) (s' : I)
    (pos' : Pos) : ¬ Accepts E (.foldrStartWithParser p p op) s pos v s' pos' := by
  rw [C18_foldr_start_with_parser]
  rintro ⟨vs, s0, pos0, m, e, x, hm, ha, _⟩
  exact ha.not_rejects hm.2

example : Rejects env11 (.foldrStartWithParser P.letter P.letter subOp) (txt "ab") start
    .unexpectedEndOfInput ⟨1, 3, ch 'b'⟩ := rejects_of_eval 20 (by decide +kernel)
/-- `100-1-2`, with the state `100` from the text. -/
example : Accepts env11
    (.foldlStartWithParser (.lastOf [P.litC (ch '-'), P.int_]) P.int_ subOp) (txt "100-1-2") start
    (.int 97) [] ⟨1, 8, ch '2'⟩ := accepts_of_eval 30 (by decide +kernel)
/-- `2-`, `1-`, then the state `100`: 100-1-2. -/
example : Accepts env11
    (.foldrStartWithParser (P.firstOf [P.digitVal, P.litC (ch '-')]) P.int_ subOp) (txt "2-1-100")
    start (.int 97) [] ⟨1, 8, ch '0'⟩ := accepts_of_eval 30 (by decide +kernel)

/-! ## C15 -/

/-- `foldr` accepts iff the parser has a maximal run, with the right fold of its results. -/
theorem C15_foldr_accepts (p : P) (st : Val) (op : Val → Val → Val) (s : I) (pos : Pos) (v : Val)
    (s' : I) (pos' : Pos) :
    Accepts E (P.foldr p st op) s pos v s' pos' ↔
      ∃ vs m e, MaximalRun E p s pos vs s' pos' m e ∧ rightFold op st vs = .ok v := by
  unfold P.foldr
  rw [C18_foldr_start_with_parser]
  simp only [Accepts, run_ret]
  constructor
  · rintro ⟨vs, s0, pos0, m, e, x, hm, ha, hv⟩
    cases ha
    exact ⟨vs, m, e, hm, hv⟩
  · rintro ⟨vs, m, e, hm, hv⟩
    exact ⟨vs, s', pos', m, e, st, hm, rfl, hv⟩

theorem C15_foldr_never_rejects (p : P) (st : Val) (op : Val → Val → Val) (s : I) (pos : Pos)
    (m : Msg) (e : Pos) : ¬ Rejects E (P.foldr p st op) s pos m e := by
  unfold P.foldr
  rw [C18_foldr_start_with_parser_rejects]
  rintro ⟨vs, s0, pos0, m', e', _, hr⟩
  rw [Rejects, run_ret] at hr
  cases hr

/-- If the operation is an ordinary function on evaluated values: the ordinary right fold. -/
theorem C15_foldr_function (p : P) (x : Val) (f : Val → Val → Val)
    (hf : ∀ y v, IsValue (f y v)) (s : I) (pos : Pos) (vs : List Val) (s' : I) (pos' e : Pos)
    (m : Msg) (h : MaximalRun E p s pos vs s' pos' m e) :
    Accepts E (P.foldr p x f) s pos (vs.foldr (fun v y => f y v) x) s' pos' := by
  rw [C15_foldr_accepts]
  refine ⟨vs, m, e, h, ?_⟩
  clear h
  induction vs with
  | nil => rfl
  | cons v vs ih => simp only [rightFold, ih, Out.bind_ok, List.foldr]; exact hf _ _

/-- `foldl` and `foldr` consume the same. -/
theorem C15_same_extent (p : P) (st st' : Val) (op op' : Val → Val → Val) (s : I) (pos : Pos)
    (v w : Val) (s1 s2 : I) (pos1 pos2 : Pos) (h : Accepts E (P.foldr p st op) s pos v s1 pos1)
    (h' : Accepts E (.foldl p st' op') s pos w s2 pos2) : s1 = s2 ∧ pos1 = pos2 := by
  obtain ⟨vs, m, e, hm, _⟩ := (C15_foldr_accepts ..).1 h
  obtain ⟨ws, m', e', x, hm', _⟩ := (C12_foldl_accepts ..).1 h'
  obtain ⟨_, rfl, rfl, _⟩ := hm.unique hm'
  exact ⟨rfl, rfl⟩

/-- An operation that tells the order. -/
example : Accepts env11 (P.foldr P.digitVal (.seq []) frontInserter) (txt "12x") start
    (.seq [.int 1, .int 2]) (txt "x") ⟨1, 3, ch '2'⟩ :=
  (C15_foldr_accepts ..).2 ⟨_, _, _, maximalRun_digits, rfl⟩
example : Accepts env11 (.foldl P.digitVal (.seq []) frontInserter) (txt "12x") start
    (.seq [.int 2, .int 1]) (txt "x") ⟨1, 3, ch '2'⟩ :=
  (C12_foldl_accepts ..).2 ⟨_, _, _, _, maximalRun_digits, rfl, rfl⟩

/-! ## C16 -/

/-- `foldl_reject_incomplete` accepts iff the application that ended the run failed without moving
the error position, with the result of `foldl`. -/
theorem C16_foldl_reject_incomplete_accepts (p : P) (st : Val) (op : Val → Val → Val) (s : I)
    (pos : Pos) (v : Val) (s' : I) (pos' : Pos) :
    Accepts E (.foldlRejectIncomplete p st op) s pos v s' pos' ↔
      ∃ vs m x, MaximalRun E p s pos vs s' pos' m pos' ∧ st.force = .ok x ∧
        leftFold op x vs = .ok v := by
  constructor
  · intro h
    obtain ⟨vs, s1, pos1, m, e, hm⟩ := foldlRI_ok_maximal h
    unfold Accepts at h
    by_cases he : e = pos1
    · subst he
      rw [run_foldlRI_complete hm, Out.bind_eq_ok] at h
      obtain ⟨w, hw, h⟩ := h
      cases h
      obtain ⟨x, hx, hw⟩ := Out.bind_eq_ok.1 hw
      exact ⟨vs, m, x, hm, hx, hw⟩
    · rw [run_foldlRI_incomplete hm he, Out.bind_eq_ok] at h
      obtain ⟨w, hw, h⟩ := h
      cases h
  · rintro ⟨vs, m, x, hm, hx, hv⟩
    unfold Accepts
    rw [run_foldlRI_complete hm, hx, Out.bind_ok, hv, Out.bind_ok]

/-- It rejects iff the application that ended the run failed further on, with exactly the error of
that application (all operations but the last have to be evaluable). -/
theorem C16_foldl_reject_incomplete_rejects (p : P) (st : Val) (op : Val → Val → Val) (s : I)
    (pos : Pos) (m : Msg) (e : Pos) :
    Rejects E (.foldlRejectIncomplete p st op) s pos m e ↔
      ∃ vs s' pos', MaximalRun E p s pos vs s' pos' m e ∧ e ≠ pos' ∧
        (vs = [] ∨ ∃ x y, st.force = .ok x ∧ leftFold op x vs.dropLast = .ok y) := by
  have key : ∀ vs, (∃ st', foldStates op st vs = .ok st') ↔
      (vs = [] ∨ ∃ x y, st.force = .ok x ∧ leftFold op x vs.dropLast = .ok y) := by
    intro vs
    rcases List.eq_nil_or_concat vs with rfl | ⟨ws, w, rfl⟩
    · simp [foldStates]
    · rw [List.concat_eq_append, foldStates_snoc]
      simp only [Out.bind_eq_ok, List.append_eq_nil_iff, List.cons_ne_nil, and_false, false_or,
        List.dropLast_concat, Out.ok.injEq]
      constructor
      · rintro ⟨_, y, ⟨x, hx, hy⟩, _⟩; exact ⟨x, y, hx, hy⟩
      · rintro ⟨x, y, hx, hy⟩; exact ⟨_, y, ⟨x, hx, hy⟩, rfl⟩
  constructor
  · intro h
    obtain ⟨vs, s1, pos1, m1, e1, hm⟩ := foldlRI_ok_maximal h
    unfold Rejects at h
    by_cases he : e1 = pos1
    · subst he
      rw [run_foldlRI_complete hm, Out.bind_eq_ok] at h
      obtain ⟨w, hw, h⟩ := h
      cases h
    · rw [run_foldlRI_incomplete hm he, Out.bind_eq_ok] at h
      obtain ⟨w, hw, h⟩ := h
      cases h
      exact ⟨vs, s1, pos1, hm, he, (key vs).1 ⟨w, hw⟩⟩
  · rintro ⟨vs, s1, pos1, hm, he, hx⟩
    obtain ⟨w, hw⟩ := (key vs).2 hx
    unfold Rejects
    rw [run_foldlRI_incomplete hm he, hw, Out.bind_ok]

/-- The state parser of `foldr_reject_incomplete`, applied where `p` rejects. -/
theorem run_completeState (hs : E.SupportsNth 2) (p : P) (st : Val) (s : I) (pos : Pos) (m : Msg)
    (e : Pos) (h : Rejects E p s pos m e) :
    run E (P.firstOf [.ret st, .failAtFirstCharExpected p]) s pos =
      if e = pos then .ok (.acc st s pos) else .ok (.rej m e) := by
  rw [run_firstOf2 E hs, run_ret, Out.bind_ok]
  simp only [run_failAtFirst]
  rw [h]
  simp only [Out.bind_ok]
  by_cases he : e = pos
  · have hc : pos.equalTo e = true := (Pos.equalTo_iff _ _).2 he
    simp only [if_pos hc, if_pos he, Out.bind_ok]
  · have hc : ¬ pos.equalTo e = true := fun h => he ((Pos.equalTo_iff _ _).1 h)
    simp only [if_neg hc, if_neg he, Out.bind_ok]

theorem C16_foldr_reject_incomplete_accepts (hs : E.SupportsNth 2) (p : P) (st : Val)
    (op : Val → Val → Val) (s : I) (pos : Pos) (v : Val) (s' : I) (pos' : Pos) :
    Accepts E (P.foldrRejectIncomplete p st op) s pos v s' pos' ↔
      ∃ vs m, MaximalRun E p s pos vs s' pos' m pos' ∧ rightFold op st vs = .ok v := by
  unfold P.foldrRejectIncomplete
  rw [C18_foldr_start_with_parser]
  constructor
  · rintro ⟨vs, s0, pos0, m, e, x, hm, ha, hv⟩
    rw [Accepts, run_completeState hs p st s0 pos0 m e hm.2] at ha
    split at ha
    · rename_i he
      cases ha
      subst he
      exact ⟨vs, m, hm, hv⟩
    · cases ha
  · rintro ⟨vs, m, hm, hv⟩
    refine ⟨vs, s', pos', m, pos', st, hm, ?_, hv⟩
    rw [Accepts, run_completeState hs p st s' pos' m pos' hm.2, if_pos rfl]

theorem C16_foldr_reject_incomplete_rejects (hs : E.SupportsNth 2) (p : P) (st : Val)
    (op : Val → Val → Val) (s : I) (pos : Pos) (m : Msg) (e : Pos) :
    Rejects E (P.foldrRejectIncomplete p st op) s pos m e ↔
      ∃ vs s' pos', MaximalRun E p s pos vs s' pos' m e ∧ e ≠ pos' := by
  unfold P.foldrRejectIncomplete
  rw [C18_foldr_start_with_parser_rejects]
  constructor
  · rintro ⟨vs, s0, pos0, m', e', hm, hr⟩
    rw [Rejects, run_completeState hs p st s0 pos0 m' e' hm.2] at hr
    split at hr
    · cases hr
    · rename_i he
      cases hr
      exact ⟨vs, s0, pos0, hm, he⟩
  · rintro ⟨vs, s', pos', hm, he⟩
    refine ⟨vs, s', pos', m, e, hm, ?_⟩
    rw [Rejects, run_completeState hs p st s' pos' m e hm.2, if_neg he]

/-- `repeated_reject_incomplete`: all results when the last application failed at once, the error of
that application otherwise. -/
theorem C16_repeated_reject_incomplete (p : P) (s : I) (pos : Pos) (vs : List Val) (s' : I)
    (pos' e : Pos) (m : Msg) (h : MaximalRun E p s pos vs s' pos' m e) :
    (e = pos' → Accepts E (P.repeatedRejectIncomplete p) s pos (.seq vs) s' pos') ∧
    (e ≠ pos' → Rejects E (P.repeatedRejectIncomplete p) s pos m e) := by
  constructor
  · rintro rfl
    exact (C16_foldl_reject_incomplete_accepts ..).2
      ⟨vs, m, .seq [], h, rfl, by rw [leftFold_backInserter]; simp⟩
  · intro he
    refine (C16_foldl_reject_incomplete_rejects ..).2 ⟨vs, s', pos', h, he, .inr ?_⟩
    exact ⟨.seq [], .seq ([] ++ vs.dropLast), rfl, leftFold_backInserter ..⟩

/-- The same for `repeated_reject_incomplete1`, which needs a non-empty run. -/
theorem C16_repeated_reject_incomplete1 (p : P) (s : I) (pos : Pos) (vs : List Val) (s' : I)
    (pos' e : Pos) (m : Msg) (h : MaximalRun E p s pos vs s' pos' m e) :
    (vs ≠ [] → e = pos' → Accepts E (P.repeatedRejectIncomplete1 p) s pos (.seq vs) s' pos') ∧
    (vs = [] ∨ e ≠ pos' → Rejects E (P.repeatedRejectIncomplete1 p) s pos m e) := by
  cases hs : h.1 with
  | nil =>
    refine ⟨fun h => absurd rfl h, fun _ => ?_⟩
    exact ((C13_reject_incomplete1 p (.seq []) backInserter _ _).1 m e h.2).1
  | cons ha _ =>
    have heq := ((C13_reject_incomplete1 p (.seq []) backInserter _ _).2 _ _ _ ha).1
    obtain ⟨h1, h2⟩ := C16_repeated_reject_incomplete p _ _ _ _ _ e m h
    refine ⟨fun _ he => ?_, fun he => ?_⟩
    · exact heq.trans (h1 he)
    · rcases he with he | he
      · cases he
      · exact heq.trans (h2 he)

/-- The run of `"a1"` on `"a1a1a2"` ends half way; on `"a1a1x"` it does not. -/
def pairP : P := .sequence [P.litC (ch 'a'), P.litC (ch '1')]
example : Rejects env11 (P.repeatedRejectIncomplete pairP) (txt "a1a1a2") start
    (.literalExpected (ch '1')) ⟨1, 6, ch 'a'⟩ := rejects_of_eval 20 (by decide +kernel)
example : Rejects env11 (P.foldrRejectIncomplete pairP (.seq []) frontInserter) (txt "a1a1a2") start
    (.literalExpected (ch '1')) ⟨1, 6, ch 'a'⟩ := rejects_of_eval 20 (by decide +kernel)
example : Accepts env11 (P.repeatedRejectIncomplete pairP) (txt "a1a1x") start
    (.seq [.seq [.chr (ch 'a'), .chr (ch '1')], .seq [.chr (ch 'a'), .chr (ch '1')]]) (txt "x")
    ⟨1, 5, ch '1'⟩ := accepts_of_eval 20 (by decide +kernel)

/-! ## C17 -/

/-- `foldl_reject_incomplete<p, t, f>` and `first_of<foldl<p, t, f>, fail_at_first_char_expected<p>>`
have the same outcome on every input: acceptance, rejection, compile error and non-termination. -/
theorem C17_foldl_equivalence (hs : E.SupportsNth 2) (p : P) (st x : Val) (op : Val → Val → Val)
    (K : Val → Prop) (hop : NeverFails K op) (hst : st.force = .ok x) (hx : K x) :
    Equivalent E (.foldlRejectIncomplete p st op)
      (P.firstOf [.foldl p st op, .failAtFirstCharExpected p]) := by
  intro s pos
  rw [run_firstOf2 E hs]
  simp only [run_failAtFirst]
  rcases run_cases E p s pos with ⟨vs, s', pos', m, e, hm⟩ | ⟨vs, s', pos', f, h, hf⟩ |
    ⟨vs, s', pos', h, hd⟩ | h
  · obtain ⟨y, hy, _⟩ := hop.leftFold hx vs
    rw [run_foldl_maximal hm, hst, Out.bind_ok, hy, Out.bind_ok, Out.bind_ok]
    simp only
    rw [hm.2]
    by_cases he : e = pos'
    · subst he
      have hc : e.equalTo e = true := (Pos.equalTo_iff _ _).2 rfl
      rw [run_foldlRI_complete hm, hst, Out.bind_ok, hy]
      simp only [Out.bind_ok, if_pos hc]
    · have hc : ¬ pos'.equalTo e = true := fun h => he ((Pos.equalTo_iff _ _).1 h)
      obtain ⟨st', _, hst', _⟩ := hop.foldStates hst hx vs
      rw [run_foldlRI_incomplete hm he, hst']
      simp only [Out.bind_ok, if_neg hc]
  · obtain ⟨st', _, hst', _⟩ := hop.foldStates hst hx vs
    rw [run_foldlRI_steps h, run_foldl_steps h, hst', Out.bind_ok, Out.bind_ok, run_foldlRI,
      run_foldl, hf]
    rfl
  · obtain ⟨st', _, hst', _⟩ := hop.foldStates hst hx vs
    rw [run_foldlRI_steps h, run_foldl_steps h, hst', Out.bind_ok, Out.bind_ok, run_foldlRI,
      run_foldl, hd]
    rfl
  · rw [foldl_infinite hop hst hx h, foldlRI_infinite hop hst hx h]
    rfl

/-- The same for `foldr_reject_incomplete`. -/
theorem C17_foldr_equivalence (hs : E.SupportsNth 2) (p : P) (x : Val) (op : Val → Val → Val)
    (K : Val → Prop) (hop : NeverFails K op) (hx : K x) :
    Equivalent E (P.foldrRejectIncomplete p x op)
      (P.firstOf [P.foldr p x op, .failAtFirstCharExpected p]) := by
  intro s pos
  rw [run_firstOf2 E hs]
  simp only [run_failAtFirst]
  unfold P.foldr P.foldrRejectIncomplete
  rcases run_cases E p s pos with ⟨vs, s', pos', m, e, hm⟩ | ⟨vs, s', pos', f, h, hf⟩ |
    ⟨vs, s', pos', h, hd⟩ | h
  · obtain ⟨y, hy, _⟩ := hop.rightFold hx vs
    rw [run_foldrSWP_maximal hm, run_foldrSWP_maximal hm, run_ret, Out.bind_ok, foldrOver, hy,
      Out.bind_ok, Out.bind_ok, run_completeState hs p x s' pos' m e hm.2]
    simp only
    rw [hm.2]
    by_cases he : e = pos'
    · subst he
      have hc : e.equalTo e = true := (Pos.equalTo_iff _ _).2 rfl
      simp only [Out.bind_ok, if_pos hc, foldrOver, hy, if_true]
    · have hc : ¬ pos'.equalTo e = true := fun h => he ((Pos.equalTo_iff _ _).1 h)
      simp only [Out.bind_ok, if_neg hc, if_neg he, foldrOver]
  · rw [run_foldrSWP_steps h, run_foldrSWP_steps h, run_foldrSWP, run_foldrSWP, hf]
    rfl
  · rw [run_foldrSWP_steps h, run_foldrSWP_steps h, run_foldrSWP, run_foldrSWP, hd]
    rfl
  · rw [foldrSWP_infinite h, foldrSWP_infinite h]
    rfl

/-- Collecting the results is an operation that never fails. -/
example : Equivalent env98 (P.repeatedRejectIncomplete pairP)
    (P.firstOf [P.repeated pairP, .failAtFirstCharExpected pairP]) :=
  C17_foldl_equivalence (fun _ => by decide) _ _ (.seq []) _ _ backInserter_neverFails rfl ⟨[], rfl⟩
example : Equivalent env98 (P.foldrRejectIncomplete pairP (.seq []) frontInserter)
    (P.firstOf [P.foldr pairP (.seq []) frontInserter, .failAtFirstCharExpected pairP]) :=
  C17_foldr_equivalence (fun _ => by decide) _ _ _ _ frontInserter_neverFails ⟨[], rfl⟩

/-- Without that assumption the equivalence fails: with an operation that overflows on the last
element, `foldl_reject_incomplete` still rejects with the error of the incomplete element, while
`first_of<foldl<…>, …>` does not compile. -/
theorem C17_operation_errors_matter :
    Rejects env11 (.foldlRejectIncomplete (P.firstOf [P.digitVal, P.litC (ch ',')])
      (.int 2147483640) nextDigit) (txt "9,1x") start (.literalExpected (ch ',')) ⟨1, 4, ch '1'⟩ ∧
    IllFormed env11 (P.firstOf [.foldl (P.firstOf [P.digitVal, P.litC (ch ',')])
      (.int 2147483640) nextDigit, .failAtFirstCharExpected (P.firstOf [P.digitVal, P.litC (ch ',')])])
      (txt "9,1x") start :=
  ⟨rejects_of_eval 30 (by decide +kernel), .overflow, ill_of_eval 30 (by decide +kernel)⟩

/-- The `start_with_parser` variant of `foldl_reject_incomplete`. -/
theorem C18_foldl_reject_incomplete_start_with_parser (p sp : P) (op : Val → Val → Val) (s : I)
    (pos : Pos) (v : Val) (s' : I) (pos' : Pos) :
    Accepts E (.foldlRejectIncompleteStartWithParser p sp op) s pos v s' pos' ↔
      ∃ x s0 pos0 vs m x', Accepts E sp s pos x s0 pos0 ∧
        MaximalRun E p s0 pos0 vs s' pos' m pos' ∧ x.force = .ok x' ∧
        leftFold op x' vs = .ok v := by
  have key : Accepts E (.foldlRejectIncompleteStartWithParser p sp op) s pos v s' pos' ↔
      ∃ x s0 pos0, Accepts E sp s pos x s0 pos0 ∧
        Accepts E (.foldlRejectIncomplete p x op) s0 pos0 v s' pos' := by
    unfold Accepts
    rw [run_foldlRISWP, Out.bind_eq_ok]
    constructor
    · rintro ⟨r, hr, h⟩
      cases r with
      | rej m e => cases h
      | acc x s0 pos0 => exact ⟨x, s0, pos0, hr, h⟩
    · rintro ⟨x, s0, pos0, hr, h⟩; exact ⟨_, hr, h⟩
  rw [key]
  simp only [C16_foldl_reject_incomplete_accepts]
  constructor
  · rintro ⟨x, s0, pos0, h1, vs, m, x', h⟩; exact ⟨x, s0, pos0, vs, m, x', h1, h⟩
  · rintro ⟨x, s0, pos0, vs, m, x', h1, h⟩; exact ⟨x, s0, pos0, h1, vs, m, x', h⟩

/-- It rejects iff the state parser rejects, or the run after it ends half way. -/
theorem C18_foldl_reject_incomplete_start_with_parser_rejects (p sp : P) (op : Val → Val → Val)
    (s : I) (pos : Pos) (m : Msg) (e : Pos) :
    Rejects E (.foldlRejectIncompleteStartWithParser p sp op) s pos m e ↔
      Rejects E sp s pos m e ∨
      ∃ x s0 pos0 vs s' pos', Accepts E sp s pos x s0 pos0 ∧
        MaximalRun E p s0 pos0 vs s' pos' m e ∧ e ≠ pos' ∧
        (vs = [] ∨ ∃ x' y, x.force = .ok x' ∧ leftFold op x' vs.dropLast = .ok y) := by
  have key : Rejects E (.foldlRejectIncompleteStartWithParser p sp op) s pos m e ↔
      Rejects E sp s pos m e ∨ ∃ x s0 pos0, Accepts E sp s pos x s0 pos0 ∧
        Rejects E (.foldlRejectIncomplete p x op) s0 pos0 m e := by
    unfold Accepts Rejects
    rw [run_foldlRISWP, Out.bind_eq_ok]
    constructor
    · rintro ⟨r, hr, h⟩
      cases r with
      | rej m' e' => cases h; exact .inl hr
      | acc x s0 pos0 => exact .inr ⟨x, s0, pos0, hr, h⟩
    · rintro (h | ⟨x, s0, pos0, hr, h⟩)
      · exact ⟨_, h, rfl⟩
      · exact ⟨_, hr, h⟩
  rw [key]
  simp only [C16_foldl_reject_incomplete_rejects]
  constructor
  · rintro (h | ⟨x, s0, pos0, h1, vs, s', pos', h⟩)
    · exact .inl h
    · exact .inr ⟨x, s0, pos0, vs, s', pos', h1, h⟩
  · rintro (h | ⟨x, s0, pos0, vs, s', pos', h1, h⟩)
    · exact .inl h
    · exact .inr ⟨x, s0, pos0, h1, vs, s', pos', h⟩

/-- `1+2+` : after the complete `+2` the run ends half way. -/
example : Rejects env11 (.foldlRejectIncompleteStartWithParser (.lastOf [P.litC (ch '+'), P.int_])
    P.int_ subOp) (txt "1+2+") start .digitExpected ⟨1, 5, ch '+'⟩ :=
  rejects_of_eval 30 (by decide +kernel)

theorem steps_optional : Steps env11 (.optional (P.litC (ch 'a')) .void_) (txt "ab") start [.chr (ch 'a')] (txt "b")
    ⟨1, 2, ch 'a'⟩ := .cons (accepts_of_eval 20 (by decide +kernel)) (.nil _ _)

theorem optional_stays : Accepts env11 (.optional (P.litC (ch 'a')) .void_) (txt "b") ⟨1, 2, ch 'a'⟩ .void_ (txt "b")
    ⟨1, 2, ch 'a'⟩ := accepts_of_eval 20 (by decide +kernel)

/-- `a?` again and again: C11 for each fold. -/
example (st : Val) (op : Val → Val → Val) : NoResult env11 (.foldl (.optional (P.litC (ch 'a')) .void_) st op) (txt "ab") start ∧
    NoResult env11 (.foldlRejectIncomplete (.optional (P.litC (ch 'a')) .void_) st op) (txt "ab") start ∧
    Diverges env11 (P.foldr (.optional (P.litC (ch 'a')) .void_) st op) (txt "ab") start ∧
    Diverges env11 (.foldrStartWithParser (.optional (P.litC (ch 'a')) .void_) P.digit op) (txt "ab") start ∧
    NoResult env11 (.foldlStartWithParser (.optional (P.litC (ch 'a')) .void_) P.digit op) (txt "7ab") start :=
  ⟨C11_foldl _ _ _ _ _ _ _ _ _ steps_optional optional_stays,
    C11_foldl_reject_incomplete _ _ _ _ _ _ _ _ _ steps_optional optional_stays,
    (C11_foldr _ _ _ _ _ _ _ _ _ steps_optional optional_stays).1,
    C11_foldr_start_with_parser _ _ _ _ _ _ _ _ _ steps_optional optional_stays,
    (C11_foldl_start_with_parser _ _ _ (txt "7ab") start (.chr (ch '7')) (txt "ab") ⟨1, 2, ch '7'⟩ [.chr (ch 'a')] (txt "b")
      ⟨1, 3, ch 'a'⟩ .void_ (accepts_of_eval 20 (by decide +kernel))
      (.cons (accepts_of_eval 20 (by decide +kernel)) (.nil _ _)) (accepts_of_eval 20 (by decide +kernel))).1⟩

/-- Adding to a list never fails. -/
example : Diverges env11 (.foldl (.optional (P.litC (ch 'a')) .void_) (.seq []) backInserter) (txt "ab") start :=
  C11_foldl_diverges _ _ (.seq []) _ (fun x => ∃ l, x = .seq l) (fun _ _ ⟨l, e⟩ => e ▸ ⟨_, rfl, _, rfl⟩) rfl ⟨[], rfl⟩ _ _ _ _ _ _
    steps_optional optional_stays

/-- The right fold of an operation that gives values. -/
example : Accepts env11 (P.foldr P.digitVal (.int 0) fun y v => .seq [v, y]) (txt "12x") start
    (.seq [.int 1, .seq [.int 2, .int 0]]) (txt "x") ⟨1, 3, ch '2'⟩ :=
  C15_foldr_function P.digitVal (.int 0) (fun y v => .seq [v, y]) (fun _ _ => rfl) _ _ _ _ _ _ _ maximalRun_digits

/-- "12x" is complete, `1a2` in `(digit letter)*` is not. -/
example : Accepts env98 (P.foldrRejectIncomplete P.digitVal (.int 10) subOp) (txt "12x") start (.int 7) (txt "x")
      ⟨1, 3, ch '2'⟩ ∧
    Rejects env98 (P.foldrRejectIncomplete (.lastOf [P.digit, P.letter]) (.int 10) fun x _ => x) (txt "1a2") start
      .unexpectedEndOfInput ⟨1, 4, ch '2'⟩ ∧
    Accepts env11 (P.repeatedRejectIncomplete P.digitVal) (txt "12x") start (.seq [.int 1, .int 2]) (txt "x") ⟨1, 3, ch '2'⟩ :=
  ⟨(C16_foldr_reject_incomplete_accepts (fun _ => by decide) ..).2 ⟨[.int 1, .int 2], .digitExpected,
      ⟨.cons (s1 := txt "2x") (pos1 := ⟨1, 2, ch '1'⟩) (accepts_of_eval 20 (by decide +kernel))
        (.cons (s1 := txt "x") (pos1 := ⟨1, 3, ch '2'⟩) (accepts_of_eval 20 (by decide +kernel)) (.nil _ _)),
        rejects_of_eval 20 (by decide +kernel)⟩, by rfl⟩,
    (C16_foldr_reject_incomplete_rejects (fun _ => by decide) ..).2 ⟨[.chr (ch 'a')], txt "2", ⟨1, 3, ch 'a'⟩,
      ⟨.cons (accepts_of_eval 20 (by decide +kernel)) (.nil _ _), rejects_of_eval 20 (by decide +kernel)⟩, by decide⟩,
    (C16_repeated_reject_incomplete _ _ _ _ _ _ _ _ maximalRun_digits).1 rfl⟩

end Metaparse
