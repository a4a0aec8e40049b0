import Verif.Props.Wrappers
import Verif.Spec.Reference
import Verif.Props.Sequences
import Verif.Props.Choice
import Verif.Props.Folds
import Verif.Props.Chars
/-!
# The equivalences stated in the reference (C56, C57)
-/

namespace Metaparse

variable {I : Type} {E : Env I}

/-- `last_of` one parser is that parser. -/
theorem run_lastOf_one (hs : E.SupportsNth 1) (p : P) (s : I) (pos : Pos) :
    run E (.lastOf [p]) s pos = run E p s pos := by
  rw [run_lastOf p [] hs, run_nthOfC E [p] ([] : List P).length (by simp) hs s pos]
  simp only [List.map, chain, Out.bind_assoc]
  cases run E p s pos with
  | ok r => cases r <;> rfl
  | ill f => rfl
  | deep => rfl

/-- `last_of` more than one parser. -/
theorem run_lastOf_cons (p q : P) (ps : List P) (hs : E.SupportsNth (p :: q :: ps).length) (s : I)
    (pos : Pos) :
    run E (.lastOf (p :: q :: ps)) s pos = (run E p s pos).bind fun
      | .rej m e => .ok (.rej m e)
      | .acc _ s' pos' => run E (.lastOf (q :: ps)) s' pos' := by
  have hs' : E.SupportsNth (q :: ps).length := fun h => by have := hs h; simp at this ⊢; omega
  rw [run_lastOf p (q :: ps) hs, run_nthOfC E _ _ (by simp) hs s pos, List.map_cons, chain,
    Out.bind_assoc]
  congr 1
  funext r
  cases r with
  | rej m e => rfl
  | acc v s1 q1 =>
    simp only
    rw [run_lastOf q ps hs', run_nthOfC E _ _ (by simp) hs' s1 q1, Out.bind_assoc]
    congr 1
    funext r
    cases r <;> rfl

/-- `last_of` two parsers. -/
theorem run_lastOf2 (hs : E.SupportsNth 2) (p q : P) (s : I) (pos : Pos) :
    run E (.lastOf [p, q]) s pos = (run E p s pos).bind fun
      | .rej m e => .ok (.rej m e)
      | .acc _ s' pos' => run E q s' pos' := by
  rw [run_lastOf_cons p q [] hs]
  simp only [run_lastOf_one (show E.SupportsNth 1 from fun h => by have := hs h; omega)]

/-- `one_of` a parser and `return_`. -/
theorem run_oneOf_ret (hs : E.SupportsOneOf 2) (p : P) (d : Val) (s : I) (pos : Pos) :
    run E (.oneOf [p, .ret d]) s pos = (run E p s pos).bind fun
      | .rej _ _ => .ok (.acc d s pos)
      | .acc v s' pos' => .ok (.acc v s' pos') := by
  rw [run_step]
  simp only [step]
  have h11 : Comb.oneOf11 ([p, P.ret d].map (run E)) s pos = (run E p s pos).bind fun
      | .rej _ _ => .ok (.acc d s pos)
      | .acc v s' pos' => .ok (.acc v s' pos') := by
    simp only [List.map, Comb.oneOf11, run_ret, Out.bind_ok, Comb.fail]
    congr 1; funext r; cases r <;> rfl
  cases h : E.std with
  | cpp98 =>
    simp only [Comb.oneOf98, List.length_map]
    rw [if_pos (show [p, P.ret d].length ≤ E.limOneOf from hs h)]
    simp only [List.map, Comb.oneOf98Loop, run_ret, Out.bind_ok]
    congr 1; funext r
    cases r with
    | acc v s' pos' => rfl
    | rej m e =>
      simp only [Comb.oneOf98Op]
      by_cases hc : e.less pos = true
      · rw [if_pos hc]
      · rw [if_neg hc]
  | cpp11 => exact h11
  | cpp14 => exact h11

/-! ## Equivalences that hold -/

/-- `keyword<s, r>` is `last_of<lit<c1>, …, lit<cn>, return_<r>>`. -/
theorem C56_keyword (s : List Chr) (r : Val) (hs : E.SupportsNth (s.length + 1)) :
    Equivalent E (.keyword s r) (Reference.keyword s r) := by
  intro i pos
  unfold Reference.keyword
  induction s generalizing i pos with
  | nil =>
    rw [run_step]
    exact (run_ret r i pos).symm.trans (run_lastOf_one hs _ i pos).symm
  | cons c s ih =>
    have hs' : E.SupportsNth (s.length + 1) := fun h => by have := hs h; simp at this ⊢; omega
    have hk : run E (.keyword (c :: s) r) i pos = (run E (P.litC c) i pos).bind fun
        | .rej m e => .ok (.rej m e)
        | .acc _ s' pos' => run E (.keyword s r) s' pos' := by
      rw [run_step]
      show ((run E (P.litC c) i pos).bind _) = _
      rfl
    rw [hk]
    obtain ⟨q, ps, hq⟩ : ∃ q ps, s.map P.lit ++ [P.ret r] = q :: ps := by cases s <;> exact ⟨_, _, rfl⟩
    have hlen : ps.length = s.length := by
      have := congrArg List.length hq; simpa using this.symm
    rw [List.map_cons, List.cons_append, hq,
      run_lastOf_cons _ _ _ (by simpa [hlen] using hs)]
    show (run E (P.litC c) i pos).bind _ = (run E (P.litC c) i pos).bind _
    congr 1; funext r'
    cases r' with
    | rej m e => rfl
    | acc v s1 pos1 => simp only; rw [ih hs', hq]

/-- `optional<p, d>` is `one_of<p, return_<d>>`. -/
theorem C56_optional (hs : E.SupportsOneOf 2) (p : P) (d : Val) :
    Equivalent E (.optional p d) (Reference.optional p d) := by
  intro s pos
  rw [Reference.optional, run_oneOf_ret hs, run_step]
  rfl

/-- `always<p, t>` is `last_of<p, return_<t>>`. -/
theorem C56_always (hs : E.SupportsNth 2) (p : P) (t : Val) :
    Equivalent E (.always p t) (Reference.always p t) := by
  intro s pos
  rw [Reference.always, run_lastOf2 hs, run_step]
  simp only [run_ret]
  rfl

theorem ifAccepts_lastOf (hs : E.SupportsNth 2) (p q : P) :
    Equivalent E (.ifAccepts p q) (.lastOf [.lookAhead p, q]) := by
  intro s pos
  have : run E (.lookAhead p) s pos = (run E p s pos).bind fun
      | .rej m e => .ok (.rej m e)
      | .acc v _ _ => .ok (.acc v s pos) := by rw [run_step]; rfl
  rw [run_lastOf2 hs, this, run_ifAccepts, Out.bind_assoc]
  congr 1; funext r
  cases r <;> rfl

/-- `foldl1<p, t, f>` is `last_of<look_ahead<p>, foldl<p, t, f>>`. -/
theorem C56_foldl1 (hs : E.SupportsNth 2) (p : P) (t : Val) (f : Val → Val → Val) :
    Equivalent E (P.foldl1 p t f) (Reference.foldl1 p t f) := ifAccepts_lastOf hs _ _

/-- `foldr1<p, t, f>` is `last_of<look_ahead<p>, foldr<p, t, f>>`. -/
theorem C56_foldr1 (hs : E.SupportsNth 2) (p : P) (t : Val) (f : Val → Val → Val) :
    Equivalent E (P.foldr1 p t f) (Reference.foldr1 p t f) := ifAccepts_lastOf hs _ _

/-- `repeated1<p>` is `last_of<look_ahead<p>, repeated<p>>`. -/
theorem C56_repeated1 (hs : E.SupportsNth 2) (p : P) :
    Equivalent E (P.repeated1 p) (Reference.repeated1 p) := ifAccepts_lastOf hs _ _

theorem ifAccepts_firstOf (hs : E.SupportsNth 2) {p q q' r : P}
    (h : Equivalent E q (P.firstOf [q', r])) :
    Equivalent E (.ifAccepts p q) (P.firstOf [.ifAccepts p q', r]) := by
  intro s pos
  rw [run_firstOf2 E hs, run_ifAccepts, run_ifAccepts, Out.bind_assoc]
  congr 1; funext x
  cases x with
  | rej m e => rfl
  | acc v s1 pos1 => simp only; rw [h, run_firstOf2 E hs]

/-- `foldl_reject_incomplete1<p, t, f>` is `first_of<foldl1<p, t, f>, fail_at_first_char_expected<p>>`
when the operation can always be evaluated. -/
theorem C56_foldl_reject_incomplete1 (hs : E.SupportsNth 2) (p : P) (st x : Val)
    (op : Val → Val → Val) (K : Val → Prop) (hop : NeverFails K op) (hst : st.force = .ok x)
    (hx : K x) :
    Equivalent E (P.foldlRejectIncomplete1 p st op) (Reference.foldlRejectIncomplete1 p st op) :=
  ifAccepts_firstOf hs (C17_foldl_equivalence hs p st x op K hop hst hx)

/-- The same for `foldr_reject_incomplete1`. -/
theorem C56_foldr_reject_incomplete1 (hs : E.SupportsNth 2) (p : P) (x : Val)
    (op : Val → Val → Val) (K : Val → Prop) (hop : NeverFails K op) (hx : K x) :
    Equivalent E (P.foldrRejectIncomplete1 p x op) (Reference.foldrRejectIncomplete1 p x op) :=
  ifAccepts_firstOf hs (C17_foldr_equivalence hs p x op K hop hx)

/-- `repeated_reject_incomplete<p>` is `first_of<repeated<p>, fail_at_first_char_expected<p>>`. -/
theorem C56_repeated_reject_incomplete (hs : E.SupportsNth 2) (p : P) :
    Equivalent E (P.repeatedRejectIncomplete p) (Reference.repeatedRejectIncomplete p) :=
  C17_foldl_equivalence hs p _ (.seq []) _ _ backInserter_neverFails rfl ⟨[], rfl⟩

example : Equivalent env98 (P.repeatedRejectIncomplete P.digit) (Reference.repeatedRejectIncomplete P.digit) :=
  C56_repeated_reject_incomplete (by intro _; decide) _

/-- `repeated_reject_incomplete1<p>` is `first_of<repeated1<p>, fail_at_first_char_expected<p>>`. -/
theorem C56_repeated_reject_incomplete1 (hs : E.SupportsNth 2) (p : P) :
    Equivalent E (P.repeatedRejectIncomplete1 p) (Reference.repeatedRejectIncomplete1 p) :=
  C56_foldl_reject_incomplete1 hs p _ (.seq []) _ _ backInserter_neverFails rfl ⟨[], rfl⟩

example : Equivalent env98 (P.repeatedRejectIncomplete1 P.digit) (Reference.repeatedRejectIncomplete1 P.digit) :=
  C56_repeated_reject_incomplete1 (by intro _; decide) _

/-- `foldl_reject_incomplete_start_with_parser<p, pt, f>` is
`first_of<foldl_start_with_parser<p, pt, f>, fail_at_first_char_expected<p>>` when the operation can
always be evaluated. -/
theorem C56_foldl_reject_incomplete_start_with_parser (hs : E.SupportsNth 2) (p pt : P)
    (op : Val → Val → Val) (K : Val → Prop) (hop : NeverFails K op)
    (hK : ∀ s pos v s' pos', Accepts E pt s pos v s' pos' → ∃ x, v.force = .ok x ∧ K x) :
    Equivalent E (.foldlRejectIncompleteStartWithParser p pt op)
      (Reference.foldlRejectIncompleteStartWithParser p pt op) := by
  intro s pos
  rw [Reference.foldlRejectIncompleteStartWithParser, run_firstOf2 E hs, run_foldlRISWP, run_foldlSWP,
    Out.bind_assoc]
  cases hp : run E pt s pos with
  | ill f => rfl
  | deep => rfl
  | ok r =>
    cases r with
    | rej m e => rfl
    | acc v s1 pos1 =>
      obtain ⟨x, hx, hKx⟩ := hK _ _ _ _ _ hp
      simp only [Out.bind_ok]
      rw [C17_foldl_equivalence hs p v x op K hop hx hKx s1 pos1, run_firstOf2 E hs]

/-- `nth_of_c<k, p0, …, pn>` is `transform<sequence<p0, …, pn>, at_c<_1, k>>`. -/
theorem C56_nth_of_c (k : Nat) (ps : List P) (hk : k < ps.length) (hs : E.SupportsNth ps.length) :
    Equivalent E (.nthOfC k ps) (Reference.nthOfC k ps) := by
  intro s pos
  have ht : run E (Reference.nthOfC k ps) s pos = (run E (.sequence ps) s pos).bind fun
      | .rej m e => .ok (.rej m e)
      | .acc v s' pos' => (Reference.atC k v).force.bind fun w => .ok (.acc w s' pos') := by
    rw [Reference.nthOfC, run_step]; rfl
  rw [ht, run_sequence ps (fun h => ⟨by have := hs h; omega, hs h⟩), run_nthOfC E ps k hk hs, Out.bind_assoc]
  cases hc : chain (ps.map (run E)) s pos with
  | ill f => rfl
  | deep => rfl
  | ok r =>
    cases r with
    | failed m e => rfl
    | done vs s1 pos1 =>
      have hlen := chain_length _ _ _ _ _ _ hc
      have hk' : k < vs.length := by rw [hlen]; simpa using hk
      simp only [Out.bind_ok, ChainRes.toRes, Reference.atC, List.getElem?_eq_getElem hk', Val.force,
        pick]
      simp [hk']

/-- `iterate_c<p, n>` is `sequence<p, …, p>` with `n` times `p`. -/
theorem C56_iterate_c (p : P) (n : Nat) (hs : E.SupportsSequence n) :
    Equivalent E (P.iterateC p n) (Reference.iterateC p n) := by
  have key : ∀ (n : Nat) (l : List Val) (s : I) (pos : Pos), run E (.iterate n p l) s pos =
      (chain ((List.replicate n p).map (run E)) s pos).bind fun r =>
        .ok (r.toRes fun vs => .seq (l ++ vs)) := by
    intro n
    induction n with
    | zero => intro l s pos; rw [run_step]; simp [step, Comb.iterate, chain, ChainRes.toRes]
    | succ n ih =>
      intro l s pos
      rw [run_step]
      simp only [step, Comb.iterate, List.replicate_succ, List.map_cons, chain, Out.bind_assoc]
      rw [if_neg (by omega)]
      congr 1; funext r
      cases r with
      | rej m e => rfl
      | acc v s1 pos1 =>
        simp only
        rw [show ((n + 1 : Nat) : Int) - 1 = (n : Int) by omega, ih, Out.bind_assoc]
        congr 1; funext r
        cases r <;> simp [ChainRes.cons, ChainRes.toRes]
  intro s pos
  rw [Reference.iterateC, run_sequence _ (by simpa using hs)]
  exact key n [] s pos

/-- `entire_input<p, e>` is `first_of<p, change_error_message<empty<v>, e>>`, whatever the value. -/
theorem C56_entire_input (hs : E.SupportsNth 2) (p : P) (v : Val) (e : Msg) :
    Equivalent E (P.entireInput p e) (Reference.entireInput p v e) := by
  intro s pos
  have he : ∀ w s pos, run E (.empty w) s pos = (E.input.isEmpty s).bind fun b =>
      if b then .ok (.acc w s pos) else .ok (.rej .endOfInputExpected pos) := by
    intro w s pos; rw [run_step]; rfl
  have hc : ∀ w s pos, run E (.changeErrorMessage (.empty w) e) s pos =
      (E.input.isEmpty s).bind fun b => if b then .ok (.acc w s pos) else .ok (.rej e pos) := by
    intro w s pos
    rw [run_step]
    show ((run E (.empty w) s pos).bind _) = _
    rw [he, Out.bind_assoc]
    congr 1; funext b
    cases b <;> rfl
  unfold P.entireInput Reference.entireInput
  by_cases hd : e = .endOfInputExpected
  · rw [if_pos hd, run_firstOf2 E hs, run_firstOf2 E hs]
    congr 1; funext r
    cases r with
    | rej m q => rfl
    | acc w s1 pos1 =>
      simp only [he, hc, Out.bind_assoc]
      congr 1; funext b
      cases b
      · subst hd; rfl
      · rfl
  · rw [if_neg hd, run_firstOf2 E hs, run_firstOf2 E hs]
    congr 1; funext r
    cases r with
    | rej m q => rfl
    | acc w s1 pos1 =>
      simp only [hc, Out.bind_assoc]
      congr 1; funext b
      cases b <;> rfl

/-- `last_of<p1, …, pn>` is `nth_of_c<n - 1, p1, …, pn>` (the reference says `nth_of_c<n, …>`, see
`C56_last_of_documentation_refuted`). -/
theorem C56_last_of (p : P) (ps : List P) (hs : E.SupportsNth (p :: ps).length) :
    Equivalent E (.lastOf (p :: ps)) (.nthOfC (ps.length : Nat) (p :: ps)) :=
  run_lastOf p ps hs

/-- `if_<p, t, f>` is `one_of<last_of<look_ahead<p>, return_<t>>, return_<f>>` (the reference leaves out
the `look_ahead`, see `C56_if_documentation_refuted`). -/
theorem C56_if (hs : E.SupportsNth 2) (ho : E.SupportsOneOf 2) (p : P) (t f : Val) :
    Equivalent E (.if_ p t f) (Reference.if_ (.lookAhead p) t f) := by
  intro s pos
  have : run E (.lookAhead p) s pos = (run E p s pos).bind fun
      | .rej m e => .ok (.rej m e)
      | .acc v _ _ => .ok (.acc v s pos) := by rw [run_step]; rfl
  rw [Reference.if_, run_oneOf_ret ho, run_lastOf2 hs, this, run_step, Out.bind_assoc, Out.bind_assoc]
  show ((run E p s pos).bind _) = _
  congr 1; funext r
  cases r with
  | rej m e => rfl
  | acc v s1 pos1 => simp only [Out.bind_ok, run_ret]

section Text

variable {E : Env (List Chr)}

/-- `empty<c>` is `except<one_char, c, end_of_input_expected>`. -/
theorem C56_empty (hE : E.OnText) (c : Val) : Equivalent E (.empty c) (Reference.empty c) := by
  intro s pos
  have h1 : run E (.empty c) s pos = Comb.empty E.input c s pos := by rw [run_step]; rfl
  have h2 : run E (Reference.empty c) s pos =
      Comb.except (run E .oneChar) c .endOfInputExpected s pos := by
    rw [Reference.empty, run_step]; rfl
  rw [h1, h2]
  unfold Comb.empty Comb.except
  rw [show E.input = listInput from hE]
  cases s with
  | nil => rw [run_oneChar_nil hE]; rfl
  | cons x s => rw [run_oneChar_cons hE]; rfl

theorem CharParser.sameOutcome {p q : P} {cls : Chr → Bool} {val : Chr → Val} {m0 m1 n0 n1 : Msg}
    (hp : CharParser E p cls val m0 m1) (hq : CharParser E q cls val n0 n1) (s : List Chr) (pos : Pos) :
    SameButMessage (run E p s pos) (run E q s pos) ∧
      ((s = [] → m0 = n0) → (s ≠ [] → m1 = n1) → run E p s pos = run E q s pos) := by
  cases s with
  | nil =>
    have h1 := hp.empty pos
    have h2 := hq.empty pos
    unfold Rejects at h1 h2
    rw [h1, h2]
    exact ⟨.rej _ _ _, fun h _ => by rw [h rfl]⟩
  | cons c s =>
    cases hc : cls c with
    | true =>
      have h1 := hp.accepts c s pos hc
      have h2 := hq.accepts c s pos hc
      unfold Accepts at h1 h2
      rw [h1, h2]
      exact ⟨.acc _ _ _, fun _ _ => rfl⟩
    | false =>
      have h1 := hp.other c s pos hc
      have h2 := hq.other c s pos hc
      unfold Rejects at h1 h2
      rw [h1, h2]
      exact ⟨.rej _ _ _, fun _ h => by rw [h (by simp)]⟩

/-- `lit<c>` is `accept_when<one_char, …, literal_expected<c>>`, except for the message at the end of the
input. -/
theorem C56_lit (hE : E.OnText) (c : Chr) (s : List Chr) (pos : Pos) :
    SameButMessage (run E (P.lit c) s pos) (run E (Reference.lit c) s pos) ∧
      (s ≠ [] → run E (P.lit c) s pos = run E (Reference.lit c) s pos) := by
  have h : CharParser E (Reference.lit c) (fun x => x == c) .chr .unexpectedEndOfInput
      (.literalExpected c) := (charParser_oneChar hE).acceptWhen (fun _ => rfl) _ _ fun _ => rfl
  have := (charParser_litC hE c).sameOutcome h s pos
  exact ⟨this.1, fun hs => this.2 (fun h => absurd h hs) fun _ => rfl⟩

/-- `digit` is `accept_when<one_char, is_digit, digit_expected>`, except for the message at the end of the
input. -/
theorem C56_digit (hE : E.OnText) (s : List Chr) (pos : Pos) :
    SameButMessage (run E P.digit s pos) (run E Reference.digit s pos) ∧
      (s ≠ [] → run E P.digit s pos = run E Reference.digit s pos) := by
  have h : CharParser E Reference.digit digitChar .chr .unexpectedEndOfInput .digitExpected :=
    (charParser_oneChar hE).acceptWhen (fun _ => rfl) _ _ fun _ => rfl
  have := (charParser_digit hE).sameOutcome h s pos
  exact ⟨this.1, fun hs => this.2 (fun h => absurd h hs) fun _ => rfl⟩

/-- `alphanum` is `one_of<digit, letter>`: exactly in C++11 and C++14, except for the message in C++98. -/
theorem C56_alphanum (hE : E.OnText) (hs : E.SupportsOneOf 2) (s : List Chr) (pos : Pos) :
    SameButMessage (run E P.alphanum s pos) (run E Reference.alphanum s pos) ∧
      (E.std ≠ .cpp98 → run E P.alphanum s pos = run E Reference.alphanum s pos) := by
  have h := charParser_oneOf (E := E) (fun b : Bool => if b then P.letter else P.digit)
    (fun b => if b then letterChar else digitChar)
    (fun b => if b then .unexpectedEndOfInput else .digitExpected)
    (fun b => if b then .letterExpected else .digitExpected)
    (by intro b; cases b <;> simp only [if_true, Bool.false_eq_true, if_false]
        · exact charParser_digit hE
        · exact charParser_letter hE) [false, true] hs
  have h' : CharParser E Reference.alphanum (fun c => letterChar c || digitChar c) .chr
      (if E.std = .cpp98 then .unexpectedEndOfInput else .noneOfTheExpectedCasesFound)
      (if E.std = .cpp98 then .letterExpected else .noneOfTheExpectedCasesFound) := by
    refine CharParser.congr ?_ fun c => Bool.or_comm _ _
    simpa [Reference.alphanum] using h
  have := (C28_alphanum hE hs).sameOutcome h' s pos
  exact ⟨this.1, fun hstd => this.2 (fun _ => by rw [if_neg hstd, if_neg hstd])
    fun _ => by rw [if_neg hstd, if_neg hstd]⟩

/-- `one_of_c<c1, …, cn>` is `one_of<lit_c<c1>, …, lit_c<cn>>`: exactly in C++98, except for the message
at the end of the input in C++11 and C++14. -/
theorem C56_one_of_c (hE : E.OnText) (cs : List Chr) (hlim : E.std = .cpp98 → cs.length < E.limOneOf)
    (s : List Chr) (pos : Pos) :
    SameButMessage (run E (.oneOfC cs) s pos) (run E (Reference.oneOfC cs) s pos) ∧
      (E.std = .cpp98 ∨ s ≠ [] → run E (.oneOfC cs) s pos = run E (Reference.oneOfC cs) s pos) := by
  have h := charParser_oneOf (E := E) P.litC (fun c x => x == c) .literalExpected
    .literalExpected (fun c => charParser_litC hE c) cs (fun h => Nat.le_of_lt (hlim h))
  have h' : CharParser E (Reference.oneOfC cs) (fun x => cs.contains x) .chr _ _ :=
    h.congr fun c => by rw [← contains_eq_any, List.any_map]; rfl
  have := (C28_one_of_c hE cs hlim).sameOutcome h' s pos
  refine ⟨this.1, fun hcase => this.2 (fun hs => ?_) fun _ => rfl⟩
  rcases hcase with hc | hc
  · rw [if_pos hc, if_pos hc]
  · exact absurd hs hc

end Text

/-! The hypotheses of the equivalences hold of the default configurations, and of the operations of the
library. -/

example : Equivalent env11 (.keyword (txt "true") (.int 1))
    (.lastOf [P.lit (ch 't'), P.lit (ch 'r'), P.lit (ch 'u'), P.lit (ch 'e'), .ret (.int 1)]) :=
  C56_keyword (txt "true") (.int 1) (by intro h; cases h)
example : Accepts env11 (Reference.keyword (txt "true") (.int 1)) (txt "true!") start (.int 1) (txt "!")
    ⟨1, 5, ch 'e'⟩ := accepts_of_eval 30 (by decide +kernel)
example : Equivalent env98 (.keyword (txt "if") (.int 1)) (Reference.keyword (txt "if") (.int 1)) :=
  C56_keyword (txt "if") (.int 1) (by intro _; decide)
example : Equivalent env98 (.optional P.digit .void_) (Reference.optional P.digit .void_) :=
  C56_optional (by intro _; decide) _ _
example : Equivalent env98 (.nthOfC 1 [P.digit, P.letter, P.digit])
    (Reference.nthOfC 1 [P.digit, P.letter, P.digit]) := C56_nth_of_c 1 _ (by decide) (by intro _; decide)
example : Equivalent env11 (P.iterateC P.digit 4) (.sequence [P.digit, P.digit, P.digit, P.digit]) :=
  C56_iterate_c P.digit 4 (by intro _; decide)
example : Equivalent env98 (.lastOf [P.digit, P.letter]) (.nthOfC 1 [P.digit, P.letter]) :=
  C56_last_of P.digit [P.letter] (by intro _; decide)
example : run env98 (.oneOfC (txt "ab")) [] start = run env98 (Reference.oneOfC (txt "ab")) [] start :=
  (C56_one_of_c env98_onText (txt "ab") (by intro _; decide) [] start).2 (.inl rfl)
example : run env11 (P.lit (ch 'a')) (txt "b") start = run env11 (Reference.lit (ch 'a')) (txt "b") start :=
  (C56_lit env11_onText (ch 'a') (txt "b") start).2 (by decide)

/-! ## Equivalences that do not hold -/

theorem not_equivalent {p q : P} {s : I} {pos : Pos} {a b : Out (Res I)} (hp : run E p s pos = a)
    (hq : run E q s pos = b) (h : a ≠ b) : ¬ Equivalent E p q :=
  fun he => h (by rw [← hp, ← hq, he])

/-- `if_<p, t, f>` is not `one_of<last_of<p, return_<t>>, return_<f>>`: that consumes. -/
theorem C56_if_documentation_refuted : ∃ (p : P) (t f : Val) (s : List Chr),
    Accepts env11 (.if_ p t f) s start t s start ∧
    ∃ s' pos', s' ≠ s ∧ Accepts env11 (Reference.if_ p t f) s start t s' pos' :=
  ⟨P.digit, .int 1, .int 0, txt "5x", accepts_of_eval 20 (by decide +kernel), txt "x", ⟨1, 2, ch '5'⟩,
    by decide, accepts_of_eval 20 (by decide +kernel)⟩

/-- `last_of<p1, …, pn>` is not `nth_of_c<n, p1, …, pn>`: whatever the parsers, that rejects every input. -/
theorem C56_last_of_documentation_refuted (ps : List P) (hs : E.SupportsNth ps.length) (s : I) (pos : Pos) :
    Rejects E (Reference.lastOf ps) s pos (.indexOutOfRange 0 (ps.length - 1) ps.length) pos :=
  C24_index_out_of_range ps _ (.inr (Int.le_refl _)) hs s pos

example : Rejects env98 (Reference.lastOf [P.digit, P.letter]) (txt "1a") start (.indexOutOfRange 0 1 2) start :=
  C56_last_of_documentation_refuted [P.digit, P.letter] (by intro _; decide) _ _

/-- `middle_of<p1, p2, p3>` is not `nth_of<1, p1, p2, p3>`: it has another error message. -/
theorem C56_middle_of_documentation_refuted : ∃ (p1 p2 p3 : P), ¬ Equivalent env11 (.middleOf p1 p2 p3)
    (Reference.middleOf p1 p2 p3) :=
  ⟨P.litC (ch '('), P.digit, P.litC (ch ')'), not_equivalent (s := txt "(1") (pos := start)
    (rejects_of_eval (m := .unpaired 1 1 (.literalExpected (ch ')'))) (pos' := ⟨1, 3, ch '1'⟩) 20
      (by decide +kernel))
    (rejects_of_eval (m := .literalExpected (ch ')')) (pos' := ⟨1, 3, ch '1'⟩) 20 (by decide +kernel))
    (by simp)⟩

/-- `int_` is not the fold of the reference: that computes 30 from `12`. -/
theorem C56_int_documentation_refuted : Accepts env11 P.int_ (txt "12") start (.int 12) [] ⟨1, 3, ch '2'⟩ ∧
    Accepts env11 Reference.int_ (txt "12") start (.int 30) [] ⟨1, 3, ch '2'⟩ :=
  ⟨accepts_of_eval 20 (by decide +kernel), accepts_of_eval 20 (by decide +kernel)⟩

/-- `repeated<p>` is not the fold of the reference: that does not compile as soon as `p` accepts once. -/
theorem C56_repeated_documentation_refuted :
    Accepts env11 (P.repeated P.digit) (txt "1") start (.seq [.chr (ch '1')]) [] ⟨1, 2, ch '1'⟩ ∧
    IllFormed env11 (Reference.repeated P.digit) (txt "1") start :=
  ⟨accepts_of_eval 20 (by decide +kernel), .noSpecialisation, ill_of_eval 20 (by decide +kernel)⟩

/-- `lit<c>` at the end of the input has not the message of the reference's expression. -/
theorem C56_lit_documentation_refuted (c : Chr) : ¬ Equivalent env11 (P.lit c) (Reference.lit c) := by
  have h : CharParser env11 (Reference.lit c) (fun x => x == c) .chr .unexpectedEndOfInput
    (.literalExpected c) := (charParser_oneChar env11_onText).acceptWhen (fun _ => rfl) _ _ fun _ => rfl
  exact not_equivalent ((charParser_litC env11_onText c).empty start) (h.empty start) (by simp)

/-- `digit` at the end of the input has not the message of the reference's expression. -/
theorem C56_digit_documentation_refuted : ¬ Equivalent env11 P.digit Reference.digit :=
  not_equivalent (s := []) (pos := start)
    (rejects_of_eval (m := .digitExpected) (pos' := start) 20 (by decide +kernel))
    (rejects_of_eval (m := .unexpectedEndOfInput) (pos' := start) 20 (by decide +kernel)) (by simp)

/-- `one_of_c` at the end of the input has not the message of the reference's expression in C++11. -/
theorem C56_one_of_c_documentation_refuted : ¬ Equivalent env11 (.oneOfC (txt "ab")) (Reference.oneOfC (txt "ab")) :=
  not_equivalent (s := []) (pos := start)
    (rejects_of_eval (m := .unexpectedEndOfInput) (pos' := start) 20 (by decide +kernel))
    (rejects_of_eval (m := .noneOfTheExpectedCasesFound) (pos' := start) 20 (by decide +kernel)) (by simp)

/-- `alphanum` has not the message of the reference's expression in C++98. -/
theorem C56_alphanum_documentation_refuted : ¬ Equivalent env98 P.alphanum Reference.alphanum :=
  not_equivalent (s := txt "+") (pos := start)
    (rejects_of_eval (m := .digitExpected) (pos' := start) 20 (by decide +kernel))
    (rejects_of_eval (m := .letterExpected) (pos' := start) 20 (by decide +kernel)) (by simp)

/-- `accept_when<p, pred, msg>` does not fail with `msg` when `p` rejects (`/repo/doc/accept_when.qbk:33-45`
says so, the description above it does not). -/
theorem C56_accept_when_documentation_refuted (p : P) (pred : Val → Out Bool) (m m' : Msg) (s : I) (pos e : Pos)
    (h : Rejects E p s pos m' e) (hm : m' ≠ m ∨ e ≠ pos) :
    run E (.acceptWhen p pred m) s pos ≠ run E (.fail m) s pos := by
  have h1 : Rejects E (.acceptWhen p pred m) s pos m' e :=
    (C38_acceptWhen_rejects p pred m m' s pos e).2 (.inl h)
  have h2 : run E (.fail m) s pos = .ok (.rej m pos) := by rw [run_step]; rfl
  unfold Rejects at h1
  rw [h1, h2]
  intro he
  injection he with he
  injection he with he1 he2
  exact hm.elim (· he1) (· he2)

example : run env11 (.acceptWhen .oneChar (fun _ => .ok true) .digitExpected) (txt "") start ≠
    run env11 (.fail .digitExpected) (txt "") start :=
  C56_accept_when_documentation_refuted _ _ _ _ _ _ _ (run_oneChar_nil env11_onText start) (.inl (by decide))

/-- `sequence_apply` consumes what the sequence consumes (`/repo/doc/sequence_apply.qbk:32-46` says it
returns the remaining input of `return_<…>::apply<s, pos>`, i.e. the whole input). -/
theorem C56_sequence_apply_documentation_refuted : ∃ (t : List Val → Val) (ps : List P) (s : List Chr) (v : Val)
    (s' : List Chr) (pos' : Pos), s' ≠ s ∧ Accepts env11 (P.sequenceApply t ps) s start v s' pos' :=
  ⟨fun l => .user 0 l, [P.digit], txt "1x", .user 0 [.chr (ch '1')], txt "x", ⟨1, 2, ch '1'⟩, by decide,
    accepts_of_eval 20 (by decide +kernel)⟩

/-- The forms of `first_of` and `last_of`, with C++98. -/
example (t : Val) : Equivalent env98 (.always P.digit t) (Reference.always P.digit t) ∧
    Equivalent env98 (P.repeated1 P.digit) (Reference.repeated1 P.digit) ∧
    Equivalent env98 (P.foldl1 P.digit (.seq []) backInserter) (Reference.foldl1 P.digit (.seq []) backInserter) ∧
    Equivalent env98 (P.foldr1 P.digit (.seq []) frontInserter) (Reference.foldr1 P.digit (.seq []) frontInserter) :=
  ⟨C56_always (by intro _; decide) _ _, C56_repeated1 (by intro _; decide) _, C56_foldl1 (by intro _; decide) _ _ _,
    C56_foldr1 (by intro _; decide) _ _ _⟩

/-- The folds that refuse incomplete input, with operations that do not fail on sequences. -/
example : Equivalent env98 (P.foldlRejectIncomplete1 P.digit (.seq []) backInserter)
      (Reference.foldlRejectIncomplete1 P.digit (.seq []) backInserter) ∧
    Equivalent env98 (P.foldrRejectIncomplete1 P.digit (.seq []) frontInserter)
      (Reference.foldrRejectIncomplete1 P.digit (.seq []) frontInserter) ∧
    Equivalent env98 (.foldlRejectIncompleteStartWithParser P.digit (.ret (.seq [.int 1])) backInserter)
      (Reference.foldlRejectIncompleteStartWithParser P.digit (.ret (.seq [.int 1])) backInserter) := by
  refine ⟨C56_foldl_reject_incomplete1 (by intro _; decide) _ _ (.seq []) _ _ backInserter_neverFails rfl ⟨_, rfl⟩,
    C56_foldr_reject_incomplete1 (by intro _; decide) _ _ _ _ frontInserter_neverFails ⟨_, rfl⟩,
    C56_foldl_reject_incomplete_start_with_parser (by intro _; decide) _ _ _ _ backInserter_neverFails ?_⟩
  intro s pos v s' pos' h
  have := h.symm.trans (run_ok_of_eval (r := .acc (.seq [.int 1]) s pos) 3 rfl)
  cases this
  exact ⟨_, rfl, _, rfl⟩

example : Equivalent env98 (P.entireInput P.int_ (.user 1)) (Reference.entireInput P.int_ .void_ (.user 1)) ∧
    Equivalent env98 (.if_ P.digit (.int 1) (.int 2)) (Reference.if_ (.lookAhead P.digit) (.int 1) (.int 2)) ∧
    Equivalent env98 (.empty .void_) (Reference.empty .void_) :=
  ⟨C56_entire_input (by intro _; decide) _ _ _, C56_if (by intro _; decide) (by intro _; decide) _ _ _,
    C56_empty env98_onText _⟩

example : run env11 P.digit (txt "a") start = run env11 Reference.digit (txt "a") start ∧
    run env11 P.alphanum (txt "") start = run env11 Reference.alphanum (txt "") start :=
  ⟨(C56_digit env11_onText _ _).2 (by decide), (C56_alphanum env11_onText (by intro h; cases h) _ _).2 (by decide)⟩

end Metaparse
