import Verif.Props.Sequences
import Verif.Props.Chars
import Verif.Props.Wrappers
/-!
# The forms that take classes

`nth_of`, `iterate`, `one_char_except` and `util::in_range` take classes where `nth_of_c`, `iterate_c`,
`one_char_except_c` and `util::in_range_c` take constants.  The properties C23, C24, C26 and C28 for
them, and `unless_error`, of which `transform` is made (C36).
-/
namespace Metaparse

section
variable {I : Type} {E : Env I}

/-- `nth_of<k, ps...>` accepts what the sequence accepts and returns the `k`-th result. -/
theorem C23_nth_of_accepts (ps : List P) (k : Nat) (hk : k < ps.length) (hs : E.SupportsNth ps.length)
    (s : I) (pos : Pos) (v : Val) (s' : I) (pos' : Pos) :
    Accepts E (P.nthOf (k : Int) ps) s pos v s' pos' ↔
      ∃ vs, InSequence E ps s pos vs s' pos' ∧ vs[k]? = some v :=
  C23_nthOf_accepts ps k hk hs s pos v s' pos'

/-- It rejects with the error of the sequence, and has no outcome where the sequence has none. -/
theorem C23_nth_of_otherwise (ps : List P) (k : Nat) (hk : k < ps.length)
    (hs : E.SupportsNth ps.length) (s : I) (pos : Pos) :
    (∀ m e, Rejects E (P.nthOf (k : Int) ps) s pos m e ↔ FirstRejection E ps s pos m e) ∧
    (∀ f, run E (P.nthOf (k : Int) ps) s pos = .ill f ↔ FirstFault E ps s pos f) ∧
    (Diverges E (P.nthOf (k : Int) ps) s pos ↔ FirstDivergence E ps s pos) :=
  ⟨C23_nthOf_rejects ps k hk hs s pos, C23_nthOf_fails ps k hk hs s pos⟩

/-- An index outside the list is rejected at the start, whatever the parsers do. -/
theorem C24_nth_of_out_of_range (ps : List P) (k : Int) (hk : k < 0 ∨ (ps.length : Int) ≤ k)
    (hs : E.SupportsNth ps.length) (s : I) (pos : Pos) :
    Rejects E (P.nthOf k ps) s pos (.indexOutOfRange 0 ((ps.length : Int) - 1) k) pos :=
  C24_index_out_of_range ps k hk hs s pos

example : Accepts env98 (P.nthOf 1 [P.digit, P.letter, .oneChar]) (txt "1a;.") start
    (.chr (ch 'a')) (txt ".") ⟨1, 4, ch ';'⟩ := accepts_of_eval 20 (by decide +kernel)
example : Rejects env11 (P.nthOf 1 [P.digit, P.letter, .oneChar]) (txt "12;.") start .letterExpected
    ⟨1, 2, ch '1'⟩ := rejects_of_eval 20 (by decide +kernel)
example : Rejects env11 (P.nthOf 2 [P.int_, P.letter]) (txt "1x") start (.indexOutOfRange 0 1 2) start :=
  rejects_of_eval 20 (by decide +kernel)

/-- `iterate<p, n>` accepts iff `p` accepts `n` times in a row, and returns the results. -/
theorem C26_iterate_class (p : P) (n : Nat) (s : I) (pos : Pos) :
    (∀ v s' pos', Accepts E (P.iterateN p n) s pos v s' pos' ↔
      ∃ vs, Steps E p s pos vs s' pos' ∧ vs.length = n ∧ v = .seq vs) ∧
    (∀ m e, Rejects E (P.iterateN p n) s pos m e ↔
      ∃ vs s1 pos1, Steps E p s pos vs s1 pos1 ∧ vs.length < n ∧ Rejects E p s1 pos1 m e) :=
  ⟨C26_iterate_accepts p n s pos, C26_iterate_rejects p n s pos⟩

/-- With a negative count nothing is ever accepted. -/
theorem C26_iterate_class_negative (p : P) (n : Int) (hn : n < 0) (s : I) (pos : Pos) (v : Val) (s' : I)
    (pos' : Pos) : ¬ Accepts E (P.iterateN p n) s pos v s' pos' :=
  C26_iterate_negative p n hn s pos v s' pos'

example : Accepts env11 (P.iterateN P.digit 2) (txt "1234") start
    (.seq [.chr (ch '1'), .chr (ch '2')]) (txt "34") ⟨1, 3, ch '2'⟩ :=
  accepts_of_eval 20 (by decide +kernel)
example : Rejects env11 (P.iterateN P.digit 3) (txt "12") start .digitExpected ⟨1, 3, ch '2'⟩ :=
  rejects_of_eval 20 (by decide +kernel)

/-- What `unless_error` says of two outcomes, for a reader of its reference page: an error stays, and
then the other argument does not matter, not even if it does not compile; anything else is replaced by the
other argument. -/
def ErrorOrElse (r : Res I) (other result : Out (Res I)) : Prop :=
  (∀ m pos, r = .rej m pos → result = .ok r) ∧ (∀ v s pos, r = .acc v s pos → result = other)

/-- `unless_error` does that, and `transform<p, f>` is `unless_error` of the outcome of `p` and of the
function applied to the result. -/
theorem C36_unless_error (p : P) (f : Val → Val) (s : I) (pos : Pos) (r : Res I)
    (h : run E p s pos = .ok r) :
    (∀ other, ErrorOrElse r other (unlessError r other)) ∧
    ∃ other, run E (.transform p f) s pos = unlessError r other ∧
      ∀ v s' pos', Accepts E p s pos v s' pos' →
        other = (f v).force.bind fun w => .ok (.acc w s' pos') := by
  refine ⟨fun other => ⟨fun m e hr => by subst hr; rfl, fun v s pos hr => by subst hr; rfl⟩, ?_⟩
  refine ⟨match r with
    | .acc v s' pos' => (f v).force.bind fun w => .ok (.acc w s' pos')
    | .rej _ _ => .deep, ?_, ?_⟩
  · rw [run_step]
    simp only [step, Comb.transform, h, Out.bind]
    cases r <;> rfl
  · intro v s' pos' ha
    unfold Accepts at ha
    rw [h] at ha
    cases ha
    rfl

example : run env11 (.transform P.digit fun _ => .bad .noType) (txt "x") start =
      .ok (.rej .digitExpected start) ∧
    run env11 (.transform P.digit digitToInt) (txt "7x") start =
      .ok (.acc (.int 7) (txt "x") ⟨1, 2, ch '7'⟩) :=
  ⟨rejects_of_eval 20 (by decide +kernel), accepts_of_eval 20 (by decide +kernel)⟩
end

variable {E : Env (List Chr)}

/-- `one_char_except`: any character that is not in the list. -/
theorem C28_one_char_except_class (hE : E.OnText) (cs : List Chr)
    (hlim : E.std = .cpp98 → cs.length < E.limOneCharExcept) :
    CharParser E (P.oneCharExcept cs) (fun x => !cs.contains x) .chr .unexpectedEndOfInput
      .unexpectedCharacter := C28_one_char_except hE cs hlim

/-- `util::in_range<lo, hi>` as the predicate of a parser: the characters between the two, bounds
included. -/
theorem C28_in_range (hE : E.OnText) (lo hi : Val) (l h : Int) (hl : lo.value = .ok l)
    (hh : hi.value = .ok h) (m : Msg) :
    CharParser E (.acceptWhen .oneChar (inRange lo hi) m) (fun x => decide (l ≤ x ∧ x ≤ h)) .chr
      .unexpectedEndOfInput m :=
  (charParser_oneChar hE).acceptWhen (fun _ => rfl) _ _ fun c => by
    have hc : (Val.chr c).value = .ok c := rfl
    simp [inRange, hl, hh, hc]

example : CharParser env98 (P.oneCharExcept [ch 'a', ch 'b']) (fun x => ![ch 'a', ch 'b'].contains x) .chr
    .unexpectedEndOfInput .unexpectedCharacter :=
  C28_one_char_except_class env98_onText _ fun _ => by decide
example : CharParser env11 (.acceptWhen .oneChar (inRange (.int 97) (.chr (ch 'f'))) (.user 1))
    (fun x => decide (97 ≤ x ∧ x ≤ 102)) .chr .unexpectedEndOfInput (.user 1) :=
  C28_in_range env11_onText _ _ _ _ rfl rfl _
end Metaparse
