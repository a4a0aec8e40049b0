import Verif.Lemmas.Chars
import Verif.Lemmas.Check
import Verif.Props.Choice
/-!
# Characters, keywords, tokens, numbers

C27 (`keyword`), C28 (character classes), C29 (`token`), C30, C31 (`int_`), C32 (`digit_to_int`).
-/

namespace Metaparse

variable {E : Env (List Chr)}

/-! ## C28 -/

theorem C28_lit (hE : E.OnText) (c : Chr) :
    CharParser E (P.litC c) (fun x => decide (x = c)) .chr (.literalExpected c)
      (.literalExpected c) ∧
    CharParser E (P.lit c) (fun x => decide (x = c)) .chr (.literalExpected c)
      (.literalExpected c) := by
  have := (charParser_litC hE c).congr (cls' := fun x => decide (x = c)) fun x => by
    rw [Bool.eq_iff_iff]; simp
  exact ⟨this, this⟩

theorem C28_range (hE : E.OnText) (lo hi : Chr) :
    CharParser E (P.rangeC lo hi) (fun x => decide (lo ≤ x ∧ x ≤ hi)) .chr .unexpectedEndOfInput
      .unexpectedCharacter ∧
    CharParser E (P.range lo hi) (fun x => decide (lo ≤ x ∧ x ≤ hi)) .chr .unexpectedEndOfInput
      .unexpectedCharacter := by
  have := (charParser_rangeC hE lo hi).congr (cls' := fun x => decide (lo ≤ x ∧ x ≤ hi)) fun x => by
    rw [Bool.eq_iff_iff]; simp
  exact ⟨this, this⟩

theorem C28_digit (hE : E.OnText) :
    CharParser E P.digit digitChar .chr .digitExpected .digitExpected := charParser_digit hE

theorem C28_letter (hE : E.OnText) :
    CharParser E P.letter letterChar .chr .unexpectedEndOfInput .letterExpected :=
  charParser_letter hE

theorem C28_space (hE : E.OnText) :
    CharParser E P.space spaceChar .chr .unexpectedEndOfInput .whitespaceExpected :=
  charParser_space hE

/-- `one_char_except_c`: any character that is not in the list. -/
theorem C28_one_char_except (hE : E.OnText) (cs : List Chr)
    (hlim : E.std = .cpp98 → cs.length < E.limOneCharExcept) :
    CharParser E (.oneCharExceptC cs) (fun x => !cs.contains x) .chr .unexpectedEndOfInput
      .unexpectedCharacter := by
  have h11 : CharParser E (.acceptWhen .oneChar (isNoneC11 cs) .unexpectedCharacter)
      (fun x => !cs.contains x) .chr .unexpectedEndOfInput .unexpectedCharacter :=
    (charParser_oneChar hE).acceptWhen (fun _ => rfl) _ _ fun c => by
      show Out.ok (isNoneCImpl c cs) = _
      rw [isNoneCImpl_eq]
  have h98 : CharParser E (.acceptWhen .oneChar (isNone98 cs) .unexpectedCharacter)
      (fun x => !cs.contains x) .chr .unexpectedEndOfInput .unexpectedCharacter :=
    (charParser_oneChar hE).acceptWhen (fun _ => rfl) _ _ fun c => isNone98_eq cs c
  cases hstd : E.std
  · refine h98.of_run fun s pos => ?_
    rw [run_step]
    simp only [step, hstd]
    rw [if_pos (hlim hstd)]
  · refine h11.of_run fun s pos => ?_
    rw [run_step]
    simp only [step, hstd]
  · refine h11.of_run fun s pos => ?_
    rw [run_step]
    simp only [step, hstd]

/-- `one_of` over parsers for one character is a parser for one character: of the union of the
classes. -/
theorem charParser_oneOf {α : Type} {val : Chr → Val} (f : α → P) (cls : α → Chr → Bool)
    (m0 m1 : α → Msg) (h : ∀ a, CharParser E (f a) (cls a) val (m0 a) (m1 a)) (xs : List α)
    (hs : E.SupportsOneOf xs.length) :
    CharParser E (.oneOf (xs.map f)) (fun c => xs.any fun a => cls a c) val
      (if E.std = .cpp98 then (xs.getLast?.map m0).getD .noneOfTheExpectedCasesFound
        else .noneOfTheExpectedCasesFound)
      (if E.std = .cpp98 then (xs.getLast?.map m1).getD .noneOfTheExpectedCasesFound
        else .noneOfTheExpectedCasesFound) := by
  have hs' : E.SupportsOneOf (xs.map f).length := by rwa [List.length_map]
  have key : ∀ (s : List Chr) (pos : Pos) (mm : α → Msg),
      (∀ a ∈ xs, Rejects E (f a) s pos (mm a) pos) →
      Rejects E (.oneOf (xs.map f)) s pos
        (if E.std = .cpp98 then (xs.getLast?.map mm).getD .noneOfTheExpectedCasesFound
          else .noneOfTheExpectedCasesFound) pos := by
    intro s pos mm hr
    have hall : AllReject E (xs.map f) s pos := by
      intro p hp
      obtain ⟨a, ha, rfl⟩ := List.mem_map.1 hp
      exact ⟨_, _, hr a ha⟩
    obtain ⟨m, e, hrej⟩ := (C20_oneOf_rejects_iff _ hs' s pos).2 hall
    have he : e = pos := by
      rcases (C20_oneOf_furthest _ s pos m e hrej).reached with he | ⟨p, hp, m', hp'⟩
      · exact he
      · obtain ⟨a, ha, rfl⟩ := List.mem_map.1 hp
        exact ((hr a ha).unique hp').2.symm
    subst he
    by_cases hstd : E.std = .cpp98
    · rw [if_pos hstd]
      rcases C20_oneOf_message_at_start_98 hstd _ s e m hrej with ⟨b, p, a, heq, hp, hafter⟩ | ⟨rfl, hall⟩
      · have ha : a = [] := by
          cases a with
          | nil => rfl
          | cons q a =>
            have hq : q ∈ xs.map f := by rw [heq]; simp
            obtain ⟨x, hx, rfl⟩ := List.mem_map.1 hq
            have := hafter (f x) (by simp) _ _ (hr x hx)
            rw [Pos.less_irrefl] at this; cases this
        subst ha
        rcases List.eq_nil_or_concat xs with rfl | ⟨ys, y, rfl⟩
        · simp at heq
        · rw [List.concat_eq_append] at heq hr ⊢
          rw [List.map_append, List.map_cons, List.map_nil] at heq
          have := (List.append_inj' heq rfl).2
          simp only [List.cons.injEq, and_true] at this
          subst this
          obtain ⟨rfl, _⟩ := hp.unique (hr y (by simp))
          simpa using hrej
      · cases xs with
        | nil => exact hrej
        | cons x xs =>
          have := hall (f x) (by simp) _ _ (hr x (by simp))
          rw [Pos.less_irrefl] at this; cases this
    · rw [if_neg hstd]
      rw [C20_oneOf_message_at_start hstd _ s e m hrej] at hrej
      exact hrej
  refine ⟨?_, fun pos => key [] pos m0 fun a _ => (h a).empty pos, ?_⟩
  · intro c s pos hc
    refine (C19_oneOf_accepts _ hs' ..).2 ⟨?_, ?_⟩
    · intro p hp
      obtain ⟨a, _, rfl⟩ := List.mem_map.1 hp
      cases hca : cls a c with
      | true => exact ⟨_, (h a).accepts c s pos hca⟩
      | false => exact ⟨_, (h a).other c s pos hca⟩
    · clear key hs hs'
      induction xs with
      | nil => simp at hc
      | cons x xs ih =>
        cases hx : cls x c with
        | true => exact ⟨[], f x, xs.map f, rfl, by simp, (h x).accepts c s pos hx⟩
        | false =>
          rw [List.any_cons, hx, Bool.false_or] at hc
          obtain ⟨b, p, a, heq, hb, ha⟩ := ih hc
          refine ⟨f x :: b, p, a, by simp [heq], ?_, ha⟩
          intro q hq
          rcases List.mem_cons.1 hq with rfl | hq
          · exact ⟨_, _, (h x).other c s pos hx⟩
          · exact hb q hq
  · intro c s pos hc
    refine key (c :: s) pos m1 fun a ha => (h a).other c s pos ?_
    cases hca : cls a c with
    | false => rfl
    | true =>
      have : xs.any (fun a => cls a c) = true := List.any_eq_true.2 ⟨a, ha, hca⟩
      rw [this] at hc; cases hc

/-- `alphanum`: a letter or a digit; the error depends on the C++ standard. -/
theorem C28_alphanum (hE : E.OnText) (hs : E.SupportsOneOf 2) :
    CharParser E P.alphanum (fun c => letterChar c || digitChar c) .chr
      (if E.std = .cpp98 then .digitExpected else .noneOfTheExpectedCasesFound)
      (if E.std = .cpp98 then .digitExpected else .noneOfTheExpectedCasesFound) := by
  have := charParser_oneOf (E := E) (fun b : Bool => if b then P.letter else P.digit)
    (fun b => if b then letterChar else digitChar)
    (fun b => if b then .unexpectedEndOfInput else .digitExpected)
    (fun b => if b then .letterExpected else .digitExpected)
    (by intro b; cases b <;> simp only [if_true, Bool.false_eq_true, if_false]
        · exact charParser_digit hE
        · exact charParser_letter hE) [true, false] hs
  simpa [P.alphanum] using this

/-- `one_of_c`: one of the characters of the list.  On rejection C++11 and C++14 tell whether the
input ended; C++98 gives the message of the last literal. -/
theorem C28_one_of_c (hE : E.OnText) (cs : List Chr) (hlim : E.std = .cpp98 → cs.length < E.limOneOf) :
    CharParser E (.oneOfC cs) (fun x => cs.contains x) .chr
      (if E.std = .cpp98 then (cs.getLast?.map .literalExpected).getD .noneOfTheExpectedCasesFound
        else .unexpectedEndOfInput)
      (if E.std = .cpp98 then (cs.getLast?.map .literalExpected).getD .noneOfTheExpectedCasesFound
        else .noneOfTheExpectedCasesFound) := by
  cases hstd : E.std
  · have h98 := charParser_oneOf (E := E) P.litC (fun c x => x == c) .literalExpected
      .literalExpected (fun c => charParser_litC hE c) cs
      (fun h => Nat.le_of_lt (hlim h))
    simp only [hstd] at h98 ⊢
    refine (h98.of_run (q := .oneOfC cs) fun s pos => ?_).congr fun c => ?_
    · rw [run_step]
      simp only [step, hstd]
      rw [if_pos (hlim hstd)]
    · rw [← contains_eq_any, List.any_map]
      rfl
  · have h11 : CharParser E (.acceptWhen .oneChar (anyOfC11 cs) .noneOfTheExpectedCasesFound)
        (fun x => cs.contains x) .chr .unexpectedEndOfInput .noneOfTheExpectedCasesFound :=
      (charParser_oneChar hE).acceptWhen (fun _ => rfl) _ _ fun c => anyOfC11_eq cs c
    refine h11.of_run fun s pos => ?_
    rw [run_step]
    simp only [step, hstd]
  · have h14 : CharParser E (.acceptWhen .oneChar (anyOfC14 cs) .noneOfTheExpectedCasesFound)
        (fun x => cs.contains x) .chr .unexpectedEndOfInput .noneOfTheExpectedCasesFound :=
      (charParser_oneChar hE).acceptWhen (fun _ => rfl) _ _ fun c => anyOfC14_eq cs c
    refine h14.of_run fun s pos => ?_
    rw [run_step]
    simp only [step, hstd]

/-- Instances with the limits of the C++98 headers: five characters, and the classes at `x`. -/
example : CharParser env98 (.oneCharExceptC (txt "abcde")) (fun x => !(txt "abcde").contains x) .chr .unexpectedEndOfInput
      .unexpectedCharacter ∧
    CharParser env98 P.alphanum (fun c => letterChar c || digitChar c) .chr .digitExpected .digitExpected ∧
    CharParser env98 (.oneOfC (txt "+-")) (fun x => (txt "+-").contains x) .chr (.literalExpected (ch '-'))
      (.literalExpected (ch '-')) :=
  ⟨C28_one_char_except env98_onText _ fun _ => by decide, C28_alphanum env98_onText fun _ => by decide,
    C28_one_of_c env98_onText _ fun _ => by decide⟩

example : CharParser env11 (P.litC (ch 'x')) (fun x => decide (x = ch 'x')) .chr (.literalExpected (ch 'x'))
      (.literalExpected (ch 'x')) ∧
    CharParser env11 (P.rangeC (ch 'a') (ch 'f')) (fun x => decide (ch 'a' ≤ x ∧ x ≤ ch 'f')) .chr .unexpectedEndOfInput
      .unexpectedCharacter ∧
    CharParser env11 P.digit digitChar .chr .digitExpected .digitExpected ∧
    CharParser env11 P.letter letterChar .chr .unexpectedEndOfInput .letterExpected ∧
    CharParser env11 P.space spaceChar .chr .unexpectedEndOfInput .whitespaceExpected :=
  ⟨(C28_lit env11_onText _).1, (C28_range env11_onText _ _).1, C28_digit env11_onText, C28_letter env11_onText,
    C28_space env11_onText⟩

/-- A parser for one character has no other outcome: what it accepts and rejects is determined. -/
theorem C28_exactly {p : P} {cls : Chr → Bool} {val : Chr → Val} {m0 m1 : Msg}
    (h : CharParser E p cls val m0 m1) (s : List Chr) (pos : Pos) (v : Val) (s' : List Chr)
    (pos' : Pos) :
    Accepts E p s pos v s' pos' ↔
      ∃ c, s = c :: s' ∧ cls c = true ∧ v = val c ∧ pos' = moveOver pos [c] := by
  constructor
  · intro ha
    cases s with
    | nil => exact (ha.not_rejects (h.empty pos)).elim
    | cons c s =>
      cases hc : cls c with
      | true =>
        obtain ⟨rfl, rfl, rfl⟩ := ha.unique (h.accepts c s pos hc)
        exact ⟨c, rfl, hc, rfl, rfl⟩
      | false => exact (ha.not_rejects (h.other c s pos hc)).elim
  · rintro ⟨c, rfl, hc, rfl, rfl⟩
    exact h.accepts c s' pos hc

example : Accepts env11 (.oneOfC (txt "abc")) (txt "bx") start (.chr (ch 'b')) (txt "x")
    ⟨1, 2, ch 'b'⟩ := accepts_of_eval 20 (by decide +kernel)
example : Accepts { env11 with std := .cpp14 } (.oneOfC (txt "abc")) (txt "bx") start
    (.chr (ch 'b')) (txt "x") ⟨1, 2, ch 'b'⟩ := accepts_of_eval 20 (by decide +kernel)
example : Rejects env98 (.oneOfC (txt "abc")) (txt "x") start (.literalExpected (ch 'c')) start :=
  rejects_of_eval 20 (by decide +kernel)
example : Accepts env98 (.oneCharExceptC (txt "abc")) (txt "xa") start (.chr (ch 'x')) (txt "a")
    ⟨1, 2, ch 'x'⟩ := accepts_of_eval 20 (by decide +kernel)
example : env98.std = .cpp98 → (txt "abc").length < env98.limOneCharExcept := fun _ => by decide

/-! ## C27 -/

theorem run_keyword_cons (c : Chr) (kw : List Chr) (v : Val) (s : List Chr) (pos : Pos) :
    run E (.keyword (c :: kw) v) s pos = (run E (P.litC c) s pos).bind fun
      | .rej m e => .ok (.rej m e)
      | .acc _ s' pos' => run E (.keyword kw v) s' pos' := by
  rw [run_step]
  show ((run E (P.litC c) s pos).bind _) = _
  congr 1; funext r
  cases r <;> rfl

theorem run_keyword_prefix (hE : E.OnText) (t kw : List Chr) (v : Val) (s : List Chr) (pos : Pos) :
    run E (.keyword (t ++ kw) v) (t ++ s) pos = run E (.keyword kw v) s (moveOver pos t) := by
  induction t generalizing pos with
  | nil => rfl
  | cons c t ih =>
    rw [List.cons_append, List.cons_append, run_keyword_cons,
      (charParser_litC hE c).accepts c (t ++ s) pos (by simp)]
    exact ih (moveOver pos [c])

/-- The keyword is there. -/
theorem C27_keyword_accepts (hE : E.OnText) (kw : List Chr) (v : Val) (s : List Chr) (pos : Pos)
    (w : Val) (s' : List Chr) (pos' : Pos) :
    Accepts E (.keyword kw v) s pos w s' pos' ↔
      s = kw ++ s' ∧ w = v ∧ pos' = moveOver pos kw := by
  have hnil : ∀ s pos, run E (.keyword [] v) s pos = .ok (.acc v s pos) := by
    intro s pos; rw [run_step]; rfl
  constructor
  · intro h
    induction kw generalizing s pos with
    | nil => rw [Accepts, hnil] at h; cases h; exact ⟨rfl, rfl, rfl⟩
    | cons c kw ih =>
      unfold Accepts at h
      rw [run_keyword_cons, Out.bind_eq_ok] at h
      obtain ⟨r, hr, h⟩ := h
      cases r with
      | rej m e => cases h
      | acc x s1 pos1 =>
        obtain ⟨d, rfl, hd, _, rfl⟩ := (C28_exactly (charParser_litC hE c) ..).1 hr
        obtain ⟨rfl, rfl, rfl⟩ := ih s1 _ h
        have : d = c := by simpa using hd
        subst this
        exact ⟨rfl, rfl, rfl⟩
  · rintro ⟨rfl, rfl, rfl⟩
    unfold Accepts
    have := run_keyword_prefix hE kw [] w s' pos
    rw [List.append_nil] at this
    rw [this, hnil]

/-- The keyword is not there: the error is at the first difference. -/
theorem C27_keyword_rejects (hE : E.OnText) (kw : List Chr) (v : Val) (s : List Chr) (pos : Pos)
    (m : Msg) (e : Pos) :
    Rejects E (.keyword kw v) s pos m e ↔
      ∃ common c kw' rest, kw = common ++ c :: kw' ∧ s = common ++ rest ∧ rest.head? ≠ some c ∧
        m = .literalExpected c ∧ e = moveOver pos common := by
  constructor
  · intro h
    induction kw generalizing s pos with
    | nil =>
      rw [Rejects, run_step] at h; cases h
    | cons c kw ih =>
      unfold Rejects at h
      rw [run_keyword_cons, Out.bind_eq_ok] at h
      obtain ⟨r, hr, h⟩ := h
      cases r with
      | rej m' e' =>
        cases h
        refine ⟨[], c, kw, s, rfl, rfl, ?_, ?_⟩
        · cases s with
          | nil => simp
          | cons d s =>
            rintro ⟨⟩
            rw [(charParser_litC hE c).accepts c s pos (by simp)] at hr
            cases hr
        · cases s with
          | nil =>
            obtain ⟨rfl, rfl⟩ := Rejects.unique (show Rejects E _ _ _ _ _ from hr)
              ((charParser_litC hE c).empty pos)
            exact ⟨rfl, rfl⟩
          | cons d s =>
            cases hd : (d == c) with
            | true =>
              rw [(charParser_litC hE c).accepts d s pos hd] at hr
              cases hr
            | false =>
              obtain ⟨rfl, rfl⟩ := Rejects.unique (show Rejects E _ _ _ _ _ from hr)
                ((charParser_litC hE c).other d s pos hd)
              exact ⟨rfl, rfl⟩
      | acc x s1 pos1 =>
        obtain ⟨d, rfl, hd, _, rfl⟩ := (C28_exactly (charParser_litC hE c) ..).1 hr
        have : d = c := by simpa using hd
        subst this
        obtain ⟨common, c', kw', rest, rfl, rfl, h1, h2, h3⟩ := ih s1 _ h
        exact ⟨d :: common, c', kw', rest, rfl, rfl, h1, h2, h3⟩
  · rintro ⟨common, c, kw', rest, rfl, rfl, hne, rfl, rfl⟩
    unfold Rejects
    rw [run_keyword_prefix hE, run_keyword_cons]
    cases rest with
    | nil => rw [(charParser_litC hE c).empty]; rfl
    | cons d rest =>
      have hd : (d == c) = false := by
        cases hd : (d == c) with
        | false => rfl
        | true => exact absurd (by simpa using hd) hne
      rw [(charParser_litC hE c).other d rest _ hd]; rfl

/-- `let` at "let x" and at "lex". -/
example : Accepts env11 (.keyword (txt "let") .void_) (txt "let x") start .void_ (txt " x") ⟨1, 4, ch 't'⟩ ∧
    Rejects env11 (.keyword (txt "let") .void_) (txt "lex") start (.literalExpected (ch 't')) ⟨1, 3, ch 'e'⟩ :=
  ⟨(C27_keyword_accepts env11_onText ..).2 ⟨by decide, rfl, by decide⟩,
    (C27_keyword_rejects env11_onText ..).2 ⟨txt "le", ch 't', [], txt "x", by decide, by decide, by decide, rfl, by decide⟩⟩

theorem keyword_cases (kw s : List Chr) :
    (∃ rest, s = kw ++ rest) ∨
      ∃ common c kw' rest, kw = common ++ c :: kw' ∧ s = common ++ rest ∧ rest.head? ≠ some c := by
  induction kw generalizing s with
  | nil => exact .inl ⟨s, rfl⟩
  | cons c kw ih =>
    cases s with
    | nil => exact .inr ⟨[], c, kw, [], rfl, rfl, by simp⟩
    | cons d s =>
      by_cases hd : d = c
      · subst hd
        rcases ih s with ⟨rest, rfl⟩ | ⟨common, c', kw', rest, rfl, rfl, h⟩
        · exact .inl ⟨rest, rfl⟩
        · exact .inr ⟨d :: common, c', kw', rest, rfl, rfl, h⟩
      · exact .inr ⟨[], c, kw, d :: s, rfl, rfl, by simpa using hd⟩

/-- `keyword` has no other outcome. -/
theorem C27_keyword_total (hE : E.OnText) (kw : List Chr) (v : Val) (s : List Chr) (pos : Pos) :
    (∃ w s' pos', Accepts E (.keyword kw v) s pos w s' pos') ∨
      ∃ m e, Rejects E (.keyword kw v) s pos m e := by
  rcases keyword_cases kw s with ⟨rest, h⟩ | ⟨common, c, kw', rest, h1, h2, h3⟩
  · exact .inl ⟨_, _, _, (C27_keyword_accepts hE ..).2 ⟨h, rfl, rfl⟩⟩
  · exact .inr ⟨_, _, (C27_keyword_rejects hE ..).2 ⟨common, c, kw', rest, h1, h2, h3, rfl, rfl⟩⟩

example : Rejects env11 (.keyword (txt "lambda") .void_) (txt "lamp") start
    (.literalExpected (ch 'b')) ⟨1, 4, ch 'm'⟩ := rejects_of_eval 20 (by decide +kernel)
example : Accepts env11 (.keyword (txt "let") .void_) (txt "let x") start .void_ (txt " x")
    ⟨1, 4, ch 't'⟩ := accepts_of_eval 20 (by decide +kernel)

/-! ## C29 -/

/-- `token<P>` accepts iff `P` does, and removes the longest whitespace prefix of what `P` left. -/
theorem C29_token_accepts (hE : E.OnText) (hs : E.SupportsNth 2) (p : P) (s : List Chr) (pos : Pos)
    (v : Val) (s' : List Chr) (pos' : Pos) :
    Accepts E (P.token p) s pos v s' pos' ↔
      ∃ spaces pos1, Accepts E p s pos v (spaces ++ s') pos1 ∧ (∀ c ∈ spaces, spaceChar c = true) ∧
        beginsWith spaceChar s' = false ∧ pos' = moveOver pos1 spaces := by
  unfold Accepts
  rw [run_token hE hs, Out.bind_eq_ok]
  constructor
  · rintro ⟨r, hr, h⟩
    cases r with
    | rej m e => cases h
    | acc w s1 pos1 =>
      cases h
      refine ⟨s1.takeWhile spaceChar, pos1, ?_, all_takeWhile _ _, beginsWith_dropWhile _ _, rfl⟩
      rw [List.takeWhile_append_dropWhile]; exact hr
  · rintro ⟨spaces, pos1, ha, hsp, hno, rfl⟩
    refine ⟨_, ha, ?_⟩
    obtain ⟨h1, h2⟩ := takeWhile_append spaceChar spaces s' hsp hno
    simp only [h1, h2]

/-- It rejects iff `P` does, with the same error. -/
theorem C29_token_rejects (hE : E.OnText) (hs : E.SupportsNth 2) (p : P) (s : List Chr) (pos : Pos)
    (m : Msg) (e : Pos) : Rejects E (P.token p) s pos m e ↔ Rejects E p s pos m e := by
  unfold Rejects
  rw [run_token hE hs, Out.bind_eq_ok]
  constructor
  · rintro ⟨r, hr, h⟩
    cases r <;> cases h
    exact hr
  · intro h; exact ⟨_, h, rfl⟩

/-- `token<token<P>>` is `token<P>`. -/
theorem C29_token_idempotent (hE : E.OnText) (hs : E.SupportsNth 2) (p : P) :
    Equivalent E (P.token (P.token p)) (P.token p) := by
  intro s pos
  rw [run_token hE hs (P.token p), run_token hE hs p, Out.bind_assoc]
  congr 1; funext r
  cases r with
  | rej m e => rfl
  | acc v s' pos' =>
    obtain ⟨h1, h2⟩ := takeWhile_append spaceChar [] (s'.dropWhile spaceChar) (by simp)
      (beginsWith_dropWhile _ _)
    simp only [List.nil_append] at h1 h2
    simp only [Out.bind_ok, h1, h2, moveOver_nil]

/-- A digit and two spaces; a letter; and both. -/
example : Accepts env98 (P.token P.digit) (txt "1  x") start (.chr (ch '1')) (txt "x") ⟨1, 4, ch ' '⟩ ∧
    Rejects env98 (P.token P.digit) (txt "x") start .digitExpected start ∧
    Equivalent env98 (P.token (P.token P.digit)) (P.token P.digit) :=
  ⟨(C29_token_accepts env98_onText (fun _ => by decide) ..).2 ⟨txt "  ", ⟨1, 2, ch '1'⟩, accepts_of_eval 20 (by decide +kernel),
      by decide, by decide, by decide⟩,
    (C29_token_rejects env98_onText (fun _ => by decide) ..).2 (rejects_of_eval 20 (by decide +kernel)),
    C29_token_idempotent env98_onText (fun _ => by decide) _⟩

/-- The reference says `token<p>` is `first_of<p, spaces>`; that rejects where no space follows. -/
theorem C29_token_documentation_refuted :
    ¬ Equivalent env11 (P.token P.digit) (P.firstOf [P.digit, P.spaces]) := by
  intro h
  have h1 : Accepts env11 (P.token P.digit) (txt "1") start (.chr (ch '1')) [] ⟨1, 2, ch '1'⟩ :=
    accepts_of_eval 20 (by decide +kernel)
  have h2 : Rejects env11 (P.firstOf [P.digit, P.spaces]) (txt "1") start .unexpectedEndOfInput
      ⟨1, 2, ch '1'⟩ := rejects_of_eval 20 (by decide +kernel)
  exact h1.not_rejects ((h _ _).trans h2)

example : Accepts env98 (P.token P.digit) (txt "1 \n\tx ") start (.chr (ch '1')) (txt "x ")
    ⟨2, 2, ch '\t'⟩ := accepts_of_eval 20 (by decide +kernel)

/-! ## C30 -/

/-- `int_` accepts iff the text begins with a digit and the number denoted by the longest prefix of
digits fits in `int`; the result is that number, and exactly the digits are consumed. -/
theorem C30_int_accepts (hE : E.OnText) (s : List Chr) (pos : Pos) (v : Val) (s' : List Chr)
    (pos' : Pos) :
    Accepts E P.int_ s pos v s' pos' ↔
      ∃ digits, s = digits ++ s' ∧ digits ≠ [] ∧ (∀ c ∈ digits, digitChar c = true) ∧
        beginsWith digitChar s' = false ∧ v = .int (decimal digits) ∧
        decimal digits ≤ 2147483647 ∧ pos' = moveOver pos digits := by
  constructor
  · intro h
    have hsplit := (List.takeWhile_append_dropWhile (p := digitChar) (l := s)).symm
    by_cases hne : s.takeWhile digitChar = []
    · have hb : beginsWith digitChar s = false := by
        rw [hne, List.nil_append] at hsplit
        rw [hsplit]; exact beginsWith_dropWhile _ _
      rw [Accepts, run_int_other hE s pos hb] at h
      cases h
    · have hr := run_int hE (s.takeWhile digitChar) (s.dropWhile digitChar) pos hne
        (all_takeWhile digitChar s) (beginsWith_dropWhile _ _)
      rw [← hsplit] at hr
      unfold Accepts at h
      rw [hr] at h
      split at h
      · rename_i hle
        cases h
        exact ⟨_, hsplit, hne, all_takeWhile _ _, beginsWith_dropWhile _ _, rfl, hle, rfl⟩
      · cases h
  · rintro ⟨digits, rfl, hne, hd, hb, rfl, hle, rfl⟩
    unfold Accepts
    rw [run_int hE digits s' pos hne hd hb, if_pos (show decimal digits ≤ intMax from hle)]

/-- If the number does not fit, the program does not compile. -/
theorem C30_int_overflow (hE : E.OnText) (digits rest : List Chr) (pos : Pos) (hne : digits ≠ [])
    (hd : ∀ c ∈ digits, digitChar c = true) (hb : beginsWith digitChar rest = false)
    (hbig : decimal digits > 2147483647) :
    run E P.int_ (digits ++ rest) pos = .ill .overflow := by
  rw [run_int hE digits rest pos hne hd hb, if_neg (by have : intMax = 2147483647 := rfl; omega)]

/-- The largest number, and the next one. -/
example : Accepts env98 P.int_ (txt "2147483647;") start (.int 2147483647) (txt ";") ⟨1, 11, ch '7'⟩ ∧
    run env98 P.int_ (txt "2147483648" ++ txt ";") start = .ill .overflow :=
  ⟨(C30_int_accepts env98_onText ..).2 ⟨txt "2147483647", by decide, by decide, by decide, by decide, congrArg Val.int (by decide +kernel),
      by decide, by decide⟩,
    C30_int_overflow env98_onText (txt "2147483648") (txt ";") start (by decide) (by decide) (by decide) (by decide)⟩

/-- It rejects iff the text does not begin with a digit. -/
theorem C30_int_rejects (hE : E.OnText) (s : List Chr) (pos : Pos) (m : Msg) (e : Pos) :
    Rejects E P.int_ s pos m e ↔
      beginsWith digitChar s = false ∧ m = .digitExpected ∧ e = pos := by
  constructor
  · intro h
    cases hb : beginsWith digitChar s with
    | false =>
      rw [Rejects, run_int_other hE s pos hb] at h
      cases h; exact ⟨rfl, rfl, rfl⟩
    | true =>
      have hne : s.takeWhile digitChar ≠ [] := by
        cases s with
        | nil => cases hb
        | cons c s => simp only [beginsWith] at hb; simp [List.takeWhile, hb]
      have hr := run_int hE (s.takeWhile digitChar) (s.dropWhile digitChar) pos hne
        (all_takeWhile digitChar s) (beginsWith_dropWhile _ _)
      rw [List.takeWhile_append_dropWhile] at hr
      rw [Rejects, hr] at h
      split at h <;> cases h
  · rintro ⟨hb, rfl, rfl⟩
    exact run_int_other hE s e hb

example : Accepts env11 P.int_ (txt "0042+1") start (.int 42) (txt "+1") ⟨1, 5, ch '2'⟩ :=
  accepts_of_eval 20 (by decide +kernel)
example : Accepts env11 P.int_ (txt "2147483647") start (.int 2147483647) [] ⟨1, 11, ch '7'⟩ :=
  accepts_of_eval 20 (by decide +kernel)
example : run env11 P.int_ (txt "2147483648") start = .ill .overflow :=
  ill_of_eval 20 (by decide +kernel)

/-! ## C31 -/

/-- Parsing the decimal representation of a number gives the number, whatever follows, as long as
it is not another digit. -/
theorem C31_int_roundtrip (hE : E.OnText) (n : Nat) (hn : n ≤ 2147483647) (rest : List Chr)
    (hrest : beginsWith digitChar rest = false) (pos : Pos) :
    Accepts E P.int_ (decimalText n ++ rest) pos (.int n) rest (moveOver pos (decimalText n)) := by
  rw [C30_int_accepts hE]
  exact ⟨decimalText n, rfl, decimalText_ne_nil n, decimalText_digits n, hrest,
    by rw [decimal_decimalText], by rw [decimal_decimalText]; omega, rfl⟩

example : decimalText 1203 = txt "1203" := by decide +kernel
example : beginsWith digitChar (txt " + 1") = false := by decide

/-! ## C32 -/

/-- On digits the conversions are inverse, elsewhere they give no number and no character. -/
theorem C32_digit_to_int (c : Chr) :
    (digitChar c = true → digitToInt (.chr c) = .int (c - 48) ∧
      intToDigit (digitToInt (.chr c)) = .chr c) ∧
    (digitChar c = false → digitToInt (.chr c) = .msg .digitExpected ∧
      (digitToInt (.chr c)).value = .ill .noValue) := by
  constructor
  · intro h
    have hd : digitToInt (.chr c) = .int (c - 48) := digitToIntC_digit c h
    refine ⟨hd, ?_⟩
    rw [hd]
    simp only [digitChar, Bool.and_eq_true, decide_eq_true_eq] at h
    have : c = 48 ∨ c = 49 ∨ c = 50 ∨ c = 51 ∨ c = 52 ∨ c = 53 ∨ c = 54 ∨ c = 55 ∨ c = 56 ∨ c = 57 := by
      omega
    rcases this with rfl | rfl | rfl | rfl | rfl | rfl | rfl | rfl | rfl | rfl <;> rfl
  · intro h
    have hd : digitToInt (.chr c) = .msg .digitExpected := by
      show digitToIntC c = _
      unfold digitToIntC
      simp only [show ch '0' = 48 from rfl, show ch '1' = 49 from rfl, show ch '2' = 50 from rfl,
        show ch '3' = 51 from rfl, show ch '4' = 52 from rfl, show ch '5' = 53 from rfl,
        show ch '6' = 54 from rfl, show ch '7' = 55 from rfl, show ch '8' = 56 from rfl,
        show ch '9' = 57 from rfl]
      simp only [digitChar, Bool.and_eq_false_iff, decide_eq_false_iff_not] at h
      repeat rw [if_neg (by omega)]
    rw [hd]
    exact ⟨rfl, rfl⟩

theorem C32_int_to_digit (n : Int) :
    (0 ≤ n ∧ n ≤ 9 → intToDigit (.int n) = .chr (n + 48) ∧
      digitToInt (intToDigit (.int n)) = .int n) ∧
    (¬ (0 ≤ n ∧ n ≤ 9) → ∃ f, (intToDigit (.int n)).force = .ill f) := by
  constructor
  · rintro ⟨h0, h9⟩
    have : n = 0 ∨ n = 1 ∨ n = 2 ∨ n = 3 ∨ n = 4 ∨ n = 5 ∨ n = 6 ∨ n = 7 ∨ n = 8 ∨ n = 9 := by omega
    rcases this with rfl | rfl | rfl | rfl | rfl | rfl | rfl | rfl | rfl | rfl <;> exact ⟨rfl, rfl⟩
  · intro h
    refine ⟨.noSpecialisation, ?_⟩
    show (intToDigitC n).force = _
    unfold intToDigitC
    repeat rw [if_neg (by omega)]
    rfl

example : digitToInt (.chr (ch '7')) = .int 7 := rfl
example : digitToInt (.chr (ch 'a')) = .msg .digitExpected := rfl
example : intToDigit (.int 10) = .bad .noSpecialisation := rfl

end Metaparse
