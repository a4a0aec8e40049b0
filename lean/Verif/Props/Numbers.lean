import Verif.Spec.Numbers
import Verif.Lemmas.Formula
import Verif.Lemmas.Finish
/-!
# The examples that parse numbers (C63)
-/

namespace Metaparse

variable {E : Env (List Chr)}

namespace Env.ReadsNumbers

theorem nth2 (h : E.ReadsNumbers) : E.SupportsNth 2 := h.limSequence
theorem seq2 (h : E.ReadsNumbers) : E.SupportsSequence 2 := fun e =>
  ⟨Nat.lt_trans (by decide) (h.limSequence e), h.limSequence e⟩
theorem oneOf2 (h : E.ReadsNumbers) : E.SupportsOneOf 2 := fun e => Nat.le_of_lt (h.limOneOf e)

end Env.ReadsNumbers

/-! ## Binary numbers -/

theorem bit_parser (h : E.ReadsNumbers) :
    ∃ m0 m1, CharParser E Binary.bit bitChar (fun c => .int (c - 48)) m0 m1 := by
  refine ⟨_, _, (((C28_one_of_c h.onText [ch '0', ch '1'] h.limOneOf).congr (cls' := bitChar) ?_).transform digitToInt ?_)⟩
  · intro c
    rw [Bool.eq_iff_iff]
    simp [bitChar, ch]
  · intro c hc
    simp only [bitChar, Bool.or_eq_true, beq_iff_eq] at hc
    rcases hc with rfl | rfl <;> rfl

theorem nextElement_int (n b : Int) : (Binary.nextElement (.int n) (.int b)).force =
    (intC (n * 2)).bind fun x => (intC (x + b)).bind fun y => .ok (.int y) := by
  have h1 : ∀ (f : Int → Int → Int) (x y : Int), Calc.arith f (.int x) (.int y) =
      (intC (f x y)).bind fun z => .ok (.int z) := fun _ _ _ => rfl
  unfold Binary.nextElement
  rw [h1]
  cases hx : intC (n * 2) with
  | ok x =>
    simp only [Out.bind_ok]
    rw [h1]
    cases hy : intC (x + b) with
    | ok y => rfl
    | ill f => rfl
    | deep => unfold intC at hy; split at hy <;> cases hy
  | ill f => rfl
  | deep => unfold intC at hx; split at hx <;> cases hx

theorem foldl_ge (w : List Chr) (n : Int) (hn : 0 ≤ n) (hw : ∀ c ∈ w, bitChar c = true) :
    n ≤ w.foldl (fun n c => 2 * n + (c - 48)) n := by
  induction w generalizing n with
  | nil => exact Int.le_refl _
  | cons c w ih =>
    have hc := hw c (by simp)
    simp only [bitChar, Bool.or_eq_true, beq_iff_eq] at hc
    have h0 : 0 ≤ c - 48 := by rcases hc with rfl | rfl <;> decide
    have := ih (2 * n + (c - 48)) (by omega) fun d hd => hw d (by simp [hd])
    simp only [List.foldl_cons]
    omega

theorem fold_bits (w : List Chr) (hw : ∀ c ∈ w, bitChar c = true) (n : Int) (hn : 0 ≤ n)
    (hn' : n ≤ 2147483647) (v : Val) :
    leftFold Binary.nextElement (.int n) (w.map fun c => .int (c - 48)) = .ok v ↔
      w.foldl (fun n c => 2 * n + (c - 48)) n ≤ 2147483647 ∧
        v = .int (w.foldl (fun n c => 2 * n + (c - 48)) n) := by
  induction w generalizing n with
  | nil => simp [leftFold, hn', eq_comm]
  | cons c w ih =>
    have hc := hw c (by simp)
    simp only [bitChar, Bool.or_eq_true, beq_iff_eq] at hc
    have h0 : 0 ≤ c - 48 := by rcases hc with rfl | rfl <;> decide
    have hw' : ∀ d ∈ w, bitChar d = true := fun d hd => hw d (by simp [hd])
    have hge := foldl_ge w (2 * n + (c - 48)) (by omega) hw'
    have hstep : leftFold Binary.nextElement (.int n) ((c :: w).map fun c => .int (c - 48)) =
        (Binary.nextElement (.int n) (.int (c - 48))).force.bind fun y =>
          leftFold Binary.nextElement y (w.map fun c => .int (c - 48)) := rfl
    rw [hstep, nextElement_int, List.foldl_cons]
    unfold intC
    by_cases hb : 2 * n + (c - 48) ≤ 2147483647
    · rw [if_pos (by simp only [intMin, intMax]; omega)]
      simp only [Out.bind_ok]
      rw [if_pos (by simp only [intMin, intMax]; omega)]
      simp only [Out.bind_ok]
      rw [show n * 2 + (c - 48) = 2 * n + (c - 48) by omega]
      exact ih hw' _ (by omega) hb
    · constructor
      · intro h
        exfalso
        by_cases hb' : intMin ≤ n * 2 ∧ n * 2 ≤ intMax
        · rw [if_pos hb'] at h
          simp only [Out.bind_ok] at h
          rw [if_neg (by simp only [intMin, intMax]; omega)] at h
          cases h
        · rw [if_neg hb'] at h; cases h
      · rintro ⟨h, -⟩; omega

/-- The binary numbers of the example: at least one digit, and the number has to fit in `int`. -/
theorem C63_binary (h : E.ReadsNumbers) (s : List Chr) (v : Val) :
    Binary.binaryParser E s = .ok v ↔
      s ≠ [] ∧ (∀ c ∈ s, c = ch '0' ∨ c = ch '1') ∧ binaryValue s ≤ 2147483647 ∧ v = .int (binaryValue s) := by
  obtain ⟨m0, m1, hbit⟩ := bit_parser h
  have hall : (∀ c ∈ s, c = ch '0' ∨ c = ch '1') ↔ ∀ c ∈ s, bitChar c = true := by
    simp [bitChar, ch]
  rw [hall, Binary.binaryParser, C34_buildParser_accepts]
  obtain ⟨m, hm⟩ := hbit.maximalRun' s start
  constructor
  · rintro ⟨s', pos', he⟩
    obtain ⟨ha, rfl⟩ := (C33_entireInput_accepts h.onText h.nth2 ..).1 he
    obtain ⟨vs, m', e, x, hne, hm', hx, hv⟩ := (C13_foldl1_accepts ..).1 ha
    cases hx
    obtain ⟨rfl, h2, -⟩ := hm'.unique hm
    have hs : s.takeWhile bitChar = s := by
      have := List.takeWhile_append_dropWhile (p := bitChar) (l := s)
      rwa [← h2, List.append_nil] at this
    have hb : ∀ c ∈ s, bitChar c = true := by
      rw [← hs]; exact all_takeWhile _ _
    rw [hs] at hv hne
    obtain ⟨h3, h4⟩ := (fold_bits s hb 0 (by decide) (by decide) v).1 hv
    exact ⟨by rintro rfl; exact hne rfl, hb, h3, h4⟩
  · rintro ⟨hne, hb, hle, rfl⟩
    obtain ⟨m', hm'⟩ := hbit.maximalRun s [] start hb rfl
    rw [List.append_nil] at hm'
    refine ⟨[], moveOver start s, (C33_entireInput_accepts h.onText h.nth2 ..).2 ⟨?_, rfl⟩⟩
    refine (C13_foldl1_accepts ..).2 ⟨_, m', _, .int 0, ?_, hm', rfl,
      (fold_bits s hb 0 (by decide) (by decide) _).2 ⟨hle, rfl⟩⟩
    intro he
    exact hne (List.map_eq_nil_iff.1 he)

/-- The comment in the example says `('1' | '0')*`, but the empty text is a compile error. -/
theorem C63_binary_comment (h : E.ReadsNumbers) (v : Val) : Binary.binaryParser E [] ≠ .ok v := by
  intro hv
  exact ((C63_binary h [] v).1 hv).1 rfl

example (E : Env (List Chr)) (h : E = env11 ∨ E = env98) (v : Val) : Binary.binaryParser E [] ≠ .ok v := by
  rcases h with rfl | rfl
  · exact C63_binary_comment ⟨env11_onText, (by intro h; cases h), (by intro h; cases h)⟩ v
  · exact C63_binary_comment ⟨env98_onText, (by intro _; decide), (by intro _; decide)⟩ v

/-! ## Rational numbers -/

theorem isNumber_iff {t : List Chr} {v : Val} : IntText t v ↔ ∃ n, IsNumber t n ∧ v = .int n := by
  constructor
  · rintro ⟨w, ws, h1, h2, h3, h4, h5, rfl⟩
    exact ⟨_, ⟨w, ws, h1, h2, h3, h4, h5, rfl⟩, rfl⟩
  · rintro ⟨n, ⟨w, ws, h1, h2, h3, h4, h5, rfl⟩, rfl⟩
    exact ⟨w, ws, h1, h2, h3, h4, h5, rfl⟩

theorem denominator_sound (h : E.ReadsNumbers) {s : List Chr} {pos : Pos} {v : Val} {s' : List Chr}
    {pos' : Pos} (ha : Accepts E Rational.denominator s pos v s' pos') :
    ∃ t d, s = ch '/' :: (t ++ s') ∧ IsNumber t d ∧ v = .int d := by
  obtain ⟨vs, hi⟩ := (C23_lastOf_accepts _ _ h.nth2 ..).1 ha
  obtain ⟨x, y, s1, pos1, he, h1, h2⟩ := hi.two
  obtain ⟨c, rfl, hc, -, -⟩ := (C28_exactly (C28_lit h.onText _).1 ..).1 h1
  simp only [decide_eq_true_eq] at hc
  subst hc
  obtain ⟨t, rfl, ht⟩ := OnlyReads.intToken h.onText h.nth2 _ _ _ _ _ _ (Nat.le_refl _) h2
  obtain ⟨d, hd, rfl⟩ := isNumber_iff.1 ht
  have : v = .int d := by
    have := congrArg List.getLast? he
    simpa using this
  exact ⟨t, d, rfl, hd, this⟩

theorem denominator_complete (h : E.ReadsNumbers) {t : List Chr} {d : Int} (ht : IsNumber t d) (pos : Pos) :
    ∃ pos', Accepts E Rational.denominator (ch '/' :: t) pos (.int d) [] pos' := by
  have h1 := (C28_lit h.onText (ch '/')).1.accepts (ch '/') t pos (by simp)
  obtain ⟨pos', h2⟩ := ReadsAll.intToken h.onText h.nth2 t (.int d) [] (moveOver pos [ch '/'])
    (isNumber_iff.2 ⟨d, ht, rfl⟩) rfl
  rw [List.append_nil] at h2
  exact ⟨pos', (C23_lastOf_accepts _ _ h.nth2 ..).2 ⟨[_], .cons h1 (.cons h2 (.nil ..))⟩⟩

/-- The parser of `minimal_rational` compiles exactly for fractions, and gives numerator and denominator. -/
theorem C63_minimal_rational (h : E.ReadsNumbers) (s : List Chr) (v : Val) :
    Rational.minimalParser E s = .ok v ↔
      ∃ n d, IsFraction s n d ∧ v = Rational.rational [.int n, .int d] := by
  rw [Rational.minimalParser, C34_buildParser_accepts]
  constructor
  · rintro ⟨s', pos', he⟩
    obtain ⟨ha, rfl⟩ := (C33_entireInput_accepts h.onText h.nth2 ..).1 he
    obtain ⟨vs, hi, rfl⟩ := (C53_sequenceApply_accepts _ _ h.seq2 ..).1 ha
    obtain ⟨x, y, s1, pos1, rfl, h1, h2⟩ := hi.two
    obtain ⟨t1, rfl, ht1⟩ := OnlyReads.intToken h.onText h.nth2 _ _ _ _ _ _ (Nat.le_refl _) h1
    obtain ⟨n, hn, rfl⟩ := isNumber_iff.1 ht1
    obtain ⟨t2, d, rfl, hd, rfl⟩ := denominator_sound h h2
    exact ⟨n, d, ⟨t1, t2, by simp, hn, hd⟩, rfl⟩
  · rintro ⟨n, d, ⟨t1, t2, rfl, hn, hd⟩, rfl⟩
    obtain ⟨pos1, h1⟩ := ReadsAll.intToken h.onText h.nth2 t1 (.int n) (ch '/' :: t2) start
      (isNumber_iff.2 ⟨n, hn, rfl⟩) rfl
    obtain ⟨pos2, h2⟩ := denominator_complete h hd pos1
    exact ⟨[], pos2, (C33_entireInput_accepts h.onText h.nth2 ..).2
      ⟨(C53_sequenceApply_accepts _ _ h.seq2 ..).2 ⟨_, .cons h1 (.cons h2 (.nil ..)), rfl⟩, rfl⟩⟩

/-- The parser of `rational` compiles exactly for fractions and for single numbers, which have denominator 1. -/
theorem C63_rational (h : E.ReadsNumbers) (s : List Chr) (v : Val) :
    Rational.rationalParser E s = .ok v ↔
      (∃ n d, IsFraction s n d ∧ v = Rational.rational [.int n, .int d]) ∨
      (∃ n, IsNumber s n ∧ v = Rational.rational [.int n, .int 1]) := by
  rw [Rational.rationalParser, C34_buildParser_accepts]
  constructor
  · rintro ⟨s', pos', he⟩
    obtain ⟨ha, rfl⟩ := (C33_entireInput_accepts h.onText h.nth2 ..).1 he
    obtain ⟨vs, hi, rfl⟩ := (C53_sequenceApply_accepts _ _ h.seq2 ..).1 ha
    obtain ⟨x, y, s1, pos1, rfl, h1, h2⟩ := hi.two
    obtain ⟨t1, rfl, ht1⟩ := OnlyReads.intToken h.onText h.nth2 _ _ _ _ _ _ (Nat.le_refl _) h1
    obtain ⟨n, hn, rfl⟩ := isNumber_iff.1 ht1
    obtain ⟨-, b, r, a, hl, -, hr⟩ := (C19_oneOf_accepts _ h.oneOf2 ..).1 h2
    have hm : r ∈ [Rational.denominator, .empty (.int 1)] := by rw [hl]; simp
    simp only [List.mem_cons, List.not_mem_nil, or_false] at hm
    rcases hm with rfl | rfl
    · obtain ⟨t2, d, rfl, hd, rfl⟩ := denominator_sound h hr
      exact .inl ⟨n, d, ⟨t1, t2, by simp, hn, hd⟩, rfl⟩
    · obtain ⟨rfl, rfl, -⟩ := (C35_empty_accepts h.onText ..).1 hr
      exact .inr ⟨n, by simpa using hn, rfl⟩
  · rintro (⟨n, d, ⟨t1, t2, rfl, hn, hd⟩, rfl⟩ | ⟨n, hn, rfl⟩)
    · obtain ⟨pos1, h1⟩ := ReadsAll.intToken h.onText h.nth2 t1 (.int n) (ch '/' :: t2) start
        (isNumber_iff.2 ⟨n, hn, rfl⟩) rfl
      obtain ⟨pos2, h2⟩ := denominator_complete h hd pos1
      have h3 : Accepts E (.oneOf [Rational.denominator, .empty (.int 1)]) (ch '/' :: t2) pos1 (.int d) []
          pos2 := by
        refine (C19_oneOf_accepts _ h.oneOf2 ..).2 ⟨?_, [], _, [_], rfl, by simp, h2⟩
        intro r hr
        simp only [List.mem_cons, List.not_mem_nil, or_false] at hr
        rcases hr with rfl | rfl
        · exact ⟨_, h2⟩
        · exact ⟨_, (C35_empty_rejects h.onText ..).2 ⟨by simp, rfl, rfl⟩⟩
      exact ⟨[], pos2, (C33_entireInput_accepts h.onText h.nth2 ..).2
        ⟨(C53_sequenceApply_accepts _ _ h.seq2 ..).2 ⟨_, .cons h1 (.cons h3 (.nil ..)), rfl⟩, rfl⟩⟩
    · obtain ⟨pos1, h1⟩ := ReadsAll.intToken h.onText h.nth2 s (.int n) [] start
        (isNumber_iff.2 ⟨n, hn, rfl⟩) rfl
      rw [List.append_nil] at h1
      obtain ⟨m, h2⟩ := (C28_lit h.onText (ch '/')).1.rejects [] pos1 rfl
      have h2' : Rejects E Rational.denominator [] pos1 m pos1 :=
        (C23_lastOf_rejects _ _ h.nth2 ..).2 ⟨[], _, _, [], [], pos1, rfl, .nil .., h2⟩
      have h3' : Accepts E (.empty (.int 1)) [] pos1 (.int 1) [] pos1 :=
        (C35_empty_accepts h.onText ..).2 ⟨rfl, rfl, rfl, rfl⟩
      have h3 : Accepts E (.oneOf [Rational.denominator, .empty (.int 1)]) [] pos1 (.int 1) [] pos1 := by
        refine (C19_oneOf_accepts _ h.oneOf2 ..).2 ⟨?_, [_], _, [], rfl, by simpa using ⟨_, _, h2'⟩, h3'⟩
        intro r hr
        simp only [List.mem_cons, List.not_mem_nil, or_false] at hr
        rcases hr with rfl | rfl
        · exact ⟨_, h2'⟩
        · exact ⟨_, h3'⟩
      exact ⟨[], pos1, (C33_entireInput_accepts h.onText h.nth2 ..).2
        ⟨(C53_sequenceApply_accepts _ _ h.seq2 ..).2 ⟨_, .cons h1 (.cons h3 (.nil ..)), rfl⟩, rfl⟩⟩

/-- What compiles with `minimal_rational` compiles with `rational`, to the same. -/
theorem C63_rational_extends (h : E.ReadsNumbers) (s : List Chr) (v : Val)
    (hv : Rational.minimalParser E s = .ok v) : Rational.rationalParser E s = .ok v :=
  (C63_rational h s v).2 (.inl ((C63_minimal_rational h s v).1 hv))

/-- The fraction computed at run time. A denominator of zero compiles, but throws. -/
theorem C63_rational_run (h : E.ReadsNumbers) {s : List Chr} {n d : Int} (hs : IsFraction s n d) :
    ∃ v, Rational.rationalParser E s = .ok v ∧
      Rational.run v = .ok (if d = 0 then none else some (n, d)) :=
  ⟨_, (C63_rational h s _).2 (.inl ⟨n, d, hs, rfl⟩), rfl⟩

/-- White space after the slash is a compile error (while it is accepted before it). -/
theorem C63_space_after_slash (h : E.ReadsNumbers) {t u : List Chr} {c : Chr} (hc : spaceChar c = true)
    (ht : ∀ x ∈ t, x ≠ ch '/') (v : Val) : Rational.rationalParser E (t ++ ch '/' :: c :: u) ≠ .ok v := by
  have hns : ∀ {t : List Chr} {n : Int}, IsNumber t n → ∀ x ∈ t, x ≠ ch '/' := by
    rintro t n ⟨w, ws, rfl, -, hw, hws, -, -⟩ x hx rfl
    rcases List.mem_append.1 hx with hx | hx
    · exact absurd (hw _ hx) (by decide)
    · exact absurd (hws _ hx) (by decide)
  have hcut : ∀ {t t1 u t2 : List Chr}, (∀ x ∈ t, x ≠ ch '/') → (∀ x ∈ t1, x ≠ ch '/') →
      t ++ ch '/' :: u = t1 ++ ch '/' :: t2 → u = t2 := by
    intro t
    induction t with
    | nil =>
      intro t1 u t2 _ h1 he
      cases t1 with
      | nil => exact (List.cons.inj he).2
      | cons x t1 => exact absurd (List.cons.inj he).1.symm (h1 x (by simp))
    | cons y t ih =>
      intro t1 u t2 h0 h1 he
      cases t1 with
      | nil => exact absurd (List.cons.inj he).1 (h0 y (by simp))
      | cons x t1 =>
        exact ih (fun z hz => h0 z (by simp [hz])) (fun z hz => h1 z (by simp [hz])) (List.cons.inj he).2
  intro hv
  rcases (C63_rational h _ v).1 hv with ⟨n, d, ⟨t1, t2, he, h1, w, ws, hw, hne, hd, -⟩, -⟩ | ⟨n, hn, -⟩
  · have := hcut ht (hns h1) he
    subst hw
    cases w with
    | nil => exact hne rfl
    | cons x w =>
      obtain rfl := (List.cons.inj this).1
      have h2 := hd c (by simp)
      rw [digit_not_space hc] at h2
      cases h2
  · exact hns hn (ch '/') (by simp) rfl

/-! ## The three parsers finish -/

theorem C63_finish (h : E.OnText) (s : List Chr) : Binary.binaryParser E s ≠ .deep ∧
    Rational.rationalParser E s ≠ .deep ∧ Rational.minimalParser E s ≠ .deep := by
  refine ⟨?_, ?_, ?_⟩ <;>
  · refine buildParser_finishes (finishes_of_check h (R := .oneChar) (cls := fun _ => False)
      (fun _ h => h.elim) ?_ ?_ ?_ ?_ (by decide +kernel) (by decide +kernel) (by decide +kernel) s start)
    all_goals
      simp [P.every_iff, P.EveryL, P.parts, P.Uses, onlyClasses, P.entireInput, P.firstOf, Binary.number,
        Binary.bit, P.foldl1, Rational.rationalGrammar, Rational.minimalGrammar, Rational.denominator,
        P.sequenceApply, P.token, P.int_, P.digitVal, P.digit, P.repeated, P.litC, P.space, P.FunctionsFinish,
        isCharC, isWhitespace, isDigit, inRangeC, Out.bind_eq_deep, Val.value_ne_deep]

/-! ## Examples -/

theorem env11_readsNumbers : env11.ReadsNumbers :=
  ⟨env11_onText, (by intro h; cases h), (by intro h; cases h)⟩
theorem env98_readsNumbers : env98.ReadsNumbers :=
  ⟨env98_onText, (by intro _; decide), (by intro _; decide)⟩

/-- `1011` (`/repo/example/binary_number/main.cpp:80`). -/
example : Binary.binaryParser env98 (txt "1011") = .ok (.int 11) :=
  (C63_binary env98_readsNumbers _ _).2 ⟨by decide, by decide, by decide, rfl⟩

/-- `13/11` (`/repo/example/rational/main.cpp:80`). -/
example : Rational.rationalParser env11 (txt "13/11") = .ok (Rational.rational [.int 13, .int 11]) :=
  (C63_rational env11_readsNumbers _ _).2 (.inl ⟨13, 11, ⟨txt "13", txt "11", rfl,
    ⟨txt "13", [], rfl, by decide, by decide, by decide, by decide, rfl⟩,
    ⟨txt "11", [], rfl, by decide, by decide, by decide, by decide, rfl⟩⟩, rfl⟩)

example : IsFraction (txt "1 /0") 1 0 := ⟨txt "1 ", txt "0", rfl,
  ⟨txt "1", txt " ", rfl, by decide, by decide, by decide, by decide, rfl⟩,
  ⟨txt "0", [], rfl, by decide, by decide, by decide, by decide, rfl⟩⟩

/-- `7/`: the error named in the comment (`/repo/example/rational/main.cpp:82-87`). -/
example : Rejects env11 (.entireInput Rational.rationalGrammar) (txt "7/") start .digitExpected ⟨1, 3, ch '/'⟩ :=
  rejects_of_eval 40 (by decide +kernel)

/-- Fractions that both parsers read, with the zero below the line refused later. -/
example : Rational.minimalParser env98 (txt "1 /0") = .ok (Rational.rational [.int 1, .int 0]) ∧
    Rational.rationalParser env98 (txt "1 /0") = .ok (Rational.rational [.int 1, .int 0]) ∧
    ∃ v, Rational.rationalParser env98 (txt "1 /0") = .ok v ∧ Rational.run v = .ok none := by
  have hf : IsFraction (txt "1 /0") 1 0 := ⟨txt "1 ", txt "0", rfl,
    ⟨txt "1", txt " ", rfl, by decide, by decide, by decide, by decide, rfl⟩,
    ⟨txt "0", [], rfl, by decide, by decide, by decide, by decide, rfl⟩⟩
  have h1 := (C63_minimal_rational env98_readsNumbers _ _).2 ⟨_, _, hf, rfl⟩
  exact ⟨h1, C63_rational_extends env98_readsNumbers _ _ h1, C63_rational_run env98_readsNumbers hf⟩

example (v : Val) : Rational.rationalParser env11 (txt "13/ 11") ≠ .ok v :=
  C63_space_after_slash env11_readsNumbers (t := txt "13") (c := ch ' ') (u := txt "11") (by decide) (by decide) v

end Metaparse
