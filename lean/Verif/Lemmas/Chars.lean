import Verif.Lemmas.Folds
import Verif.Lemmas.Position
import Verif.Lemmas.Honest
import Verif.Spec.Chars
/-!
# Parsers for one character
-/

namespace Metaparse

variable {E : Env (List Chr)}

theorem run_oneChar_nil (hE : E.OnText) (pos : Pos) :
    run E .oneChar [] pos = .ok (.rej .unexpectedEndOfInput pos) := by
  rw [run_step]
  simp [step, Comb.oneChar, show E.input = listInput from hE, listInput]

theorem run_oneChar_cons (hE : E.OnText) (c : Chr) (s : List Chr) (pos : Pos) :
    run E .oneChar (c :: s) pos = .ok (.acc (.chr c) s (moveOver pos [c])) := by
  rw [run_step]
  simp [step, Comb.oneChar, show E.input = listInput from hE, listInput, moveOver]

theorem run_acceptWhen {I : Type} {E : Env I} (p : P) (pred : Val → Out Bool) (m : Msg) (s : I) (pos : Pos) :
    run E (.acceptWhen p pred m) s pos = (run E p s pos).bind fun
      | .rej m' pos' => .ok (.rej m' pos')
      | .acc v s' pos' => (pred v).bind fun b =>
        if b then .ok (.acc v s' pos') else .ok (.rej m pos) := by
  rw [run_step]; rfl

theorem run_changeErrorMessage {I : Type} {E : Env I} (p : P) (m : Msg) (s : I) (pos : Pos) :
    run E (.changeErrorMessage p m) s pos = (run E p s pos).bind fun
      | .rej _ _ => .ok (.rej m pos)
      | .acc v s' pos' => .ok (.acc v s' pos') := by
  rw [run_step]; rfl

theorem charParser_oneChar (hE : E.OnText) :
    CharParser E .oneChar (fun _ => true) .chr .unexpectedEndOfInput .unexpectedEndOfInput where
  accepts c s pos _ := run_oneChar_cons hE c s pos
  empty pos := run_oneChar_nil hE pos
  other c s pos h := by cases h

theorem CharParser.acceptWhen {p : P} {cls cls' : Chr → Bool} {val : Chr → Val} {m0 m1 : Msg}
    (h : CharParser E p cls val m0 m1) (hall : ∀ c, cls c = true) (pred : Val → Out Bool) (m : Msg)
    (hp : ∀ c, pred (val c) = .ok (cls' c)) :
    CharParser E (.acceptWhen p pred m) cls' val m0 m where
  accepts c s pos hc := by
    unfold Accepts
    rw [run_acceptWhen, h.accepts c s pos (hall c)]
    simp [hp, hc]
  empty pos := by
    unfold Rejects
    rw [run_acceptWhen, h.empty]; rfl
  other c s pos hc := by
    unfold Rejects
    rw [run_acceptWhen, h.accepts c s pos (hall c)]
    simp [hp, hc]

theorem CharParser.changeErrorMessage {p : P} {cls : Chr → Bool} {val : Chr → Val} {m0 m1 : Msg}
    (h : CharParser E p cls val m0 m1) (m : Msg) :
    CharParser E (.changeErrorMessage p m) cls val m m where
  accepts c s pos hc := by
    unfold Accepts
    rw [run_changeErrorMessage, h.accepts c s pos hc]; rfl
  empty pos := by
    unfold Rejects
    rw [run_changeErrorMessage, h.empty]; rfl
  other c s pos hc := by
    unfold Rejects
    rw [run_changeErrorMessage, h.other c s pos hc]; rfl

theorem CharParser.transform {p : P} {cls : Chr → Bool} {val val' : Chr → Val} {m0 m1 : Msg}
    (h : CharParser E p cls val m0 m1) (f : Val → Val)
    (hf : ∀ c, cls c = true → (f (val c)).force = .ok (val' c)) :
    CharParser E (.transform p f) cls val' m0 m1 where
  accepts c s pos hc := by
    unfold Accepts
    rw [run_step]
    show ((run E p (c :: s) pos).bind _) = _
    rw [h.accepts c s pos hc]
    simp [hf c hc]
  empty pos := by
    unfold Rejects
    rw [run_step]
    show ((run E p [] pos).bind _) = _
    rw [h.empty]; rfl
  other c s pos hc := by
    unfold Rejects
    rw [run_step]
    show ((run E p (c :: s) pos).bind _) = _
    rw [h.other c s pos hc]; rfl

/-- Two descriptions of the same class. -/
theorem CharParser.congr {p : P} {cls cls' : Chr → Bool} {val : Chr → Val} {m0 m1 : Msg}
    (h : CharParser E p cls val m0 m1) (hc : ∀ c, cls c = cls' c) :
    CharParser E p cls' val m0 m1 where
  accepts c s pos h' := h.accepts c s pos (by rw [hc]; exact h')
  empty := h.empty
  other c s pos h' := h.other c s pos (by rw [hc]; exact h')

theorem CharParser.rejects {p : P} {cls : Chr → Bool} {val : Chr → Val} {m0 m1 : Msg}
    (h : CharParser E p cls val m0 m1) (s : List Chr) (pos : Pos) (hs : beginsWith cls s = false) :
    ∃ m, Rejects E p s pos m pos := by
  cases s with
  | nil => exact ⟨m0, h.empty pos⟩
  | cons c s => exact ⟨m1, h.other c s pos hs⟩

/-- The longest prefix of characters of the class is a maximal run. -/
theorem CharParser.maximalRun {p : P} {cls : Chr → Bool} {val : Chr → Val} {m0 m1 : Msg}
    (h : CharParser E p cls val m0 m1) (t u : List Chr) (pos : Pos) (ht : ∀ c ∈ t, cls c = true)
    (hu : beginsWith cls u = false) :
    ∃ m, MaximalRun E p (t ++ u) pos (t.map val) u (moveOver pos t) m (moveOver pos t) := by
  induction t generalizing pos with
  | nil =>
    obtain ⟨m, hm⟩ := h.rejects u pos hu
    exact ⟨m, .nil _ _, hm⟩
  | cons c t ih =>
    obtain ⟨m, hs, hr⟩ := ih (moveOver pos [c]) fun d hd => ht d (List.mem_cons_of_mem _ hd)
    exact ⟨m, .cons (h.accepts c (t ++ u) pos (ht c (List.mem_cons_self ..))) hs, hr⟩

theorem beginsWith_dropWhile (cls : Chr → Bool) (s : List Chr) :
    beginsWith cls (s.dropWhile cls) = false := by
  induction s with
  | nil => rfl
  | cons c s ih =>
    simp only [List.dropWhile]
    cases h : cls c with
    | true => exact ih
    | false => exact h

theorem all_takeWhile (cls : Chr → Bool) (s : List Chr) :
    ∀ c ∈ s.takeWhile cls, cls c = true := by
  induction s with
  | nil => simp
  | cons c s ih =>
    simp only [List.takeWhile]
    cases h : cls c with
    | true =>
      intro d hd
      rcases List.mem_cons.1 hd with rfl | hd
      · exact h
      · exact ih d hd
    | false => simp

theorem CharParser.maximalRun' {p : P} {cls : Chr → Bool} {val : Chr → Val} {m0 m1 : Msg}
    (h : CharParser E p cls val m0 m1) (s : List Chr) (pos : Pos) :
    ∃ m, MaximalRun E p s pos ((s.takeWhile cls).map val) (s.dropWhile cls)
      (moveOver pos (s.takeWhile cls)) m (moveOver pos (s.takeWhile cls)) := by
  have := h.maximalRun (s.takeWhile cls) (s.dropWhile cls) pos (all_takeWhile cls s)
    (beginsWith_dropWhile cls s)
  rwa [List.takeWhile_append_dropWhile] at this

theorem takeWhile_append (cls : Chr → Bool) (t u : List Chr) (ht : ∀ c ∈ t, cls c = true)
    (hu : beginsWith cls u = false) : (t ++ u).takeWhile cls = t ∧ (t ++ u).dropWhile cls = u := by
  induction t with
  | nil =>
    cases u with
    | nil => simp
    | cons c u => simp only [beginsWith] at hu; simp [hu]
  | cons c t ih =>
    have hc := ht c (List.mem_cons_self ..)
    obtain ⟨h1, h2⟩ := ih fun d hd => ht d (List.mem_cons_of_mem _ hd)
    simp [hc, h1, h2]

/-! ### The library's character parsers -/

theorem charParser_litC (hE : E.OnText) (c : Chr) :
    CharParser E (P.litC c) (fun x => x == c) .chr (.literalExpected c) (.literalExpected c) :=
  ((charParser_oneChar hE).changeErrorMessage _).acceptWhen (fun _ => rfl) _ _ fun _ => rfl

theorem charParser_rangeC (hE : E.OnText) (lo hi : Chr) :
    CharParser E (P.rangeC lo hi) (fun x => decide (lo ≤ x) && decide (x ≤ hi)) .chr
      .unexpectedEndOfInput .unexpectedCharacter :=
  (charParser_oneChar hE).acceptWhen (fun _ => rfl) _ _ fun _ => rfl

theorem charParser_digit (hE : E.OnText) :
    CharParser E P.digit digitChar .chr .digitExpected .digitExpected :=
  ((charParser_oneChar hE).changeErrorMessage _).acceptWhen (fun _ => rfl) _ _ fun _ => rfl

theorem charParser_letter (hE : E.OnText) :
    CharParser E P.letter letterChar .chr .unexpectedEndOfInput .letterExpected :=
  (charParser_oneChar hE).acceptWhen (fun _ => rfl) _ _ fun _ => rfl

theorem isWhitespaceC_eq (c : Chr) : isWhitespaceC c = spaceChar c := by
  simp only [isWhitespaceC, spaceChar, show ch ' ' = 32 from rfl, show ch '\r' = 13 from rfl,
    show ch '\n' = 10 from rfl, show ch '\t' = 9 from rfl]
  rw [Bool.eq_iff_iff]
  repeat' split
  all_goals simp_all

theorem charParser_space (hE : E.OnText) :
    CharParser E P.space spaceChar .chr .unexpectedEndOfInput .whitespaceExpected :=
  (charParser_oneChar hE).acceptWhen (fun _ => rfl) _ _ fun c => by
    show Out.ok (isWhitespaceC c) = _
    rw [isWhitespaceC_eq]

theorem digitToIntC_digit (c : Chr) (h : digitChar c = true) : digitToIntC c = .int (c - 48) := by
  simp only [digitChar, Bool.and_eq_true, decide_eq_true_eq] at h
  have : c = 48 ∨ c = 49 ∨ c = 50 ∨ c = 51 ∨ c = 52 ∨ c = 53 ∨ c = 54 ∨ c = 55 ∨ c = 56 ∨ c = 57 := by
    omega
  rcases this with rfl | rfl | rfl | rfl | rfl | rfl | rfl | rfl | rfl | rfl <;> rfl

theorem charParser_digitVal (hE : E.OnText) :
    CharParser E P.digitVal digitChar (fun c => .int (c - 48)) .digitExpected .digitExpected := by
  refine (charParser_digit hE).transform _ ?_
  intro c hc
  show (digitToIntC c).force = _
  rw [digitToIntC_digit c hc]; rfl

theorem orC_any (bs : List Bool) : orC bs = bs.any id := by
  induction bs with
  | nil => rfl
  | cons b bs ih => cases b <;> simp [orC, ih]

theorem anyOfRun14_any (values : Array Bool) (i : Nat) :
    anyOfRun14 values i = (values.toList.drop i).any id := by
  fun_induction anyOfRun14 values i with
  | case1 i h hv =>
    rw [List.drop_eq_getElem_cons (by simpa using h)]
    have : values.toList[i]'(by simpa using h) = true := by simpa using hv
    simp [this]
  | case2 i h hv ih =>
    rw [List.drop_eq_getElem_cons (by simpa using h)]
    have : values.toList[i]'(by simpa using h) = false := by simpa using hv
    simp only [List.any_cons, this, ih]
    rfl
  | case3 i h => rw [List.drop_eq_nil_of_le (by simpa using h)]; rfl

theorem contains_eq_any (cs : List Chr) (x : Chr) :
    (cs.map fun c => x == c).any id = cs.contains x := by
  induction cs with
  | nil => rfl
  | cons c cs ih => simp only [List.map, List.any_cons, List.contains_cons, id, ih]

theorem anyOfC11_eq (cs : List Chr) (x : Chr) : anyOfC11 cs (.chr x) = .ok (cs.contains x) := by
  cases cs with
  | nil => rfl
  | cons c cs =>
    show Out.ok (orC _) = _
    rw [orC_any, contains_eq_any]

theorem anyOfC14_eq (cs : List Chr) (x : Chr) : anyOfC14 cs (.chr x) = .ok (cs.contains x) := by
  cases cs with
  | nil => rfl
  | cons c cs =>
    show Out.ok (anyOfRun14 _ 0) = _
    rw [anyOfRun14_any, List.drop_zero, contains_eq_any]

theorem isNoneCImpl_eq (d : Chr) (cs : List Chr) : isNoneCImpl d cs = !cs.contains d := by
  induction cs with
  | nil => rfl
  | cons c cs ih =>
    simp only [isNoneCImpl, List.contains_cons]
    by_cases h : d = c
    · subst h; simp
    · rw [if_neg h, ih]; simp [h]

theorem isNone98Rev_eq (d : Chr) (cs : List Chr) :
    isNone98Rev (.chr d) cs = .ok (!cs.contains d) := by
  induction cs with
  | nil => rfl
  | cons c cs ih =>
    show (if d = c then Out.ok false else isNone98Rev (.chr d) cs) = _
    by_cases h : d = c
    · subst h; simp
    · rw [if_neg h, ih]; simp [h]

theorem isNone98_eq (cs : List Chr) (d : Chr) : isNone98 cs (.chr d) = .ok (!cs.contains d) := by
  unfold isNone98
  rw [isNone98Rev_eq]
  simp

/-- Decompose by reduction of the class at hand. -/
theorem CharParser.of_run {p q : P} {cls : Chr → Bool} {val : Chr → Val} {m0 m1 : Msg}
    (h : CharParser E p cls val m0 m1) (heq : ∀ s pos, run E q s pos = run E p s pos) :
    CharParser E q cls val m0 m1 where
  accepts c s pos hc := (heq _ _).trans (h.accepts c s pos hc)
  empty pos := (heq _ _).trans (h.empty pos)
  other c s pos hc := (heq _ _).trans (h.other c s pos hc)

/-! ### `repeated<space>` -/

theorem run_repeated_space (hE : E.OnText) (s : List Chr) (pos : Pos) :
    run E (P.repeated P.space) s pos =
      .ok (.acc (.seq ((s.takeWhile spaceChar).map .chr)) (s.dropWhile spaceChar)
        (moveOver pos (s.takeWhile spaceChar))) := by
  obtain ⟨m, hm⟩ := (charParser_space hE).maximalRun' s pos
  have hl : ∀ l vs : List Val, leftFold backInserter (.seq l) vs = .ok (.seq (l ++ vs)) := by
    intro l vs
    induction vs generalizing l with
    | nil => simp [leftFold]
    | cons v vs ih =>
      simp only [leftFold, backInserter, Comb.pushBack, Val.force, Out.bind_ok]
      rw [ih]; simp
  unfold P.repeated
  rw [run_foldl_maximal hm]
  simp [Val.force, hl]

theorem run_token (hE : E.OnText) (hs : E.SupportsNth 2) (p : P) (s : List Chr) (pos : Pos) :
    run E (P.token p) s pos = (run E p s pos).bind fun
      | .rej m e => .ok (.rej m e)
      | .acc v s' pos' => .ok (.acc v (s'.dropWhile spaceChar)
          (moveOver pos' (s'.takeWhile spaceChar))) := by
  unfold P.token
  rw [run_firstOf2 E hs]
  congr 1; funext r
  cases r with
  | rej m e => rfl
  | acc v s' pos' => simp only [run_repeated_space hE, Out.bind_ok]

/-! ### Decimal numbers -/

theorem decimal_snoc (t : List Chr) (c : Chr) : decimal (t ++ [c]) = 10 * decimal t + (c - 48) := by
  simp [decimal]

/-- The number denoted, continuing from `x`. -/
def decimalFrom (x : Int) (t : List Chr) : Int := t.foldl (fun n c => 10 * n + (c - 48)) x

theorem le_decimalFrom (x : Int) (t : List Chr) (hx : 0 ≤ x) (ht : ∀ c ∈ t, digitChar c = true) :
    x ≤ decimalFrom x t := by
  induction t generalizing x with
  | nil => exact Int.le_refl _
  | cons c t ih =>
    have hc := ht c (List.mem_cons_self ..)
    simp only [digitChar, Bool.and_eq_true, decide_eq_true_eq] at hc
    have := ih (10 * x + (c - 48)) (by omega) fun d hd => ht d (List.mem_cons_of_mem _ hd)
    show x ≤ decimalFrom (10 * x + (c - 48)) t
    omega

theorem leftFold_nextDigit (x : Int) (t : List Chr) (hx : 0 ≤ x)
    (ht : ∀ c ∈ t, digitChar c = true) (hx' : x ≤ intMax) :
    leftFold nextDigit (.int x) (t.map fun c => .int (c - 48)) =
      if decimalFrom x t ≤ intMax then .ok (.int (decimalFrom x t)) else .ill .overflow := by
  induction t generalizing x with
  | nil => simp [leftFold, decimalFrom, hx']
  | cons c t ih =>
    have hc := ht c (List.mem_cons_self ..)
    simp only [digitChar, Bool.and_eq_true, decide_eq_true_eq] at hc
    have ht' : ∀ d ∈ t, digitChar d = true := fun d hd => ht d (List.mem_cons_of_mem _ hd)
    have hle := le_decimalFrom (10 * x + (c - 48)) t (by omega) ht'
    have hdef : decimalFrom x (c :: t) = decimalFrom (10 * x + (c - 48)) t := rfl
    simp only [List.map, leftFold]
    have hval : nextDigit (.int x) (.int (c - 48)) =
        Val.ofOut ((intC (x * 10)).bind fun y => (intC (y + (c - 48))).bind fun z => .ok (.int z)) :=
      rfl
    rw [hval, hdef]
    have hmin : intMin = -2147483648 := rfl
    have hmax : intMax = 2147483647 := rfl
    by_cases h1 : x * 10 ≤ intMax
    · have hi : intC (x * 10) = .ok (x * 10) := by unfold intC; rw [if_pos ⟨by omega, h1⟩]
      rw [hi, Out.bind_ok]
      by_cases h2 : x * 10 + (c - 48) ≤ intMax
      · have hi : intC (x * 10 + (c - 48)) = .ok (x * 10 + (c - 48)) := by
          unfold intC; rw [if_pos ⟨by omega, h2⟩]
        rw [hi, Out.bind_ok]
        simp only [Val.ofOut, Val.force, Out.bind_ok]
        rw [show x * 10 + (c - 48) = 10 * x + (c - 48) by omega]
        exact ih _ (by omega) ht' (by omega)
      · have hi : intC (x * 10 + (c - 48)) = .ill .overflow := by
          unfold intC; rw [if_neg (fun h => h2 h.2)]
        rw [hi, Out.bind_ill, if_neg (by omega)]
        rfl
    · have hi : intC (x * 10) = .ill .overflow := by unfold intC; rw [if_neg (fun h => h1 h.2)]
      rw [hi, Out.bind_ill, if_neg (by omega)]
      rfl

theorem run_int (hE : E.OnText) (t u : List Chr) (pos : Pos) (hne : t ≠ [])
    (ht : ∀ c ∈ t, digitChar c = true) (hu : beginsWith digitChar u = false) :
    run E P.int_ (t ++ u) pos =
      if decimal t ≤ intMax then .ok (.acc (.int (decimal t)) u (moveOver pos t))
      else .ill .overflow := by
  obtain ⟨m, hm⟩ := (charParser_digitVal hE).maximalRun t u pos ht hu
  unfold P.int_ P.foldl1
  rw [run_ifAccepts]
  cases t with
  | nil => exact absurd rfl hne
  | cons c t =>
    rw [List.cons_append, (charParser_digitVal hE).accepts c (t ++ u) pos (ht c (List.mem_cons_self ..))]
    simp only [Out.bind_ok]
    have := run_foldl_maximal hm (.int 0) nextDigit
    rw [List.cons_append] at this
    rw [this]
    simp only [Val.force, Out.bind_ok]
    rw [leftFold_nextDigit 0 (c :: t) (by decide) ht (by decide)]
    show (if decimal (c :: t) ≤ intMax then _ else _ : Out Val).bind _ = _
    split <;> rfl

theorem run_int_other (hE : E.OnText) (s : List Chr) (pos : Pos)
    (hs : beginsWith digitChar s = false) :
    run E P.int_ s pos = .ok (.rej .digitExpected pos) := by
  unfold P.int_ P.foldl1
  rw [run_ifAccepts]
  cases s with
  | nil => rw [(charParser_digitVal hE).empty pos]; rfl
  | cons c s => rw [(charParser_digitVal hE).other c s pos hs]; rfl

theorem decimalText_digits (n : Nat) : ∀ c ∈ decimalText n, digitChar c = true := by
  fun_induction decimalText n with
  | case1 n h =>
    intro c hc
    simp only [List.mem_singleton] at hc
    subst hc
    simp only [digitChar, Bool.and_eq_true, decide_eq_true_eq]; omega
  | case2 n h ih =>
    intro c hc
    rcases List.mem_append.1 hc with hc | hc
    · exact ih c hc
    · simp only [List.mem_singleton] at hc
      subst hc
      simp only [digitChar, Bool.and_eq_true, decide_eq_true_eq]; omega

theorem decimalText_ne_nil (n : Nat) : decimalText n ≠ [] := by
  unfold decimalText; split <;> simp

theorem decimal_decimalText (n : Nat) : decimal (decimalText n) = n := by
  fun_induction decimalText n with
  | case1 n h => simp only [decimal, List.foldl]; omega
  | case2 n h ih => rw [decimal_snoc, ih]; omega

end Metaparse
