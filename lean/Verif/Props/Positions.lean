import Verif.Lemmas.Honest
import Verif.Lemmas.Check
/-!
# Source positions

C01 (`one_char`), C02 (remaining input and position), C03 (error position), C04 (lines),
C05 (columns), C06 (order of positions), C07 (depth independence).
-/

namespace Metaparse

/-! ## C01 -/

theorem C01_oneChar_accepts {E : Env (List Chr)} (hE : E.OnText) (s : List Chr) (pos : Pos)
    (v : Val) (s' : List Chr) (pos' : Pos) :
    Accepts E .oneChar s pos v s' pos' ↔
      ∃ c, s = c :: s' ∧ v = .chr c ∧ pos' = moveOver pos [c] := by
  unfold Accepts
  rw [run_step]
  simp only [step, Comb.oneChar, show E.input = listInput from hE, listInput]
  cases s with
  | nil => simp
  | cons x t =>
    simp only [Out.bind_ok, List.isEmpty_cons, Bool.false_eq_true, if_false, Out.ok.injEq,
      Res.acc.injEq, List.cons.injEq, moveOver_cons, moveOver_nil]
    constructor
    · rintro ⟨rfl, rfl, rfl⟩; exact ⟨x, ⟨rfl, rfl⟩, rfl, rfl⟩
    · rintro ⟨c, ⟨rfl, rfl⟩, rfl, rfl⟩; exact ⟨rfl, rfl, rfl⟩

example : ¬ Accepts env98 .oneChar (txt "ab") start (.chr (ch 'b')) (txt "a") ⟨1, 2, ch 'b'⟩ := by
  rw [C01_oneChar_accepts env98_onText]
  rintro ⟨c, h, _⟩
  exact absurd (List.cons.inj h).2 (by decide)

theorem C01_oneChar_rejects {E : Env (List Chr)} (hE : E.OnText) (s : List Chr) (pos : Pos)
    (m : Msg) (pos' : Pos) :
    Rejects E .oneChar s pos m pos' ↔ s = [] ∧ m = .unexpectedEndOfInput ∧ pos' = pos := by
  unfold Rejects
  rw [run_step]
  simp only [step, Comb.oneChar, show E.input = listInput from hE, listInput]
  cases s <;> simp [eq_comm]

example : ∃ m, Rejects env98 .oneChar [] ⟨3, 4, 5⟩ m ⟨3, 4, 5⟩ := ⟨_, (C01_oneChar_rejects env98_onText _ _ _ _).2 ⟨rfl, rfl, rfl⟩⟩

/-- `one_char` accepts or rejects every text: there is no other outcome. -/
theorem C01_oneChar_total {E : Env (List Chr)} (hE : E.OnText) (s : List Chr) (pos : Pos) :
    (∃ v s' pos', Accepts E .oneChar s pos v s' pos') ∨ (∃ m pos', Rejects E .oneChar s pos m pos') := by
  cases s with
  | nil => exact .inr ⟨_, _, (C01_oneChar_rejects hE ..).2 ⟨rfl, rfl, rfl⟩⟩
  | cons c s => exact .inl ⟨_, _, _, (C01_oneChar_accepts hE ..).2 ⟨c, rfl, rfl, rfl⟩⟩

example : Accepts env11 .oneChar (txt "ab") start (.chr (ch 'a')) (txt "b") ⟨1, 2, ch 'a'⟩ :=
  accepts_of_eval 3 (by decide +kernel)
example : Rejects env11 .oneChar [] ⟨3, 4, 5⟩ .unexpectedEndOfInput ⟨3, 4, 5⟩ :=
  rejects_of_eval 3 (by decide +kernel)

/-! ## C02, C03 -/

/-- Whatever parser expression accepts: the remaining input is a suffix, and the position is the
starting position moved over exactly what was consumed. -/
theorem C02_suffix_and_position {E : Env (List Chr)} (hE : E.Honest) (p : P) (s : List Chr)
    (pos : Pos) (v : Val) (s' : List Chr) (pos' : Pos) (h : Accepts E p s pos v s' pos') :
    ∃ consumed, s = consumed ++ s' ∧ pos' = moveOver pos consumed := h.honest hE

/-- Whatever parser expression rejects: the error position is the starting position moved over a
prefix of the input. -/
theorem C03_error_inside {E : Env (List Chr)} (hE : E.Honest) (p : P) (s : List Chr) (pos : Pos)
    (m : Msg) (pos' : Pos) (h : Rejects E p s pos m pos') :
    ∃ seen rest, s = seen ++ rest ∧ pos' = moveOver pos seen := h.honest hE

/-- The error is never before the start and never after the end of the input. -/
theorem C03_error_between {E : Env (List Chr)} (hE : E.Honest) (p : P) (s : List Chr) (pos : Pos)
    (m : Msg) (pos' : Pos) (h : Rejects E p s pos m pos') :
    pos.lessEqual pos' = true ∧ pos'.lessEqual (moveOver pos s) = true := by
  have key : ∀ (q : Pos) (t : List Chr), q.lessEqual (moveOver q t) = true := by
    intro q t
    unfold Pos.lessEqual
    by_cases ht : t = []
    · subst ht; simp [(Pos.equalTo_iff q q).2 rfl]
    · simp [less_moveOver q t ht]
  obtain ⟨c, t, rfl, rfl⟩ := h.honest hE
  exact ⟨key _ _, by rw [moveOver_append]; exact key _ _⟩

/-- An environment with a parser and an error function of the user, a recursive parser
(`A ::= 'a' A | 'b'`), and the C++98 implementation, that is honest. -/
def envUser : Env (List Chr) where
  input := listInput
  std := .cpp98
  rules := fun _ => .oneOf [.lastOf [P.litC (ch 'a'), .ref 0], P.litC (ch 'b')]
  native := fun i s pos => match s with
    | c :: d :: t => .ok (.acc (.int i) t (nextPos d (nextPos c pos)))
    | _ => .ok (.rej (.user i) pos)
  onError := fun k _ pos => .ok (.rej (.user k) pos)

theorem envUser_honest : envUser.Honest where
  onText := rfl
  native := by
    intro i s pos r h
    rcases s with _ | ⟨c, _ | ⟨d, t⟩⟩ <;> cases h
    · exact ⟨[], [], rfl, rfl⟩
    · exact ⟨[], [c], rfl, rfl⟩
    · exact ⟨[c, d], rfl, rfl⟩
  onError := by rintro k m pos r h; cases h; exact ⟨_, rfl⟩

example : envUser.Honest ∧
    Accepts envUser (.sequence [.ref 0, .native 7]) (txt "aab\nxy") start
      (.seq [.chr (ch 'b'), .int 7]) (txt "y") ⟨2, 2, ch 'x'⟩ ∧
    Rejects envUser (.transformError (.ref 0) 5) (txt "aax") start (.user 5) ⟨1, 3, ch 'a'⟩ :=
  ⟨envUser_honest, accepts_of_eval 20 (by decide +kernel), rejects_of_eval 20 (by decide +kernel)⟩

/-- Consuming is measured by length: what is consumed, the remaining input and the position
determine each other. -/
theorem C02_no_move_iff_nothing_consumed {E : Env (List Chr)} (hE : E.Honest) (p : P)
    (s : List Chr) (pos : Pos) (v : Val) (s' : List Chr) (pos' : Pos)
    (h : Accepts E p s pos v s' pos') : (pos' = pos ↔ s' = s) ∧ s'.length ≤ s.length := by
  obtain ⟨c, rfl, rfl⟩ := h.honest hE
  rw [moveOver_eq_self]
  refine ⟨?_, by simp⟩
  constructor
  · rintro rfl; rfl
  · intro h'
    have := congrArg List.length h'
    simp only [List.length_append] at this
    exact List.length_eq_zero_iff.1 (by omega)

example : (⟨2, 2, ch 'x'⟩ = start ↔ txt "y" = txt "aab\nxy") ∧ (txt "y").length ≤ (txt "aab\nxy").length :=
  C02_no_move_iff_nothing_consumed envUser_honest (.sequence [.ref 0, .native 7]) _ _ (.seq [.chr (ch 'b'), .int 7]) _ _
    (accepts_of_eval 20 (by decide +kernel))

/-- Line and column stay within the starting line and column plus the number of consumed
characters, so `int` arithmetic does not overflow on inputs shorter than `INT_MAX`. -/
theorem C02_pos_bounded (pos : Pos) (t : List Chr) (hl : 1 ≤ pos.line) (hc : 1 ≤ pos.col) :
    1 ≤ (moveOver pos t).line ∧ 1 ≤ (moveOver pos t).col ∧
    (moveOver pos t).line ≤ pos.line + t.length ∧ (moveOver pos t).col ≤ pos.col + t.length := by
  induction t generalizing pos with
  | nil => simp [hl, hc]
  | cons c t ih =>
    have h1 : 1 ≤ (nextPos c pos).line ∧ 1 ≤ (nextPos c pos).col ∧
        (nextPos c pos).line ≤ pos.line + 1 ∧ (nextPos c pos).col ≤ pos.col + 1 := by
      unfold nextPos
      split <;> simp [Pos.nextLine, Pos.nextChar] <;> omega
    have := ih (nextPos c pos) h1.1 h1.2.1
    simp only [moveOver_cons, List.length_cons]
    push_cast
    omega

example : (1 : Int) ≤ start.line ∧ (1 : Int) ≤ start.col := by decide

/-! ## C04 -/

/-- The line after a text is the line before plus the number of its line terminators, unless the
text starts in the middle of a CR LF. -/
theorem C04_line_of_text (pos : Pos) (t : List Chr) (h : pos.prev ≠ CR) :
    (moveOver pos t).line = pos.line + lineBreaks t := line_moveOver pos t h

example : (moveOver ⟨3, 7, ch 'x'⟩ (txt "a\r\nb\nc\rd\n\re")).line = 3 + 5 :=
  C04_line_of_text _ _ (by decide)

/-- Where any parser stops, the line is 1 plus the number of line terminators consumed. -/
theorem C04_line {E : Env (List Chr)} (hE : E.Honest) (p : P) (s : List Chr) (v : Val)
    (s' : List Chr) (pos' : Pos) (h : Accepts E p s start v s' pos') :
    ∃ consumed, s = consumed ++ s' ∧ pos'.line = 1 + lineBreaks consumed := by
  obtain ⟨c, rfl, rfl⟩ := h.honest hE
  exact ⟨c, rfl, line_moveOver start c (by decide)⟩

example : ∃ consumed, txt "\r\n\r\n!" = consumed ++ txt "!" ∧ (3 : Int) = 1 + lineBreaks consumed :=
  C04_line (E := env11) ⟨rfl, by intro i s pos r h; cases h; exact ⟨[], s, rfl, rfl⟩, by rintro k m pos r h; cases h; exact ⟨_, rfl⟩⟩
    (P.repeated (.keyword (txt "\r\n") .void_)) _ (.seq [.void_, .void_]) _ ⟨3, 2, ch '\n'⟩ (accepts_of_eval 20 (by decide +kernel))

/-- The line of an error is 1 plus the number of line terminators before it, which are line
terminators of the text parsed. -/
theorem C04_error_line {E : Env (List Chr)} (hE : E.Honest) (p : P) (s : List Chr) (m : Msg)
    (pos' : Pos) (h : Rejects E p s start m pos') :
    ∃ seen rest, s = seen ++ rest ∧ pos' = moveOver start seen ∧
      pos'.line = 1 + lineBreaks seen := by
  obtain ⟨c, t, rfl, rfl⟩ := h.honest hE
  exact ⟨c, t, rfl, rfl, line_moveOver start c (by decide)⟩

/-- All three conventions and mixtures: five terminators. -/
example : lineBreaks (txt "a\r\nb\nc\rd\n\re") = 5 := by decide
example : Accepts env11 (P.repeated (.keyword (txt "\r\n") .void_)) (txt "\r\n\r\n!") start
    (.seq [.void_, .void_]) (txt "!") ⟨3, 2, ch '\n'⟩ := accepts_of_eval 20 (by decide +kernel)

/-! ## C05 -/

/-- The claim of C05: after a text the column is 1 plus the number of characters after its last
line terminator. -/
def ColumnIsRight (t : List Chr) : Prop := (moveOver start t).col = 1 + (lastLine t).length

/-- The claim is false: after CR LF the column is 2. -/
theorem C05_column_refuted : ¬ ∀ t, ColumnIsRight t := by
  intro h
  have := h (txt "\r\n")
  unfold ColumnIsRight at this
  revert this
  decide

/-- The column the code computes, for every text: right, except one too large when the last line
terminator is CR LF. -/
theorem C05_column_exact (t : List Chr) :
    (moveOver start t).col = 1 + (lastLine t).length + (if lastBreakIsCRLF t then 1 else 0) :=
  col_moveOver_start t

/-- The claim of C05 holds exactly for the texts whose last line terminator is not CR LF.  (The
full claim `∀ t, ColumnIsRight t` is refuted above.) -/
theorem C05_column_partial (t : List Chr) : ColumnIsRight t ↔ lastBreakIsCRLF t = false := by
  unfold ColumnIsRight
  rw [col_moveOver_start]
  cases lastBreakIsCRLF t <;> simp <;> omega

/-- For any parser and any text without CR LF, the column after what was consumed is right. -/
theorem C05_column_of_parser_partial {E : Env (List Chr)} (hE : E.Honest) (p : P) (s : List Chr)
    (v : Val) (s' : List Chr) (pos' : Pos) (h : Accepts E p s start v s' pos')
    (hs : ∀ a b, s ≠ a ++ [CR, LF] ++ b) :
    ∃ consumed, s = consumed ++ s' ∧ pos'.col = 1 + (lastLine consumed).length := by
  obtain ⟨c, rfl, rfl⟩ := h.honest hE
  refine ⟨c, rfl, (C05_column_partial c).2 ?_⟩
  cases hb : lastBreakIsCRLF c with
  | false => rfl
  | true =>
    exfalso
    unfold lastBreakIsCRLF at hb
    have hdrop := List.dropWhile_sublist notBreak (l := c.reverse)
    have hsuf := List.dropWhile_suffix notBreak (l := c.reverse)
    split at hb
    · rename_i a b r heq
      simp only [Bool.and_eq_true, beq_iff_eq] at hb
      obtain ⟨rfl, rfl⟩ := hb
      rw [heq] at hsuf
      obtain ⟨u, hu⟩ := hsuf
      have : c = r.reverse ++ [CR, LF] ++ u.reverse := by
        have := congrArg List.reverse hu
        simpa using this.symm
      exact hs r.reverse (u.reverse ++ s') (by rw [this]; simp)
    · cases hb

example : lastLine (txt "ab\ncde") = txt "cde" ∧ lastBreakIsCRLF (txt "ab\ncde") = false ∧
    lastBreakIsCRLF (txt "ab\r\ncde") = true := by decide
example : Accepts env11 (P.repeated .oneChar) (txt "a\nbc") start
    (.seq [.chr (ch 'a'), .chr (ch '\n'), .chr (ch 'b'), .chr (ch 'c')]) [] ⟨2, 3, ch 'c'⟩ ∧
    (∀ a b, txt "a\nbc" ≠ a ++ [CR, LF] ++ b) := by
  refine ⟨accepts_of_eval 20 (by decide +kernel), ?_⟩
  intro a b h
  have : CR ∈ txt "a\nbc" := by rw [h]; simp
  exact absurd this (by decide)

/-! ## C06 -/

/-- `less` is a strict total order on source positions. -/
theorem C06_less_strict_total (a b c : Pos) :
    a.less a = false ∧
    (a.less b = true → b.less c = true → a.less c = true) ∧
    (a.less b = true ∨ a = b ∨ b.less a = true) ∧
    ¬ (a.less b = true ∧ b.less a = true) ∧ ¬ (a.less b = true ∧ a = b) := by
  refine ⟨Pos.less_irrefl a, Pos.less_trans, Pos.less_trichotomy a b, ?_, ?_⟩
  · rintro ⟨h, h'⟩
    rw [Pos.less_asymm h] at h'; cases h'
  · rintro ⟨h, rfl⟩
    rw [Pos.less_irrefl] at h; cases h

/-- The other comparisons are what `less` and equality make them. -/
theorem C06_comparisons_consistent (a b : Pos) :
    (a.equalTo b = true ↔ a = b) ∧ (a.notEqualTo b = true ↔ a ≠ b) ∧
    (a.greater b = true ↔ b.less a = true) ∧
    (a.greaterEqual b = true ↔ (b.less a = true ∨ a = b)) ∧
    (a.lessEqual b = true ↔ (a.less b = true ∨ a = b)) := by
  have he := Pos.equalTo_iff a b
  have he' : a.equalTo b = true ↔ a = b := by rw [he, eq_comm]
  have h3 := Pos.less_trichotomy a b
  have hi := Pos.less_irrefl b
  refine ⟨he', ?_, ?_, ?_, ?_⟩
  · unfold Pos.notEqualTo
    rw [Bool.not_eq_true', ← Bool.not_eq_true, he']
  · unfold Pos.greater
    rw [Bool.not_eq_true', ← Bool.not_eq_true, Bool.or_eq_true, he']
    constructor
    · intro h
      rcases h3 with h3 | h3 | h3
      · exact absurd (Or.inl h3) h
      · exact absurd (Or.inr h3) h
      · exact h3
    · rintro h (h' | rfl)
      · rw [Pos.less_asymm h] at h'; cases h'
      · rw [hi] at h; cases h
  · unfold Pos.greaterEqual
    rw [Bool.not_eq_true', ← Bool.not_eq_true]
    constructor
    · intro h
      rcases h3 with h3 | h3 | h3
      · exact absurd h3 h
      · exact Or.inr h3
      · exact Or.inl h3
    · rintro (h | rfl) h'
      · rw [Pos.less_asymm h] at h'; cases h'
      · rw [hi] at h'; cases h'
  · unfold Pos.lessEqual
    rw [Bool.or_eq_true, he']

/-- Positions are ordered first by line, then by column. -/
theorem C06_less_lexicographic (a b : Pos) :
    (a.line < b.line → a.less b = true) ∧
    (a.line = b.line → a.col < b.col → a.less b = true) := by
  simp only [Pos.less_iff]
  omega

/-- Moving forward gives a greater position. -/
theorem C06_move_forward (pos : Pos) (t : List Chr) (h : t ≠ []) :
    pos.less (moveOver pos t) = true := less_moveOver pos t h

example : Pos.less ⟨2, 5, ch 'x'⟩ (moveOver ⟨2, 5, ch 'x'⟩ (txt "\n")) = true := C06_move_forward _ _ (by decide)

/-- For two prefixes of one text, comparing the positions is comparing the lengths. -/
theorem C06_order_follows_text (pos : Pos) (s u u' v v' : List Chr) (h : s = u ++ u')
    (h' : s = v ++ v') :
    ((moveOver pos u).less (moveOver pos v) = true ↔ u.length < v.length) ∧
    ((moveOver pos u).equalTo (moveOver pos v) = true ↔ u.length = v.length) := by
  refine ⟨less_moveOver_iff pos h h', ?_⟩
  rw [Pos.equalTo_iff, eq_comm]
  exact moveOver_eq_iff pos h h'

example : txt "ab\ncd" = txt "a" ++ txt "b\ncd" ∧ txt "ab\ncd" = txt "ab\n" ++ txt "cd" ∧
    (moveOver start (txt "a")).less (moveOver start (txt "ab\n")) = true := by decide

/-! ## C39, continued -/

/-- An error of a well-behaved parser is at the position it started from just when nothing was read before it. -/
theorem C39_offset_zero {E : Env (List Chr)} (hE : E.Honest) (p : P) (s : List Chr) (pos : Pos) (m : Msg) (e : Pos)
    (h : Rejects E p s pos m e) :
    ∃ seen rest, s = seen ++ rest ∧ e = moveOver pos seen ∧ (e = pos ↔ seen = []) := by
  obtain ⟨seen, rest, rfl, rfl⟩ := C03_error_inside hE p s pos m e h
  refine ⟨seen, rest, rfl, rfl, fun he => ?_, fun hn => by rw [hn]; rfl⟩
  apply Classical.byContradiction
  intro hn
  have := C06_move_forward pos seen hn
  rw [he, Pos.less_irrefl] at this
  cases this

example : Rejects env11 (.sequence [P.letter, P.digit]) (txt "ax") start .digitExpected (moveOver start (txt "a")) ∧
    Rejects env11 (.sequence [P.letter, P.digit]) (txt "1") start .letterExpected start :=
  ⟨rejects_of_eval 20 (by decide +kernel), rejects_of_eval 20 (by decide +kernel)⟩

/-! ## C07 -/

/-- If some instantiation depth suffices, every larger depth gives the same outcome. -/
theorem C07_depth_independent {I : Type} (E : Env I) (p : P) (s : I) (pos : Pos) (n m : Nat)
    (hnm : n ≤ m) (h : eval E n p s pos ≠ .deep) : eval E m p s pos = eval E n p s pos := by
  rcases (eval_chain E).le hnm p s pos with h' | h'
  · exact absurd h' h
  · exact h'.symm

example : eval env11 40 P.int_ (txt "42") start = eval env11 12 P.int_ (txt "42") start :=
  C07_depth_independent _ _ _ _ _ _ (by decide) (by
    intro h
    have : isAcc (eval env11 12 P.int_ (txt "42") start) (.int 42) [] ⟨1, 3, ch '2'⟩ = true := by decide +kernel
    rw [h] at this
    cases this)

/-- Any two sufficient depths agree. -/
theorem C07_outcome_unique {I : Type} (E : Env I) (p : P) (s : I) (pos : Pos) (n m : Nat)
    (h : eval E n p s pos ≠ .deep) (h' : eval E m p s pos ≠ .deep) :
    eval E n p s pos = eval E m p s pos := by
  rcases Nat.le_total n m with hle | hle
  · exact (C07_depth_independent E p s pos n m hle h).symm
  · exact C07_depth_independent E p s pos m n hle h'

/-- The outcome without a depth limit is that of any sufficient depth, and it is non-termination
exactly when no depth suffices. -/
theorem C07_run_is_limit {I : Type} (E : Env I) (p : P) (s : I) (pos : Pos) :
    (∀ n, eval E n p s pos ≠ .deep → run E p s pos = eval E n p s pos) ∧
    (Diverges E p s pos ↔ ∀ n, eval E n p s pos = .deep) := by
  refine ⟨fun n h => run_eq_of_eval rfl h, ?_⟩
  constructor
  · intro h n
    apply Classical.byContradiction
    intro hn
    exact hn ((run_eq_of_eval rfl hn).symm.trans h)
  · intro h
    obtain ⟨n, hn⟩ := exists_eval E p s pos
    exact hn.symm.trans (h n)

/-- Depth 3 is too little and depth 12 is enough for `int_` on `"42"`. -/
example : isAcc (eval env11 12 P.int_ (txt "42") start) (.int 42) [] ⟨1, 3, ch '2'⟩ = true ∧
    isAcc (eval env11 3 P.int_ (txt "42") start) (.int 42) [] ⟨1, 3, ch '2'⟩ = false := by
  decide +kernel

end Metaparse
