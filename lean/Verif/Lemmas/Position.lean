import Verif.Spec.Text
import Verif.Lemmas.Out
/-!
# Lemmas about positions
-/

namespace Metaparse

@[simp] theorem moveOver_nil (pos : Pos) : moveOver pos [] = pos := rfl
@[simp] theorem moveOver_cons (pos : Pos) (c : Chr) (t : List Chr) :
    moveOver pos (c :: t) = moveOver (nextPos c pos) t := rfl
theorem moveOver_append (pos : Pos) (t u : List Chr) :
    moveOver pos (t ++ u) = moveOver (moveOver pos t) u := by simp [moveOver]
theorem moveOver_snoc (pos : Pos) (t : List Chr) (c : Chr) :
    moveOver pos (t ++ [c]) = nextPos c (moveOver pos t) := by simp [moveOver]

theorem Pos.less_iff (a b : Pos) : a.less b = true ↔
    a.line < b.line ∨ (a.line = b.line ∧ (a.col < b.col ∨ (a.col = b.col ∧ a.prev < b.prev))) := by
  simp [Pos.less]

theorem Pos.less_irrefl (a : Pos) : a.less a = false := by
  cases h : a.less a with
  | false => rfl
  | true => rw [Pos.less_iff] at h; omega

theorem Pos.less_trans {a b c : Pos} (h : a.less b = true) (h' : b.less c = true) :
    a.less c = true := by
  rw [Pos.less_iff] at *; omega

theorem Pos.less_trichotomy (a b : Pos) : a.less b = true ∨ a = b ∨ b.less a = true := by
  rw [Pos.less_iff, Pos.less_iff]
  obtain ⟨a1, a2, a3⟩ := a
  obtain ⟨b1, b2, b3⟩ := b
  simp only [Pos.mk.injEq]
  omega

theorem Pos.less_asymm {a b : Pos} (h : a.less b = true) : b.less a = false := by
  cases h' : b.less a with
  | false => rfl
  | true =>
    have := Pos.less_trans h h'
    rw [Pos.less_irrefl] at this
    cases this

theorem less_nextPos (c : Chr) (pos : Pos) : pos.less (nextPos c pos) = true := by
  rw [Pos.less_iff]
  unfold nextPos
  split <;> simp [Pos.nextLine, Pos.nextChar] <;> omega

theorem less_moveOver (pos : Pos) (t : List Chr) (h : t ≠ []) :
    pos.less (moveOver pos t) = true := by
  induction t generalizing pos with
  | nil => exact absurd rfl h
  | cons c t ih =>
    by_cases ht : t = []
    · subst ht; exact less_nextPos c pos
    · exact Pos.less_trans (less_nextPos c pos) (ih _ ht)

/-- Two prefixes of one text: positions compare as the lengths do. -/
theorem less_moveOver_iff (pos : Pos) {s u u' v v' : List Chr} (h : s = u ++ u') (h' : s = v ++ v') :
    (moveOver pos u).less (moveOver pos v) = true ↔ u.length < v.length := by
  have key : ∀ {u u' v v' : List Chr}, u ++ u' = v ++ v' → u.length < v.length →
      (moveOver pos u).less (moveOver pos v) = true := by
    intro u u' v v' h hl
    have hp : u <+: v := by
      refine List.prefix_of_prefix_length_le (l₃ := u ++ u') (List.prefix_append _ _) ?_ (by omega)
      rw [h]; exact List.prefix_append _ _
    obtain ⟨w, rfl⟩ := hp
    rw [moveOver_append]
    apply less_moveOver
    rintro rfl
    simp at hl
  constructor
  · intro hless
    rcases Nat.lt_trichotomy u.length v.length with hl | hl | hl
    · exact hl
    · have : u = v := by
        have := List.append_inj (h.symm.trans h') hl
        exact this.1
      subst this
      rw [Pos.less_irrefl] at hless
      cases hless
    · have := Pos.less_asymm (key (h'.symm.trans h) hl)
      rw [this] at hless
      cases hless
  · exact key (h.symm.trans h')

theorem moveOver_eq_iff (pos : Pos) {s u u' v v' : List Chr} (h : s = u ++ u') (h' : s = v ++ v') :
    moveOver pos u = moveOver pos v ↔ u.length = v.length := by
  have h1 := less_moveOver_iff pos h h'
  have h2 := less_moveOver_iff pos h' h
  constructor
  · intro he
    rw [he, Pos.less_irrefl] at h1 h2
    simp at h1 h2
    omega
  · intro hl
    rw [(List.append_inj (h.symm.trans h') hl).1]

/-- A position at the end of a prefix equals the start only for the empty prefix. -/
theorem moveOver_eq_self (pos : Pos) (u : List Chr) : moveOver pos u = pos ↔ u = [] := by
  constructor
  · intro h
    by_cases hu : u = []
    · exact hu
    · have := less_moveOver pos u hu
      rw [h, Pos.less_irrefl] at this
      cases this
  · rintro rfl; rfl

@[simp] theorem ch_cr : ch '\r' = 13 := by decide
@[simp] theorem ch_lf : ch '\n' = 10 := by decide

theorem nextPos_prev (c : Chr) (pos : Pos) : (nextPos c pos).prev = c := by
  unfold nextPos; split <;> rfl

theorem moveOver_prev_snoc (pos : Pos) (t : List Chr) (c : Chr) :
    (moveOver pos (t ++ [c])).prev = c := by
  rw [moveOver_snoc, nextPos_prev]

theorem snocInduction {α : Type} {motive : List α → Prop} (nil : motive [])
    (snoc : ∀ t c, motive t → motive (t ++ [c])) (t : List α) : motive t := by
  have : ∀ r : List α, motive r.reverse := by
    intro r
    induction r with
    | nil => exact nil
    | cons c r ih => rw [List.reverse_cons]; exact snoc _ _ ih
  simpa using this t.reverse

/-- One more character adds a line unless it is not a terminator or completes a CR LF. -/
theorem lineBreaks_snoc (d : Chr) : ∀ t : List Chr,
    lineBreaks (t ++ [d]) = lineBreaks t +
      (if d = CR ∨ (d = LF ∧ t.getLast? ≠ some CR) then 1 else 0)
  | [] => by simp [lineBreaks]
  | [c] => by
    simp only [List.cons_append, List.nil_append, lineBreaks, List.getLast?_singleton,
      ne_eq, Option.some.injEq]
    repeat' split
    all_goals omega
  | c :: d' :: t => by
    have ih1 := lineBreaks_snoc d t
    have ih2 := lineBreaks_snoc d (d' :: t)
    simp only [List.cons_append] at ih2 ⊢
    rw [lineBreaks, lineBreaks]
    by_cases h : c = CR ∧ d' = LF
    · rw [if_pos h, if_pos h, ih1]
      obtain ⟨rfl, rfl⟩ := h
      cases t with
      | nil => simp; omega
      | cons x t => simp [List.getLast?_cons_cons]; omega
    · rw [if_neg h, if_neg h, ih2, List.getLast?_cons_cons]
      omega

theorem prev_moveOver_ne (pos : Pos) (t : List Chr) (h : pos.prev ≠ CR) :
    (moveOver pos t).prev ≠ CR ↔ t.getLast? ≠ some CR := by
  induction t using snocInduction with
  | nil => simp [h]
  | snoc t c _ => simp [moveOver_prev_snoc]

theorem line_moveOver (pos : Pos) (t : List Chr) (h : pos.prev ≠ CR) :
    (moveOver pos t).line = pos.line + lineBreaks t := by
  induction t using snocInduction with
  | nil => simp [lineBreaks]
  | snoc t c ih =>
    have hp := prev_moveOver_ne pos t h
    rw [moveOver_snoc, lineBreaks_snoc]
    unfold nextPos
    simp only [ch_cr, ch_lf]
    simp only [hp]
    split
    · simp only [Pos.nextLine, ih]; push_cast; omega
    · simp only [Pos.nextChar, ih]; push_cast; omega

theorem lastLine_snoc (t : List Chr) (c : Chr) :
    lastLine (t ++ [c]) = if notBreak c then lastLine t ++ [c] else [] := by
  unfold lastLine
  simp only [List.reverse_append, List.reverse_cons, List.reverse_nil, List.nil_append,
    List.cons_append, List.takeWhile_cons]
  split <;> simp

theorem lastBreakIsCRLF_snoc (t : List Chr) (c : Chr) :
    lastBreakIsCRLF (t ++ [c]) =
      if notBreak c then lastBreakIsCRLF t else (c == LF && t.getLast? == some CR) := by
  unfold lastBreakIsCRLF
  simp only [List.reverse_append, List.reverse_cons, List.reverse_nil, List.nil_append,
    List.cons_append, List.dropWhile_cons]
  by_cases h : notBreak c = true
  · simp only [h, if_true]
  · simp only [h]
    rw [← List.head?_reverse]
    cases t.reverse <;> simp

theorem col_moveOver_start (t : List Chr) :
    (moveOver start t).col = 1 + (lastLine t).length + (if lastBreakIsCRLF t then 1 else 0) := by
  induction t using snocInduction with
  | nil => simp [lastLine, lastBreakIsCRLF, start]
  | snoc t c ih =>
    have hp := prev_moveOver_ne start t (by decide)
    rw [moveOver_snoc, lastLine_snoc, lastBreakIsCRLF_snoc]
    unfold nextPos
    simp only [ch_cr, ch_lf]
    simp only [hp]
    by_cases h1 : c = CR
    · simp [h1, notBreak, Pos.nextLine]
    · by_cases h2 : c = LF
      · by_cases h3 : t.getLast? = some CR
        · obtain ⟨t', rfl⟩ : ∃ t', t = t' ++ [CR] := by
            rw [List.getLast?_eq_some_iff] at h3; exact h3
          rw [lastLine_snoc, lastBreakIsCRLF_snoc] at ih
          simp [notBreak] at ih
          simp [h2, notBreak, Pos.nextChar, ih]
        · simp [h2, h3, notBreak, Pos.nextLine]
      · simp [h1, h2, notBreak, Pos.nextChar, ih]; omega

end Metaparse
