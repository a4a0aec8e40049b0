import Verif.Spec.GenerateAll

/-! # Texts: white space, words, lines -/

namespace Metaparse.Gen

theorem blank_eq_isSpace (c : Char) : blank c = isSpace c := by
  simp [blank, isSpace, Bool.or_assoc]
  rfl

theorem isSpace_eq_blank : isSpace = blank := funext fun c => (blank_eq_isSpace c).symm

/-! ## strip -/

theorem dropWhile_eq_nil_of_all {p : Char → Bool} : ∀ {l : Str}, (∀ c ∈ l, p c = true) → l.dropWhile p = []
  | [], _ => rfl
  | c :: l, h => by
      rw [List.dropWhile_cons, if_pos (h c (by simp))]
      exact dropWhile_eq_nil_of_all fun d hd => h d (by simp [hd])

theorem rstrip_split (s : Str) : ∃ b, s = rstrip s ++ b ∧ ∀ c ∈ b, blank c = true := by
  refine ⟨(s.reverse.takeWhile isSpace).reverse, ?_, ?_⟩
  · rw [rstrip, ← List.reverse_append, List.takeWhile_append_dropWhile, List.reverse_reverse]
  · intro c hc
    rw [List.mem_reverse] at hc
    rw [blank_eq_isSpace]
    have : ∀ (l : Str), ∀ c ∈ l.takeWhile isSpace, isSpace c = true := by
      intro l
      induction l with
      | nil => simp
      | cons d l ih =>
        intro c hc
        rw [List.takeWhile_cons] at hc
        split at hc
        · rename_i h
          rcases List.mem_cons.1 hc with rfl | hc
          · exact h
          · exact ih c hc
        · simp at hc
    exact this _ c hc

theorem rstrip_last {s : Str} {c : Char} (h : (rstrip s).getLast? = some c) : blank c = false := by
  rw [rstrip, List.getLast?_reverse] at h
  have : ∀ (l : Str), (l.dropWhile isSpace).head? = some c → isSpace c = false := by
    intro l
    induction l with
    | nil => simp
    | cons d l ih =>
      rw [List.dropWhile_cons]
      split
      · exact ih
      · rename_i hd
        intro h'
        simp at h'
        subst h'
        simpa using hd
  rw [blank_eq_isSpace]
  exact this _ h

theorem dropWhile_append_of_all {p : Char → Bool} (t : Str) :
    ∀ {l : Str}, (∀ c ∈ l, p c = true) → (l ++ t).dropWhile p = t.dropWhile p
  | [], _ => rfl
  | c :: l, h => by
      rw [List.cons_append, List.dropWhile_cons, if_pos (h c (by simp))]
      exact dropWhile_append_of_all t fun d hd => h d (by simp [hd])

theorem rstrip_append_blank {s b : Str} (h : ∀ c ∈ b, blank c = true) : rstrip (s ++ b) = rstrip s := by
  rw [rstrip, rstrip, List.reverse_append, dropWhile_append_of_all]
  intro c hc
  rw [← blank_eq_isSpace]
  exact h c (List.mem_reverse.1 hc)

theorem rstrip_of_last {s : Str} {c : Char} (h : blank c = false) : rstrip (s ++ [c]) = s ++ [c] := by
  rw [rstrip, List.reverse_append]
  simp only [List.reverse_cons, List.reverse_nil, List.nil_append, List.cons_append]
  rw [List.dropWhile_cons, if_neg (by rw [← blank_eq_isSpace, h]; simp)]
  simp

theorem lstrip_of_head {c : Char} {s : Str} (h : blank c = false) : lstrip (c :: s) = c :: s := by
  rw [lstrip, List.dropWhile_cons, if_neg (by rw [← blank_eq_isSpace, h]; simp)]

theorem lstrip_blank {c : Char} {s : Str} (h : blank c = true) : lstrip (c :: s) = lstrip s := by
  rw [lstrip, List.dropWhile_cons, if_pos (by rw [← blank_eq_isSpace, h])]; rfl

/-! ## words -/

theorem words_blank {c : Char} (h : blank c = true) (s : Str) : words (c :: s) = words s := by
  cases s with
  | nil => simp [words, h]
  | cons d s => rw [words, if_pos h]

theorem words_single {c : Char} (h : blank c = false) : words [c] = [[c]] := by simp [words, h]

theorem words_end {c d : Char} (hc : blank c = false) (hd : blank d = true) (s : Str) :
    words (c :: d :: s) = [c] :: words (d :: s) := by
  rw [words, if_neg (by simp [hc]), if_pos hd]

theorem words_ne_nil {c : Char} (h : blank c = false) (s : Str) : words (c :: s) ≠ [] := by
  cases s with
  | nil => simp [words, h]
  | cons d s =>
    rw [words, if_neg (by simp [h])]
    split
    · simp
    · split <;> simp

theorem words_cons {c d : Char} (hc : blank c = false) (hd : blank d = false) (s : Str) :
    ∃ w ws, words (d :: s) = w :: ws ∧ words (c :: d :: s) = (c :: w) :: ws := by
  cases h : words (d :: s) with
  | nil => exact absurd h (words_ne_nil hd s)
  | cons w ws =>
    refine ⟨w, ws, rfl, ?_⟩
    rw [words, if_neg (by simp [hc]), if_neg (by simp [hd]), h]

/-- Texts with white space between them. -/
theorem words_append (s : Str) {c : Char} (h : blank c = true) (t : Str) :
    words (s ++ c :: t) = words s ++ words t := by
  induction s with
  | nil => rw [List.nil_append, words_blank h]; rfl
  | cons a s ih =>
    cases ha : blank a with
    | true => rw [List.cons_append, words_blank ha, words_blank ha, ih]
    | false =>
      cases s with
      | nil =>
        rw [List.cons_append, List.nil_append, words_end ha h, words_single ha, words_blank h]
        rfl
      | cons b s =>
        cases hb : blank b with
        | true =>
          rw [List.cons_append, List.cons_append, words_end ha hb, words_end ha hb, ← List.cons_append, ih]
          rfl
        | false =>
          obtain ⟨w, ws, h1, h2⟩ := words_cons ha hb s
          obtain ⟨w', ws', h1', h2'⟩ := words_cons ha hb (s ++ c :: t)
          rw [List.cons_append, List.cons_append, h2', h2]
          rw [List.cons_append, h1', h1] at ih
          simp only [List.cons_append, List.cons.injEq] at ih ⊢
          obtain ⟨rfl, rfl⟩ := ih
          exact ⟨⟨trivial, rfl⟩, rfl⟩

theorem words_blanks {b : Str} (h : ∀ c ∈ b, blank c = true) : words b = [] := by
  induction b with
  | nil => rfl
  | cons c b ih =>
    rw [words_blank (h c (by simp))]
    exact ih fun d hd => h d (by simp [hd])

theorem words_append_blanks (s : Str) {b : Str} (h : ∀ c ∈ b, blank c = true) : words (s ++ b) = words s := by
  cases b with
  | nil => simp
  | cons c b =>
    rw [words_append _ (h c (by simp)), words_blanks (b := b) fun d hd => h d (by simp [hd]), List.append_nil]

theorem words_lstrip (s : Str) : words (lstrip s) = words s := by
  induction s with
  | nil => rfl
  | cons c s ih =>
    cases h : blank c with
    | true => rw [lstrip_blank h, ih, words_blank h]
    | false => rw [lstrip_of_head h]

theorem words_rstrip (s : Str) : words (rstrip s) = words s := by
  obtain ⟨b, h, hb⟩ := rstrip_split s
  conv => rhs; rw [h]
  rw [words_append_blanks _ hb]

theorem words_strip (s : Str) : words (strip s) = words s := by
  rw [strip, words_rstrip, words_lstrip]

theorem words_word {w : Str} (hne : w ≠ []) (h : ∀ c ∈ w, blank c = false) : words w = [w] := by
  induction w with
  | nil => exact absurd rfl hne
  | cons c w ih =>
    cases w with
    | nil => exact words_single (h c (by simp))
    | cons d w =>
      obtain ⟨v, ws, h1, h2⟩ := words_cons (h c (by simp)) (h d (by simp)) w
      rw [ih (by simp) fun x hx => h x (by simp [hx])] at h1
      simp only [List.cons.injEq] at h1
      rw [h2, ← h1.1, ← h1.2]

theorem words_last (s : Str) {c : Char} (h : blank c = false) : ∃ r w, words (s ++ [c]) = r ++ [w ++ [c]] := by
  induction s with
  | nil => exact ⟨[], [], by simp [words_single h]⟩
  | cons a s ih =>
    obtain ⟨r, w, hw⟩ := ih
    cases ha : blank a with
    | true => exact ⟨r, w, by rw [List.cons_append, words_blank ha, hw]⟩
    | false =>
      cases hs : s ++ [c] with
      | nil => simp at hs
      | cons b t =>
        rw [List.cons_append, hs]
        rw [hs] at hw
        cases hb : blank b with
        | true => exact ⟨[a] :: r, w, by rw [words_end ha hb, hw]; rfl⟩
        | false =>
          obtain ⟨v, ws, h1, h2⟩ := words_cons ha hb t
          rw [h2]
          rw [h1] at hw
          cases r with
          | nil =>
            simp only [List.nil_append, List.cons.injEq] at hw
            exact ⟨[], a :: w, by rw [hw.1, hw.2]; rfl⟩
          | cons x r =>
            simp only [List.cons_append, List.cons.injEq] at hw
            exact ⟨(a :: x) :: r, w, by rw [hw.1, hw.2]; rfl⟩

/-! ## Lines -/

theorem linesOf_ne_nil (s : Str) : linesOf s ≠ [] := by
  cases s with
  | nil => simp [linesOf]
  | cons c s =>
    rw [linesOf]
    split
    · simp
    · split <;> simp

theorem linesOf_append (s t : Str) : linesOf (s ++ '\n' :: t) = linesOf s ++ linesOf t := by
  induction s with
  | nil => simp [linesOf]
  | cons c s ih =>
    rw [List.cons_append, linesOf]
    by_cases h : c = '\n'
    · rw [if_pos h, ih, linesOf, if_pos h]; rfl
    · rw [if_neg h, ih, linesOf, if_neg h]
      cases hs : linesOf s with
      | nil => exact absurd hs (linesOf_ne_nil s)
      | cons l ls => rfl

theorem linesOf_line {l : Str} (h : '\n' ∉ l) : linesOf l = [l] := by
  induction l with
  | nil => rfl
  | cons c l ih =>
    simp only [List.mem_cons, not_or] at h
    rw [linesOf, if_neg (fun h' => h.1 h'.symm), ih h.2]

theorem linesOf_eq_split (s : Str) : linesOf s = split '\n' s := by
  induction s with
  | nil => rfl
  | cons c s ih =>
    rw [linesOf, split]
    split
    · rw [ih]
    · rw [ih]
      cases split '\n' s <;> rfl

theorem mem_of_mem_linesOf {s l : Str} (h : l ∈ linesOf s) {c : Char} (hc : c ∈ l) : c ∈ s := by
  induction s generalizing l with
  | nil => simp [linesOf] at h; simp [h] at hc
  | cons d s ih =>
    rw [linesOf] at h
    split at h
    · rcases List.mem_cons.1 h with rfl | h
      · simp at hc
      · exact List.mem_cons_of_mem _ (ih h hc)
    · split at h
      · rename_i l' ls' hl'
        rcases List.mem_cons.1 h with rfl | h
        · rcases List.mem_cons.1 hc with rfl | hc
          · simp
          · exact List.mem_cons_of_mem _ (ih (by simp [hl']) hc)
        · exact List.mem_cons_of_mem _ (ih (by simp [hl', h]) hc)
      · rename_i h'
        exact absurd h' (linesOf_ne_nil s)

theorem linesOf_concat (s t : Str) : ∃ i m h r, linesOf s = i ++ [m] ∧ linesOf t = h :: r ∧
    linesOf (s ++ t) = i ++ (m ++ h) :: r := by
  induction s with
  | nil =>
    cases ht : linesOf t with
    | nil => exact absurd ht (linesOf_ne_nil t)
    | cons h r => exact ⟨[], [], h, r, rfl, rfl, by simp [ht]⟩
  | cons c s ih =>
    obtain ⟨i, m, h, r, h1, h2, h3⟩ := ih
    rw [List.cons_append, linesOf, linesOf, h1, h3]
    by_cases hc : c = '\n'
    · exact ⟨[] :: i, m, h, r, by rw [if_pos hc]; rfl, h2, by rw [if_pos hc]; rfl⟩
    · cases i with
      | nil => exact ⟨[], c :: m, h, r, by rw [if_neg hc]; rfl, h2, by rw [if_neg hc]; rfl⟩
      | cons a i => exact ⟨(c :: a) :: i, m, h, r, by rw [if_neg hc]; rfl, h2, by rw [if_neg hc]; rfl⟩

/-- The lines of a text, with white space after it or not. -/
theorem mem_linesOf_append_blanks {s b : Str} (hb : ∀ c ∈ b, blank c = true) {l : Str} (h : l ∈ linesOf s) :
    ∃ e, (∀ c ∈ e, blank c = true) ∧ l ++ e ∈ linesOf (s ++ b) := by
  obtain ⟨i, m, x, r, h1, h2, h3⟩ := linesOf_concat s b
  rw [h1] at h
  rw [h3]
  rcases List.mem_append.1 h with h | h
  · exact ⟨[], by simp, by simp [h]⟩
  · simp only [List.mem_cons, List.not_mem_nil, or_false] at h
    subst h
    exact ⟨x, fun c hc => hb c (mem_of_mem_linesOf (by rw [h2]; simp) hc), by simp⟩

theorem mem_linesOf_append_blank {s : Str} {l : Str} (h : l ∈ linesOf (s ++ [' '])) :
    l ∈ linesOf s ∨ ∃ m ∈ linesOf s, l = m ++ [' '] := by
  obtain ⟨i, m, x, r, h1, h2, h3⟩ := linesOf_concat s [' ']
  simp [linesOf] at h2
  rw [h3, ← h2.1, h2.2] at h
  rcases List.mem_append.1 h with h | h
  · exact .inl (by rw [h1]; simp [h])
  · simp only [List.mem_cons, List.not_mem_nil, or_false] at h
    exact .inr ⟨m, by rw [h1]; simp, h⟩

theorem words_linesOf (s : Str) : (linesOf s).flatMap words = words s := by
  have : ∀ (n : Nat) (s : Str), s.length ≤ n → (linesOf s).flatMap words = words s := by
    intro n
    induction n with
    | zero =>
      intro s h
      have : s = [] := List.length_eq_zero_iff.1 (Nat.le_zero.1 h)
      subst this; rfl
    | succ n ih =>
      intro s h
      by_cases hs : '\n' ∈ s
      · obtain ⟨u, v, rfl⟩ := List.append_of_mem hs
        rw [linesOf_append, List.flatMap_append, words_append _ (by decide),
          ih u (by simp at h; omega), ih v (by simp at h; omega)]
      · rw [linesOf_line hs]; simp
  exact this _ s (Nat.le_refl _)

end Metaparse.Gen
