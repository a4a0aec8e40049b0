import Verif.Lemmas.ReadsTo
/-!
# Brackets in expressions are balanced
-/

namespace Metaparse

/-- How many brackets are open at the end of the text. -/
def openBrackets : List Chr → Int
  | [] => 0
  | c :: t => (if c = ch '(' then 1 else if c = ch ')' then -1 else 0) + openBrackets t

theorem openBrackets_append (t u : List Chr) : openBrackets (t ++ u) = openBrackets t + openBrackets u := by
  induction t with
  | nil => simp [openBrackets]
  | cons c t ih => simp only [List.cons_append, openBrackets, ih]; omega

/-- All brackets are closed, and none is closed that was not opened. -/
structure Balanced (t : List Chr) : Prop where
  total : openBrackets t = 0
  before : ∀ x y, t = x ++ y → 0 ≤ openBrackets x

theorem Balanced.append {t u : List Chr} (h : Balanced t) (h' : Balanced u) : Balanced (t ++ u) where
  total := by rw [openBrackets_append, h.total, h'.total]; rfl
  before := by
    intro x y he
    rcases List.append_eq_append_iff.1 he with ⟨z, rfl, rfl⟩ | ⟨z, rfl, rfl⟩
    · rw [openBrackets_append, h.total]
      have := h'.before z y rfl
      omega
    · exact h.before x z rfl

theorem Balanced.nil : Balanced [] := ⟨rfl, by
  intro x y h
  have := (List.append_eq_nil_iff.1 h.symm).1
  subst this
  exact Int.le_refl _⟩

theorem Balanced.cons {c : Chr} {t : List Chr} (h1 : c ≠ ch '(') (h2 : c ≠ ch ')') (h : Balanced t) :
    Balanced (c :: t) where
  total := by simp only [openBrackets, if_neg h1, if_neg h2, h.total]; rfl
  before := by
    intro x y he
    cases x with
    | nil => exact Int.le_refl _
    | cons d x =>
      simp only [List.cons_append, List.cons.injEq] at he
      obtain ⟨rfl, he⟩ := he
      simp only [openBrackets, if_neg h1, if_neg h2]
      have := h.before x y he
      omega

theorem Balanced.brackets {t u : List Chr} (h : Balanced t) (h' : Balanced u) :
    Balanced (ch '(' :: (t ++ ch ')' :: u)) := by
  have one : ∀ x, openBrackets (ch '(' :: x) = 1 + openBrackets x := fun x => by simp [openBrackets]
  have two : ∀ x, openBrackets (ch ')' :: x) = -1 + openBrackets x := fun x => by
    simp only [openBrackets, if_pos]
    rw [if_neg (by decide)]
  constructor
  · rw [one, openBrackets_append, two, h.total, h'.total]; rfl
  · intro x y he
    cases x with
    | nil => exact Int.le_refl _
    | cons d x =>
      simp only [List.cons_append, List.cons.injEq] at he
      obtain ⟨rfl, he⟩ := he
      rw [one]
      rcases List.append_eq_append_iff.1 he with ⟨z, rfl, hz⟩ | ⟨z, rfl, rfl⟩
      · rw [openBrackets_append, h.total]
        cases z with
        | nil => simp [openBrackets]
        | cons d z =>
          simp only [List.cons_append, List.cons.injEq] at hz
          obtain ⟨rfl, rfl⟩ := hz
          have := h'.before z y rfl
          rw [two]
          omega
      · have := h.before x z rfl
        omega

theorem balanced_of {t : List Chr} (h : ∀ c ∈ t, c ≠ ch '(' ∧ c ≠ ch ')') : Balanced t := by
  induction t with
  | nil => exact .nil
  | cons c t ih =>
    exact .cons (h c (by simp)).1 (h c (by simp)).2 (ih fun c hc => h c (by simp [hc]))

theorem balanced_spaces {ws : List Chr} (h : AllSpace ws) : Balanced ws :=
  balanced_of fun c hc => ⟨by rintro rfl; exact absurd (h _ hc) (by decide),
    by rintro rfl; exact absurd (h _ hc) (by decide)⟩

theorem balanced_digits {w : List Chr} (h : ∀ c ∈ w, digitChar c = true) : Balanced w :=
  balanced_of fun c hc => ⟨by rintro rfl; exact absurd (h _ hc) (by decide),
    by rintro rfl; exact absurd (h _ hc) (by decide)⟩

theorem TutorialText.balanced {D : Dialect} {d l : Nat} {t : List Chr} {e : AExp} (h : TutorialText D d l t e) :
    Balanced t := by
  induction h with
  | num h =>
    obtain ⟨w, ws, rfl, -, h2, h3, -⟩ := h
    exact (balanced_digits h2).append (balanced_spaces h3)
  | bracket h1 _ h3 ih =>
    have := ((balanced_spaces h1).append ih).brackets (balanced_spaces h3)
    simpa using this
  | primary _ ih => exact ih
  | neg _ h2 _ ih => exact .cons (by decide) (by decide) ((balanced_spaces h2).append ih)
  | unary _ ih => exact ih
  | mul _ _ h3 _ ih1 ih2 => exact ih1.append (.cons (by decide) (by decide) ((balanced_spaces h3).append ih2))
  | div _ _ _ h3 _ ih1 ih2 => exact ih1.append (.cons (by decide) (by decide) ((balanced_spaces h3).append ih2))
  | mulRight _ _ h3 _ ih1 ih2 => exact ih1.append (.cons (by decide) (by decide) ((balanced_spaces h3).append ih2))
  | divRight _ _ _ h3 _ ih1 ih2 => exact ih1.append (.cons (by decide) (by decide) ((balanced_spaces h3).append ih2))
  | product _ ih => exact ih
  | add _ h3 _ ih1 ih2 => exact ih1.append (.cons (by decide) (by decide) ((balanced_spaces h3).append ih2))
  | sub _ h3 _ ih1 ih2 => exact ih1.append (.cons (by decide) (by decide) ((balanced_spaces h3).append ih2))

/-! ## How expressions end -/

/-- An expression ends with a digit or a closing bracket, and white space. -/
def EndsOperand (t : List Chr) : Prop :=
  ∃ t0 c ws, t = t0 ++ c :: ws ∧ (digitChar c = true ∨ c = ch ')') ∧ AllSpace ws

theorem EndsOperand.after {t : List Chr} (b : List Chr) (h : EndsOperand t) : EndsOperand (b ++ t) := by
  obtain ⟨t0, c, ws, rfl, hc, hws⟩ := h
  exact ⟨b ++ t0, c, ws, by simp, hc, hws⟩

theorem EndsOperand.more {t b ws : List Chr} {c : Chr} (h : EndsOperand t) : EndsOperand (b ++ c :: (ws ++ t)) := by
  have := h.after (b ++ c :: ws)
  simpa using this

theorem TutorialText.ends {D : Dialect} {d l : Nat} {t : List Chr} {e : AExp} (h : TutorialText D d l t e) :
    EndsOperand t := by
  induction h with
  | num h =>
    obtain ⟨w, ws, rfl, h1, h2, h3, -⟩ := h
    exact ⟨w.dropLast, w.getLast h1, ws, by
      conv => lhs; rw [← List.dropLast_concat_getLast h1]
      simp, .inl (h2 _ (List.getLast_mem h1)), h3⟩
  | @bracket d ws t ws' e _ _ h3 _ => exact ⟨ch '(' :: (ws ++ t), ch ')', ws', by simp, .inr rfl, h3⟩
  | primary _ ih => exact ih
  | neg _ _ _ ih => exact ih.more (b := [])
  | unary _ ih => exact ih
  | mul _ _ _ _ _ ih => exact ih.more
  | div _ _ _ _ _ _ ih => exact ih.more
  | mulRight _ _ _ _ _ ih => exact ih.more
  | divRight _ _ _ _ _ _ ih => exact ih.more
  | product _ ih => exact ih
  | add _ _ _ _ ih => exact ih.more
  | sub _ _ _ _ ih => exact ih.more

theorem last_unique {t t' ws ws' : List Chr} {c c' : Chr} (hc : spaceChar c = false) (hc' : spaceChar c' = false)
    (hws : AllSpace ws) (hws' : AllSpace ws') (h : t ++ c :: ws = t' ++ c' :: ws') : c = c' := by
  have h1 := congrArg (fun l => (l.reverse.dropWhile spaceChar).head?) h
  have key : ∀ (t ws : List Chr) (c : Chr), spaceChar c = false → AllSpace ws →
      ((t ++ c :: ws).reverse.dropWhile spaceChar).head? = some c := by
    intro t ws c hc hws
    have : (t ++ c :: ws).reverse = ws.reverse ++ c :: t.reverse := by simp
    rw [this, List.dropWhile_append_of_pos (fun c hc => hws c (by simpa using hc))]
    simp [hc]
  simp only [key _ _ _ hc hws, key _ _ _ hc' hws'] at h1
  exact Option.some.inj h1

theorem not_both_ends {u : List Chr} (h : EndsOperand u) (h' : OperandExpected u) : False := by
  obtain ⟨t0, c, ws, rfl, hc, hws⟩ := h
  rcases h' with h' | ⟨u0, c', ws', he, hc', hws'⟩
  · simp at h'
  · have hcs : spaceChar c = false := by
      rcases hc with hc | rfl
      · cases hs : spaceChar c with
        | false => rfl
        | true =>
          simp only [digitChar, spaceChar, Bool.and_eq_true, decide_eq_true_eq, Bool.or_eq_true, beq_iff_eq] at hc hs
          omega
      · decide
    have hcs' : spaceChar c' = false := by
      simp only [List.mem_cons, List.not_mem_nil, or_false] at hc'
      rcases hc' with rfl | rfl | rfl | rfl | rfl <;> decide
    have := last_unique hcs hcs' hws hws' he
    subst this
    simp only [List.mem_cons, List.not_mem_nil, or_false] at hc'
    rcases hc' with rfl | rfl | rfl | rfl | rfl <;> exact absurd hc (by decide)

/-- An expression has no bracket that is open at its end. -/
theorem not_open {u0 u : List Chr} {e : AExp} (h : IsTutorialText u e) (h' : BracketOpen u0 u) : False := by
  obtain ⟨ws, t, x, rfl, hws, d', ht⟩ := h'
  obtain ⟨d, h⟩ := h
  have hb := h.balanced
  have h1 := hb.total
  have h2 := hb.before _ _ rfl
  rw [openBrackets_append] at h1
  simp only [openBrackets, if_true, openBrackets_append, (balanced_spaces hws).total, ht.balanced.total] at h1
  omega

theorem open_unique {u u0 u1 : List Chr} (h : BracketOpen u0 u) (h' : BracketOpen u1 u) : u0 = u1 := by
  have key : ∀ {z t ws ws' t' : List Chr} {d d' : Nat} {x x' : AExp}, AllSpace ws →
      TutorialText dialect18 d 0 t x → AllSpace ws' → TutorialText dialect18 d' 0 t' x' →
      ws ++ t = z ++ ch '(' :: (ws' ++ t') → False := by
    intro z t ws ws' t' d d' x x' hws ht hws' ht' he
    have hb := (balanced_spaces hws).append ht.balanced
    have h1 := hb.total
    have h2 := hb.before z _ he
    rw [he, openBrackets_append] at h1
    simp only [openBrackets, if_true, openBrackets_append, (balanced_spaces hws').total, ht'.balanced.total] at h1
    omega
  obtain ⟨ws, t, x, rfl, hws, d, ht⟩ := h
  obtain ⟨ws', t', x', he, hws', d', ht'⟩ := h'
  rcases List.append_eq_append_iff.1 he with ⟨z, rfl, hz⟩ | ⟨z, rfl, hz⟩
  · cases z with
    | nil => simp
    | cons c z =>
      simp only [List.cons_append, List.cons.injEq] at hz
      exact (key hws ht hws' ht' hz.2).elim
  · cases z with
    | nil => simp
    | cons c z =>
      simp only [List.cons_append, List.cons.injEq] at hz
      exact (key hws' ht' hws ht hz.2).elim

theorem BracketOpen.ends {u0 u : List Chr} (h : BracketOpen u0 u) : EndsOperand u := by
  obtain ⟨ws, t, x, rfl, hws, d, ht⟩ := h
  exact ht.ends.more

end Metaparse
