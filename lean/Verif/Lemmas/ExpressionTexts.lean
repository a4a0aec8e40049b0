import Verif.Lemmas.Expressions
/-!
# The texts of the expressions of the tutorial
-/

namespace Metaparse

/-! ## Chains as lists -/

/-- Operators and operands. -/
inductive Items (A : List Chr → AExp → Prop) (ops : List Chr) : List Chr → List (Chr × AExp) → Prop
  | nil : Items A ops [] []
  | cons {c : Chr} {ws u r : List Chr} {b : AExp} {items : List (Chr × AExp)} : c ∈ ops → AllSpace ws →
      A u b → Items A ops r items → Items A ops (c :: (ws ++ (u ++ r))) ((c, b) :: items)

/-- An operand, operators and operands; `build` makes the expression. -/
def OpChain (A : List Chr → AExp → Prop) (ops : List Chr) (build : AExp → List (Chr × AExp) → AExp)
    (t : List Chr) (e : AExp) : Prop :=
  ∃ u a w items, t = u ++ w ∧ A u a ∧ Items A ops w items ∧ e = build a items

/-- Operators that associate to the left. -/
def buildLeft (a : AExp) (items : List (Chr × AExp)) : AExp := items.foldl (fun a i => mkOp i.1 a i.2) a

/-- Operators that associate to the right. -/
def buildRight (a : AExp) : List (Chr × AExp) → AExp
  | [] => a
  | (c, b) :: items => mkOp c a (buildRight b items)

variable {A : List Chr → AExp → Prop} {ops : List Chr} {cont : Chr → Bool}

theorem Items.append {r r' : List Chr} {items items' : List (Chr × AExp)}
    (h : Items A ops r items) (h' : Items A ops r' items') : Items A ops (r ++ r') (items ++ items') := by
  induction h with
  | nil => exact h'
  | cons hc hws hu _ ih =>
    have := Items.cons hc hws hu ih
    simpa using this

theorem leftChain_iff {t : List Chr} {e : AExp} : LeftChain A ops t e ↔ OpChain A ops buildLeft t e := by
  constructor
  · intro h
    induction h with
    | one h => exact ⟨_, _, [], [], by simp, h, .nil, rfl⟩
    | more _ hc hws hu ih =>
      obtain ⟨u, a, w, items, rfl, h1, h2, rfl⟩ := ih
      exact ⟨u, a, _, _, List.append_assoc .., h1, h2.append (by simpa using Items.cons hc hws hu .nil),
        by simp [buildLeft]⟩
  · rintro ⟨u, a, w, items, rfl, hu, hw, rfl⟩
    have key : ∀ {w items}, Items A ops w items → ∀ t a, LeftChain A ops t a →
        LeftChain A ops (t ++ w) (buildLeft a items) := by
      intro w items h
      induction h with
      | nil => intro t a h; simpa [buildLeft] using h
      | cons hc hws hu _ ih =>
        intro t a h
        have := ih _ _ (h.more hc hws hu)
        simpa [buildLeft] using this
    exact key hw _ _ (.one hu)

/-! ## Texts that begin in the same way -/

/-- If the text after `t` does not continue it then no text in `A` that begins in the same way is longer; and
no text has two readings. -/
structure Prefixes (A : List Chr → AExp → Prop) (cont : Chr → Bool) : Prop where
  holds : ∀ {t e t' e' r r'}, A t e → A t' e' → t ++ r = t' ++ r' → beginsWith cont r = false →
    t'.length ≤ t.length ∧ (t' = t → e' = e)

/-- The texts do not begin with white space and are not empty. -/
def Solid (A : List Chr → AExp → Prop) : Prop := ∀ t e, A t e → beginsWith spaceChar t = false ∧ t ≠ []

theorem Prefixes.mono {A' : List Chr → AExp → Prop} {cont' : Chr → Bool} (h : Prefixes A cont)
    (hA : ∀ t e, A' t e → A t e) (hc : ∀ c, cont c = true → cont' c = true) : Prefixes A' cont' :=
  ⟨fun h1 h2 he hb => h.holds (hA _ _ h1) (hA _ _ h2) he (beginsWith_mono hc hb)⟩

theorem Items.begins {w r : List Chr} {items : List (Chr × AExp)} (h : Items A ops w items)
    (hops : ∀ c ∈ ops, cont c = false) (hr : beginsWith cont r = false) :
    beginsWith cont (w ++ r) = false := by
  cases h with
  | nil => exact hr
  | cons hc => exact hops _ hc

theorem append_eq_of_length {t t' r r' : List Chr} (h : t ++ r = t' ++ r') (hl : t.length = t'.length) :
    t = t' ∧ r = r' := List.append_inj h hl

theorem Items.prefixes (hA : Prefixes A cont) (hS : Solid A) (hops : ∀ c ∈ ops, cont c = false)
    {w w' r r' : List Chr} {items items' : List (Chr × AExp)} (h : Items A ops w items)
    (h' : Items A ops w' items') (he : w ++ r = w' ++ r')
    (hr : beginsWith (fun c => cont c || ops.contains c) r = false) :
    w'.length ≤ w.length ∧ (w' = w → items' = items) := by
  have hrc : beginsWith cont r = false := beginsWith_mono (fun c hc => by simp [hc]) hr
  induction h' generalizing w items with
  | nil =>
    refine ⟨Nat.zero_le _, ?_⟩
    rintro rfl
    cases h
    rfl
  | @cons c' ws' u' w1' b' items' hc' hws' hu' hw1' ih =>
    cases h with
    | nil =>
      simp only [List.nil_append] at he
      subst he
      simp [beginsWith, hc'] at hr
    | @cons c ws u w1 b items hc hws hu hw1 =>
      simp only [List.cons_append, List.cons.injEq, List.append_assoc] at he
      obtain ⟨rfl, he1⟩ := he
      have h1 := hS _ _ hu
      have h2 := hS _ _ hu'
      obtain ⟨rfl, he2⟩ := spaces_unique hws hws' (by rw [beginsWith_append h1.2]; exact h1.1)
        (by rw [beginsWith_append h2.2]; exact h2.1) he1
      obtain ⟨hle, heq⟩ := hA.holds hu hu' he2 (hw1.begins hops hrc)
      by_cases hn : w1' = []
      · subst hn
        cases hw1'
        refine ⟨by simp only [List.length_cons, List.length_append, List.length_nil]; omega, ?_⟩
        intro hx
        simp only [List.cons.injEq, true_and, List.append_nil, List.append_cancel_left_eq] at hx
        have hl := congrArg List.length hx
        rw [List.length_append] at hl
        have hw : w1 = [] := List.length_eq_zero_iff.1 (by omega)
        subst hw
        cases hw1
        rw [heq (by simpa using hx)]
      · have hb : beginsWith cont (w1' ++ r') = false := by
          rw [beginsWith_append hn]
          cases hw1' with
          | nil => exact absurd rfl hn
          | cons hc => exact hops _ hc
        obtain ⟨hle', -⟩ := hA.holds hu' hu he2.symm hb
        obtain ⟨rfl, he3⟩ := append_eq_of_length he2 (by omega)
        obtain ⟨h3, h4⟩ := ih hw1 he3
        refine ⟨by simp only [List.length_cons, List.length_append]; omega, ?_⟩
        intro hx
        simp only [List.cons.injEq, true_and, List.append_cancel_left_eq] at hx
        rw [h4 hx, heq rfl]

theorem Prefixes.chain (hA : Prefixes A cont) (hS : Solid A) (hops : ∀ c ∈ ops, cont c = false)
    (build : AExp → List (Chr × AExp) → AExp) :
    Prefixes (OpChain A ops build) fun c => cont c || ops.contains c := by
  refine ⟨?_⟩
  rintro t e t' e' r r' ⟨u, a, w, items, rfl, hu, hw, rfl⟩ ⟨u', a', w', items', rfl, hu', hw', rfl⟩ he hr
  have hrc : beginsWith cont r = false := beginsWith_mono (fun c hc => by simp [hc]) hr
  simp only [List.append_assoc] at he
  obtain ⟨hle, heq⟩ := hA.holds hu hu' he (hw.begins hops hrc)
  by_cases hn : w' = []
  · subst hn
    cases hw'
    refine ⟨by simp only [List.length_append, List.length_nil]; omega, ?_⟩
    intro hx
    rw [List.append_nil] at hx
    have hl := congrArg List.length hx
    rw [List.length_append] at hl
    have hw0 : w = [] := List.length_eq_zero_iff.1 (by omega)
    subst hw0
    cases hw
    rw [heq (by simpa using hx)]
  · have hb : beginsWith cont (w' ++ r') = false := by
      rw [beginsWith_append hn]
      cases hw' with
      | nil => exact absurd rfl hn
      | cons hc => exact hops _ hc
    obtain ⟨hle', -⟩ := hA.holds hu' hu he.symm hb
    obtain ⟨rfl, he1⟩ := append_eq_of_length he (by omega)
    obtain ⟨h3, h4⟩ := hw.prefixes hA hS hops hw' he1 hr
    refine ⟨by simp only [List.length_append]; omega, ?_⟩
    intro hx
    rw [h4 (by simpa using hx), heq rfl]

theorem Solid.chain (hS : Solid A) (build : AExp → List (Chr × AExp) → AExp) : Solid (OpChain A ops build) := by
  rintro t e ⟨u, a, w, items, rfl, hu, -⟩
  have := hS u a hu
  exact ⟨by rw [beginsWith_append this.2]; exact this.1, by simp [this.2]⟩

/-! ## Numbers -/

/-- The texts of numbers as expressions. -/
def NumText (t : List Chr) (e : AExp) : Prop := ∃ n, NumberText t n ∧ e = .num n

theorem takes_of_number {t r : List Chr} {n : Int} (h : NumberText t n) (hr : beginsWith numCont r = false) :
    TakesNumber (t ++ r) t n r := by
  obtain ⟨w, ws, rfl, h1, h2, h3, rfl⟩ := h
  refine ⟨w, ws, rfl, by simp, h1, h2, h3, rfl, ?_,
    beginsWith_mono (fun c hc => by simp [numCont, hc]) hr⟩
  cases ws with
  | nil => exact beginsWith_mono (fun c hc => by simp [numCont, hc]) hr
  | cons c ws => exact digit_not_space (h3 c (by simp))

theorem prefixes_num : Prefixes NumText numCont := by
  refine ⟨?_⟩
  rintro t e t' e' r r' ⟨n, h, rfl⟩ ⟨n', h', rfl⟩ he hr
  refine ⟨((takes_of_number h hr).longest h' ⟨r', he.symm⟩).length_le, ?_⟩
  rintro rfl
  rw [number_unique h h']

theorem solid_num : Solid NumText := by
  rintro t e ⟨n, h, -⟩
  exact ⟨h.begins.2.1, h.begins.2.2⟩

/-! ## Levels of expressions -/

/-- The operators of products. -/
def multChars (D : Dialect) : List Chr := if D.div then [ch '*', ch '/'] else [ch '*']

/-- The operators of sums. -/
def plusChars : List Chr := [ch '+', ch '-']

/-- How products are built. -/
def buildProduct (D : Dialect) : AExp → List (Chr × AExp) → AExp := if D.right then buildRight else buildLeft

variable {D : Dialect} {d : Nat}

theorem mem_multChars {c : Chr} : c ∈ multChars D ↔ c = ch '*' ∨ (D.div = true ∧ c = ch '/') := by
  unfold multChars
  cases D.div <;> simp

theorem text0_iff {t : List Chr} {e : AExp} :
    TutorialText D d 0 t e ↔ LeftChain (TutorialText D d 1) plusChars t e := by
  constructor
  · generalize hl : 0 = l
    intro h
    induction h with
    | product h _ => exact .one h
    | add _ hws hu ih _ =>
      exact .more (c := ch '+') (ih hl) (by decide) hws hu
    | sub _ hws hu ih _ =>
      exact .more (c := ch '-') (ih hl) (by decide) hws hu
    | _ => cases hl
  · intro h
    induction h with
    | one h => exact .product h
    | more _ hc hws hu ih =>
      simp only [plusChars, List.mem_cons, List.not_mem_nil, or_false] at hc
      rcases hc with rfl | rfl
      · exact .add ih hws hu
      · exact .sub ih hws hu

theorem text1_iff_left (hD : D.right = false) {t : List Chr} {e : AExp} :
    TutorialText D d 1 t e ↔ LeftChain (TutorialText D d 2) (multChars D) t e := by
  constructor
  · generalize hl : 1 = l
    intro h
    induction h with
    | unary h _ => exact .one h
    | mul _ _ hws hu ih _ =>
      exact .more (c := ch '*') (ih hl) (mem_multChars.2 (.inl rfl)) hws hu
    | div _ hd _ hws hu ih _ =>
      exact .more (c := ch '/') (ih hl) (mem_multChars.2 (.inr ⟨hd, rfl⟩)) hws hu
    | mulRight hr => rw [hD] at hr; cases hr
    | divRight hr => rw [hD] at hr; cases hr
    | _ => cases hl
  · intro h
    induction h with
    | one h => exact .unary h
    | more _ hc hws hu ih =>
      rcases mem_multChars.1 hc with rfl | ⟨hd, rfl⟩
      · exact .mul hD ih hws hu
      · exact .div hD hd ih hws hu

theorem text1_iff_right (hD : D.right = true) {t : List Chr} {e : AExp} :
    TutorialText D d 1 t e ↔ OpChain (TutorialText D d 2) (multChars D) buildRight t e := by
  constructor
  · generalize hl : 1 = l
    intro h
    induction h with
    | unary h _ => exact ⟨_, _, [], [], by simp, h, .nil, rfl⟩
    | mulRight _ ha hws _ _ ih =>
      obtain ⟨u, a, w, items, rfl, h1, h2, rfl⟩ := ih hl
      exact ⟨_, _, _, _, rfl, ha, .cons (mem_multChars.2 (.inl rfl)) hws h1 h2, rfl⟩
    | divRight _ hd ha hws _ _ ih =>
      obtain ⟨u, a, w, items, rfl, h1, h2, rfl⟩ := ih hl
      exact ⟨_, _, _, _, rfl, ha, .cons (mem_multChars.2 (.inr ⟨hd, rfl⟩)) hws h1 h2, rfl⟩
    | mul hr => rw [hD] at hr; cases hr
    | div hr => rw [hD] at hr; cases hr
    | _ => cases hl
  · rintro ⟨u, a, w, items, rfl, hu, hw, rfl⟩
    induction hw generalizing u a with
    | nil => simpa [buildRight] using TutorialText.unary hu
    | cons hc hws hb _ ih =>
      rcases mem_multChars.1 hc with rfl | ⟨hd, rfl⟩
      · exact .mulRight hD hu hws (ih _ _ hb)
      · exact .divRight hD hd hu hws (ih _ _ hb)

theorem text1_iff {t : List Chr} {e : AExp} :
    TutorialText D d 1 t e ↔ OpChain (TutorialText D d 2) (multChars D) (buildProduct D) t e := by
  unfold buildProduct
  cases hD : D.right
  · exact (text1_iff_left hD).trans leftChain_iff
  · exact text1_iff_right hD

theorem text2_iff {t : List Chr} {e : AExp} : TutorialText D d 2 t e ↔
    TutorialText D d 3 t e ∨ D.neg = true ∧ ∃ ws u a, AllSpace ws ∧ TutorialText D d 2 u a ∧
      t = ch '-' :: (ws ++ u) ∧ e = .neg a := by
  constructor
  · intro h
    cases h with
    | primary h => exact .inl h
    | neg hD hws h => exact .inr ⟨hD, _, _, _, hws, h, rfl, rfl⟩
  · rintro (h | ⟨hD, ws, u, a, hws, h, rfl, rfl⟩)
    · exact .primary h
    · exact .neg hD hws h

theorem text2_iff_of_not_neg (hD : D.neg = false) {t : List Chr} {e : AExp} :
    TutorialText D d 2 t e ↔ TutorialText D d 3 t e := by
  rw [text2_iff]
  simp [hD]

theorem text3_zero {t : List Chr} {e : AExp} : TutorialText D 0 3 t e ↔ NumText t e := by
  constructor
  · intro h
    generalize hd : 0 = d at h
    cases h with
    | num h => exact ⟨_, h, rfl⟩
    | bracket => cases hd
  · rintro ⟨n, h, rfl⟩; exact .num h

theorem text3_succ {t : List Chr} {e : AExp} : TutorialText D (d + 1) 3 t e ↔
    NumText t e ∨ ∃ ws u ws', AllSpace ws ∧ TutorialText D d 0 u e ∧ AllSpace ws' ∧
      t = ch '(' :: (ws ++ (u ++ ch ')' :: ws')) := by
  constructor
  · intro h
    generalize hd : d + 1 = d' at h
    cases h with
    | num h => exact .inl ⟨_, h, rfl⟩
    | bracket hws h hws' =>
      cases hd
      exact .inr ⟨_, _, _, hws, h, hws', rfl⟩
  · rintro (⟨n, h, rfl⟩ | ⟨ws, u, ws', h1, h2, h3, rfl⟩)
    · exact .num h
    · exact .bracket h1 h2 h3

/-- What a text of some level cannot be followed by. -/
def levelCont (D : Dialect) : Nat → Chr → Bool
  | 0 => fun c => (numCont c || (multChars D).contains c) || plusChars.contains c
  | 1 => fun c => numCont c || (multChars D).contains c
  | _ => numCont

theorem multChars_free : ∀ c ∈ multChars D, numCont c = false := by
  intro c hc
  rcases mem_multChars.1 hc with rfl | ⟨-, rfl⟩ <;> decide

theorem plusChars_free : ∀ c ∈ plusChars, levelCont D 1 c = false := by
  intro c hc
  simp only [plusChars, List.mem_cons, List.not_mem_nil, or_false] at hc
  unfold levelCont multChars
  cases D.div <;> rcases hc with rfl | rfl <;> decide

theorem TutorialText.mono {d d' l : Nat} {t : List Chr} {e : AExp} (h : TutorialText D d l t e)
    (hd : d ≤ d') : TutorialText D d' l t e := by
  induction h generalizing d' with
  | num h => exact .num h
  | bracket h1 _ h3 ih =>
    obtain ⟨d', rfl⟩ : ∃ k, d' = k + 1 := ⟨d' - 1, by omega⟩
    exact .bracket h1 (ih (by omega)) h3
  | primary _ ih => exact .primary (ih hd)
  | neg hD h1 _ ih => exact .neg hD h1 (ih hd)
  | unary _ ih => exact .unary (ih hd)
  | mul hD _ h1 _ ih ih' => exact .mul hD (ih hd) h1 (ih' hd)
  | div hD hD' _ h1 _ ih ih' => exact .div hD hD' (ih hd) h1 (ih' hd)
  | mulRight hD _ h1 _ ih ih' => exact .mulRight hD (ih hd) h1 (ih' hd)
  | divRight hD hD' _ h1 _ ih ih' => exact .divRight hD hD' (ih hd) h1 (ih' hd)
  | product _ ih => exact .product (ih hd)
  | add _ h1 _ ih ih' => exact .add (ih hd) h1 (ih' hd)
  | sub _ h1 _ ih ih' => exact .sub (ih hd) h1 (ih' hd)

/-- The characters that expressions begin with. -/
def isFirst (c : Chr) : Bool := digitChar c || c == ch '(' || c == ch '-'

theorem beginsWith_of {f g : Chr → Bool} (h : ∀ c, f c = true → g c = true) {s : List Chr}
    (hb : beginsWith f s = true) : beginsWith g s = true := by
  cases s with
  | nil => cases hb
  | cons c s => exact h c hb

theorem isFirst_not_space {c : Chr} (h : isFirst c = true) : spaceChar c = false := by
  simp only [isFirst, Bool.or_eq_true, beq_iff_eq] at h
  rcases h with (h | rfl) | rfl
  · cases hs : spaceChar c with
    | false => rfl
    | true => rw [digit_not_space hs] at h; cases h
  · decide
  · decide

theorem TutorialText.first {d l : Nat} {t : List Chr} {e : AExp} (h : TutorialText D d l t e) :
    beginsWith isFirst t = true := by
  induction h with
  | num h => exact beginsWith_of (fun c hc => by simp [isFirst, hc]) h.begins.1
  | bracket => rfl
  | neg => rfl
  | primary _ ih => exact ih
  | unary _ ih => exact ih
  | product _ ih => exact ih
  | mul _ _ _ _ ih _ => rw [beginsWith_append (by rintro rfl; cases ih)]; exact ih
  | div _ _ _ _ _ ih _ => rw [beginsWith_append (by rintro rfl; cases ih)]; exact ih
  | mulRight _ _ _ _ ih _ => rw [beginsWith_append (by rintro rfl; cases ih)]; exact ih
  | divRight _ _ _ _ _ ih _ => rw [beginsWith_append (by rintro rfl; cases ih)]; exact ih
  | add _ _ _ ih _ => rw [beginsWith_append (by rintro rfl; cases ih)]; exact ih
  | sub _ _ _ ih _ => rw [beginsWith_append (by rintro rfl; cases ih)]; exact ih

theorem solid_text (D : Dialect) (d l : Nat) : Solid (TutorialText D d l) := by
  intro t e h
  have := h.first
  cases t with
  | nil => cases this
  | cons c t => exact ⟨isFirst_not_space this, by simp⟩

theorem text3_begins {t : List Chr} {e : AExp} (h : TutorialText D d 3 t e) :
    beginsWith (fun c => digitChar c || c == ch '(') t = true := by
  cases h with
  | num h => exact beginsWith_of (fun c hc => by simp [hc]) h.begins.1
  | bracket => rfl

theorem num_not_bracket {t r s : List Chr} {e : AExp} (h : NumText t e) (he : t ++ r = ch '(' :: s) : False := by
  obtain ⟨n, h, -⟩ := h
  have := h.begins
  cases t with
  | nil => exact this.2.2 rfl
  | cons c t => cases he; exact absurd this.1 (by simp only [beginsWith]; decide)

theorem prefixes_text3 (h : ∀ d' < d, Prefixes (TutorialText D d' 0) (levelCont D 0)) :
    Prefixes (TutorialText D d 3) numCont := by
  cases d with
  | zero => exact prefixes_num.mono (fun _ _ => text3_zero.1) fun _ h => h
  | succ d =>
    refine ⟨?_⟩
    intro t e t' e' r r' ht ht' he hr
    rcases text3_succ.1 ht with ht | ⟨ws, u, ws1, h1, h2, h3, rfl⟩
    · rcases text3_succ.1 ht' with ht' | ⟨ws', u', ws1', h1', h2', h3', rfl⟩
      · exact prefixes_num.holds ht ht' he hr
      · exact (num_not_bracket ht he).elim
    · rcases text3_succ.1 ht' with ht' | ⟨ws', u', ws1', h1', h2', h3', rfl⟩
      · exact (num_not_bracket ht' he.symm).elim
      · simp only [List.cons_append, List.cons.injEq, true_and, List.append_assoc] at he
        have s1 := solid_text _ _ _ _ _ h2
        have s2 := solid_text _ _ _ _ _ h2'
        obtain ⟨rfl, he1⟩ := spaces_unique h1 h1' (by rw [beginsWith_append s1.2]; exact s1.1)
          (by rw [beginsWith_append s2.2]; exact s2.1) he
        have hf : ∀ s, beginsWith (levelCont D 0) (ch ')' :: s) = false := by
          intro s
          show levelCont D 0 (ch ')') = false
          unfold levelCont multChars
          cases D.div <;> decide
        obtain ⟨l1, e1⟩ := (h d (by omega)).holds h2 h2' he1 (hf _)
        obtain ⟨l2, -⟩ := (h d (by omega)).holds h2' h2 he1.symm (hf _)
        obtain ⟨rfl, he2⟩ := append_eq_of_length he1 (by omega)
        rw [e1 rfl]
        simp only [List.cons.injEq, true_and] at he2
        refine ⟨?_, fun _ => rfl⟩
        have hr' : beginsWith spaceChar r = false := beginsWith_mono (fun c hc => by simp [numCont, hc]) hr
        have : ws1'.length ≤ ws1.length := by
          obtain ⟨a1, -⟩ := takeWhile_append spaceChar ws1 r h3 hr'
          rw [← a1, he2]
          have : ws1' <+: (ws1' ++ r').takeWhile spaceChar := by
            rw [List.takeWhile_append_of_pos h3']
            exact List.prefix_append _ _
          exact this.length_le
        simp only [List.length_cons, List.length_append]
        omega

theorem prefixes_text2 (h : Prefixes (TutorialText D d 3) numCont) : Prefixes (TutorialText D d 2) numCont := by
  refine ⟨?_⟩
  intro t e t' e' r r' ht
  generalize hl : 2 = l at ht
  have cross : ∀ {t r s : List Chr} {e : AExp}, TutorialText D d 3 t e → t ++ r = ch '-' :: s → False := by
    intro t r s e ht he
    have := text3_begins ht
    cases t with
    | nil => cases this
    | cons c t => cases he; exact absurd this (by simp only [beginsWith]; decide)
  induction ht generalizing t' e' r' with
  | primary h3 _ =>
    intro ht' he hr
    rcases text2_iff.1 ht' with ht' | ⟨-, ws, u, a, hws, hu, rfl, rfl⟩
    · exact h.holds h3 ht' he hr
    · exact (cross h3 he).elim
  | neg hD hws hu ih =>
    intro ht' he hr
    rcases text2_iff.1 ht' with ht' | ⟨-, ws', u', a', hws', hu', rfl, rfl⟩
    · exact (cross ht' he.symm).elim
    · simp only [List.cons_append, List.cons.injEq, true_and, List.append_assoc] at he
      have s1 := solid_text _ _ _ _ _ hu
      have s2 := solid_text _ _ _ _ _ hu'
      obtain ⟨rfl, he1⟩ := spaces_unique hws hws' (by rw [beginsWith_append s1.2]; exact s1.1)
        (by rw [beginsWith_append s2.2]; exact s2.1) he
      obtain ⟨h1, h2⟩ := ih h hl cross hu' he1 hr
      refine ⟨by simp only [List.length_cons, List.length_append]; omega, ?_⟩
      intro hx
      simp only [List.cons.injEq, true_and, List.append_cancel_left_eq] at hx
      rw [h2 hx]
  | _ => cases hl

theorem prefixes_text1 (h : Prefixes (TutorialText D d 2) numCont) :
    Prefixes (TutorialText D d 1) (levelCont D 1) :=
  (h.chain (solid_text D d 2) multChars_free (buildProduct D)).mono (fun _ _ => text1_iff.1) fun _ h => h

theorem prefixes_text0 (h : Prefixes (TutorialText D d 1) (levelCont D 1)) :
    Prefixes (TutorialText D d 0) (levelCont D 0) :=
  (h.chain (solid_text D d 1) plusChars_free buildLeft).mono
    (fun _ _ h => leftChain_iff.1 (text0_iff.1 h)) fun _ h => h

theorem prefixes_zero (D : Dialect) (d : Nat) : Prefixes (TutorialText D d 0) (levelCont D 0) := by
  induction d using Nat.strongRecOn with
  | _ d ih => exact prefixes_text0 (prefixes_text1 (prefixes_text2 (prefixes_text3 ih)))

theorem prefixes_three (D : Dialect) (d : Nat) : Prefixes (TutorialText D d 3) numCont :=
  prefixes_text3 fun d' _ => prefixes_zero D d'
theorem prefixes_two (D : Dialect) (d : Nat) : Prefixes (TutorialText D d 2) numCont :=
  prefixes_text2 (prefixes_three D d)
theorem prefixes_one (D : Dialect) (d : Nat) : Prefixes (TutorialText D d 1) (levelCont D 1) :=
  prefixes_text1 (prefixes_two D d)

/-- A text is only one expression. -/
theorem text_unique {d d' : Nat} {t : List Chr} {e e' : AExp} (h : TutorialText D d 0 t e)
    (h' : TutorialText D d' 0 t e') : e = e' :=
  ((prefixes_zero D (max d d')).holds (h'.mono (Nat.le_max_right ..)) (h.mono (Nat.le_max_left ..)) (r := []) rfl
    rfl).2 rfl

end Metaparse
