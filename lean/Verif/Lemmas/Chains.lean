import Verif.Spec.GettingStarted
import Verif.Lemmas.Formula
import Verif.Lemmas.GrammarExamples
/-!
# Numbers separated by operators

For the first parsers of the tutorial: what they read is the longest text of its form.
-/

namespace Metaparse

variable {E : Env (List Chr)}

theorem sequence_two_rejects {p q : P} (hs : E.SupportsSequence 2) {s : List Chr} {pos : Pos} {m : Msg}
    {e : Pos} : Rejects E (.sequence [p, q]) s pos m e ↔
      Rejects E p s pos m e ∨ ∃ v s1 pos1, Accepts E p s pos v s1 pos1 ∧ Rejects E q s1 pos1 m e := by
  rw [C22_sequence_rejects _ hs]
  constructor
  · rintro ⟨b, r, a, vs, s1, pos1, hl, hi, hr⟩
    cases b with
    | nil => cases hi; cases hl; exact .inl hr
    | cons x b =>
      cases b with
      | nil =>
        cases hi with
        | cons h1 h2 => cases h2; cases hl; exact .inr ⟨_, _, _, h1, hr⟩
      | cons y b => simp at hl
  · rintro (hr | ⟨v, s1, pos1, ha, hr⟩)
    · exact ⟨[], p, [q], [], s, pos, rfl, .nil .., hr⟩
    · exact ⟨[p], q, [], [v], s1, pos1, rfl, .cons ha (.nil ..), hr⟩

/-! ## Numbers -/

theorem NumberText.all {t : List Chr} {n : Int} (h : NumberText t n) : ∀ c ∈ t, numCont c = true := by
  obtain ⟨w, ws, rfl, -, hw, hws, -⟩ := h
  intro c hc
  rcases List.mem_append.1 hc with hc | hc
  · simp [numCont, hw c hc]
  · simp [numCont, hws c hc]

theorem NumberText.begins {t : List Chr} {n : Int} (h : NumberText t n) :
    beginsWith digitChar t = true ∧ beginsWith spaceChar t = false ∧ t ≠ [] := by
  obtain ⟨w, ws, rfl, hne, hw, -, -⟩ := h
  cases w with
  | nil => exact absurd rfl hne
  | cons c w =>
    have hc := hw c (by simp)
    refine ⟨hc, ?_, by simp⟩
    simp only [List.cons_append, beginsWith]
    cases hsp : spaceChar c with
    | false => rfl
    | true => rw [digit_not_space hsp] at hc; cases hc

theorem intText_iff {t : List Chr} {v : Val} :
    IntText t v ↔ ∃ n, NumberText t n ∧ n ≤ 2147483647 ∧ v = .int n := by
  constructor
  · rintro ⟨w, ws, rfl, h1, h2, h3, h4, rfl⟩
    exact ⟨_, ⟨w, ws, rfl, h1, h2, h3, rfl⟩, h4, rfl⟩
  · rintro ⟨n, ⟨w, ws, rfl, h1, h2, h3, rfl⟩, h4, rfl⟩
    exact ⟨w, ws, rfl, h1, h2, h3, h4, rfl⟩

/-- The number `n`, with the text `t`, is at the beginning of `s`, and neither the number nor the white space
after it continues in `s'`. -/
def TakesNumber (s t : List Chr) (n : Int) (s' : List Chr) : Prop :=
  ∃ w ws, t = w ++ ws ∧ s = w ++ (ws ++ s') ∧ w ≠ [] ∧ (∀ c ∈ w, digitChar c = true) ∧ AllSpace ws ∧
    n = decimal w ∧ beginsWith digitChar (ws ++ s') = false ∧ beginsWith spaceChar s' = false

theorem TakesNumber.number {s t s' : List Chr} {n : Int} (h : TakesNumber s t n s') :
    s = t ++ s' ∧ NumberText t n := by
  obtain ⟨w, ws, rfl, rfl, h1, h2, h3, rfl, -⟩ := h
  exact ⟨by simp, w, ws, rfl, h1, h2, h3, rfl⟩

theorem TakesNumber.exists {s : List Chr} (h : beginsWith digitChar s = true) :
    ∃ t n s', TakesNumber s t n s' := by
  refine ⟨_, _, ((s.dropWhile digitChar).dropWhile spaceChar), s.takeWhile digitChar,
    (s.dropWhile digitChar).takeWhile spaceChar, rfl, ?_, ?_, all_takeWhile _ _, all_takeWhile _ _, rfl, ?_,
    beginsWith_dropWhile _ _⟩
  · rw [List.takeWhile_append_dropWhile, List.takeWhile_append_dropWhile]
  · cases s with
    | nil => cases h
    | cons c s => have h' : digitChar c = true := h; simp [h']
  · rw [List.takeWhile_append_dropWhile]; exact beginsWith_dropWhile _ _

theorem beginsWith_prefix {f : Chr → Bool} {t s : List Chr} (h : t <+: s)
    (hs : beginsWith f s = false) : beginsWith f t = false := by
  obtain ⟨r, rfl⟩ := h
  cases t with
  | nil => rfl
  | cons c t => exact hs

theorem TakesNumber.longest {s t s' : List Chr} {n : Int} (h : TakesNumber s t n s') {u : List Chr}
    {k : Int} (hu : NumberText u k) (hp : u <+: s) : u <+: t := by
  obtain ⟨rfl, -⟩ := h.number
  obtain ⟨w, ws, rfl, -, h1, h2, h3, rfl, h4, h5⟩ := h
  rcases List.prefix_or_prefix_of_prefix hp (List.prefix_append (w ++ ws) s') with h | ⟨r, rfl⟩
  · exact h
  · cases r with
    | nil => simp
    | cons c r =>
      rw [List.prefix_append_right_inj] at hp
      obtain ⟨s', rfl⟩ := hp
      obtain ⟨w', ws', he, -, h2', h3', -⟩ := hu
      have e1 := (takeWhile_append digitChar w (ws ++ c :: r) h2 (by
        have : ws ++ c :: r <+: ws ++ (c :: r ++ s') := by simp
        exact beginsWith_prefix this h4)).2
      have hb : beginsWith digitChar ws' = false := by
        cases ws' with
        | nil => rfl
        | cons d ws' => exact digit_not_space (h3' d (by simp))
      have e2 := (takeWhile_append digitChar w' ws' h2' hb).2
      rw [List.append_assoc] at he
      rw [he, e2] at e1
      have hc : spaceChar c = true := h3' c (by rw [e1]; simp)
      have hc' : spaceChar c = false := h5
      rw [hc] at hc'; cases hc'

theorem takes_of_accepts (hE : E.OnText) (hs : E.SupportsNth 2) {s : List Chr} {pos : Pos} {v : Val}
    {s' : List Chr} {pos' : Pos} (h : Accepts E Tutorial.intToken s pos v s' pos') :
    ∃ t n, TakesNumber s t n s' ∧ n ≤ 2147483647 ∧ v = .int n := by
  obtain ⟨ws, pos1, ha, h2, h3, -⟩ := (C29_token_accepts hE hs ..).1 h
  obtain ⟨w, rfl, hne, hw, hb, rfl, hle, -⟩ := (C30_int_accepts hE ..).1 ha
  exact ⟨_, _, ⟨w, ws, rfl, rfl, hne, hw, h2, rfl, hb, h3⟩, hle, rfl⟩

theorem TakesNumber.accepts (hE : E.OnText) (hs : E.SupportsNth 2) {s t s' : List Chr} {n : Int}
    (h : TakesNumber s t n s') (hn : n ≤ 2147483647) (pos : Pos) :
    ∃ pos', Accepts E Tutorial.intToken s pos (.int n) s' pos' := by
  obtain ⟨w, ws, rfl, rfl, h1, h2, h3, rfl, h4, h5⟩ := h
  exact ⟨_, (C29_token_accepts hE hs ..).2 ⟨ws, moveOver pos w,
    (C30_int_accepts hE ..).2 ⟨w, rfl, h1, h2, h4, rfl, hn, rfl⟩, h3, h5, rfl⟩⟩

theorem number_rejects (hE : E.OnText) (hs : E.SupportsNth 2) {s : List Chr} {pos : Pos} {m : Msg}
    {e : Pos} : Rejects E Tutorial.intToken s pos m e ↔
      beginsWith digitChar s = false ∧ m = .digitExpected ∧ e = pos :=
  (C29_token_rejects hE hs ..).trans (C30_int_rejects hE ..)

/-! ## Operators and numbers -/

/-- Operators and numbers, from the left. -/
inductive ItemsText (ops : List Chr) : List Chr → List (Chr × Int) → Prop
  | nil : ItemsText ops [] []
  | cons {c : Chr} {ws u r : List Chr} {k : Int} {items : List (Chr × Int)} : c ∈ ops → AllSpace ws →
      NumberText u k → ItemsText ops r items → ItemsText ops (c :: (ws ++ (u ++ r))) ((c, k) :: items)

theorem ItemsText.append {ops : List Chr} {r r' : List Chr} {items items' : List (Chr × Int)}
    (h : ItemsText ops r items) (h' : ItemsText ops r' items') : ItemsText ops (r ++ r') (items ++ items') := by
  induction h with
  | nil => exact h'
  | cons hc hws hu _ ih =>
    have := ItemsText.cons hc hws hu ih
    simpa using this

theorem chainText_iff {ops : List Chr} {t : List Chr} {n : Int} {items : List (Chr × Int)} :
    ChainText ops t n items ↔ ∃ u r, t = u ++ r ∧ NumberText u n ∧ ItemsText ops r items := by
  constructor
  · intro h
    induction h with
    | one h => exact ⟨_, [], by simp, h, .nil⟩
    | more _ hc hws hu ih =>
      obtain ⟨t0, r, rfl, h0, hr⟩ := ih
      exact ⟨t0, _, List.append_assoc .., h0, hr.append (by simpa using ItemsText.cons hc hws hu .nil)⟩
  · rintro ⟨u, r, rfl, hu, hr⟩
    have key : ∀ {r items}, ItemsText ops r items → ∀ {t items0}, ChainText ops t n items0 →
        ChainText ops (t ++ r) n (items0 ++ items) := by
      intro r items h
      induction h with
      | nil => intro t items0 h; simpa using h
      | cons hc hws hu _ ih =>
        intro t items0 h
        have := ih (h.more hc hws hu)
        simpa using this
    exact key hr (.one hu)

/-- No operator with a number is at the beginning of `s`. -/
def NoItem (ops s : List Chr) : Prop :=
  ∀ c ws u k, c ∈ ops → AllSpace ws → NumberText u k → ¬ c :: (ws ++ u) <+: s

/-- The operators and numbers at the beginning of `s`, which have the text `r`, are taken as long as there
are any. -/
inductive TakesItems (ops : List Chr) : List Chr → List Chr → List (Chr × Int) → List Chr → Prop
  | nil {s : List Chr} : NoItem ops s → TakesItems ops s [] [] s
  | cons {c : Chr} {ws s1 u s2 r s' : List Chr} {k : Int} {items : List (Chr × Int)} : c ∈ ops →
      AllSpace ws → TakesNumber s1 u k s2 → TakesItems ops s2 r items s' →
      TakesItems ops (c :: (ws ++ s1)) (c :: (ws ++ (u ++ r))) ((c, k) :: items) s'

theorem TakesItems.items {ops s r s' : List Chr} {items : List (Chr × Int)}
    (h : TakesItems ops s r items s') : s = r ++ s' ∧ ItemsText ops r items := by
  induction h with
  | nil => exact ⟨rfl, .nil⟩
  | cons hc hws hu _ ih =>
    obtain ⟨rfl, hu'⟩ := hu.number
    obtain ⟨rfl, hr⟩ := ih
    exact ⟨by simp, .cons hc hws hu' hr⟩

/-- The characters `ops` do not continue a number. -/
def NotInNumbers (ops : List Chr) : Prop := ∀ c ∈ ops, numCont c = false

instance (ops : List Chr) : Decidable (NotInNumbers ops) :=
  inferInstanceAs (Decidable (∀ c ∈ ops, numCont c = false))

/-- A shorter number cannot be followed by an operator. -/
theorem number_then_items {ops u t r s' : List Chr} {n : Int} {items : List (Chr × Int)}
    (hops : NotInNumbers ops) (ht : NumberText t n) (hr : ItemsText ops r items)
    (hp : u <+: t) (hp' : u ++ r <+: t ++ s') : r = [] ∨ u = t ∧ r <+: s' := by
  obtain ⟨x, rfl⟩ := hp
  cases hr with
  | nil => exact .inl rfl
  | @cons c ws v r' k' items hc hws hv hr =>
    refine .inr ?_
    rw [List.append_assoc, List.prefix_append_right_inj] at hp'
    cases x with
    | nil => exact ⟨by simp, hp'⟩
    | cons d x =>
      obtain ⟨y, hy⟩ := hp'
      simp only [List.cons_append, List.cons.injEq] at hy
      have := ht.all d (by simp)
      rw [← hy.1, hops c hc] at this
      cases this

theorem spaces_unique {ws ws' s s' : List Chr} (h : AllSpace ws) (h' : AllSpace ws')
    (hs : beginsWith spaceChar s = false) (hs' : beginsWith spaceChar s' = false)
    (he : ws ++ s = ws' ++ s') : ws = ws' ∧ s = s' := by
  obtain ⟨a1, a2⟩ := takeWhile_append spaceChar ws s h hs
  obtain ⟨b1, b2⟩ := takeWhile_append spaceChar ws' s' h' hs'
  rw [he] at a1 a2
  exact ⟨a1.symm.trans b1, a2.symm.trans b2⟩

theorem TakesNumber.noSpace {s t s' : List Chr} {n : Int} (h : TakesNumber s t n s') :
    beginsWith spaceChar s = false := by
  obtain ⟨rfl, h'⟩ := h.number
  rw [beginsWith_append h'.begins.2.2]; exact h'.begins.2.1

theorem TakesItems.longest {ops s r s' : List Chr} {items : List (Chr × Int)} (hops : NotInNumbers ops)
    (h : TakesItems ops s r items s') : ∀ {r' : List Chr} {items' : List (Chr × Int)},
    ItemsText ops r' items' → r' <+: s → r' <+: r := by
  induction h with
  | nil h =>
    intro r' items' hr hp
    cases hr with
    | nil => simp
    | @cons c ws u r' k items hc hws hu hr =>
      refine absurd (List.IsPrefix.trans ?_ hp) (h c ws u k hc hws hu)
      exact ⟨r', by simp⟩
  | @cons c ws s1 u s2 r s' k items hc hws hu _ ih =>
    intro r' items' hr hp
    cases hr with
    | nil => simp
    | @cons c' ws' u' r' k' items hc' hws' hu' hr =>
      obtain ⟨x, hx⟩ := hp
      simp only [List.cons_append, List.cons.injEq, List.append_assoc] at hx
      obtain ⟨rfl, hx⟩ := hx
      obtain ⟨rfl, hx'⟩ := spaces_unique hws' hws
        (by rw [beginsWith_append hu'.begins.2.2]; exact hu'.begins.2.1) hu.noSpace hx
      have hp1 : u' <+: u := hu.longest hu' ⟨_, hx'⟩
      obtain ⟨rfl, hun⟩ := hu.number
      rcases number_then_items hops hun hr hp1 ⟨x, by simpa using hx'⟩ with rfl | ⟨rfl, hp2⟩
      · rw [List.append_nil]
        simp only [List.prefix_cons_inj, List.prefix_append_right_inj]
        exact hp1.trans (List.prefix_append _ _)
      · simp only [List.prefix_cons_inj, List.prefix_append_right_inj]
        exact ih hr hp2

/-- Taking a number and then operators with numbers as long as there are any gives the longest text of that
form. -/
theorem takes_longest {ops s t s0 r s' : List Chr} {n : Int} {items : List (Chr × Int)}
    (hops : NotInNumbers ops) (h : TakesNumber s t n s0) (h' : TakesItems ops s0 r items s') :
    LongestPrefix (IsChain ops) s (t ++ r) ∧ ChainText ops (t ++ r) n items := by
  obtain ⟨rfl, ht⟩ := h.number
  obtain ⟨rfl, hr⟩ := h'.items
  have hc : ChainText ops (t ++ r) n items := chainText_iff.2 ⟨t, r, rfl, ht, hr⟩
  refine ⟨⟨⟨s', by simp⟩, ⟨_, _, hc⟩, ?_⟩, hc⟩
  rintro u hp ⟨n', items', hu⟩
  obtain ⟨u0, r', rfl, hu0, hr'⟩ := chainText_iff.1 hu
  have hp0 := h.longest hu0 ((List.prefix_append _ _).trans hp)
  rcases number_then_items hops ht hr' hp0 hp with rfl | ⟨rfl, hp2⟩
  · rw [List.append_nil, List.length_append]; have := hp0.length_le; omega
  · have := (h'.longest hops hr' hp2).length_le
    simp only [List.length_append]; omega

theorem takeItems_exists (ops s : List Chr) : ∃ r items s', TakesItems ops s r items s' := by
  suffices ∀ n (s : List Chr), s.length ≤ n → ∃ r items s', TakesItems ops s r items s' from
    this _ s (Nat.le_refl _)
  intro n
  induction n with
  | zero =>
    intro s hn
    cases s with
    | nil => exact ⟨[], [], [], .nil fun c ws u k _ _ _ hp => by simp at hp⟩
    | cons c s => simp at hn
  | succ n ih =>
    intro s hn
    by_cases hno : NoItem ops s
    · exact ⟨_, _, _, .nil hno⟩
    · simp only [NoItem, Classical.not_forall, Classical.not_not] at hno
      obtain ⟨c, ws, u, k, hc, hws, hu, x, rfl⟩ := hno
      obtain ⟨t, j, s2, ht⟩ := TakesNumber.exists (s := u ++ x)
        (by rw [beginsWith_append hu.begins.2.2]; exact hu.begins.1)
      have hl := congrArg List.length ht.number.1
      simp only [List.length_append] at hl
      simp only [List.cons_append, List.length_cons, List.length_append, List.append_assoc] at hn
      obtain ⟨r, items, s', hr⟩ := ih s2 (by omega)
      have := TakesItems.cons hc hws ht hr
      exact ⟨_, _, s', by simpa using this⟩

theorem takesNumber_unique {s t s0 t' s0' : List Chr} {n n' : Int} (h : TakesNumber s t n s0)
    (h' : TakesNumber s t' n' s0') : t = t' ∧ n = n' ∧ s0 = s0' := by
  obtain ⟨w, ws, rfl, rfl, -, h2, h3, rfl, h4, h5⟩ := h
  obtain ⟨w', ws', rfl, he, -, h2', h3', rfl, h4', h5'⟩ := h'
  obtain ⟨a1, a2⟩ := takeWhile_append digitChar w _ h2 h4
  obtain ⟨b1, b2⟩ := takeWhile_append digitChar w' _ h2' h4'
  rw [he] at a1 a2
  obtain rfl := a1.symm.trans b1
  obtain ⟨rfl, rfl⟩ := spaces_unique h3 h3' h5 h5' (a2.symm.trans b2)
  exact ⟨rfl, rfl, rfl⟩

theorem number_unique {t : List Chr} {n k : Int} (h : NumberText t n) (h' : NumberText t k) : n = k := by
  obtain ⟨w, ws, rfl, -, h2, h3, rfl⟩ := h
  obtain ⟨w', ws', he, -, h2', h3', rfl⟩ := h'
  have hb : ∀ {ws : List Chr}, AllSpace ws → beginsWith digitChar ws = false := by
    intro ws h
    cases ws with
    | nil => rfl
    | cons c ws => exact digit_not_space (h c (by simp))
  have a := (takeWhile_append digitChar w ws h2 (hb h3)).1
  have b := (takeWhile_append digitChar w' ws' h2' (hb h3')).1
  rw [he, b] at a
  rw [a]

theorem items_unique {ops r : List Chr} {items items' : List (Chr × Int)} (hops : NotInNumbers ops)
    (h : ItemsText ops r items) (h' : ItemsText ops r items') : items = items' := by
  induction h generalizing items' with
  | nil => cases h'; rfl
  | @cons c ws u r k items hc hws hu hr ih =>
    generalize hx : c :: (ws ++ (u ++ r)) = x at h'
    cases h' with
    | nil => cases hx
    | @cons c' ws' u' r' k' items' hc' hws' hu' hr' =>
      simp only [List.cons.injEq] at hx
      obtain ⟨rfl, hx⟩ := hx
      obtain ⟨rfl, hx'⟩ := spaces_unique hws hws'
        (by rw [beginsWith_append hu.begins.2.2]; exact hu.begins.2.1)
        (by rw [beginsWith_append hu'.begins.2.2]; exact hu'.begins.2.1) hx
      have hsame : u = u' := by
        rcases List.prefix_or_prefix_of_prefix (List.prefix_append u r)
          (by rw [hx']; exact List.prefix_append u' r') with hp | hp
        · rcases number_then_items hops hu' hr hp (by rw [hx']; exact List.prefix_rfl) with rfl | ⟨h, -⟩
          · rw [List.append_nil] at hx'
            exact hp.eq_of_length_le (by rw [hx']; simp)
          · exact h
        · rcases number_then_items hops hu hr' hp (by rw [hx']; exact List.prefix_rfl) with rfl | ⟨h, -⟩
          · rw [List.append_nil] at hx'
            exact (hp.eq_of_length_le (by rw [← hx']; simp)).symm
          · exact h.symm
      subst hsame
      rw [number_unique hu hu', ih (List.append_cancel_left hx' ▸ hr')]

/-- The values of the elements. -/
def itemVals (items : List (Chr × Int)) : List Val := items.map fun i => .seq [.chr i.1, .int i.2]

theorem items_run (hE : E.OnText) (hs2 : E.SupportsNth 2) (hs : E.SupportsSequence 2) {o : P}
    {ops : List Chr} (ho : ReadsOp E o ops) {s : List Chr} {pos : Pos} {vs : List Val} {s' : List Chr}
    {pos' : Pos} {m : Msg} {e : Pos}
    (h : MaximalRun E (.sequence [o, Tutorial.intToken]) s pos vs s' pos' m e) :
    ∃ r items, TakesItems ops s r items s' ∧ (∀ i ∈ items, i.2 ≤ 2147483647) ∧ vs = itemVals items := by
  obtain ⟨hst, hr⟩ := h
  induction hst with
  | nil s pos =>
    refine ⟨[], [], .nil ?_, by simp, rfl⟩
    rintro c ws u k hc hws hu ⟨x, rfl⟩
    rw [List.cons_append, List.append_assoc] at hr
    obtain ⟨pos1, ha⟩ := ho.accepts (c := c) (ws := ws) (s' := u ++ x) pos hc hws
      (by rw [beginsWith_append hu.begins.2.2]; exact hu.begins.2.1)
    rcases (sequence_two_rejects hs).1 hr with hr | ⟨v, s1, pos1', ha', hr⟩
    · exact ha.not_rejects hr
    · obtain ⟨-, rfl, rfl⟩ := ha.unique ha'
      have := ((number_rejects hE hs2).1 hr).1
      rw [beginsWith_append hu.begins.2.2, hu.begins.1] at this
      cases this
  | cons ha _ ih =>
    obtain ⟨r, items, ht, hf, rfl⟩ := ih hr
    obtain ⟨vs, hi, rfl⟩ := (C22_sequence_accepts _ hs ..).1 ha
    obtain ⟨a, b, s1, pos1, rfl, h1, h2⟩ := hi.two
    obtain ⟨c, hc, ws, rfl, hws, -, rfl⟩ := ho.sound h1
    obtain ⟨u, k, hu, hk, rfl⟩ := takes_of_accepts hE hs2 h2
    refine ⟨_, _, .cons hc hws hu ht, ?_, rfl⟩
    intro i hi
    rcases List.mem_cons.1 hi with rfl | hi
    · exact hk
    · exact hf i hi

theorem TakesItems.run (hE : E.OnText) (hs2 : E.SupportsNth 2) (hs : E.SupportsSequence 2) {o : P}
    {ops : List Chr} (ho : ReadsOp E o ops) {s r s' : List Chr} {items : List (Chr × Int)}
    (h : TakesItems ops s r items s') (hf : ∀ i ∈ items, i.2 ≤ 2147483647) (pos : Pos) :
    ∃ pos' m e, MaximalRun E (.sequence [o, Tutorial.intToken]) s pos (itemVals items) s' pos' m e := by
  induction h generalizing pos with
  | @nil s hno =>
    suffices ∃ m e, Rejects E (.sequence [o, Tutorial.intToken]) s pos m e by
      obtain ⟨m, e, hr⟩ := this
      exact ⟨pos, m, e, .nil .., hr⟩
    cases hb : beginsWith ops.contains s with
    | false =>
      obtain ⟨m, hr⟩ := ho.rejects pos hb
      exact ⟨m, pos, (sequence_two_rejects hs).2 (.inl hr)⟩
    | true =>
      cases s with
      | nil => cases hb
      | cons c s =>
        have hc : c ∈ ops := by simpa [beginsWith] using hb
        have hsplit := (List.takeWhile_append_dropWhile (p := spaceChar) (l := s)).symm
        obtain ⟨pos1, ha⟩ := ho.accepts (c := c) pos hc (all_takeWhile spaceChar s)
          (beginsWith_dropWhile spaceChar s)
        rw [← hsplit] at ha
        refine ⟨.digitExpected, pos1, (sequence_two_rejects hs).2 (.inr ⟨_, _, _, ha,
          (number_rejects hE hs2).2 ⟨?_, rfl, rfl⟩⟩)⟩
        cases hd : beginsWith digitChar (s.dropWhile spaceChar) with
        | false => rfl
        | true =>
          obtain ⟨t, n, s2, ht⟩ := TakesNumber.exists hd
          obtain ⟨h1, h2⟩ := ht.number
          refine absurd ?_ (hno c _ t n hc (all_takeWhile spaceChar s) h2)
          refine ⟨s2, ?_⟩
          rw [List.cons_append, List.append_assoc, ← h1, ← hsplit]
  | cons hc hws hu _ ih =>
    obtain ⟨pos1, h1⟩ := ho.accepts pos hc hws hu.noSpace
    obtain ⟨pos2, h2⟩ := hu.accepts hE hs2 (hf _ List.mem_cons_self) pos1
    obtain ⟨pos3, m, e, h3, h4⟩ := ih (fun i hi => hf i (by simp [hi])) pos2
    exact ⟨pos3, m, e, .cons ((C22_sequence_accepts _ hs ..).2 ⟨_, .cons h1 (.cons h2 (.nil ..)), rfl⟩) h3,
      h4⟩

/-- Reading a number and then operators with numbers as long as possible: this gives the longest text of that
form, if all its numbers fit in `int`. -/
theorem chain_iff (hE : E.OnText) (hs2 : E.SupportsNth 2) (hs : E.SupportsSequence 2) {o : P}
    {ops : List Chr} (ho : ReadsOp E o ops) (hops : NotInNumbers ops) (s : List Chr) (pos : Pos) (v : Val)
    (vs : List Val) :
    (∃ s0 pos0 s' pos' m e, Accepts E Tutorial.intToken s pos v s0 pos0 ∧
      MaximalRun E (.sequence [o, Tutorial.intToken]) s0 pos0 vs s' pos' m e) ↔
      ∃ t n items, LongestPrefix (IsChain ops) s t ∧ ChainText ops t n items ∧ ItemsFit n items ∧
        v = .int n ∧ vs = itemVals items := by
  constructor
  · rintro ⟨s0, pos0, s', pos', m, e, ha, hm⟩
    obtain ⟨t, n, ht, hn, rfl⟩ := takes_of_accepts hE hs2 ha
    obtain ⟨r, items, hr, hf, rfl⟩ := items_run hE hs2 hs ho hm
    obtain ⟨h1, h2⟩ := takes_longest hops ht hr
    exact ⟨_, n, items, h1, h2, ⟨hn, hf⟩, rfl, rfl⟩
  · rintro ⟨t, n, items, ⟨hp, -, hmax⟩, hc, ⟨hn, hf⟩, rfl, rfl⟩
    obtain ⟨u, r, rfl, hu, hr⟩ := chainText_iff.1 hc
    obtain ⟨x, rfl⟩ := hp
    rw [List.append_assoc] at hmax ⊢
    obtain ⟨t0, n0, s0, ht0⟩ := TakesNumber.exists (s := u ++ (r ++ x))
      (by rw [beginsWith_append hu.begins.2.2]; exact hu.begins.1)
    obtain ⟨r0, items0, s1, hr0⟩ := takeItems_exists ops s0
    obtain ⟨⟨hp, hch, -⟩, hc0⟩ := takes_longest hops ht0 hr0
    have hle := hmax _ hp hch
    have hpu := ht0.longest hu ⟨_, rfl⟩
    have hin := ht0.number
    have hpre : u ++ r <+: t0 ++ s0 := by rw [← hin.1]; exact ⟨x, by simp⟩
    have huniq : u ++ r = t0 ++ r0 := by
      have a : u ++ r <+: u ++ (r ++ x) := ⟨x, by simp⟩
      rcases List.prefix_or_prefix_of_prefix a hp with h | h
      · exact h.eq_of_length_le hle
      · refine (h.eq_of_length_le ?_).symm
        rcases number_then_items hops hin.2 hr hpu hpre with rfl | ⟨rfl, hq⟩
        · simp only [List.length_append, List.length_nil]; have := hpu.length_le; omega
        · have := (hr0.longest hops hr hq).length_le
          simp only [List.length_append]; omega
    have hsame : u = t0 ∧ r = r0 := by
      rcases number_then_items hops hin.2 hr hpu hpre with rfl | ⟨rfl, -⟩
      · rw [List.append_nil] at huniq
        have := hpu.length_le
        have hl := congrArg List.length huniq
        simp only [List.length_append] at hl
        have hr0' : r0 = [] := List.length_eq_zero_iff.1 (by omega)
        subst hr0'
        exact ⟨by simpa using huniq, rfl⟩
      · exact ⟨rfl, List.append_cancel_left huniq⟩
    obtain ⟨rfl, rfl⟩ := hsame
    have hn0 : n = n0 := number_unique hu hin.2
    subst hn0
    have hi0 : items = items0 := items_unique hops hr hr0.items.2
    subst hi0
    obtain ⟨pos1, a1⟩ := ht0.accepts hE hs2 hn pos
    obtain ⟨pos2, m, e, a2⟩ := hr0.run hE hs2 hs ho hf pos1
    exact ⟨_, _, _, _, _, _, a1, a2⟩

end Metaparse
