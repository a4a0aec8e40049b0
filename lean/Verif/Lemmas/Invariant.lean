import Verif.Lemmas.Out
/-!
# Invariants of successful outcomes

A pair of relations "where a parse can get to" and "where an error can be" that the basic parsers
satisfy is satisfied by every parser expression.
-/

namespace Metaparse

variable {I : Type}

/-- Relations between the start of a parse and where it can end (`A`) or report an error (`R`). -/
structure PathInv (E : Env I) where
  A : I → Pos → I → Pos → Prop
  R : I → Pos → Pos → Prop
  refl : ∀ s pos, A s pos s pos
  trans : ∀ {s pos s1 pos1 s2 pos2}, A s pos s1 pos1 → A s1 pos1 s2 pos2 → A s pos s2 pos2
  here : ∀ s pos, R s pos pos
  later : ∀ {s pos s1 pos1 q}, A s pos s1 pos1 → R s1 pos1 q → R s pos q
  char : ∀ {s c s'} (pos : Pos), E.input.isEmpty s = .ok false → E.input.front s = .ok c →
    E.input.popFront s = .ok s' → A s pos s' (nextPos c pos)
  native : ∀ {i s pos r}, E.native i s pos = .ok r →
    match r with
    | .acc _ s' q => A s pos s' q
    | .rej _ q => R s pos q
  onError : ∀ {k m s pos q r}, R s pos q → E.onError k m q = .ok r →
    match r with
    | .acc _ s' q => A s pos s' q
    | .rej _ q => R s pos q

namespace PathInv

variable {E : Env I} (V : PathInv E)

/-- The outcome `r` of a parse started at `s`, `pos` satisfies the invariant. -/
def Good (s : I) (pos : Pos) : Res I → Prop
  | .acc _ s' q => V.A s pos s' q
  | .rej _ q => V.R s pos q

/-- Every successful outcome of `f` satisfies the invariant. -/
def SGood (f : Sem I) : Prop := ∀ s pos r, f s pos = .ok r → V.Good s pos r

theorem Good.later {s s1 : I} {pos pos1 : Pos} {r : Res I} (h : V.A s pos s1 pos1)
    (h' : V.Good s1 pos1 r) : V.Good s pos r := by
  cases r with
  | acc v s2 q => exact V.trans h h'
  | rej m q => exact V.later h h'

theorem good_transform {f : Sem I} (hf : V.SGood f) (g : Val → Val) :
    V.SGood (Comb.transform f g) := by
  intro s pos r h
  simp only [Comb.transform, Out.bind_eq_ok] at h
  obtain ⟨x, hx, h⟩ := h
  have := hf _ _ _ hx
  cases x with
  | acc v s' q => simp only [Out.bind_eq_ok] at h; obtain ⟨w, _, h⟩ := h; cases h; exact this
  | rej m q => cases h; exact this

theorem good_sequence11 : ∀ (ps : List (Sem I)), (∀ f ∈ ps, V.SGood f) →
    V.SGood (Comb.sequence11 ps) := by
  intro ps
  induction ps with
  | nil => intro _ s pos r h; cases h; exact V.refl _ _
  | cons f ps ih =>
    intro hf s pos r h
    simp only [Comb.sequence11, Out.bind_eq_ok] at h
    obtain ⟨x, hx, h⟩ := h
    have h1 := hf f (List.mem_cons_self ..) _ _ _ hx
    cases x with
    | rej m q => cases h; exact h1
    | acc v s' q =>
      have := good_transform V (ih fun g hg => hf g (List.mem_cons_of_mem _ hg)) _ _ _ _ h
      exact this.later V h1

theorem good_sequence98Loop : ∀ (ps : List (Sem I)), (∀ f ∈ ps, V.SGood f) →
    ∀ (s : I) (pos : Pos) (st r : Res I), V.Good s pos st →
      Comb.sequence98Loop ps st = .ok r → V.Good s pos r := by
  intro ps
  induction ps with
  | nil => intro _ s pos st r hst h; cases h; exact hst
  | cons f ps ih =>
    intro hf s pos st r hst h
    have ih := ih fun g hg => hf g (List.mem_cons_of_mem _ hg)
    cases st with
    | rej m q => exact ih s pos _ r hst h
    | acc a s' q =>
      simp only [Comb.sequence98Loop, Out.bind_eq_ok] at h
      obtain ⟨l, _, x, hx, h⟩ := h
      refine ih s pos _ r ?_ h
      have := good_transform V (hf f (List.mem_cons_self ..)) _ _ _ _ hx
      exact this.later V hst

theorem good_oneOf11 : ∀ (ps : List (Sem I)), (∀ f ∈ ps, V.SGood f) →
    V.SGood (Comb.oneOf11 ps) := by
  intro ps
  induction ps with
  | nil => intro _ s pos r h; cases h; exact V.here _ _
  | cons f ps ih =>
    intro hf s pos r h
    simp only [Comb.oneOf11, Out.bind_eq_ok] at h
    obtain ⟨x, hx, y, hy, h⟩ := h
    have h1 := hf f (List.mem_cons_self ..) _ _ _ hx
    have h2 := ih (fun g hg => hf g (List.mem_cons_of_mem _ hg)) _ _ _ hy
    cases x with
    | acc v s' q => cases h; exact h1
    | rej m q =>
      cases y with
      | acc v s' q => cases h; exact h2
      | rej m' q' =>
        simp only at h
        split at h <;> cases h
        · exact h1
        · exact h2

theorem good_oneOf98Loop (s : I) (pos : Pos) : ∀ (ps : List (Sem I)), (∀ f ∈ ps, V.SGood f) →
    ∀ st r, V.Good s pos st → Comb.oneOf98Loop s pos ps st = .ok r → V.Good s pos r := by
  intro ps
  induction ps with
  | nil => intro _ st r hst h; cases h; exact hst
  | cons f ps ih =>
    intro hf st r hst h
    simp only [Comb.oneOf98Loop, Out.bind_eq_ok] at h
    obtain ⟨x, hx, h⟩ := h
    have h1 := hf f (List.mem_cons_self ..) _ _ _ hx
    refine ih (fun g hg => hf g (List.mem_cons_of_mem _ hg)) _ r ?_ h
    cases st with
    | acc v s' q => exact hst
    | rej m q =>
      cases x with
      | acc v s' q => exact h1
      | rej m' q' =>
        simp only [Comb.oneOf98Op]
        split
        · exact hst
        · exact h1

theorem good_skipRemaining (v : Val) : ∀ (ps : List (Sem I)), (∀ f ∈ ps, V.SGood f) →
    V.SGood (Comb.skipRemaining v ps) := by
  intro ps
  induction ps with
  | nil => intro _ s pos r h; cases h; exact V.refl _ _
  | cons f ps ih =>
    intro hf s pos r h
    simp only [Comb.skipRemaining, Out.bind_eq_ok] at h
    obtain ⟨x, hx, h⟩ := h
    have h1 := hf f (List.mem_cons_self ..) _ _ _ hx
    cases x with
    | rej m q => cases h; exact h1
    | acc w s' q =>
      exact (ih (fun g hg => hf g (List.mem_cons_of_mem _ hg)) _ _ _ h).later V h1

theorem good_nthGo11 : ∀ (ps : List (Sem I)), (∀ f ∈ ps, V.SGood f) → ∀ n,
    V.SGood (Comb.nthGo11 n ps) := by
  intro ps
  induction ps with
  | nil => intro _ n s pos r h; cases h
  | cons f ps ih =>
    intro hf n s pos r h
    simp only [Comb.nthGo11, Out.bind_eq_ok] at h
    obtain ⟨x, hx, h⟩ := h
    have h1 := hf f (List.mem_cons_self ..) _ _ _ hx
    have hf' := fun g hg => hf g (List.mem_cons_of_mem _ hg)
    cases x with
    | rej m q => cases h; exact h1
    | acc w s' q =>
      simp only at h
      split at h
      · exact (good_skipRemaining V w ps hf' _ _ _ h).later V h1
      · exact (ih hf' _ _ _ _ h).later V h1

theorem good_skipSeq98 : ∀ (ps : List (Sem I)), (∀ f ∈ ps, V.SGood f) →
    ∀ (s : I) (pos : Pos) st r, V.Good s pos st → Comb.skipSeq98 ps st = .ok r →
      V.Good s pos r := by
  intro ps
  induction ps with
  | nil => intro _ s pos st r hst h; cases h; exact hst
  | cons f ps ih =>
    intro hf s pos st r hst h
    have ih := ih fun g hg => hf g (List.mem_cons_of_mem _ hg)
    cases st with
    | rej m q => exact ih s pos _ r hst h
    | acc a s' q =>
      simp only [Comb.skipSeq98, Out.bind_eq_ok] at h
      obtain ⟨x, hx, h⟩ := h
      have h1 := (hf f (List.mem_cons_self ..) _ _ _ hx).later V hst
      cases x with
      | rej m q => exact ih s pos (.rej m q) r h1 h
      | acc w s1 q => exact ih s pos (.acc a s1 q) r h1 h

theorem good_nthGo98 : ∀ (ps : List (Sem I)), (∀ f ∈ ps, V.SGood f) → ∀ n,
    V.SGood (Comb.nthGo98 n ps) := by
  intro ps
  induction ps with
  | nil => intro _ n s pos r h; cases h
  | cons f ps ih =>
    intro hf n s pos r h
    have hf' := fun g hg => hf g (List.mem_cons_of_mem _ hg)
    simp only [Comb.nthGo98] at h
    split at h
    · simp only [Out.bind_eq_ok] at h
      obtain ⟨x, hx, h⟩ := h
      exact good_skipSeq98 V ps hf' s pos _ _ (hf f (List.mem_cons_self ..) _ _ _ hx) h
    · simp only [Out.bind_eq_ok] at h
      obtain ⟨x, hx, h⟩ := h
      have h1 := hf f (List.mem_cons_self ..) _ _ _ hx
      cases x with
      | rej m q => cases h; exact h1
      | acc w s' q => exact (ih hf' _ _ _ _ h).later V h1

theorem good_fail (m : Msg) : V.SGood (Comb.fail m : Sem I) := by
  intro s pos r h; cases h; exact V.here _ _

theorem good_nthOf11 (n : Int) (ps : List (Sem I)) (hf : ∀ f ∈ ps, V.SGood f) :
    V.SGood (Comb.nthOf11 n ps) := by
  cases ps with
  | nil => exact good_fail V _
  | cons f ps =>
    simp only [Comb.nthOf11]
    split
    · exact good_nthGo11 V _ hf n
    · exact good_fail V _

theorem good_nthOf98 (lim : Nat) (n : Int) (ps : List (Sem I)) (hf : ∀ f ∈ ps, V.SGood f) :
    V.SGood (Comb.nthOf98 lim n ps) := by
  simp only [Comb.nthOf98]
  split
  · split
    · exact good_nthGo98 V _ hf n
    · exact good_fail V _
  · intro s pos r h; cases h

theorem good_nthOf (n : Int) (ps : List (Sem I)) (hf : ∀ f ∈ ps, V.SGood f) :
    V.SGood (Comb.nthOf E n ps) := by
  unfold Comb.nthOf
  cases E.std
  · exact good_nthOf98 V _ n ps hf
  · exact good_nthOf11 V n ps hf
  · exact good_nthOf11 V n ps hf

theorem good_lastOf11 (ps : List (Sem I)) (hf : ∀ f ∈ ps, V.SGood f) :
    V.SGood (Comb.lastOf11 ps) := by
  cases ps with
  | nil => exact good_fail V _
  | cons f ps => exact good_nthGo11 V _ hf _

theorem good_transformErrorMessage {f : Sem I} (hf : V.SGood f) (g : Msg → Out Msg) :
    V.SGood (Comb.transformErrorMessage f g) := by
  intro s pos r h
  simp only [Comb.transformErrorMessage, Out.bind_eq_ok] at h
  obtain ⟨x, hx, h⟩ := h
  have := hf _ _ _ hx
  cases x with
  | acc v s' q => cases h; exact this
  | rej m q => simp only [Out.bind_eq_ok] at h; obtain ⟨w, _, h⟩ := h; cases h; exact this

/-- One layer of instantiation preserves the invariant. -/
theorem good_step (rec : P → Sem I) (hr : ∀ p, V.SGood (rec p)) (p : P) :
    V.SGood (step E rec p) := by
  have hmap : ∀ ps : List P, ∀ f ∈ ps.map rec, V.SGood f := by
    intro ps f hf
    obtain ⟨p, _, rfl⟩ := List.mem_map.1 hf
    exact hr p
  cases p with
  | oneChar =>
    intro s pos r h
    simp only [step, Comb.oneChar, Out.bind_eq_ok] at h
    obtain ⟨b, hb, h⟩ := h
    cases b with
    | true => cases h; exact V.here _ _
    | false =>
      simp only [Bool.false_eq_true, if_false, Out.bind_eq_ok] at h
      obtain ⟨c, hc, s', hs', h⟩ := h
      cases h
      exact V.char pos hb hc hs'
  | empty v =>
    intro s pos r h
    simp only [step, Comb.empty, Out.bind_eq_ok] at h
    obtain ⟨b, hb, h⟩ := h
    cases b <;> cases h
    · exact V.here _ _
    · exact V.refl _ _
  | fail m => exact good_fail V m
  | ret v => intro s pos r h; cases h; exact V.refl _ _
  | native i =>
    intro s pos r h
    have := V.native h
    cases r <;> exact this
  | ref i => exact hr _
  | acceptWhen p pred m =>
    intro s pos r h
    simp only [step, Comb.acceptWhen, Out.bind_eq_ok] at h
    obtain ⟨x, hx, h⟩ := h
    have := hr _ _ _ _ hx
    cases x with
    | rej m q => cases h; exact this
    | acc v s' q =>
      simp only [Out.bind_eq_ok] at h
      obtain ⟨b, _, h⟩ := h
      cases b <;> cases h
      · exact V.here _ _
      · exact this
  | changeErrorMessage p m =>
    intro s pos r h
    simp only [step, Comb.changeErrorMessage, Out.bind_eq_ok] at h
    obtain ⟨x, hx, h⟩ := h
    have := hr _ _ _ _ hx
    cases x <;> cases h
    · exact this
    · exact V.here _ _
  | transformErrorMessage p f => exact good_transformErrorMessage V (hr p) f
  | transformError p k =>
    intro s pos r h
    simp only [step, Comb.transformError, Out.bind_eq_ok] at h
    obtain ⟨x, hx, h⟩ := h
    have := hr _ _ _ _ hx
    cases x with
    | acc v s' q => cases h; exact this
    | rej m q =>
      have := V.onError this h
      cases r <;> exact this
  | transform p f => exact good_transform V (hr p) f
  | always p v =>
    intro s pos r h
    simp only [step, Comb.always, Out.bind_eq_ok] at h
    obtain ⟨x, hx, h⟩ := h
    have := hr _ _ _ _ hx
    cases x <;> cases h <;> exact this
  | lookAhead p =>
    intro s pos r h
    simp only [step, Comb.lookAhead, Out.bind_eq_ok] at h
    obtain ⟨x, hx, h⟩ := h
    have := hr _ _ _ _ hx
    cases x <;> cases h
    · exact V.refl _ _
    · exact this
  | except p v m =>
    intro s pos r h
    simp only [step, Comb.except, Out.bind_eq_ok] at h
    obtain ⟨x, hx, h⟩ := h
    cases x <;> cases h
    · exact V.here _ _
    · exact V.refl _ _
  | optional p d =>
    intro s pos r h
    simp only [step, Comb.optional, Out.bind_eq_ok] at h
    obtain ⟨x, hx, h⟩ := h
    have := hr _ _ _ _ hx
    cases x <;> cases h
    · exact this
    · exact V.refl _ _
  | if_ p t f =>
    intro s pos r h
    simp only [step, Comb.if_, Out.bind_eq_ok] at h
    obtain ⟨x, hx, h⟩ := h
    cases x <;> cases h <;> exact V.refl _ _
  | failAtFirstCharExpected p =>
    intro s pos r h
    simp only [step, Comb.failAtFirstCharExpected, Out.bind_eq_ok] at h
    obtain ⟨x, hx, h⟩ := h
    have := hr _ _ _ _ hx
    cases x with
    | acc v s' q => cases h; exact V.here _ _
    | rej m q =>
      simp only at h
      split at h <;> cases h
      · exact V.refl _ _
      · exact this
  | foldl p st op =>
    intro s pos r h
    simp only [step, Comb.foldl, Out.bind_eq_ok] at h
    obtain ⟨x, hx, h⟩ := h
    have := hr _ _ _ _ hx
    cases x with
    | acc v s' q =>
      simp only [Out.bind_eq_ok] at h
      obtain ⟨y, _, h⟩ := h
      exact (hr _ _ _ _ h).later V this
    | rej m q =>
      simp only [Out.bind_eq_ok] at h
      obtain ⟨y, _, h⟩ := h
      cases h
      exact V.refl _ _
  | foldlRejectIncomplete p st op =>
    intro s pos r h
    simp only [step, Comb.foldlRejectIncomplete, Out.bind_eq_ok] at h
    obtain ⟨x, hx, h⟩ := h
    have := hr _ _ _ _ hx
    cases x with
    | acc v s' q =>
      simp only [Out.bind_eq_ok] at h
      obtain ⟨y, _, h⟩ := h
      exact (hr _ _ _ _ h).later V this
    | rej m q =>
      simp only at h
      split at h
      · simp only [Out.bind_eq_ok] at h
        obtain ⟨y, _, h⟩ := h
        cases h
        exact V.refl _ _
      · cases h; exact this
  | foldlStartWithParser p sp op =>
    intro s pos r h
    simp only [step, Comb.foldlStartWithParser, Out.bind_eq_ok] at h
    obtain ⟨x, hx, h⟩ := h
    have := hr _ _ _ _ hx
    cases x with
    | acc v s' q => exact (hr _ _ _ _ h).later V this
    | rej m q => cases h; exact this
  | foldlRejectIncompleteStartWithParser p sp op =>
    intro s pos r h
    simp only [step, Comb.foldlStartWithParser, Out.bind_eq_ok] at h
    obtain ⟨x, hx, h⟩ := h
    have := hr _ _ _ _ hx
    cases x with
    | acc v s' q => exact (hr _ _ _ _ h).later V this
    | rej m q => cases h; exact this
  | foldrStartWithParser p sp op =>
    intro s pos r h
    simp only [step, Comb.foldrStartWithParser, Out.bind_eq_ok] at h
    obtain ⟨x, hx, h⟩ := h
    have := hr _ _ _ _ hx
    cases x with
    | rej m q => exact hr _ _ _ _ h
    | acc v s' q =>
      simp only [Out.bind_eq_ok] at h
      obtain ⟨y, hy, h⟩ := h
      have h2 := (hr _ _ _ _ hy).later V this
      cases y with
      | rej m q => cases h; exact h2
      | acc st s2 q2 =>
        simp only [Out.bind_eq_ok] at h
        obtain ⟨w, _, h⟩ := h
        cases h
        exact h2
  | ifAccepts p q =>
    intro s pos r h
    simp only [step, Comb.ifAccepts, Out.bind_eq_ok] at h
    obtain ⟨x, hx, h⟩ := h
    have := hr _ _ _ _ hx
    cases x with
    | acc v s' q => exact hr _ _ _ _ h
    | rej m q => cases h; exact this
  | sequence ps =>
    have h98 : V.SGood (Comb.sequence98 E.limSequence (ps.map rec)) := by
      intro s pos r h
      simp only [Comb.sequence98] at h
      split at h
      · exact good_sequence98Loop V _ (hmap ps) s pos (.acc (.seq []) s pos) _ (V.refl s pos) h
      · cases h
    simp only [step]
    cases E.std
    · exact h98
    · exact good_sequence11 V _ (hmap ps)
    · exact good_sequence11 V _ (hmap ps)
  | oneOf ps =>
    have h98 : V.SGood (Comb.oneOf98 E.limOneOf (ps.map rec)) := by
      intro s pos r h
      simp only [Comb.oneOf98] at h
      split at h
      · exact good_oneOf98Loop V s pos _ (hmap ps) (.rej _ pos) _ (V.here s pos) h
      · cases h
    simp only [step]
    cases E.std
    · exact h98
    · exact good_oneOf11 V _ (hmap ps)
    · exact good_oneOf11 V _ (hmap ps)
  | nthOfC n ps => exact good_nthOf V n _ (hmap ps)
  | lastOf ps =>
    simp only [step]
    cases E.std
    · exact good_nthOf98 V _ _ _ (hmap ps)
    · exact good_lastOf11 V _ (hmap ps)
    · exact good_lastOf11 V _ (hmap ps)
  | middleOf p1 p2 p3 =>
    intro s pos r h
    refine good_nthOf V 1 _ ?_ s pos r h
    intro f hf
    simp only [List.mem_cons, List.not_mem_nil, or_false] at hf
    rcases hf with rfl | rfl | rfl
    · exact hr p1
    · exact hr p2
    · exact good_transformErrorMessage V (hr p3) _
  | iterate n p accum =>
    intro s pos r h
    simp only [step, Comb.iterate] at h
    split at h
    · cases h; exact V.refl _ _
    · simp only [Out.bind_eq_ok] at h
      obtain ⟨x, hx, h⟩ := h
      have := hr _ _ _ _ hx
      cases x with
      | acc v s' q => exact (hr _ _ _ _ h).later V this
      | rej m q => cases h; exact this
  | keyword kw v =>
    cases kw with
    | nil => intro s pos r h; cases h; exact V.refl _ _
    | cons c cs =>
      intro s pos r h
      simp only [step, Comb.keywordCons, Out.bind_eq_ok] at h
      obtain ⟨x, hx, h⟩ := h
      have := hr _ _ _ _ hx
      cases x with
      | acc v s' q => exact (hr _ _ _ _ h).later V this
      | rej m q => cases h; exact this
  | oneOfC cs =>
    simp only [step]
    cases E.std
    · simp only
      split
      · exact hr _
      · intro s pos r h; cases h
    · exact hr _
    · exact hr _
  | oneCharExceptC cs =>
    simp only [step]
    cases E.std
    · simp only
      split
      · exact hr _
      · intro s pos r h; cases h
    · exact hr _
    · exact hr _

theorem good_eval (n : Nat) : ∀ p, V.SGood (eval E n p) := by
  induction n with
  | zero => intro p s pos r h; cases h
  | succ n ih => exact good_step V _ ih

/-- Every accepting or rejecting outcome satisfies the invariant. -/
theorem good_run (p : P) : V.SGood (run E p) := by
  intro s pos r h
  obtain ⟨n, hn⟩ := exists_eval E p s pos
  exact good_eval V n p s pos r (hn.trans h)

end PathInv

end Metaparse
