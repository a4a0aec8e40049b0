import Verif.Spec.Instantiations
import Verif.Lemmas.Depth
/-!
# Lemmas about instantiations
-/

namespace Metaparse

variable {I : Type} {E : Env I}

theorem bind_congr' {α β : Type} {a b : Out α} {f g : α → Out β} (h : a = b) (h' : ∀ x, b = .ok x → f x = g x) :
    a.bind f = b.bind g := by
  subst h
  cases a with
  | ok x => exact h' x rfl
  | ill _ => rfl
  | deep => rfl

theorem chain_congr {f : P → Sem I} : ∀ (ps : List P) (s : I) (pos : Pos),
    (∀ before q after vs t u, ps = before ++ q :: after → InSequence E before s pos vs t u → f q t u = run E q t u) →
    chain (ps.map f) s pos = chain (ps.map (run E)) s pos := by
  intro ps
  induction ps with
  | nil => intro _ _ _; rfl
  | cons p ps ih =>
    intro s pos h
    simp only [List.map_cons, chain]
    refine bind_congr' (h [] p ps [] s pos rfl (.nil _ _)) fun r hr => ?_
    cases r with
    | rej m e => rfl
    | acc v t u =>
      simp only
      rw [ih t u fun before q after vs t' u' e hin => h (p :: before) q after (v :: vs) t' u' (by rw [e]; rfl) (.cons hr hin)]

theorem seqSem_congr {fs gs : List (Sem I)} {s : I} {pos : Pos} (hl : fs.length = gs.length)
    (h : chain fs s pos = chain gs s pos) : seqSem E fs s pos = seqSem E gs s pos := by
  by_cases hs : E.SupportsSequence fs.length
  · rw [seqSem_supported hs, seqSem_supported (hl ▸ hs), h]
  · rw [seqSem_unsupported hs, seqSem_unsupported (hl ▸ hs)]

theorem nthOf_congr {k : Int} {fs gs : List (Sem I)} {s : I} {pos : Pos} (hl : fs.length = gs.length)
    (h : chain fs s pos = chain gs s pos) : Comb.nthOf E k fs s pos = Comb.nthOf E k gs s pos := by
  by_cases hs : E.SupportsNth fs.length
  · rcases nthOf_form k hs with ⟨h1, e⟩ | ⟨h1, e⟩ <;> rcases nthOf_form k (hl ▸ hs : E.SupportsNth gs.length) with ⟨h2, e'⟩ | ⟨h2, e'⟩
    · rw [e, e', h]
    · rw [hl] at h1; exact absurd h1 h2
    · rw [hl] at h1; exact absurd h2 h1
    · rw [e, e', hl]
  · rw [nthOf_unsupported k hs, nthOf_unsupported k (hl ▸ hs)]

theorem lastSem_congr {fs gs : List (Sem I)} {s : I} {pos : Pos} (hl : fs.length = gs.length)
    (h : chain fs s pos = chain gs s pos) : lastSem E fs s pos = lastSem E gs s pos := by
  cases fs with
  | nil => cases gs with
    | nil => rfl
    | cons g gs => cases hl
  | cons f fs => cases gs with
    | nil => cases hl
    | cons g gs =>
      rw [lastSem_cons, lastSem_cons]
      rw [hl]
      exact nthOf_congr hl h

theorem oneOfSem_congr {f : P → Sem I} {ps : List P} {s : I} {pos : Pos} (h : ∀ q ∈ ps, f q s pos = run E q s pos) :
    oneOfSem E (ps.map f) s pos = oneOfSem E (ps.map (run E)) s pos := by
  have h98 : ∀ (ps : List P), (∀ q ∈ ps, f q s pos = run E q s pos) → ∀ st,
      Comb.oneOf98Loop s pos (ps.map f) st = Comb.oneOf98Loop s pos (ps.map (run E)) st := by
    intro ps
    induction ps with
    | nil => intro _ _; rfl
    | cons q ps ih =>
      intro h st
      simp only [List.map_cons, Comb.oneOf98Loop]
      rw [h q (List.mem_cons_self ..)]
      exact bind_congr' rfl fun r _ => ih (fun q hq => h q (List.mem_cons_of_mem _ hq)) _
  have h11 : ∀ (ps : List P), (∀ q ∈ ps, f q s pos = run E q s pos) →
      Comb.oneOf11 (ps.map f) s pos = Comb.oneOf11 (ps.map (run E)) s pos := by
    intro ps
    induction ps with
    | nil => intro _; rfl
    | cons q ps ih =>
      intro h
      simp only [List.map_cons, Comb.oneOf11]
      rw [h q (List.mem_cons_self ..), ih fun q hq => h q (List.mem_cons_of_mem _ hq)]
  unfold oneOfSem
  cases E.std with
  | cpp98 =>
    simp only [Comb.oneOf98, List.length_map]
    split
    · exact h98 ps h _
    · rfl
  | cpp11 => exact h11 ps h
  | cpp14 => exact h11 ps h

/-- The outcome is determined by the outcomes of what is called. -/
theorem step_congr {f : P → Sem I} {p : P} {s : I} {pos : Pos}
    (h : ∀ q t u, AppliesTo E p s pos q t u → f q t u = run E q t u) : step E f p s pos = run E p s pos := by
  rw [run_step]
  cases p with
  | oneChar => rfl
  | empty v => rfl
  | fail m => rfl
  | ret v => rfl
  | native i => rfl
  | ref i => exact h _ _ _ (.ref ..)
  | acceptWhen p pred m => exact bind_congr' (h _ _ _ (.acceptWhen ..)) fun _ _ => rfl
  | changeErrorMessage p m => exact bind_congr' (h _ _ _ (.changeErrorMessage ..)) fun _ _ => rfl
  | transformErrorMessage p f => exact bind_congr' (h _ _ _ (.transformErrorMessage ..)) fun _ _ => rfl
  | transformError p k => exact bind_congr' (h _ _ _ (.transformError ..)) fun _ _ => rfl
  | transform p f => exact bind_congr' (h _ _ _ (.transform ..)) fun _ _ => rfl
  | always p v => exact bind_congr' (h _ _ _ (.always ..)) fun _ _ => rfl
  | lookAhead p => exact bind_congr' (h _ _ _ (.lookAhead ..)) fun _ _ => rfl
  | except p v m => exact bind_congr' (h _ _ _ (.except ..)) fun _ _ => rfl
  | optional p d => exact bind_congr' (h _ _ _ (.optional ..)) fun _ _ => rfl
  | if_ p t f => exact bind_congr' (h _ _ _ (.if_ ..)) fun _ _ => rfl
  | failAtFirstCharExpected p => exact bind_congr' (h _ _ _ (.failAtFirstCharExpected ..)) fun _ _ => rfl
  | foldl p st op =>
    refine bind_congr' (h _ _ _ (.foldl ..)) fun r hr => ?_
    cases r with
    | rej m e => rfl
    | acc v t u => exact bind_congr' rfl fun x hx => h _ _ _ (.foldlAgain op hr hx)
  | foldlRejectIncomplete p st op =>
    refine bind_congr' (h _ _ _ (.foldlRejectIncomplete ..)) fun r hr => ?_
    cases r with
    | rej m e => rfl
    | acc v t u => exact bind_congr' rfl fun x hx => h _ _ _ (.foldlRejectIncompleteAgain op hr hx)
  | foldlStartWithParser p sp op =>
    refine bind_congr' (h _ _ _ (.foldlStart ..)) fun r hr => ?_
    cases r with
    | rej m e => rfl
    | acc v t u => exact h _ _ _ (.foldlStartAgain p op hr)
  | foldlRejectIncompleteStartWithParser p sp op =>
    refine bind_congr' (h _ _ _ (.foldlRejectIncompleteStart ..)) fun r hr => ?_
    cases r with
    | rej m e => rfl
    | acc v t u => exact h _ _ _ (.foldlRejectIncompleteStartAgain p op hr)
  | foldrStartWithParser p sp op =>
    refine bind_congr' (h _ _ _ (.foldr ..)) fun r hr => ?_
    cases r with
    | rej m e => exact h _ _ _ (.foldrEnd sp op hr)
    | acc v t u => exact bind_congr' (h _ _ _ (.foldrAgain sp op hr)) fun _ _ => rfl
  | ifAccepts p q =>
    refine bind_congr' (h _ _ _ (.condition ..)) fun r hr => ?_
    cases r with
    | rej m e => rfl
    | acc v t u => exact h _ _ _ (.then_ q hr)
  | sequence ps =>
    refine seqSem_congr (fs := ps.map f) (gs := ps.map (run E)) (by simp) (chain_congr ps s pos ?_)
    rintro before q after vs t u rfl hin
    exact h _ _ _ (.sequence q after hin)
  | oneOf ps => exact oneOfSem_congr (f := f) (ps := ps) fun q hq => h _ _ _ (.oneOf hq ..)
  | nthOfC n ps =>
    refine nthOf_congr (fs := ps.map f) (gs := ps.map (run E)) (by simp) (chain_congr ps s pos ?_)
    rintro before q after vs t u rfl hin
    exact h _ _ _ (.nthOfC n q after hin)
  | lastOf ps =>
    refine lastSem_congr (fs := ps.map f) (gs := ps.map (run E)) (by simp) (chain_congr ps s pos ?_)
    rintro before q after vs t u rfl hin
    exact h _ _ _ (.lastOf q after hin)
  | middleOf p1 p2 p3 =>
    refine nthOf_congr rfl ?_
    refine bind_congr' (h _ _ _ (.middleOf1 ..)) fun r hr => ?_
    cases r with
    | rej m e => rfl
    | acc v t u =>
      refine bind_congr' ?_ fun _ _ => rfl
      refine bind_congr' (h _ _ _ (.middleOf2 p2 p3 hr)) fun r hr' => ?_
      cases r with
      | rej m e => rfl
      | acc v t' u' =>
        refine bind_congr' ?_ fun _ _ => rfl
        refine bind_congr' ?_ fun _ _ => rfl
        exact bind_congr' (h _ _ _ (.middleOf3 p3 hr hr')) fun _ _ => rfl
  | iterate n p accum =>
    simp only [step, Comb.iterate]
    by_cases hn : n = 0
    · rw [if_pos hn, if_pos hn]
    · rw [if_neg hn, if_neg hn]
      refine bind_congr' (h _ _ _ (.iterate p accum s pos hn)) fun r hr => ?_
      cases r with
      | rej m e => rfl
      | acc v t u => exact h _ _ _ (.iterateAgain accum hn hr)
  | keyword kw v =>
    cases kw with
    | nil => rfl
    | cons c cs =>
      refine bind_congr' (h _ _ _ (.keyword ..)) fun r hr => ?_
      cases r with
      | rej m e => rfl
      | acc w t u => exact h _ _ _ (.keywordAgain cs v hr)
  | oneOfC cs =>
    simp only [step]
    cases hstd : E.std with
    | cpp98 =>
      simp only
      split
      · exact h _ _ _ (.oneOfC98 cs s pos hstd)
      · rfl
    | cpp11 => exact h _ _ _ (.oneOfC11 cs s pos hstd)
    | cpp14 => exact h _ _ _ (.oneOfC14 cs s pos hstd)
  | oneCharExceptC cs =>
    simp only [step]
    cases hstd : E.std with
    | cpp98 =>
      simp only
      split
      · exact h _ _ _ (.oneCharExceptC98 cs s pos hstd)
      · rfl
    | cpp11 => exact h _ _ _ (.oneCharExceptC cs s pos (by rw [hstd]; simp))
    | cpp14 => exact h _ _ _ (.oneCharExceptC cs s pos (by rw [hstd]; simp))

/-! ## Counting -/

/-- The parsers that are called and that can be read off from `p`. -/
def P.next (E : Env I) : P → List P
  | .keyword (c :: cs) v => [P.litC c, .keyword cs v]
  | .oneOfC cs => [.oneOf (cs.map P.litC), .acceptWhen .oneChar (anyOfC11 cs) .noneOfTheExpectedCasesFound,
      .acceptWhen .oneChar (anyOfC14 cs) .noneOfTheExpectedCasesFound]
  | .oneCharExceptC cs => [.acceptWhen .oneChar (isNone98 cs) .unexpectedCharacter,
      .acceptWhen .oneChar (isNoneC11 cs) .unexpectedCharacter]
  | .ref i => [E.rules i]
  | p => p.parts

/-- Parsers that occur in the expansion of `keyword`, `one_of_c` and `one_char_except_c`. -/
def P.Plain : P → Prop
  | .oneChar => True
  | .acceptWhen _ _ _ => True
  | .changeErrorMessage _ _ => True
  | .oneOf _ => True
  | .keyword _ _ => True
  | _ => False

/-- `L` has with a parser all that it calls, except for the parsers of the user. -/
def ClosedList (E : Env I) (Q : P → Prop) (L : List P) : Prop :=
  ∀ q ∈ L, Q q ∧ ((∃ i, q = .ref i) ∨ ∀ r ∈ q.next E, r ∈ L)

theorem closedList_append {Q : P → Prop} {L M : List P} (hL : ClosedList E Q L) (hM : ClosedList E Q M) :
    ClosedList E Q (L ++ M) := by
  intro q hq
  rcases List.mem_append.1 hq with hq | hq
  · exact ⟨(hL q hq).1, (hL q hq).2.imp id fun h r hr => List.mem_append_left _ (h r hr)⟩
  · exact ⟨(hM q hq).1, (hM q hq).2.imp id fun h r hr => List.mem_append_right _ (h r hr)⟩

theorem closedList_lists {Q : P → Prop} : ∀ (ps : List P), (∀ q ∈ ps, ∃ L, q ∈ L ∧ ClosedList E Q L) →
    ∃ L, (∀ q ∈ ps, q ∈ L) ∧ ClosedList E Q L := by
  intro ps
  induction ps with
  | nil => intro _; exact ⟨[], by simp, fun q hq => by cases hq⟩
  | cons p ps ih =>
    intro h
    obtain ⟨L, hL, hL'⟩ := h p (List.mem_cons_self ..)
    obtain ⟨M, hM, hM'⟩ := ih fun q hq => h q (List.mem_cons_of_mem _ hq)
    refine ⟨L ++ M, fun q hq => ?_, closedList_append hL' hM'⟩
    rcases List.mem_cons.1 hq with rfl | hq
    · exact List.mem_append_left _ hL
    · exact List.mem_append_right _ (hM q hq)

theorem closedList_step {Q : P → Prop} {p : P} (hp : Q p) (h : ∀ q ∈ p.next E, ∃ L, q ∈ L ∧ ClosedList E Q L) :
    ∃ L, p ∈ L ∧ ClosedList E Q L := by
  obtain ⟨L, hL, hL'⟩ := closedList_lists _ h
  refine ⟨p :: L, List.mem_cons_self .., fun q hq => ?_⟩
  rcases List.mem_cons.1 hq with rfl | hq
  · exact ⟨hp, .inr fun r hr => List.mem_cons_of_mem _ (hL r hr)⟩
  · exact ⟨(hL' q hq).1, (hL' q hq).2.imp id fun h r hr => List.mem_cons_of_mem _ (h r hr)⟩

theorem closedList_exists {Q : P → Prop} (hQ : ∀ q : P, q.Plain → Q q) (p : P) (hp : p.Every Q) :
    ∃ L, p ∈ L ∧ ClosedList E Q L := by
  have one : ∃ L, P.oneChar ∈ L ∧ ClosedList E Q L :=
    closedList_step (hQ _ trivial) fun q hq => by cases hq
  have aw : ∀ f m, ∃ L, P.acceptWhen .oneChar f m ∈ L ∧ ClosedList E Q L := fun f m =>
    closedList_step (hQ _ trivial) fun q hq => by
      cases List.mem_singleton.1 (show q ∈ [P.oneChar] from hq); exact one
  have lit : ∀ c, ∃ L, P.litC c ∈ L ∧ ClosedList E Q L := fun c =>
    closedList_step (p := P.litC c) (hQ _ trivial) fun q hq => by
      cases List.mem_singleton.1 (show q ∈ [P.changeErrorMessage .oneChar (.literalExpected c)] from hq)
      exact closedList_step (hQ _ trivial) fun q hq => by
        cases List.mem_singleton.1 (show q ∈ [P.oneChar] from hq); exact one
  induction p using P.partsInduction with
  | _ p ih =>
  have hparts : ∀ q ∈ p.parts, ∃ L, q ∈ L ∧ ClosedList E Q L := fun q hq => ih q hq (hp.part hq)
  have hh := hp.here
  cases p with
  | keyword kw v =>
    have key : ∀ kw : List Chr, ∃ L, P.keyword kw v ∈ L ∧ ClosedList E Q L := by
      intro kw
      induction kw with
      | nil => exact closedList_step (hQ _ trivial) fun q hq => by cases hq
      | cons c cs ih =>
        refine closedList_step (hQ _ trivial) fun q hq => ?_
        simp only [P.next, List.mem_cons, List.not_mem_nil, or_false] at hq
        rcases hq with rfl | rfl
        · exact lit c
        · exact ih
    exact key kw
  | oneOfC cs =>
    refine closedList_step hh fun q hq => ?_
    simp only [P.next, List.mem_cons, List.not_mem_nil, or_false] at hq
    rcases hq with rfl | rfl | rfl
    · refine closedList_step (hQ _ trivial) fun q hq => ?_
      obtain ⟨c, _, rfl⟩ := List.mem_map.1 (show q ∈ cs.map P.litC from hq)
      exact lit c
    · exact aw ..
    · exact aw ..
  | oneCharExceptC cs =>
    refine closedList_step hh fun q hq => ?_
    simp only [P.next, List.mem_cons, List.not_mem_nil, or_false] at hq
    rcases hq with rfl | rfl <;> exact aw ..
  | ref i => exact ⟨[.ref i], List.mem_cons_self .., fun q hq => by
      cases List.mem_singleton.1 hq; exact ⟨hh, .inl ⟨i, rfl⟩⟩⟩
  | _ => exact closedList_step hh hparts

/-- Finitely many parsers, with all that can be read off from them, when there are finitely many parsers of the user. -/
theorem sub_exists {Q : P → Prop} (hQ : ∀ q : P, q.Plain → Q q) (hR : ∀ i, (E.rules i).Every Q) {N : Nat}
    (hN : ∀ i, ∃ j, j < N ∧ E.rules i = E.rules j) (p : P) (hp : p.Every Q) :
    ∃ L : List P, p ∈ L ∧ ∀ q ∈ L, Q q ∧ ∀ r ∈ q.next E, r ∈ L := by
  obtain ⟨L, hL, hL'⟩ := closedList_exists (E := E) hQ p hp
  obtain ⟨M, hM, hM'⟩ := closedList_lists (E := E) (Q := Q) ((List.range N).map E.rules) (by
    intro q hq
    obtain ⟨i, _, rfl⟩ := List.mem_map.1 hq
    exact closedList_exists hQ _ (hR i))
  refine ⟨L ++ M, List.mem_append_left _ hL, fun q hq => ?_⟩
  obtain ⟨h, h'⟩ := closedList_append hL' hM' q hq
  refine ⟨h, ?_⟩
  rcases h' with ⟨i, rfl⟩ | h'
  · intro r hr
    cases List.mem_singleton.1 (show r ∈ [E.rules i] from hr)
    obtain ⟨j, hj, e⟩ := hN i
    rw [e]
    exact List.mem_append_right _ (hM _ (List.mem_map.2 ⟨j, List.mem_range.2 hj, rfl⟩))
  · exact h'

theorem calls_stateless {p q : P} {s t : I} {pos u : Pos} (hp : p.Stateless) (h : AppliesTo E p s pos q t u) :
    q ∈ p.next E ∨ q = p := by
  cases h <;> first | exact hp.elim | simp [P.next, P.parts, *]

/-! ## On texts -/

section

variable {E : Env (List Chr)}

/-- `t` at `u` is what is left of `s` at `pos` after some characters. -/
def IsRest (s : List Chr) (pos : Pos) (t : List Chr) (u : Pos) : Prop := ∃ c, s = c ++ t ∧ u = moveOver pos c

theorem IsRest.refl (s : List Chr) (pos : Pos) : IsRest s pos s pos := ⟨[], rfl, rfl⟩

theorem IsRest.trans {s t r : List Chr} {pos u w : Pos} (h : IsRest s pos t u) (h' : IsRest t u r w) :
    IsRest s pos r w := by
  obtain ⟨c, rfl, rfl⟩ := h
  obtain ⟨d, rfl, rfl⟩ := h'
  exact ⟨c ++ d, by simp, by rw [moveOver_append]⟩

theorem inSequence_rest (hE : E.Honest) {ps : List P} {s t : List Chr} {pos u : Pos} {vs : List Val}
    (h : InSequence E ps s pos vs t u) : IsRest s pos t u := by
  induction h with
  | nil => exact .refl _ _
  | cons ha _ ih => exact IsRest.trans (Accepts.honest hE ha) ih

theorem calls_rest (hE : E.Honest) {p q : P} {s t : List Chr} {pos u : Pos} (h : AppliesTo E p s pos q t u) :
    IsRest s pos t u := by
  cases h with
  | foldlAgain _ ha _ => exact Accepts.honest hE ha
  | foldlRejectIncompleteAgain _ ha _ => exact Accepts.honest hE ha
  | foldlStartAgain _ _ ha => exact Accepts.honest hE ha
  | foldlRejectIncompleteStartAgain _ _ ha => exact Accepts.honest hE ha
  | foldrAgain _ _ ha => exact Accepts.honest hE ha
  | sequence _ _ hi => exact inSequence_rest hE hi
  | nthOfC _ _ _ hi => exact inSequence_rest hE hi
  | lastOf _ _ hi => exact inSequence_rest hE hi
  | middleOf2 _ _ ha => exact Accepts.honest hE ha
  | middleOf3 _ ha ha' => exact IsRest.trans (Accepts.honest hE ha) (Accepts.honest hE ha')
  | iterateAgain _ _ ha => exact Accepts.honest hE ha
  | keywordAgain _ _ ha => exact Accepts.honest hE ha
  | _ => exact .refl _ _

/-- One instantiation. -/
abbrev Node := P × List Chr × Pos

/-- `D` has the instantiations that `q` at `t` goes through with changing state; everything else that they call is
in `A`. -/
def CoversNodes (E : Env (List Chr)) (A : List P) (q : P) (t : List Chr) (u : Pos) (D : List Node) : Prop :=
  (∀ r t' u', AppliesTo E q t u r t' u' → r ∈ A ∨ (r, t', u') ∈ D) ∧
  ∀ x ∈ D, IsRest t u x.2.1 x.2.2 ∧ ∀ r t' u', AppliesTo E x.1 x.2.1 x.2.2 r t' u' → r ∈ A ∨ (r, t', u') ∈ D

theorem CoversNodes.cons (_hE : E.Honest) {A : List P} {q r : P} {t t' : List Chr} {u u' : Pos} {D : List Node}
    (hc : ∀ r' t'' u'', AppliesTo E q t u r' t'' u'' → r' ∈ A ∨ (r', t'', u'') = (r, t', u')) (hr : IsRest t u t' u')
    (h : CoversNodes E A r t' u' D) : CoversNodes E A q t u ((r, t', u') :: D) := by
  refine ⟨fun r' t'' u'' h' => (hc r' t'' u'' h').imp id fun e => by rw [e]; exact List.mem_cons_self .., fun x hx => ?_⟩
  rcases List.mem_cons.1 hx with rfl | hx
  · exact ⟨hr, fun r' t'' u'' h' => (h.1 r' t'' u'' h').imp id fun h => List.mem_cons_of_mem _ h⟩
  · exact ⟨hr.trans (h.2 x hx).1, fun r' t'' u'' h' => ((h.2 x hx).2 r' t'' u'' h').imp id fun h =>
      List.mem_cons_of_mem _ h⟩

theorem CoversNodes.nil {A : List P} {q : P} {t : List Chr} {u : Pos}
    (hc : ∀ r t' u', AppliesTo E q t u r t' u' → r ∈ A) : CoversNodes E A q t u [] :=
  ⟨fun r t' u' h => .inl (hc r t' u' h), fun x hx => by cases hx⟩

/-- A fold of a parser that consumes goes through at most as many states as there are characters. -/
theorem covers_fold (hE : E.Honest) {A : List P} {p : P} (hpA : p ∈ A) (hp : ¬ Nullable E p) (F : Val → P)
    (op : Val → Val → Val)
    (hF : ∀ st t u r t' u', AppliesTo E (F st) t u r t' u' →
      r = p ∨ ∃ v x, Accepts E p t u v t' u' ∧ st.force = .ok x ∧ r = F (op x v)) :
    ∀ (n : Nat) (t : List Chr), t.length < n → ∀ st u, ∃ D, D.length ≤ t.length ∧ CoversNodes E A (F st) t u D := by
  intro n
  induction n with
  | zero => intro t h; omega
  | succ n ih =>
    intro t ht st u
    by_cases h : ∃ v t' u' x, Accepts E p t u v t' u' ∧ st.force = .ok x
    · obtain ⟨v, t', u', x, ha, hx⟩ := h
      have hlen : t'.length < t.length := by
        rcases shorter_or_nullable hE ha with h | ⟨_, h⟩
        · exact h
        · exact absurd h hp
      obtain ⟨D, hD, hc⟩ := ih t' (by omega) (op x v) u'
      refine ⟨_, ?_, hc.cons hE (fun r t'' u'' h => ?_) (Accepts.honest hE ha)⟩
      · simp only [List.length_cons]; omega
      · rcases hF _ _ _ _ _ _ h with rfl | ⟨v', x', ha', hx', rfl⟩
        · exact .inl hpA
        · have e := ha.symm.trans ha'
          cases e
          cases hx.symm.trans hx'
          exact .inr rfl
    · refine ⟨[], by simp, CoversNodes.nil fun r t'' u'' h' => ?_⟩
      rcases hF _ _ _ _ _ _ h' with rfl | ⟨v', x', ha', hx', rfl⟩
      · exact hpA
      · exact absurd ⟨_, _, _, _, ha', hx'⟩ h

theorem calls_iterate {n : Int} {p q : P} {a : List Val} {t t' : List Chr} {u u' : Pos}
    (h : AppliesTo E (.iterate n p a) t u q t' u') :
    n ≠ 0 ∧ (q = p ∨ ∃ v, Accepts E p t u v t' u' ∧ q = .iterate (n - 1) p (a ++ [v])) := by
  cases h with
  | iterate _ _ _ _ h => exact ⟨h, .inl rfl⟩
  | iterateAgain _ h ha => exact ⟨h, .inr ⟨_, ha, rfl⟩⟩

theorem covers_iterate_pos (hE : E.Honest) {A : List P} {p : P} (hpA : p ∈ A) :
    ∀ (k : Nat) (t : List Chr) a u, ∃ D, D.length ≤ k ∧ CoversNodes E A (.iterate (k : Int) p a) t u D := by
  intro k
  induction k with
  | zero => intro t a u; exact ⟨[], by simp, CoversNodes.nil fun r t' u' h => absurd rfl (calls_iterate h).1⟩
  | succ k ih =>
    intro t a u
    by_cases h : ∃ v t' u', Accepts E p t u v t' u'
    · obtain ⟨v, t', u', ha⟩ := h
      obtain ⟨D, hD, hc⟩ := ih t' (a ++ [v]) u'
      refine ⟨_, ?_, hc.cons hE (fun r t'' u'' h => ?_) (Accepts.honest hE ha)⟩
      · simp only [List.length_cons]; omega
      · rcases (calls_iterate h).2 with rfl | ⟨v', ha', rfl⟩
        · exact .inl hpA
        · cases ha.symm.trans ha'
          rw [show ((k + 1 : Nat) : Int) - 1 = (k : Int) by omega]
          exact .inr rfl
    · refine ⟨[], by simp, CoversNodes.nil fun r t'' u'' h' => ?_⟩
      rcases (calls_iterate h').2 with rfl | ⟨v', ha', rfl⟩
      · exact hpA
      · exact absurd ⟨_, _, _, ha'⟩ h

theorem covers_iterate_neg (hE : E.Honest) {A : List P} {p : P} (hpA : p ∈ A) (hp : ¬ Nullable E p) :
    ∀ (m : Nat) (t : List Chr), t.length < m → ∀ (n : Int) a u,
      ∃ D, D.length ≤ t.length ∧ CoversNodes E A (.iterate n p a) t u D := by
  intro m
  induction m with
  | zero => intro t h; omega
  | succ m ih =>
    intro t ht n a u
    by_cases h : ∃ v t' u', Accepts E p t u v t' u'
    · obtain ⟨v, t', u', ha⟩ := h
      have hlen : t'.length < t.length := by
        rcases shorter_or_nullable hE ha with h | ⟨_, h⟩
        · exact h
        · exact absurd h hp
      obtain ⟨D, hD, hc⟩ := ih t' (by omega) (n - 1) (a ++ [v]) u'
      refine ⟨_, ?_, hc.cons hE (fun r t'' u'' h => ?_) (Accepts.honest hE ha)⟩
      · simp only [List.length_cons]; omega
      · rcases (calls_iterate h).2 with rfl | ⟨v', ha', rfl⟩
        · exact .inl hpA
        · cases ha.symm.trans ha'
          exact .inr rfl
    · refine ⟨[], by simp, CoversNodes.nil fun r t'' u'' h' => ?_⟩
      rcases (calls_iterate h').2 with rfl | ⟨v', ha', rfl⟩
      · exact hpA
      · exact absurd ⟨_, _, _, ha'⟩ h

theorem covers_start (hE : E.Honest) {A : List P} {q sp : P} (hsp : sp ∈ A) (F : Val → P) {t : List Chr} {u : Pos}
    (hq : ∀ r t' u', AppliesTo E q t u r t' u' → r = sp ∨ ∃ v, Accepts E sp t u v t' u' ∧ r = F v)
    (hF : ∀ (t : List Chr) st u, ∃ D, D.length ≤ t.length ∧ CoversNodes E A (F st) t u D) :
    ∃ D, D.length ≤ t.length + 1 ∧ CoversNodes E A q t u D := by
  by_cases h : ∃ v t' u', Accepts E sp t u v t' u'
  · obtain ⟨v, t', u', ha⟩ := h
    have hlen : t'.length ≤ t.length := by
      rcases shorter_or_nullable hE ha with h | ⟨rfl, _⟩ <;> omega
    obtain ⟨D, hD, hc⟩ := hF t' v u'
    refine ⟨_, ?_, hc.cons hE (fun r t'' u'' h => ?_) (Accepts.honest hE ha)⟩
    · simp only [List.length_cons]; omega
    · rcases hq _ _ _ h with rfl | ⟨v', ha', rfl⟩
      · exact .inl hsp
      · cases ha.symm.trans ha'
        exact .inr rfl
  · refine ⟨[], by simp, CoversNodes.nil fun r t'' u'' h' => ?_⟩
    rcases hq _ _ _ h' with rfl | ⟨v', ha', rfl⟩
    · exact hsp
    · exact absurd ⟨_, _, _, ha'⟩ h

/-- What a parser goes through with changing state. -/
theorem covers_exists (hE : E.Honest) {A : List P} {q : P} (hq : q.RepeatsConsume E) (hA : q ∈ A)
    (hA' : ∀ r ∈ q.next E, r ∈ A) (t : List Chr) (u : Pos) :
    ∃ D, D.length ≤ t.length + q.nesting ∧ CoversNodes E A q t u D := by
  have plain : q.Stateless → ∃ D, D.length ≤ t.length + q.nesting ∧ CoversNodes E A q t u D := fun hs =>
    ⟨[], by simp, CoversNodes.nil fun r t' u' h => by
      rcases calls_stateless hs h with h | rfl
      · exact hA' r h
      · exact hA⟩
  have fold : ∀ {p : P} (op : Val → Val → Val), p ∈ A → ¬ Nullable E p → ∀ (t : List Chr) st u, ∃ D, D.length ≤ t.length ∧
      CoversNodes E A (.foldl p st op) t u D := fun {p} op hp hn t =>
    covers_fold hE hp hn (fun st => .foldl p st op) op (by
      intro st t u r t' u' h
      cases h with
      | foldl => exact .inl rfl
      | foldlAgain _ ha hx => exact .inr ⟨_, _, ha, hx, rfl⟩) _ t (Nat.lt_succ_self _)
  have foldRI : ∀ {p : P} (op : Val → Val → Val), p ∈ A → ¬ Nullable E p → ∀ (t : List Chr) st u, ∃ D,
      D.length ≤ t.length ∧ CoversNodes E A (.foldlRejectIncomplete p st op) t u D := fun {p} op hp hn t =>
    covers_fold hE hp hn (fun st => .foldlRejectIncomplete p st op) op (by
      intro st t u r t' u' h
      cases h with
      | foldlRejectIncomplete => exact .inl rfl
      | foldlRejectIncompleteAgain _ ha hx => exact .inr ⟨_, _, ha, hx, rfl⟩) _ t (Nat.lt_succ_self _)
  cases q with
  | foldl p st op =>
    obtain ⟨D, h, h'⟩ := fold op (hA' p (by simp [P.next, P.parts])) hq t st u
    exact ⟨D, by omega, h'⟩
  | foldlRejectIncomplete p st op =>
    obtain ⟨D, h, h'⟩ := foldRI op (hA' p (by simp [P.next, P.parts])) hq t st u
    exact ⟨D, by omega, h'⟩
  | foldlStartWithParser p sp op =>
    obtain ⟨D, h, h'⟩ := covers_start hE (q := .foldlStartWithParser p sp op) (hA' sp (by simp [P.next, P.parts]))
      (fun st => .foldl p st op) (by
        intro r t' u' h
        cases h with
        | foldlStart => exact .inl rfl
        | foldlStartAgain _ _ ha => exact .inr ⟨_, ha, rfl⟩) (fold op (hA' p (by simp [P.next, P.parts])) hq)
    exact ⟨D, by simp only [P.nesting]; omega, h'⟩
  | foldlRejectIncompleteStartWithParser p sp op =>
    obtain ⟨D, h, h'⟩ := covers_start hE (q := .foldlRejectIncompleteStartWithParser p sp op)
      (hA' sp (by simp [P.next, P.parts])) (fun st => .foldlRejectIncomplete p st op) (by
        intro r t' u' h
        cases h with
        | foldlRejectIncompleteStart => exact .inl rfl
        | foldlRejectIncompleteStartAgain _ _ ha => exact .inr ⟨_, ha, rfl⟩)
      (foldRI op (hA' p (by simp [P.next, P.parts])) hq)
    exact ⟨D, by simp only [P.nesting]; omega, h'⟩
  | iterate n p a =>
    by_cases hn : 0 ≤ n
    · obtain ⟨k, rfl⟩ := Int.eq_ofNat_of_zero_le hn
      obtain ⟨D, h, h'⟩ := covers_iterate_pos hE (hA' p (by simp [P.next, P.parts])) k t a u
      exact ⟨D, by simp only [P.nesting, Int.toNat_natCast]; omega, h'⟩
    · obtain ⟨D, h, h'⟩ := covers_iterate_neg hE (hA' p (by simp [P.next, P.parts])) (hq (by omega)) _ t
        (Nat.lt_succ_self _) n a u
      exact ⟨D, by omega, h'⟩
  | _ => exact plain trivial

theorem length_flatMap_le {α β : Type} (f : α → List β) (k : Nat) : ∀ (l : List α), (∀ a ∈ l, (f a).length ≤ k) →
    (l.flatMap f).length ≤ l.length * k := by
  intro l
  induction l with
  | nil => intro _; simp
  | cons a l ih =>
    intro h
    have h1 := h a (List.mem_cons_self ..)
    have h2 := ih fun b hb => h b (List.mem_cons_of_mem _ hb)
    simp only [List.flatMap_cons, List.length_append, List.length_cons, Nat.add_mul, Nat.one_mul]
    omega

/-- Counting: at most `k` instantiations with changing state for each parser and each rest of the text. -/
theorem nodes_bound (hE : E.Honest) {A : List P} {p : P} (hp : p ∈ A) (s : List Chr) (pos : Pos) (k : Nat)
    (hA : ∀ q ∈ A, ∀ t u, IsRest s pos t u → ∃ D, D.length ≤ k ∧ CoversNodes E A q t u D) :
    ∃ L : List Node, L.length ≤ A.length * ((s.length + 1) * (k + 1)) ∧
      ∀ q t u, Instantiates E p s pos q t u → (q, t, u) ∈ L := by
  have hch : ∀ x : P × Nat, ∃ D : List Node, x.1 ∈ A → D.length ≤ k ∧
      CoversNodes E A x.1 (s.drop x.2) (moveOver pos (s.take x.2)) D := by
    rintro ⟨q, i⟩
    by_cases hq : q ∈ A
    · obtain ⟨D, h⟩ := hA q hq (s.drop i) (moveOver pos (s.take i)) ⟨s.take i, (List.take_append_drop ..).symm, rfl⟩
      exact ⟨D, fun _ => h⟩
    · exact ⟨[], fun h => absurd h hq⟩
  obtain ⟨D, hD⟩ := Classical.axiomOfChoice hch
  let L : List Node := A.flatMap fun q => (List.range (s.length + 1)).flatMap fun i =>
    (q, s.drop i, moveOver pos (s.take i)) :: D (q, i)
  have index : ∀ {t u}, IsRest s pos t u → ∃ i, i < s.length + 1 ∧ t = s.drop i ∧ u = moveOver pos (s.take i) := by
    rintro t u ⟨c, rfl, rfl⟩
    exact ⟨c.length, by simp; omega, by simp, by simp⟩
  have mem1 : ∀ {q t u}, q ∈ A → IsRest s pos t u → (q, t, u) ∈ L := by
    intro q t u hq hr
    obtain ⟨i, hi, rfl, rfl⟩ := index hr
    exact List.mem_flatMap.2 ⟨q, hq, List.mem_flatMap.2 ⟨i, List.mem_range.2 hi, List.mem_cons_self ..⟩⟩
  have mem2 : ∀ {q i x}, q ∈ A → i < s.length + 1 → x ∈ D (q, i) → x ∈ L := by
    intro q i x hq hi hx
    exact List.mem_flatMap.2 ⟨q, hq, List.mem_flatMap.2 ⟨i, List.mem_range.2 hi, List.mem_cons_of_mem _ hx⟩⟩
  refine ⟨L, ?_, ?_⟩
  · refine length_flatMap_le _ _ _ fun q hq => ?_
    refine Nat.le_trans (length_flatMap_le _ (k + 1) _ fun i _ => ?_) (by simp)
    simp only [List.length_cons]
    have := (hD (q, i) hq).1
    omega
  · intro q t u h
    suffices h : IsRest s pos t u ∧ (q ∈ A ∨ ∃ q0 i, q0 ∈ A ∧ i < s.length + 1 ∧ (q, t, u) ∈ D (q0, i)) by
      rcases h.2 with hq | ⟨q0, i, hq, hi, hx⟩
      · exact mem1 hq h.1
      · exact mem2 hq hi hx
    induction h with
    | self => exact ⟨.refl _ _, .inl hp⟩
    | call _ hc ih =>
      refine ⟨ih.1.trans (calls_rest hE hc), ?_⟩
      rcases ih.2 with hq | ⟨q0, i, hq, hi, hx⟩
      · obtain ⟨i, hi, rfl, rfl⟩ := index ih.1
        rcases (hD (_, i) hq).2.1 _ _ _ hc with h | h
        · exact .inl h
        · exact .inr ⟨_, i, hq, hi, h⟩
      · rcases ((hD (q0, i) hq).2.2 _ hx).2 _ _ _ hc with h | h
        · exact .inl h
        · exact .inr ⟨_, i, hq, hi, h⟩

theorem nesting_common : ∀ A : List P, ∃ k, ∀ q ∈ A, q.nesting ≤ k := by
  intro A
  induction A with
  | nil => exact ⟨0, fun q hq => by cases hq⟩
  | cons p A ih =>
    obtain ⟨k, hk⟩ := ih
    refine ⟨p.nesting + k, fun q hq => ?_⟩
    rcases List.mem_cons.1 hq with rfl | hq
    · omega
    · have := hk q hq; omega

end

end Metaparse
