import Verif.Lemmas.Terminate
/-!
# How deep applying a parser nests
-/

namespace Metaparse

/-- A bound on how deep the parts of a parser are nested in it. -/
def P.nesting : P → Nat
  | .oneChar => 1
  | .empty _ => 1
  | .fail _ => 1
  | .ret _ => 1
  | .acceptWhen p _ _ => p.nesting + 1
  | .changeErrorMessage p _ => p.nesting + 1
  | .transformErrorMessage p _ => p.nesting + 1
  | .transformError p _ => p.nesting + 1
  | .transform p _ => p.nesting + 1
  | .always p _ => p.nesting + 1
  | .lookAhead p => p.nesting + 1
  | .except p _ _ => p.nesting + 1
  | .optional p _ => p.nesting + 1
  | .if_ p _ _ => p.nesting + 1
  | .failAtFirstCharExpected p => p.nesting + 1
  | .foldl p _ _ => p.nesting + 1
  | .foldlRejectIncomplete p _ _ => p.nesting + 1
  | .foldlStartWithParser p sp _ => p.nesting + sp.nesting + 2
  | .foldlRejectIncompleteStartWithParser p sp _ => p.nesting + sp.nesting + 2
  | .foldrStartWithParser p sp _ => p.nesting + sp.nesting + 1
  | .ifAccepts p q => p.nesting + q.nesting + 1
  | .sequence ps => sum ps + 1
  | .oneOf ps => sum ps + 1
  | .nthOfC _ ps => sum ps + 1
  | .lastOf ps => sum ps + 1
  | .middleOf p1 p2 p3 => p1.nesting + p2.nesting + p3.nesting + 1
  | .iterate n p _ => p.nesting + n.toNat + 1
  | .keyword kw _ => kw.length + 4
  | .oneOfC _ => 5
  | .oneCharExceptC _ => 5
  | .ref _ => 1
  | .native _ => 1
where
  /-- Of a list. -/
  sum : List P → Nat
    | [] => 0
    | p :: ps => p.nesting + sum ps

theorem P.nesting_sum {q : P} : ∀ {ps : List P}, q ∈ ps → q.nesting ≤ P.nesting.sum ps := by
  intro ps
  induction ps with
  | nil => intro h; cases h
  | cons p ps ih =>
    intro h
    simp only [P.nesting.sum]
    rcases List.mem_cons.1 h with rfl | h
    · omega
    · have := ih h; omega

theorem P.nesting_part {p q : P} (hq : q ∈ p.parts) : q.nesting < p.nesting := by
  cases p with
  | sequence ps => have := P.nesting_sum hq; simp only [P.nesting]; simp only [P.parts] at this; omega
  | oneOf ps => have := P.nesting_sum hq; simp only [P.nesting]; simp only [P.parts] at this; omega
  | nthOfC n ps => have := P.nesting_sum hq; simp only [P.nesting]; simp only [P.parts] at this; omega
  | lastOf ps => have := P.nesting_sum hq; simp only [P.nesting]; simp only [P.parts] at this; omega
  | _ =>
      simp only [P.parts, List.mem_cons, List.not_mem_nil, or_false] at hq <;>
        rcases hq with rfl | rfl | rfl <;> simp only [P.nesting] <;> omega

theorem P.nesting_pos (p : P) : 0 < p.nesting := by
  cases p <;> simp only [P.nesting] <;> omega

variable {E : Env (List Chr)}

/-- Applying `p` to `s` needs at most the depth `n`, at every position. -/
def Fits (E : Env (List Chr)) (n : Nat) (p : P) (s : List Chr) : Prop := ∀ pos, eval E n p s pos ≠ .deep

theorem eval_mono {I : Type} {E : Env I} {p : P} {s : I} {pos : Pos} {n m : Nat} (h : eval E n p s pos ≠ .deep)
    (hm : n ≤ m) : eval E m p s pos = eval E n p s pos := by
  obtain ⟨k, rfl⟩ : ∃ k, m = n + k := ⟨m - n, by omega⟩
  induction k with
  | zero => rfl
  | succ k ih =>
    have e := ih (by omega)
    rcases eval_chain E (n + k) p s pos with h' | h'
    · rw [e] at h'; exact absurd h' h
    · rw [← e, h']; rfl

theorem Fits.mono {p : P} {s : List Chr} {n m : Nat} (h : Fits E n p s) (hm : n ≤ m) : Fits E m p s := by
  intro pos
  rw [eval_mono (h pos) hm]
  exact h pos

theorem shorter_eval (hE : E.Honest) {n : Nat} {p : P} {s : List Chr} {pos : Pos} {v : Val}
    {s' : List Chr} {pos' : Pos} (h : eval E n p s pos = .ok (.acc v s' pos')) :
    s'.length < s.length ∨ (s' = s ∧ Nullable E p) :=
  shorter_or_nullable hE (run_eq_of_eval h (by simp))

theorem eval_acceptWhen_oneChar (f : Val → Out Bool) (m : Msg) (n : Nat) (s : List Chr) (pos : Pos) :
    eval E (n + 2) (.acceptWhen .oneChar f m) s pos = run E (.acceptWhen .oneChar f m) s pos := by
  rw [run_step]
  show Comb.acceptWhen (eval E (n + 1) .oneChar) f m s pos = Comb.acceptWhen (run E .oneChar) f m s pos
  have : run E .oneChar = eval E (n + 1) .oneChar := by
    funext s pos; rw [run_step]; rfl
  rw [this]

theorem eval_litC (c : Chr) (n : Nat) (s : List Chr) (pos : Pos) :
    eval E (n + 3) (P.litC c) s pos = run E (P.litC c) s pos := by
  rw [run_step]
  show Comb.acceptWhen (Comb.changeErrorMessage (eval E (n + 1) .oneChar) _) _ _ s pos
    = Comb.acceptWhen (run E (.changeErrorMessage .oneChar (.literalExpected c))) _ _ s pos
  have h : run E .oneChar = eval E (n + 1) .oneChar := by
    funext s pos; rw [run_step]; rfl
  have : run E (.changeErrorMessage .oneChar (.literalExpected c))
      = Comb.changeErrorMessage (eval E (n + 1) .oneChar) (.literalExpected c) := by
    funext s pos; rw [run_step, ← h]; rfl
  rw [this]

theorem fits_keyword (hE : E.OnText) (v : Val) : ∀ (kw s : List Chr), Fits E (kw.length + 4) (.keyword kw v) s := by
  intro kw
  induction kw with
  | nil => intro s pos; simp [eval, step, Comb.ret]
  | cons c kw ih =>
    intro s pos
    show Comb.keywordCons (eval E (kw.length + 4) (P.litC c)) (eval E (kw.length + 4) (.keyword kw v)) s pos ≠ .deep
    refine Out.bind_ne_deep ?_ ?_
    · have := eval_litC (E := E) c (kw.length + 1) s pos
      intro h
      exact (charParser_litC hE c).fin s pos (this.symm.trans h)
    · intro r _
      cases r with
      | acc v s' q => exact ih s' q
      | rej m q => simp

theorem fits_oneOfC (hT : E.OnText) (cs s : List Chr) : Fits E 5 (.oneOfC cs) s := by
  intro pos
  by_cases hlim : E.std = .cpp98 → cs.length < E.limOneOf
  · have h := (C28_one_of_c hT cs hlim).fin s pos
    rw [run_step] at h
    intro h'
    apply h
    rw [← h']
    cases hstd : E.std with
    | cpp98 =>
      simp only [eval, step, hstd, if_pos (hlim hstd)]
      rw [run_step]
      simp only [step, hstd]
      congr 1
      simp only [List.map_map]
      refine List.map_congr_left fun c _ => ?_
      funext s pos
      exact (eval_litC c 0 s pos).symm
    | cpp11 =>
      simp only [eval, step, hstd]
      exact (eval_acceptWhen_oneChar _ _ 2 s pos).symm
    | cpp14 =>
      simp only [eval, step, hstd]
      exact (eval_acceptWhen_oneChar _ _ 2 s pos).symm
  · simp only [Classical.not_imp] at hlim
    simp [eval, step, hlim.1, hlim.2]

theorem fits_oneCharExceptC (hT : E.OnText) (cs s : List Chr) : Fits E 5 (.oneCharExceptC cs) s := by
  intro pos
  by_cases hlim : E.std = .cpp98 → cs.length < E.limOneCharExcept
  · have h := (C28_one_char_except hT cs hlim).fin s pos
    rw [run_step] at h
    intro h'
    apply h
    rw [← h']
    cases hstd : E.std with
    | cpp98 =>
      simp only [eval, step, hstd, if_pos (hlim hstd)]
      exact (eval_acceptWhen_oneChar _ _ 2 s pos).symm
    | cpp11 =>
      simp only [eval, step, hstd]
      exact (eval_acceptWhen_oneChar _ _ 2 s pos).symm
    | cpp14 =>
      simp only [eval, step, hstd]
      exact (eval_acceptWhen_oneChar _ _ 2 s pos).symm
  · simp only [Classical.not_imp] at hlim
    simp [eval, step, hlim.1, hlim.2]

/-- A list of parsers applied one after the other. -/
theorem fits_chain (hE : E.Honest) {s : List Chr} {n : Nat} (all : List P)
    (hshort : ∀ q ∈ all, ∀ t : List Chr, t.length < s.length → Fits E n q t) :
    ∀ (before ps : List P), all = before ++ ps → (∀ q ∈ before, Nullable E q) →
      (∀ b q a, all = b ++ q :: a → (∀ r ∈ b, Nullable E r) → Fits E n q s) →
      ∀ pos, chain (ps.map (eval E n)) s pos ≠ .deep := by
  have short : ∀ (ps : List P), (∀ q ∈ ps, q ∈ all) → ∀ (t : List Chr), t.length < s.length →
      ∀ pos, chain (ps.map (eval E n)) t pos ≠ .deep := by
    intro ps
    induction ps with
    | nil => intro _ t _ pos; simp [chain]
    | cons q ps ih =>
      intro hmem t ht pos
      refine Out.bind_ne_deep (hshort q (hmem q (List.mem_cons_self ..)) t ht pos) ?_
      intro r hr
      cases r with
      | rej m e => simp
      | acc v t' e =>
        refine Out.bind_ne_deep (ih (fun q hq => hmem q (List.mem_cons_of_mem _ hq)) t' ?_ e)
          fun _ _ => by simp
        rcases shorter_eval hE hr with h | ⟨rfl, _⟩ <;> omega
  intro before ps
  induction ps generalizing before with
  | nil => intro _ _ _ pos; simp [chain]
  | cons q ps ih =>
    intro hall hb hfin pos
    refine Out.bind_ne_deep (hfin before q ps hall hb pos) ?_
    intro r hr
    cases r with
    | rej m e => simp
    | acc v t e =>
      rcases shorter_eval hE hr with h | ⟨rfl, hn⟩
      · refine Out.bind_ne_deep (short ps (fun r hr => ?_) t h e) fun _ _ => by simp
        rw [hall]; simp [hr]
      · refine Out.bind_ne_deep (ih (before ++ [q]) (by simp [hall]) ?_ hfin e) fun _ _ => by simp
        intro r hr
        rcases List.mem_append.1 hr with hr | hr
        · exact hb r hr
        · rw [List.mem_singleton.1 hr]; exact hn

/-- A parser fits in the depth of its own nesting and that of what it may call at the start. -/
theorem fits_parts (hE : E.Honest) (hU : E.UserFinishes) (s : List Chr) {M K : Nat} (hMK : M < K)
    (hshort : ∀ t : List Chr, t.length < s.length → ∀ p : P, p.Sound E → Fits E (p.nesting + M) p t) (p : P) :
    p.Sound E → (∀ i, LeftCalls E p i → Fits E K (.ref i) s) → Fits E (p.nesting + K) p s := by
  induction p using P.partsInduction with
  | _ p ih =>
  intro hp hcalls
  have hT : E.OnText := hE.onText
  obtain ⟨w, hw'⟩ : ∃ w, p.nesting = w + 1 := ⟨p.nesting - 1, by have := p.nesting_pos; omega⟩
  have hw : p.nesting + K = (w + K) + 1 := by omega
  have subE : ∀ q, StartsWith E p q → Fits E (q.nesting + K) q s := fun q hq =>
    ih q hq.mem (hp.part hq.mem) fun i hi => hcalls i (.part hq hi)
  have sub : ∀ q, StartsWith E p q → Fits E (w + K) q s := fun q hq =>
    (subE q hq).mono (by have := P.nesting_part hq.mem; omega)
  have again : ∀ q : P, q.Sound E → q.nesting ≤ p.nesting → ∀ t : List Chr, t.length < s.length →
      Fits E (w + K) q t := fun q hq hqw t ht => (hshort t ht q hq).mono (by omega)
  have later : ∀ q ∈ p.parts, ∀ t : List Chr, t.length < s.length → Fits E (w + K) q t := fun q hq t ht =>
    again q (hp.part hq) (Nat.le_of_lt (P.nesting_part hq)) t ht
  have hl := P.Every.here hp
  intro pos
  rw [hw]
  show step E (eval E (w + K)) p s pos ≠ .deep
  cases p with
  | oneChar =>
    simp only [step, Comb.oneChar, show E.input = listInput from hT]
    cases s <;> simp [listInput]
  | empty v =>
    simp only [step, Comb.empty, show E.input = listInput from hT]
    cases s <;> simp [listInput]
  | fail m => simp [step, Comb.fail]
  | ret v => simp [step, Comb.ret]
  | native i => exact hU.native i s pos
  | ref i => exact (hcalls i (.ref i)).mono (m := w + K + 1) (by omega) pos
  | acceptWhen p pred m =>
    refine Out.bind_ne_deep (sub p (.acceptWhen ..) pos) fun r _ => ?_
    cases r with
    | rej m e => simp
    | acc v t e =>
      refine Out.bind_ne_deep (hl.2 v) fun b _ => ?_
      cases b <;> simp
  | changeErrorMessage p m =>
    refine Out.bind_ne_deep (sub p (.changeErrorMessage ..) pos) fun r _ => ?_
    cases r <;> simp
  | transformErrorMessage p f =>
    refine Out.bind_ne_deep (sub p (.transformErrorMessage ..) pos) fun r _ => ?_
    cases r with
    | rej m e => exact Out.bind_ne_deep (hl.2 m) fun b _ => by simp
    | acc v t e => simp
  | transformError p k =>
    refine Out.bind_ne_deep (sub p (.transformError ..) pos) fun r _ => ?_
    cases r with
    | rej m e => exact hU.onError k m e
    | acc v t e => simp
  | transform p f =>
    refine Out.bind_ne_deep (sub p (.transform ..) pos) fun r _ => ?_
    cases r with
    | rej m e => simp
    | acc v t e => exact Out.bind_ne_deep (Val.force_ne_deep _) fun _ _ => by simp
  | always p v =>
    refine Out.bind_ne_deep (sub p (.always ..) pos) fun r _ => ?_
    cases r <;> simp
  | lookAhead p =>
    refine Out.bind_ne_deep (sub p (.lookAhead ..) pos) fun r _ => ?_
    cases r <;> simp
  | except p v m =>
    refine Out.bind_ne_deep (sub p (.except ..) pos) fun r _ => ?_
    cases r <;> simp
  | optional p d =>
    refine Out.bind_ne_deep (sub p (.optional ..) pos) fun r _ => ?_
    cases r <;> simp
  | if_ p t f =>
    refine Out.bind_ne_deep (sub p (.if_ ..) pos) fun r _ => ?_
    cases r <;> simp
  | failAtFirstCharExpected p =>
    refine Out.bind_ne_deep (sub p (.failAtFirstCharExpected ..) pos) fun r _ => ?_
    cases r with
    | rej m e => simp only; split <;> simp
    | acc v t e => simp
  | foldl p st op =>
    refine Out.bind_ne_deep (sub p (.foldl ..) pos) fun r hr => ?_
    cases r with
    | rej m e => exact Out.bind_ne_deep (Val.force_ne_deep _) fun _ _ => by simp
    | acc v t e =>
      refine Out.bind_ne_deep (Val.force_ne_deep _) fun x _ => ?_
      rcases shorter_eval hE hr with h | ⟨_, hn⟩
      · exact again (.foldl p (op x v) op)
          (P.Every.mk (p := .foldl p (op x v) op) hl fun q hq => hp.part hq) (Nat.le_refl _) t h e
      · exact absurd hn hl.1
  | foldlRejectIncomplete p st op =>
    refine Out.bind_ne_deep (sub p (.foldlRejectIncomplete ..) pos) fun r hr => ?_
    cases r with
    | rej m e =>
      simp only
      split
      · exact Out.bind_ne_deep (Val.force_ne_deep _) fun _ _ => by simp
      · simp
    | acc v t e =>
      refine Out.bind_ne_deep (Val.force_ne_deep _) fun x _ => ?_
      rcases shorter_eval hE hr with h | ⟨_, hn⟩
      · exact again (.foldlRejectIncomplete p (op x v) op)
          (P.Every.mk (p := .foldlRejectIncomplete p (op x v) op) hl fun q hq => hp.part hq) (Nat.le_refl _) t h e
      · exact absurd hn hl.1
  | foldlStartWithParser p sp op =>
    have hs : ∀ st, (P.foldl p st op).Sound E := fun st =>
      .mk ⟨hl.1, trivial⟩ fun q hq => hp.part (by simp only [P.parts, List.mem_cons] at hq ⊢; simp_all)
    refine Out.bind_ne_deep (sub sp (.foldlStart ..) pos) fun r hr => ?_
    cases r with
    | rej m e => simp
    | acc v t e =>
      rcases shorter_eval hE hr with h | ⟨rfl, hn⟩
      · exact again _ (hs v) (by simp only [P.nesting]; omega) t h e
      · show eval E (w + K) (.foldl p v op) t e ≠ .deep
        obtain ⟨u, rfl⟩ : ∃ u, w = u + 1 := ⟨p.nesting + sp.nesting, by simp only [P.nesting] at hw'; omega⟩
        rw [show u + 1 + K = u + K + 1 by omega]
        simp only [P.nesting] at hw'
        refine Out.bind_ne_deep ((subE p (.foldlNext _ _ _ hn)).mono (by omega) e) fun r hr => ?_
        cases r with
        | rej m e => exact Out.bind_ne_deep (Val.force_ne_deep _) fun _ _ => by simp
        | acc v t e =>
          refine Out.bind_ne_deep (Val.force_ne_deep _) fun x _ => ?_
          rcases shorter_eval hE hr with h | ⟨_, hn⟩
          · exact (hshort t h _ (hs _)).mono (by simp only [P.nesting]; omega) e
          · exact absurd hn hl.1
  | foldlRejectIncompleteStartWithParser p sp op =>
    have hs : ∀ st, (P.foldlRejectIncomplete p st op).Sound E := fun st =>
      .mk ⟨hl.1, trivial⟩ fun q hq => hp.part (by simp only [P.parts, List.mem_cons] at hq ⊢; simp_all)
    refine Out.bind_ne_deep (sub sp (.foldlRejectIncompleteStart ..) pos) fun r hr => ?_
    cases r with
    | rej m e => simp
    | acc v t e =>
      rcases shorter_eval hE hr with h | ⟨rfl, hn⟩
      · exact again _ (hs v) (by simp only [P.nesting]; omega) t h e
      · show eval E (w + K) (.foldlRejectIncomplete p v op) t e ≠ .deep
        obtain ⟨u, rfl⟩ : ∃ u, w = u + 1 := ⟨p.nesting + sp.nesting, by simp only [P.nesting] at hw'; omega⟩
        rw [show u + 1 + K = u + K + 1 by omega]
        simp only [P.nesting] at hw'
        refine Out.bind_ne_deep ((subE p (.foldlRejectIncompleteNext _ _ _ hn)).mono (by omega) e) fun r hr => ?_
        cases r with
        | rej m e =>
          simp only
          split
          · exact Out.bind_ne_deep (Val.force_ne_deep _) fun _ _ => by simp
          · simp
        | acc v t e =>
          refine Out.bind_ne_deep (Val.force_ne_deep _) fun x _ => ?_
          rcases shorter_eval hE hr with h | ⟨_, hn⟩
          · exact (hshort t h _ (hs _)).mono (by simp only [P.nesting]; omega) e
          · exact absurd hn hl.1
  | foldrStartWithParser p sp op =>
    refine Out.bind_ne_deep (sub p (.foldrNext ..) pos) fun r hr => ?_
    cases r with
    | rej m e => exact sub sp (.foldrStart ..) pos
    | acc v t e =>
      rcases shorter_eval hE hr with h | ⟨_, hn⟩
      · refine Out.bind_ne_deep (again _ hp (Nat.le_refl _) t h e) fun r _ => ?_
        cases r with
        | rej m e => simp
        | acc v t e => exact Out.bind_ne_deep (Val.force_ne_deep _) fun _ _ => by simp
      · exact absurd hn hl.1
  | ifAccepts p q =>
    refine Out.bind_ne_deep (sub p (.condition ..) pos) fun r hr => ?_
    cases r with
    | rej m e => simp
    | acc v t e => exact sub q (.then_ ..) pos
  | sequence ps =>
    refine seqSem_ne_deep (fits_chain hE ps later [] ps rfl (by simp) ?_ pos)
    rintro b q a rfl hb
    exact sub q (.sequence _ _ _ hb)
  | oneOf ps =>
    refine oneOfSem_ne_deep fun f hf => ?_
    obtain ⟨q, hq, rfl⟩ := List.mem_map.1 hf
    exact sub q (.oneOf _ _ hq) pos
  | nthOfC n ps =>
    refine nthOf_ne_deep n (fits_chain hE ps later [] ps rfl (by simp) ?_ pos)
    rintro b q a rfl hb
    exact sub q (.nthOfC _ _ _ _ hb)
  | lastOf ps =>
    refine lastSem_ne_deep (fits_chain hE ps later [] ps rfl (by simp) ?_ pos)
    rintro b q a rfl hb
    exact sub q (.lastOf _ _ _ hb)
  | middleOf p1 p2 p3 =>
    refine nthOf_ne_deep 1 ?_
    have h3 : ∀ t q, eval E (w + K) p3 t q ≠ .deep → Comb.transformErrorMessage (eval E (w + K) p3)
        (fun m => .ok (.unpaired pos.line pos.col m)) t q ≠ .deep := by
      intro t q h
      refine Out.bind_ne_deep h fun r _ => ?_
      cases r <;> simp
    have hchain : ∀ {f : Sem (List Chr)} {t : List Chr} {q : Pos}, f t q ≠ .deep →
        chain [f] t q ≠ .deep := by
      intro f t q h
      refine Out.bind_ne_deep h fun r _ => ?_
      cases r <;> simp [chain]
    refine Out.bind_ne_deep (sub p1 (.middleOf1 ..) pos) fun r hr => ?_
    cases r with
    | rej m e => simp
    | acc v t e =>
      refine Out.bind_ne_deep ?_ fun _ _ => by simp
      have next2 : ∀ {v t' e'}, eval E (w + K) p2 t e = .ok (.acc v t' e') → t'.length ≤ t.length := by
        intro v t' e' h
        rcases shorter_eval hE h with h | ⟨rfl, _⟩ <;> omega
      rcases shorter_eval hE hr with h | ⟨rfl, hn⟩
      · refine Out.bind_ne_deep (later p2 (by simp [P.parts]) t h e) fun r hr => ?_
        cases r with
        | rej m e => simp
        | acc v t' e =>
          refine Out.bind_ne_deep (hchain (h3 t' e (later p3 (by simp [P.parts]) t' ?_ e)))
            fun _ _ => by simp
          have := next2 hr
          omega
      · refine Out.bind_ne_deep (sub p2 (.middleOf2 _ _ _ hn) e) fun r hr => ?_
        cases r with
        | rej m e => simp
        | acc v t' e =>
          refine Out.bind_ne_deep (hchain (h3 t' e ?_)) fun _ _ => by simp
          rcases shorter_eval hE hr with h | ⟨rfl, hn'⟩
          · exact later p3 (by simp [P.parts]) t' h e
          · exact sub p3 (.middleOf3 _ _ _ hn hn') e
  | iterate n p accum =>
    have hs : p.Sound E := hp.part (by simp [P.parts])
    have key : ∀ (k : Nat) (accum : List Val) (q : Pos),
        eval E (p.nesting + K + k + 1) (.iterate (k : Int) p accum) s q ≠ .deep := by
      intro k
      induction k with
      | zero => intro accum q; simp [eval, step, Comb.iterate]
      | succ k ihk =>
        intro accum q
        rw [show eval E (p.nesting + K + (k + 1) + 1) = step E (eval E (p.nesting + K + (k + 1))) from rfl]
        simp only [step, Comb.iterate]
        rw [if_neg (by omega)]
        refine Out.bind_ne_deep ((subE p (.iterate ..)).mono (by omega) q) fun r hr => ?_
        cases r with
        | rej m e => simp
        | acc v t e =>
          simp only [show ((k + 1 : Nat) : Int) - 1 = (k : Int) by omega]
          rcases shorter_eval hE hr with h | ⟨rfl, hn⟩
          · refine (hshort t h (.iterate (k : Int) p (accum ++ [v]))
              (P.Every.mk (p := .iterate (k : Int) p (accum ++ [v]))
                ⟨fun h => by omega, trivial⟩ fun q hq => ?_)).mono (m := p.nesting + K + (k + 1))
                (by simp only [P.nesting]; omega) e
            simp only [P.parts, List.mem_singleton] at hq
            subst hq
            exact hs
          · exact ihk _ e
    by_cases hn : 0 ≤ n
    · obtain ⟨k, rfl⟩ := Int.eq_ofNat_of_zero_le hn
      have := key k accum pos
      simp only [P.nesting, Int.toNat_natCast] at hw'
      rw [show p.nesting + K + k + 1 = w + K + 1 by omega] at this
      exact this
    · simp only [step, Comb.iterate]
      rw [if_neg (by omega)]
      refine Out.bind_ne_deep (sub p (.iterate ..) pos) fun r hr => ?_
      cases r with
      | rej m e => simp
      | acc v t e =>
        have hnull : ¬ Nullable E p := hl.1 (by omega)
        rcases shorter_eval hE hr with h | ⟨rfl, hn⟩
        · exact again (.iterate (n - 1) p (accum ++ [v]))
            (P.Every.mk (p := .iterate (n - 1) p (accum ++ [v]))
              ⟨fun _ => hnull, trivial⟩ fun q hq => hp.part hq) (by simp only [P.nesting]; omega) t h e
        · exact absurd hn hnull
  | keyword kw v =>
    exact (fits_keyword hT v kw s).mono (m := w + K + 1) (by simp only [P.nesting] at hw'; omega) pos
  | oneOfC cs =>
    exact (fits_oneOfC hT cs s).mono (m := w + K + 1) (by simp only [P.nesting] at hw'; omega) pos
  | oneCharExceptC cs =>
    exact (fits_oneCharExceptC hT cs s).mono (m := w + K + 1) (by simp only [P.nesting] at hw'; omega) pos

end Metaparse
