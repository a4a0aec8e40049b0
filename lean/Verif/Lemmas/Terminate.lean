import Verif.Lemmas.Sim
import Verif.Lemmas.Honest
import Verif.Lemmas.Subparsers
import Verif.Props.Chars
import Verif.Spec.WellFormed
/-!
# Well-formed systems of parsers finish
-/

namespace Metaparse

variable {E : Env (List Chr)}

/-- Applying `p` to `s` finishes, at every position. -/
def Fin (E : Env (List Chr)) (p : P) (s : List Chr) : Prop := ∀ pos, run E p s pos ≠ .deep

/-- What an acceptance leaves is shorter, or nothing was consumed. -/
theorem shorter_or_nullable (hE : E.Honest) {p : P} {s : List Chr} {pos : Pos} {v : Val}
    {s' : List Chr} {pos' : Pos} (h : run E p s pos = .ok (.acc v s' pos')) :
    s'.length < s.length ∨ (s' = s ∧ Nullable E p) := by
  obtain ⟨c, rfl, rfl⟩ := Accepts.honest hE h
  cases c with
  | nil => exact .inr ⟨rfl, _, _, _, _, h⟩
  | cons c cs => left; simp only [List.cons_append, List.length_cons, List.length_append]; omega

theorem Out.bind_ne_deep {α β : Type} {a : Out α} {f : α → Out β} (h : a ≠ .deep)
    (h' : ∀ x, a = .ok x → f x ≠ .deep) : a.bind f ≠ .deep := by
  cases a with
  | ok x => exact h' x rfl
  | ill f => simp
  | deep => exact absurd rfl h

theorem CharParser.fin {p : P} {cls : Chr → Bool} {val : Chr → Val} {m0 m1 : Msg}
    (h : CharParser E p cls val m0 m1) (s : List Chr) : Fin E p s := by
  intro pos
  cases s with
  | nil => rw [show run E p [] pos = _ from h.empty pos]; simp
  | cons c s =>
    cases hc : cls c with
    | true => rw [show run E p _ pos = _ from h.accepts c s pos hc]; simp
    | false => rw [show run E p _ pos = _ from h.other c s pos hc]; simp

theorem fin_keyword (hE : E.OnText) (v : Val) : ∀ (kw s : List Chr), Fin E (.keyword kw v) s := by
  intro kw
  induction kw with
  | nil => intro s pos; rw [run_step]; simp [step, Comb.ret]
  | cons c kw ih =>
    intro s pos
    rw [run_step]
    refine Out.bind_ne_deep ((charParser_litC hE c).fin s pos) ?_
    intro r _
    cases r with
    | acc v s' q => exact ih s' q
    | rej m q => simp

/-- A list of parsers applied one after the other finishes. -/
theorem fin_chain (hE : E.Honest) {s : List Chr} (all : List P)
    (hshort : ∀ q ∈ all, ∀ t : List Chr, t.length < s.length → Fin E q t) :
    ∀ (before ps : List P), all = before ++ ps → (∀ q ∈ before, Nullable E q) →
      (∀ b q a, all = b ++ q :: a → (∀ r ∈ b, Nullable E r) → Fin E q s) →
      ∀ pos, chain (ps.map (run E)) s pos ≠ .deep := by
  have short : ∀ (ps : List P), (∀ q ∈ ps, q ∈ all) → ∀ (t : List Chr), t.length < s.length →
      ∀ pos, chain (ps.map (run E)) t pos ≠ .deep := by
    intro ps
    induction ps with
    | nil => intro _ t _ pos; simp [chain]
    | cons q ps ih =>
      intro hmem t ht pos
      refine Out.bind_ne_deep (hshort q (hmem q (List.mem_cons_self ..)) t ht pos) ?_
      intro r hr
      cases r with
      | rej m e => simp
      | acc v t' e =>
        refine Out.bind_ne_deep (ih (fun q hq => hmem q (List.mem_cons_of_mem _ hq)) t' ?_ e)
          fun _ _ => by simp
        rcases shorter_or_nullable hE hr with h | ⟨rfl, _⟩ <;> omega
  intro before ps
  induction ps generalizing before with
  | nil => intro _ _ _ pos; simp [chain]
  | cons q ps ih =>
    intro hall hb hfin pos
    refine Out.bind_ne_deep (hfin before q ps hall hb pos) ?_
    intro r hr
    cases r with
    | rej m e => simp
    | acc v t e =>
      rcases shorter_or_nullable hE hr with h | ⟨rfl, hn⟩
      · refine Out.bind_ne_deep (short ps (fun r hr => ?_) t h e) fun _ _ => by simp
        rw [hall]; simp [hr]
      · refine Out.bind_ne_deep (ih (before ++ [q]) (by simp [hall]) ?_ hfin e) fun _ _ => by simp
        intro r hr
        rcases List.mem_append.1 hr with hr | hr
        · exact hb r hr
        · rw [List.mem_singleton.1 hr]; exact hn

theorem seqSem_ne_deep {I : Type} {E : Env I} {fs : List (Sem I)} {s : I} {pos : Pos}
    (h : chain fs s pos ≠ .deep) : seqSem E fs s pos ≠ .deep := by
  by_cases hs : E.SupportsSequence fs.length
  · rw [seqSem_supported hs]; exact Out.bind_ne_deep h fun _ _ => by simp
  · rw [seqSem_unsupported hs]; simp

theorem nthOf_ne_deep {I : Type} {E : Env I} (n : Int) {fs : List (Sem I)} {s : I} {pos : Pos}
    (h : chain fs s pos ≠ .deep) : Comb.nthOf E n fs s pos ≠ .deep := by
  by_cases hs : E.SupportsNth fs.length
  · rcases nthOf_form n hs with ⟨_, e⟩ | ⟨_, e⟩
    · rw [e]; exact Out.bind_ne_deep h fun _ _ => by simp
    · rw [e]; simp
  · rw [nthOf_unsupported n hs]; simp

theorem lastSem_ne_deep {I : Type} {E : Env I} {fs : List (Sem I)} {s : I} {pos : Pos}
    (h : chain fs s pos ≠ .deep) : lastSem E fs s pos ≠ .deep := by
  cases fs with
  | nil =>
    unfold lastSem
    cases E.std with
    | cpp98 =>
      simp only [Comb.lastOf98, Comb.nthOf98]
      split
      · split
        · rename_i h; exact absurd h (by simp)
        · simp [Comb.fail]
      · simp
    | cpp11 => simp [Comb.lastOf11, Comb.fail]
    | cpp14 => simp [Comb.lastOf11, Comb.fail]
  | cons f fs => rw [lastSem_cons]; exact nthOf_ne_deep _ h

theorem oneOfSem_ne_deep {I : Type} {E : Env I} {fs : List (Sem I)} {s : I} {pos : Pos}
    (h : ∀ f ∈ fs, f s pos ≠ .deep) : oneOfSem E fs s pos ≠ .deep := by
  have h98 : ∀ (fs : List (Sem I)), (∀ f ∈ fs, f s pos ≠ .deep) → ∀ st,
      Comb.oneOf98Loop s pos fs st ≠ .deep := by
    intro fs
    induction fs with
    | nil => intro _ st; simp [Comb.oneOf98Loop]
    | cons f fs ih =>
      intro h st
      exact Out.bind_ne_deep (h f (List.mem_cons_self ..)) fun r _ =>
        ih (fun g hg => h g (List.mem_cons_of_mem _ hg)) _
  have h11 : ∀ (fs : List (Sem I)), (∀ f ∈ fs, f s pos ≠ .deep) →
      Comb.oneOf11 fs s pos ≠ .deep := by
    intro fs
    induction fs with
    | nil => intro _; simp [Comb.oneOf11, Comb.fail]
    | cons f fs ih =>
      intro h
      rw [oneOf11_op]
      exact Out.bind_ne_deep (h f (List.mem_cons_self ..)) fun r _ =>
        Out.bind_ne_deep (ih (fun g hg => h g (List.mem_cons_of_mem _ hg))) fun _ _ => by simp
  unfold oneOfSem
  cases E.std with
  | cpp98 =>
    simp only [Comb.oneOf98]
    split
    · exact h98 fs h _
    · simp
  | cpp11 => exact h11 fs h
  | cpp14 => exact h11 fs h

theorem StartsWith.mem {p q : P} (h : StartsWith E p q) : q ∈ p.parts := by
  cases h <;> simp [P.parts, *]

theorem P.Sound.part {p q : P} (h : p.Sound E) (hq : q ∈ p.parts) : q.Sound E := P.Every.part h hq

/-- A parser finishes on `s` if everything finishes on shorter inputs and the parsers of the user it
may call at the start finish on `s`. -/
theorem fin_parts (hE : E.Honest) (hU : E.UserFinishes) (s : List Chr)
    (hshort : ∀ t : List Chr, t.length < s.length → ∀ p : P, p.Sound E → Fin E p t) (p : P) :
    p.Sound E → (∀ i, LeftCalls E p i → Fin E (.ref i) s) → Fin E p s := by
  induction p using P.partsInduction with
  | _ p ih =>
  intro hp hcalls
  have hT : E.OnText := hE.onText
  have sub : ∀ q, StartsWith E p q → Fin E q s := fun q hq =>
    ih q hq.mem (hp.part hq.mem) fun i hi => hcalls i (.part hq hi)
  have later : ∀ q ∈ p.parts, ∀ t : List Chr, t.length < s.length → Fin E q t := fun q hq t ht =>
    hshort t ht q (hp.part hq)
  have hl := P.Every.here hp
  intro pos
  rw [run_step]
  cases p with
  | oneChar =>
    simp only [step, Comb.oneChar, show E.input = listInput from hT]
    cases s <;> simp [listInput]
  | empty v =>
    simp only [step, Comb.empty, show E.input = listInput from hT]
    cases s <;> simp [listInput]
  | fail m => simp [step, Comb.fail]
  | ret v => simp [step, Comb.ret]
  | native i => exact hU.native i s pos
  | ref i => have := hcalls i (.ref i) pos; rwa [run_step] at this
  | acceptWhen p pred m =>
    refine Out.bind_ne_deep (sub p (.acceptWhen ..) pos) fun r _ => ?_
    cases r with
    | rej m e => simp
    | acc v t e =>
      refine Out.bind_ne_deep (hl.2 v) fun b _ => ?_
      cases b <;> simp
  | changeErrorMessage p m =>
    refine Out.bind_ne_deep (sub p (.changeErrorMessage ..) pos) fun r _ => ?_
    cases r <;> simp
  | transformErrorMessage p f =>
    refine Out.bind_ne_deep (sub p (.transformErrorMessage ..) pos) fun r _ => ?_
    cases r with
    | rej m e => exact Out.bind_ne_deep (hl.2 m) fun b _ => by simp
    | acc v t e => simp
  | transformError p k =>
    refine Out.bind_ne_deep (sub p (.transformError ..) pos) fun r _ => ?_
    cases r with
    | rej m e => exact hU.onError k m e
    | acc v t e => simp
  | transform p f =>
    refine Out.bind_ne_deep (sub p (.transform ..) pos) fun r _ => ?_
    cases r with
    | rej m e => simp
    | acc v t e => exact Out.bind_ne_deep (Val.force_ne_deep _) fun _ _ => by simp
  | always p v =>
    refine Out.bind_ne_deep (sub p (.always ..) pos) fun r _ => ?_
    cases r <;> simp
  | lookAhead p =>
    refine Out.bind_ne_deep (sub p (.lookAhead ..) pos) fun r _ => ?_
    cases r <;> simp
  | except p v m =>
    refine Out.bind_ne_deep (sub p (.except ..) pos) fun r _ => ?_
    cases r <;> simp
  | optional p d =>
    refine Out.bind_ne_deep (sub p (.optional ..) pos) fun r _ => ?_
    cases r <;> simp
  | if_ p t f =>
    refine Out.bind_ne_deep (sub p (.if_ ..) pos) fun r _ => ?_
    cases r <;> simp
  | failAtFirstCharExpected p =>
    refine Out.bind_ne_deep (sub p (.failAtFirstCharExpected ..) pos) fun r _ => ?_
    cases r with
    | rej m e => simp only; split <;> simp
    | acc v t e => simp
  | foldl p st op =>
    refine Out.bind_ne_deep (sub p (.foldl ..) pos) fun r hr => ?_
    cases r with
    | rej m e => exact Out.bind_ne_deep (Val.force_ne_deep _) fun _ _ => by simp
    | acc v t e =>
      refine Out.bind_ne_deep (Val.force_ne_deep _) fun x _ => ?_
      rcases shorter_or_nullable hE hr with h | ⟨_, hn⟩
      · exact hshort t h (.foldl p (op x v) op)
          (P.Every.mk (p := .foldl p (op x v) op) hl fun q hq => hp.part hq) e
      · exact absurd hn hl.1
  | foldlRejectIncomplete p st op =>
    refine Out.bind_ne_deep (sub p (.foldlRejectIncomplete ..) pos) fun r hr => ?_
    cases r with
    | rej m e =>
      simp only
      split
      · exact Out.bind_ne_deep (Val.force_ne_deep _) fun _ _ => by simp
      · simp
    | acc v t e =>
      refine Out.bind_ne_deep (Val.force_ne_deep _) fun x _ => ?_
      rcases shorter_or_nullable hE hr with h | ⟨_, hn⟩
      · exact hshort t h (.foldlRejectIncomplete p (op x v) op)
          (P.Every.mk (p := .foldlRejectIncomplete p (op x v) op) hl fun q hq => hp.part hq) e
      · exact absurd hn hl.1
  | foldlStartWithParser p sp op =>
    have hs : ∀ st, (P.foldl p st op).Sound E := fun st =>
      .mk ⟨hl.1, trivial⟩ fun q hq => hp.part (by simp only [P.parts, List.mem_cons] at hq ⊢; simp_all)
    refine Out.bind_ne_deep (sub sp (.foldlStart ..) pos) fun r hr => ?_
    cases r with
    | rej m e => simp
    | acc v t e =>
      rcases shorter_or_nullable hE hr with h | ⟨rfl, hn⟩
      · exact hshort t h _ (hs v) e
      · show run E (.foldl p v op) t e ≠ .deep
        rw [run_step]
        refine Out.bind_ne_deep (sub p (.foldlNext _ _ _ hn) e) fun r hr => ?_
        cases r with
        | rej m e => exact Out.bind_ne_deep (Val.force_ne_deep _) fun _ _ => by simp
        | acc v t e =>
          refine Out.bind_ne_deep (Val.force_ne_deep _) fun x _ => ?_
          rcases shorter_or_nullable hE hr with h | ⟨_, hn⟩
          · exact hshort t h _ (hs _) e
          · exact absurd hn hl.1
  | foldlRejectIncompleteStartWithParser p sp op =>
    have hs : ∀ st, (P.foldlRejectIncomplete p st op).Sound E := fun st =>
      .mk ⟨hl.1, trivial⟩ fun q hq => hp.part (by simp only [P.parts, List.mem_cons] at hq ⊢; simp_all)
    refine Out.bind_ne_deep (sub sp (.foldlRejectIncompleteStart ..) pos) fun r hr => ?_
    cases r with
    | rej m e => simp
    | acc v t e =>
      rcases shorter_or_nullable hE hr with h | ⟨rfl, hn⟩
      · exact hshort t h _ (hs v) e
      · show run E (.foldlRejectIncomplete p v op) t e ≠ .deep
        rw [run_step]
        refine Out.bind_ne_deep (sub p (.foldlRejectIncompleteNext _ _ _ hn) e) fun r hr => ?_
        cases r with
        | rej m e =>
          simp only
          split
          · exact Out.bind_ne_deep (Val.force_ne_deep _) fun _ _ => by simp
          · simp
        | acc v t e =>
          refine Out.bind_ne_deep (Val.force_ne_deep _) fun x _ => ?_
          rcases shorter_or_nullable hE hr with h | ⟨_, hn⟩
          · exact hshort t h _ (hs _) e
          · exact absurd hn hl.1
  | foldrStartWithParser p sp op =>
    refine Out.bind_ne_deep (sub p (.foldrNext ..) pos) fun r hr => ?_
    cases r with
    | rej m e => exact sub sp (.foldrStart ..) pos
    | acc v t e =>
      rcases shorter_or_nullable hE hr with h | ⟨_, hn⟩
      · refine Out.bind_ne_deep (hshort t h _ hp e) fun r _ => ?_
        cases r with
        | rej m e => simp
        | acc v t e => exact Out.bind_ne_deep (Val.force_ne_deep _) fun _ _ => by simp
      · exact absurd hn hl.1
  | ifAccepts p q =>
    refine Out.bind_ne_deep (sub p (.condition ..) pos) fun r hr => ?_
    cases r with
    | rej m e => simp
    | acc v t e => exact sub q (.then_ ..) pos
  | sequence ps =>
    refine seqSem_ne_deep (fin_chain hE ps later [] ps rfl (by simp) ?_ pos)
    rintro b q a rfl hb
    exact sub q (.sequence _ _ _ hb)
  | oneOf ps =>
    refine oneOfSem_ne_deep fun f hf => ?_
    obtain ⟨q, hq, rfl⟩ := List.mem_map.1 hf
    exact sub q (.oneOf _ _ hq) pos
  | nthOfC n ps =>
    refine nthOf_ne_deep n (fin_chain hE ps later [] ps rfl (by simp) ?_ pos)
    rintro b q a rfl hb
    exact sub q (.nthOfC _ _ _ _ hb)
  | lastOf ps =>
    refine lastSem_ne_deep (fin_chain hE ps later [] ps rfl (by simp) ?_ pos)
    rintro b q a rfl hb
    exact sub q (.lastOf _ _ _ hb)
  | middleOf p1 p2 p3 =>
    refine nthOf_ne_deep 1 ?_
    have h3 : ∀ t q, run E p3 t q ≠ .deep → Comb.transformErrorMessage (run E p3)
        (fun m => .ok (.unpaired pos.line pos.col m)) t q ≠ .deep := by
      intro t q h
      refine Out.bind_ne_deep h fun r _ => ?_
      cases r <;> simp
    have hchain : ∀ {f : Sem (List Chr)} {t : List Chr} {q : Pos}, f t q ≠ .deep →
        chain [f] t q ≠ .deep := by
      intro f t q h
      refine Out.bind_ne_deep h fun r _ => ?_
      cases r <;> simp [chain]
    refine Out.bind_ne_deep (sub p1 (.middleOf1 ..) pos) fun r hr => ?_
    cases r with
    | rej m e => simp
    | acc v t e =>
      refine Out.bind_ne_deep ?_ fun _ _ => by simp
      have next2 : ∀ {v t' e'}, run E p2 t e = .ok (.acc v t' e') → t'.length ≤ t.length := by
        intro v t' e' h
        rcases shorter_or_nullable hE h with h | ⟨rfl, _⟩ <;> omega
      rcases shorter_or_nullable hE hr with h | ⟨rfl, hn⟩
      · refine Out.bind_ne_deep (later p2 (by simp [P.parts]) t h e) fun r hr => ?_
        cases r with
        | rej m e => simp
        | acc v t' e =>
          refine Out.bind_ne_deep (hchain (h3 t' e (later p3 (by simp [P.parts]) t' ?_ e)))
            fun _ _ => by simp
          have := next2 hr
          omega
      · refine Out.bind_ne_deep (sub p2 (.middleOf2 _ _ _ hn) e) fun r hr => ?_
        cases r with
        | rej m e => simp
        | acc v t' e =>
          refine Out.bind_ne_deep (hchain (h3 t' e ?_)) fun _ _ => by simp
          rcases shorter_or_nullable hE hr with h | ⟨rfl, hn'⟩
          · exact later p3 (by simp [P.parts]) t' h e
          · exact sub p3 (.middleOf3 _ _ _ hn hn') e
  | iterate n p accum =>
    have hs : p.Sound E := hp.part (by simp [P.parts])
    have key : ∀ (k : Nat) (accum : List Val) (q : Pos),
        run E (.iterate (k : Int) p accum) s q ≠ .deep := by
      intro k
      induction k with
      | zero => intro accum q; rw [run_step]; simp [step, Comb.iterate]
      | succ k ihk =>
        intro accum q
        rw [run_step]
        simp only [step, Comb.iterate]
        rw [if_neg (by omega)]
        refine Out.bind_ne_deep (sub p (.iterate ..) q) fun r hr => ?_
        cases r with
        | rej m e => simp
        | acc v t e =>
          simp only [show ((k + 1 : Nat) : Int) - 1 = (k : Int) by omega]
          rcases shorter_or_nullable hE hr with h | ⟨rfl, hn⟩
          · refine hshort t h (.iterate (k : Int) p (accum ++ [v]))
              (P.Every.mk (p := .iterate (k : Int) p (accum ++ [v]))
                ⟨fun h => by omega, trivial⟩ fun q hq => ?_) e
            simp only [P.parts, List.mem_singleton] at hq
            subst hq
            exact hs
          · exact ihk _ e
    by_cases hn : 0 ≤ n
    · obtain ⟨k, rfl⟩ := Int.eq_ofNat_of_zero_le hn
      have := key k accum pos
      rwa [run_step] at this
    · simp only [step, Comb.iterate]
      rw [if_neg (by omega)]
      refine Out.bind_ne_deep (sub p (.iterate ..) pos) fun r hr => ?_
      cases r with
      | rej m e => simp
      | acc v t e =>
        have hnull : ¬ Nullable E p := hl.1 (by omega)
        rcases shorter_or_nullable hE hr with h | ⟨rfl, hn⟩
        · exact hshort t h (.iterate (n - 1) p (accum ++ [v]))
            (P.Every.mk (p := .iterate (n - 1) p (accum ++ [v]))
              ⟨fun _ => hnull, trivial⟩ fun q hq => hp.part hq) e
        · exact absurd hn hnull
  | keyword kw v => have := fin_keyword hT v kw s pos; rwa [run_step] at this
  | oneOfC cs =>
    by_cases hlim : E.std = .cpp98 → cs.length < E.limOneOf
    · have := (C28_one_of_c hT cs hlim).fin s pos
      rwa [run_step] at this
    · simp only [Classical.not_imp] at hlim
      simp [step, hlim.1, hlim.2]
  | oneCharExceptC cs =>
    by_cases hlim : E.std = .cpp98 → cs.length < E.limOneCharExcept
    · have := (C28_one_char_except hT cs hlim).fin s pos
      rwa [run_step] at this
    · simp only [Classical.not_imp] at hlim
      simp [step, hlim.1, hlim.2]

/-- In a well-formed system every parser finishes on every input. -/
theorem fin_all (hE : E.WellFormed) : ∀ (n : Nat) (s : List Chr), s.length < n → ∀ p : P,
    p.Sound E → Fin E p s := by
  intro n
  induction n with
  | zero => intro s h; omega
  | succ n ih =>
    intro s hs
    have hshort : ∀ t : List Chr, t.length < s.length → ∀ p : P, p.Sound E → Fin E p t :=
      fun t ht => ih t (by omega)
    have hrefs : ∀ i, Fin E (.ref i) s := by
      intro i
      induction i using hE.noLeftRecursion.induction with
      | _ i ihi =>
        have := fin_parts hE.honest hE.finishes s hshort (E.rules i) (hE.sound i) ihi
        intro pos
        rw [run_step]
        exact this pos
    exact fun p hp => fin_parts hE.honest hE.finishes s hshort p hp fun i _ => hrefs i

theorem firstCalls_deep {E : Env (List Chr)} {i : Nat} {s : List Chr} {pos : Pos} (n : Nat) {p : P}
    (hp : FirstCalls E p i) (hn : ∀ m ≤ n, eval E m (.ref i) s pos = .deep) :
    ∀ m ≤ n, eval E m p s pos = .deep := by
  induction hp with
  | ref _ => exact hn
  | sequence ps hs _ ih =>
    intro m hm
    cases m with
    | zero => rfl
    | succ m =>
      show seqSem E (List.map (eval E m) _) s pos = _
      rw [seqSem_supported (by simpa using hs)]
      simp only [List.map, chain]
      rw [ih hn m (by omega)]
      rfl
  | oneOf ps hs _ ih =>
    intro m hm
    cases m with
    | zero => rfl
    | succ m =>
      have ih := ih hn m (by omega)
      simp only [eval, step]
      cases hstd : E.std with
      | cpp98 =>
        have hs := hs hstd
        simp only [Comb.oneOf98, List.length_map]
        rw [if_pos hs]
        simp only [List.map, Comb.oneOf98Loop]
        rw [ih]
        rfl
      | cpp11 => simp only [List.map, Comb.oneOf11]; rw [ih]; rfl
      | cpp14 => simp only [List.map, Comb.oneOf11]; rw [ih]; rfl
  | nthOfC k ps hs h0 h1 _ ih =>
    intro m hm
    cases m with
    | zero => rfl
    | succ m =>
      have ih := ih hn m (by omega)
      simp only [eval, step]
      rcases nthOf_form (E := E) k (fs := List.map (eval E m) (_ :: ps)) (by simpa using hs) with
        ⟨_, e⟩ | ⟨e, _⟩
      · rw [e]
        simp only [List.map, chain]
        rw [ih]
        rfl
      · exact absurd ⟨h0, by simpa using h1⟩ e
  | _ _ _ =>
    intro m hm
    cases m with
    | zero => rfl
    | succ m =>
      rename_i ih
      have ih := ih hn m (by omega)
      simp only [eval, step, Comb.acceptWhen, Comb.transform, Comb.optional, Comb.lookAhead,
        Comb.foldl, Comb.foldlStartWithParser, Comb.foldrStartWithParser]
      rw [ih]
      try rfl


end Metaparse
