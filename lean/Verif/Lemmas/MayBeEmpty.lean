import Verif.Lemmas.Terminate
/-!
# The computed approximation of "accepts without consuming"
-/

namespace Metaparse

variable {E : Env (List Chr)}

/-- `f` leaves a shorter input whenever it accepts. -/
def Consumes (f : Sem (List Chr)) : Prop :=
  ∀ s pos v s' pos', f s pos = .ok (.acc v s' pos') → s'.length < s.length

/-- `f` never leaves a longer input. -/
def Keeps (f : Sem (List Chr)) : Prop :=
  ∀ s pos v s' pos', f s pos = .ok (.acc v s' pos') → s'.length ≤ s.length

theorem Consumes.keeps {f : Sem (List Chr)} (h : Consumes f) : Keeps f :=
  fun s pos v s' pos' e => Nat.le_of_lt (h s pos v s' pos' e)

theorem keeps_run (hE : E.Honest) (p : P) : Keeps (run E p) := by
  intro s pos v s' pos' h
  obtain ⟨c, rfl, -⟩ := Accepts.honest hE h
  simp

theorem keeps_eval (hE : E.Honest) (n : Nat) (p : P) : Keeps (eval E n p) :=
  fun s pos v s' pos' h => keeps_run hE p s pos v s' pos' (run_ok_of_eval n h)

theorem chain_keeps {fs : List (Sem (List Chr))} (hk : ∀ f ∈ fs, Keeps f) :
    ∀ {s pos vs s' pos'}, chain fs s pos = .ok (.done vs s' pos') → s'.length ≤ s.length := by
  induction fs with
  | nil => intro s pos vs s' pos' h; cases h; exact Nat.le_refl _
  | cons f fs ih =>
    intro s pos vs s' pos' h
    simp only [chain, Out.bind_eq_ok] at h
    obtain ⟨r, hr, h⟩ := h
    cases r with
    | rej m q => cases h
    | acc v t q =>
      simp only [Out.bind_eq_ok] at h
      obtain ⟨r, hr', h⟩ := h
      cases r with
      | failed m q => cases h
      | done ws u q' =>
        cases h
        exact Nat.le_trans (ih (fun f hf => hk f (List.mem_cons_of_mem _ hf)) hr')
          (hk f (List.mem_cons_self ..) _ _ _ _ _ hr)

theorem chain_consumes {fs : List (Sem (List Chr))} (hk : ∀ f ∈ fs, Keeps f)
    (hc : ∃ f ∈ fs, Consumes f) :
    ∀ {s pos vs s' pos'}, chain fs s pos = .ok (.done vs s' pos') → s'.length < s.length := by
  induction fs with
  | nil => obtain ⟨f, hf, _⟩ := hc; cases hf
  | cons f fs ih =>
    intro s pos vs s' pos' h
    simp only [chain, Out.bind_eq_ok] at h
    obtain ⟨r, hr, h⟩ := h
    cases r with
    | rej m q => cases h
    | acc v t q =>
      simp only [Out.bind_eq_ok] at h
      obtain ⟨r, hr', h⟩ := h
      cases r with
      | failed m q => cases h
      | done ws u q' =>
        cases h
        have hk' : ∀ f ∈ fs, Keeps f := fun f hf => hk f (List.mem_cons_of_mem _ hf)
        have h1 := hk f (List.mem_cons_self ..) _ _ _ _ _ hr
        have h2 := chain_keeps hk' hr'
        obtain ⟨g, hg, hcg⟩ := hc
        rcases List.mem_cons.1 hg with rfl | hg
        · have := hcg _ _ _ _ _ hr; omega
        · have := ih hk' ⟨g, hg, hcg⟩ hr'; omega

theorem toRes_acc {I : Type} {k : List Val → Val} {r : ChainRes I} {v : Val} {s : I} {pos : Pos}
    (h : r.toRes k = .acc v s pos) : ∃ vs, r = .done vs s pos := by
  cases r with
  | done vs s' q => cases h; exact ⟨vs, rfl⟩
  | failed m q => cases h

theorem seqSem_consumes {fs : List (Sem (List Chr))} (hk : ∀ f ∈ fs, Keeps f)
    (hc : ∃ f ∈ fs, Consumes f) : Consumes (seqSem E fs) := by
  intro s pos v s' pos' h
  by_cases hs : E.SupportsSequence fs.length
  · rw [seqSem_supported hs, Out.bind_eq_ok] at h
    obtain ⟨r, hr, h⟩ := h
    obtain ⟨vs, rfl⟩ := toRes_acc (Out.ok.inj h)
    exact chain_consumes hk hc hr
  · rw [seqSem_unsupported hs] at h; cases h

theorem nthOf_consumes (n : Int) {fs : List (Sem (List Chr))} (hk : ∀ f ∈ fs, Keeps f)
    (hc : ∃ f ∈ fs, Consumes f) : Consumes (Comb.nthOf E n fs) := by
  intro s pos v s' pos' h
  by_cases hs : E.SupportsNth fs.length
  · rcases nthOf_form n hs with ⟨_, e⟩ | ⟨_, e⟩
    · rw [e, Out.bind_eq_ok] at h
      obtain ⟨r, hr, h⟩ := h
      obtain ⟨vs, rfl⟩ := toRes_acc (Out.ok.inj h)
      exact chain_consumes hk hc hr
    · rw [e] at h; cases h
  · rw [nthOf_unsupported n hs] at h; cases h

theorem lastSem_consumes {fs : List (Sem (List Chr))} (hk : ∀ f ∈ fs, Keeps f)
    (hc : ∃ f ∈ fs, Consumes f) : Consumes (lastSem E fs) := by
  cases fs with
  | nil => obtain ⟨f, hf, _⟩ := hc; cases hf
  | cons f fs => rw [lastSem_cons]; exact nthOf_consumes _ hk hc

theorem oneOf11_acc {I : Type} : ∀ {fs : List (Sem I)} {s : I} {pos : Pos} {v : Val} {s' : I}
    {pos' : Pos}, Comb.oneOf11 fs s pos = .ok (.acc v s' pos') →
      ∃ f ∈ fs, f s pos = .ok (.acc v s' pos') := by
  intro fs
  induction fs with
  | nil => intro s pos v s' pos' h; cases h
  | cons f fs ih =>
    intro s pos v s' pos' h
    simp only [Comb.oneOf11, Out.bind_eq_ok] at h
    obtain ⟨x, hx, y, hy, h⟩ := h
    cases x with
    | acc w t q => cases h; exact ⟨f, List.mem_cons_self .., hx⟩
    | rej m q =>
      cases y with
      | acc w t q =>
        cases h
        obtain ⟨g, hg, e⟩ := ih hy
        exact ⟨g, List.mem_cons_of_mem _ hg, e⟩
      | rej m' q' => simp only at h; split at h <;> cases h

theorem oneOf98Loop_acc {I : Type} {s : I} {pos : Pos} : ∀ {fs : List (Sem I)} {st : Res I}
    {v : Val} {s' : I} {pos' : Pos}, Comb.oneOf98Loop s pos fs st = .ok (.acc v s' pos') →
      st = .acc v s' pos' ∨ ∃ f ∈ fs, f s pos = .ok (.acc v s' pos') := by
  intro fs
  induction fs with
  | nil => intro st v s' pos' h; cases h; exact .inl rfl
  | cons f fs ih =>
    intro st v s' pos' h
    simp only [Comb.oneOf98Loop, Out.bind_eq_ok] at h
    obtain ⟨x, hx, h⟩ := h
    rcases ih h with h | ⟨g, hg, e⟩
    · cases st with
      | acc w t q => exact .inl h
      | rej m q =>
        cases x with
        | acc w t q => cases h; exact .inr ⟨f, List.mem_cons_self .., hx⟩
        | rej m' q' => simp only [Comb.oneOf98Op] at h; split at h <;> cases h
    · exact .inr ⟨g, List.mem_cons_of_mem _ hg, e⟩

theorem oneOfSem_consumes {fs : List (Sem (List Chr))} (hc : ∀ f ∈ fs, Consumes f) :
    Consumes (oneOfSem E fs) := by
  intro s pos v s' pos' h
  have h11 : Comb.oneOf11 fs s pos = .ok (.acc v s' pos') → s'.length < s.length := by
    intro h
    obtain ⟨f, hf, e⟩ := oneOf11_acc h
    exact hc f hf _ _ _ _ _ e
  unfold oneOfSem at h
  cases hs : E.std with
  | cpp98 =>
    simp only [hs, Comb.oneOf98] at h
    split at h
    · rcases oneOf98Loop_acc h with h | ⟨f, hf, e⟩
      · cases h
      · exact hc f hf _ _ _ _ _ e
    · cases h
  | cpp11 => simp only [hs] at h; exact h11 h
  | cpp14 => simp only [hs] at h; exact h11 h

theorem allMayBeEmpty_false {N NN : Nat → Bool} : ∀ {ps : List P},
    P.mayBeEmpty.allMayBeEmpty N NN ps = false → ∃ p ∈ ps, p.mayBeEmpty N NN = false := by
  intro ps
  induction ps with
  | nil => intro h; simp [P.mayBeEmpty.allMayBeEmpty] at h
  | cons p ps ih =>
    intro h
    simp only [P.mayBeEmpty.allMayBeEmpty, Bool.and_eq_false_iff] at h
    rcases h with h | h
    · exact ⟨p, List.mem_cons_self .., h⟩
    · obtain ⟨q, hq, h⟩ := ih h; exact ⟨q, List.mem_cons_of_mem _ hq, h⟩

theorem anyMayBeEmpty_false {N NN : Nat → Bool} : ∀ {ps : List P},
    P.mayBeEmpty.anyMayBeEmpty N NN ps = false → ∀ p ∈ ps, p.mayBeEmpty N NN = false := by
  intro ps
  induction ps with
  | nil => intro _ p hp; cases hp
  | cons p ps ih =>
    intro h q hq
    simp only [P.mayBeEmpty.anyMayBeEmpty, Bool.or_eq_false_iff] at h
    rcases List.mem_cons.1 hq with rfl | hq
    · exact h.1
    · exact ih h.2 q hq

theorem keeps_transformErrorMessage {f : Sem (List Chr)} (hf : Keeps f) (g : Msg → Out Msg) :
    Keeps (Comb.transformErrorMessage f g) := by
  intro s pos v s' pos' h
  simp only [Comb.transformErrorMessage, Out.bind_eq_ok] at h
  obtain ⟨x, hx, h⟩ := h
  cases x with
  | acc w t q => cases h; exact hf _ _ _ _ _ hx
  | rej m q => simp only [Out.bind_eq_ok] at h; obtain ⟨_, _, h⟩ := h; cases h

theorem consumes_transformErrorMessage {f : Sem (List Chr)} (hf : Consumes f)
    (g : Msg → Out Msg) : Consumes (Comb.transformErrorMessage f g) := by
  intro s pos v s' pos' h
  simp only [Comb.transformErrorMessage, Out.bind_eq_ok] at h
  obtain ⟨x, hx, h⟩ := h
  cases x with
  | acc w t q => cases h; exact hf _ _ _ _ _ hx
  | rej m q => simp only [Out.bind_eq_ok] at h; obtain ⟨_, _, h⟩ := h; cases h

theorem consumes_charParser {p : P} {cls : Chr → Bool} {val : Chr → Val} {m0 m1 : Msg}
    (h : CharParser E p cls val m0 m1) : Consumes (run E p) := by
  intro s pos v s' pos' e
  cases s with
  | nil => rw [show run E p [] pos = _ from h.empty pos] at e; cases e
  | cons c s =>
    cases hc : cls c with
    | true => rw [show run E p _ pos = _ from h.accepts c s pos hc] at e; cases e; simp
    | false => rw [show run E p _ pos = _ from h.other c s pos hc] at e; cases e

theorem consumes_eval {p : P} (h : Consumes (run E p)) (n : Nat) : Consumes (eval E n p) :=
  fun s pos v s' pos' e => h s pos v s' pos' (run_ok_of_eval n e)

/-- A parser that cannot be empty according to the approximation consumes. -/
theorem consumes_of_mayBeEmpty (hE : E.Honest) {N NN : Nat → Bool}
    (hN : ∀ i, (E.rules i).mayBeEmpty N NN = true → N i = true)
    (hNN : ∀ i, NN i = false → Consumes (E.native i)) :
    ∀ (n : Nat) (p : P), p.mayBeEmpty N NN = false → Consumes (eval E n p) := by
  have hT : E.OnText := hE.onText
  intro n
  induction n with
  | zero => intro p _ s pos v s' pos' h; cases h
  | succ n ih =>
  intro p hp
  have hk : ∀ ps : List P, ∀ f ∈ ps.map (eval E n), Keeps f := by
    intro ps f hf
    obtain ⟨q, _, rfl⟩ := List.mem_map.1 hf
    exact keeps_eval hE n q
  have hall : ∀ ps : List P, P.mayBeEmpty.allMayBeEmpty N NN ps = false →
      ∃ f ∈ ps.map (eval E n), Consumes f := by
    intro ps h
    obtain ⟨q, hq, h⟩ := allMayBeEmpty_false h
    exact ⟨_, List.mem_map.2 ⟨q, hq, rfl⟩, ih q h⟩
  cases p with
  | oneChar =>
    intro s pos v s' pos' h
    simp only [eval, step, Comb.oneChar, show E.input = listInput from hT] at h
    cases s with
    | nil => cases h
    | cons c s => cases h; simp
  | fail m => intro s pos v s' pos' h; cases h
  | native i => exact hNN i hp
  | ref i =>
    refine ih (E.rules i) ?_
    cases h : (E.rules i).mayBeEmpty N NN with
    | false => rfl
    | true => rw [show (P.ref i).mayBeEmpty N NN = N i from rfl, hN i h] at hp; cases hp
  | acceptWhen p pred m =>
    intro s pos v s' pos' h
    simp only [eval, step, Comb.acceptWhen, Out.bind_eq_ok] at h
    obtain ⟨x, hx, h⟩ := h
    cases x with
    | rej m q => cases h
    | acc w t q =>
      simp only [Out.bind_eq_ok] at h
      obtain ⟨b, _, h⟩ := h
      cases b <;> cases h
      exact ih p hp _ _ _ _ _ hx
  | changeErrorMessage p m =>
    intro s pos v s' pos' h
    simp only [eval, step, Comb.changeErrorMessage, Out.bind_eq_ok] at h
    obtain ⟨x, hx, h⟩ := h
    cases x <;> cases h
    exact ih p hp _ _ _ _ _ hx
  | transformErrorMessage p f => exact consumes_transformErrorMessage (ih p hp) f
  | transformError p k =>
    intro s pos v s' pos' h
    simp only [eval, step, Comb.transformError, Out.bind_eq_ok] at h
    obtain ⟨x, hx, h⟩ := h
    cases x with
    | acc w t q => cases h; exact ih p hp _ _ _ _ _ hx
    | rej m q => obtain ⟨m', e⟩ := hE.onError k m q _ h; cases e
  | transform p f =>
    intro s pos v s' pos' h
    simp only [eval, step, Comb.transform, Out.bind_eq_ok] at h
    obtain ⟨x, hx, h⟩ := h
    cases x with
    | rej m q => cases h
    | acc w t q =>
      simp only [Out.bind_eq_ok] at h
      obtain ⟨b, _, h⟩ := h
      cases h
      exact ih p hp _ _ _ _ _ hx
  | always p w =>
    intro s pos v s' pos' h
    simp only [eval, step, Comb.always, Out.bind_eq_ok] at h
    obtain ⟨x, hx, h⟩ := h
    cases x <;> cases h
    exact ih p hp _ _ _ _ _ hx
  | foldlStartWithParser p sp op =>
    intro s pos v s' pos' h
    simp only [eval, step, Comb.foldlStartWithParser, Out.bind_eq_ok] at h
    obtain ⟨x, hx, h⟩ := h
    cases x with
    | rej m q => cases h
    | acc w t q =>
      have h1 := ih sp hp _ _ _ _ _ hx
      have h2 := keeps_eval hE n _ _ _ _ _ _ h
      omega
  | foldlRejectIncompleteStartWithParser p sp op =>
    intro s pos v s' pos' h
    simp only [eval, step, Comb.foldlStartWithParser, Out.bind_eq_ok] at h
    obtain ⟨x, hx, h⟩ := h
    cases x with
    | rej m q => cases h
    | acc w t q =>
      have h1 := ih sp hp _ _ _ _ _ hx
      have h2 := keeps_eval hE n _ _ _ _ _ _ h
      omega
  | foldrStartWithParser p sp op =>
    intro s pos v s' pos' h
    simp only [eval, step, Comb.foldrStartWithParser, Out.bind_eq_ok] at h
    obtain ⟨x, hx, h⟩ := h
    cases x with
    | rej m q => exact ih sp hp _ _ _ _ _ h
    | acc w t q =>
      simp only [Out.bind_eq_ok] at h
      obtain ⟨y, hy, h⟩ := h
      cases y with
      | rej m q => cases h
      | acc u t' q' =>
        simp only [Out.bind_eq_ok] at h
        obtain ⟨b, _, h⟩ := h
        cases h
        have h1 := ih (.foldrStartWithParser p sp op) hp _ _ _ _ _ hy
        have h2 := keeps_eval hE n _ _ _ _ _ _ hx
        omega
  | ifAccepts p q =>
    intro s pos v s' pos' h
    simp only [eval, step, Comb.ifAccepts, Out.bind_eq_ok] at h
    obtain ⟨x, hx, h⟩ := h
    cases x with
    | rej m q => cases h
    | acc w t e => exact ih q hp _ _ _ _ _ h
  | sequence ps => exact seqSem_consumes (hk ps) (hall ps hp)
  | oneOf ps =>
    refine oneOfSem_consumes (E := E) fun f hf => ?_
    obtain ⟨q, hq, rfl⟩ := List.mem_map.1 hf
    exact ih q (anyMayBeEmpty_false hp q hq)
  | nthOfC k ps => exact nthOf_consumes k (hk ps) (hall ps hp)
  | lastOf ps => exact lastSem_consumes (hk ps) (hall ps hp)
  | middleOf p1 p2 p3 =>
    intro s pos v s' pos' h
    refine nthOf_consumes 1 (fs := [eval E n p1, eval E n p2, Comb.transformErrorMessage
      (eval E n p3) fun m => .ok (.unpaired pos.line pos.col m)]) ?_ ?_ s pos v s' pos' h
    · intro f hf
      simp only [List.mem_cons, List.not_mem_nil, or_false] at hf
      rcases hf with rfl | rfl | rfl
      · exact keeps_eval hE n p1
      · exact keeps_eval hE n p2
      · exact keeps_transformErrorMessage (keeps_eval hE n p3) _
    · simp only [P.mayBeEmpty, Bool.and_eq_false_iff] at hp
      rcases hp with hp | hp | hp
      · exact ⟨_, by simp, ih p1 hp⟩
      · exact ⟨eval E n p2, by simp, ih p2 hp⟩
      · exact ⟨_, List.mem_cons_of_mem _ (List.mem_cons_of_mem _ (List.mem_cons_self ..)),
          consumes_transformErrorMessage (ih p3 hp) _⟩
  | iterate k p accum =>
    intro s pos v s' pos' h
    simp only [P.mayBeEmpty, Bool.or_eq_false_iff, beq_eq_false_iff_ne] at hp
    simp only [eval, step, Comb.iterate, if_neg hp.1, Out.bind_eq_ok] at h
    obtain ⟨x, hx, h⟩ := h
    cases x with
    | rej m q => cases h
    | acc w t q =>
      have h1 := ih p hp.2 _ _ _ _ _ hx
      have h2 := keeps_eval hE n _ _ _ _ _ _ h
      omega
  | keyword kw w =>
    cases kw with
    | nil => simp [P.mayBeEmpty] at hp
    | cons c kw =>
      intro s pos v s' pos' h
      simp only [eval, step, Comb.keywordCons, Out.bind_eq_ok] at h
      obtain ⟨x, hx, h⟩ := h
      cases x with
      | rej m q => cases h
      | acc u t q =>
        have h1 := ih (P.litC c) rfl _ _ _ _ _ hx
        have h2 := keeps_eval hE n _ _ _ _ _ _ h
        omega
  | oneOfC cs =>
    by_cases hlim : E.std = .cpp98 → cs.length < E.limOneOf
    · exact consumes_eval (consumes_charParser (C28_one_of_c hT cs hlim)) _
    · simp only [Classical.not_imp] at hlim
      intro s pos v s' pos' h
      simp [eval, step, hlim.1, hlim.2] at h
  | oneCharExceptC cs =>
    by_cases hlim : E.std = .cpp98 → cs.length < E.limOneCharExcept
    · exact consumes_eval (consumes_charParser (C28_one_char_except hT cs hlim)) _
    · simp only [Classical.not_imp] at hlim
      intro s pos v s' pos' h
      simp [eval, step, hlim.1, hlim.2] at h
  | _ => cases hp

theorem not_nullable (hE : E.Honest) {N NN : Nat → Bool}
    (hN : ∀ i, (E.rules i).mayBeEmpty N NN = true → N i = true)
    (hNN : ∀ i, NN i = false → Consumes (E.native i)) {p : P} (hp : p.mayBeEmpty N NN = false) :
    ¬ Nullable E p := by
  rintro ⟨s, pos, v, pos', h⟩
  obtain ⟨n, e⟩ := exists_eval E p s pos
  have h' : run E p s pos = .ok (.acc v s pos') := h
  rw [h'] at e
  have := consumes_of_mayBeEmpty hE hN hNN n p hp _ _ _ _ _ e
  omega

theorem nullable_mayBeEmpty (hE : E.Honest) {N NN : Nat → Bool}
    (hN : ∀ i, (E.rules i).mayBeEmpty N NN = true → N i = true)
    (hNN : ∀ i, NN i = false → Consumes (E.native i)) {p : P} (hp : Nullable E p) :
    p.mayBeEmpty N NN = true := by
  cases h : p.mayBeEmpty N NN with
  | true => rfl
  | false => exact absurd hp (not_nullable hE hN hNN h)

theorem leftRefsList_mem {N NN : Nat → Bool} {i : Nat} {p : P} {after : List P} :
    ∀ {before : List P}, (∀ q ∈ before, q.mayBeEmpty N NN = true) → i ∈ p.leftRefs N NN →
      i ∈ P.leftRefs.list N NN (before ++ p :: after) := by
  intro before
  induction before with
  | nil => intro _ h; simp [P.leftRefs.list, h]
  | cons q before ih =>
    intro hb h
    have := ih (fun r hr => hb r (List.mem_cons_of_mem _ hr)) h
    simp [P.leftRefs.list, hb q (List.mem_cons_self ..), this]

theorem leftRefsAlts_mem {N NN : Nat → Bool} {i : Nat} {p : P} :
    ∀ {ps : List P}, p ∈ ps → i ∈ p.leftRefs N NN → i ∈ P.leftRefs.alts N NN ps := by
  intro ps
  induction ps with
  | nil => intro h; cases h
  | cons q ps ih =>
    intro hp h
    rcases List.mem_cons.1 hp with rfl | hp
    · simp [P.leftRefs.alts, h]
    · simp [P.leftRefs.alts, ih hp h]

/-- The parsers of the user that can be called at the start are among the computed ones. -/
theorem leftCalls_leftRefs (hE : E.Honest) {N NN : Nat → Bool}
    (hN : ∀ i, (E.rules i).mayBeEmpty N NN = true → N i = true)
    (hNN : ∀ i, NN i = false → Consumes (E.native i)) {p : P} {i : Nat} (h : LeftCalls E p i) :
    i ∈ p.leftRefs N NN := by
  have nul : ∀ {p : P}, Nullable E p → p.mayBeEmpty N NN = true := nullable_mayBeEmpty hE hN hNN
  induction h with
  | ref i => simp [P.leftRefs]
  | part h _ ih =>
    cases h with
    | sequence before p after hb => exact leftRefsList_mem (fun q hq => nul (hb q hq)) ih
    | nthOfC n before p after hb => exact leftRefsList_mem (fun q hq => nul (hb q hq)) ih
    | lastOf before p after hb => exact leftRefsList_mem (fun q hq => nul (hb q hq)) ih
    | oneOf ps p hp => exact leftRefsAlts_mem hp ih
    | foldlNext p sp op hn => simp [P.leftRefs, nul hn, ih]
    | foldlRejectIncompleteNext p sp op hn => simp [P.leftRefs, nul hn, ih]
    | middleOf2 p1 p2 p3 hn => simp [P.leftRefs, nul hn, ih]
    | middleOf3 p1 p2 p3 hn hn' => simp [P.leftRefs, nul hn, nul hn', ih]
    | _ => simp [P.leftRefs, ih]

theorem repeatsOk_part {N NN : Nat → Bool} {p q : P} (hp : p.repeatsOk N NN = true)
    (hq : q ∈ p.parts) : q.repeatsOk N NN = true := by
  have hlist : ∀ ps : List P, P.repeatsOk.all N NN ps = true → ∀ q ∈ ps,
      q.repeatsOk N NN = true := by
    intro ps
    induction ps with
    | nil => intro _ q hq; cases hq
    | cons p ps ih =>
      intro h q hq
      simp only [P.repeatsOk.all, Bool.and_eq_true] at h
      rcases List.mem_cons.1 hq with rfl | hq
      · exact h.1
      · exact ih h.2 q hq
  cases p with
  | sequence ps => exact hlist ps hp q hq
  | oneOf ps => exact hlist ps hp q hq
  | nthOfC n ps => exact hlist ps hp q hq
  | lastOf ps => exact hlist ps hp q hq
  | _ =>
    simp only [P.parts, List.mem_cons, List.not_mem_nil, or_false] at hq <;>
      rcases hq with rfl | rfl | rfl <;> simp_all [P.repeatsOk]

theorem repeatsOk_sound (hE : E.Honest) {N NN : Nat → Bool}
    (hN : ∀ i, (E.rules i).mayBeEmpty N NN = true → N i = true)
    (hNN : ∀ i, NN i = false → Consumes (E.native i)) (p : P) :
    p.repeatsOk N NN = true → p.Every P.FunctionsFinish → p.Sound E := by
  induction p using P.partsInduction with
  | _ p ih =>
  intro hp hf
  refine .mk ⟨?_, hf.here⟩ fun q hq => ih q hq (repeatsOk_part hp hq) (hf.part hq)
  have nn : ∀ {p : P}, p.mayBeEmpty N NN = false → ¬ Nullable E p := not_nullable hE hN hNN
  cases p <;> simp only [P.RepeatsConsume]
  all_goals
    simp only [P.repeatsOk, Bool.and_eq_true, Bool.not_eq_true', Bool.or_eq_true,
      decide_eq_true_eq] at hp
  all_goals first
    | exact nn hp.1
    | exact nn hp.1.1
    | (intro hlt; rcases hp.1 with h | h
       · omega
       · exact nn h)

end Metaparse
