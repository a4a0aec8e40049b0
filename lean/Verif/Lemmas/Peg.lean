import Verif.Spec.Peg
import Verif.Lemmas.Terminate
/-!
# Parsing expression grammars
-/

namespace Metaparse

namespace Peg

variable {G : Nat → Peg}

theorem Tries.parses {e : Peg} {s : List Chr} {o : Option (List Chr)} (h : Tries G e s o) : Parses G e s o := by
  induction h with
  | empty s => exact .empty s
  | term s h => exact .term s h
  | termEnd cls => exact .termEnd cls
  | termOther s h => exact .termOther s h
  | rule _ ih => exact .rule ih
  | seq _ _ ih1 ih2 => exact .seq ih1 ih2
  | seqFails _ ih => exact .seqFails ih
  | first _ _ ih1 _ => exact .first ih1
  | second _ _ ih1 ih2 => exact .second ih1 ih2
  | starMore _ _ ih1 ih2 => exact .starMore ih1 ih2
  | starEnd _ ih => exact .starEnd ih
  | not _ ih => exact .not ih
  | notFails _ ih => exact .notFails ih

theorem Parses.unique {e : Peg} {s : List Chr} {o o' : Option (List Chr)} (h : Parses G e s o)
    (h' : Parses G e s o') : o = o' := by
  induction h generalizing o' with
  | empty s => cases h'; rfl
  | term s h => cases h' with
    | term _ _ => rfl
    | termOther _ h2 => rw [h] at h2; cases h2
  | termEnd cls => cases h'; rfl
  | termOther s h => cases h' with
    | term _ h2 => rw [h] at h2; cases h2
    | termOther _ _ => rfl
  | rule _ ih => cases h' with
    | rule h2 => exact ih h2
  | seq _ _ ih1 ih2 => cases h' with
    | seq h1 h2 => cases ih1 h1; exact ih2 h2
    | seqFails h1 => cases ih1 h1
  | seqFails _ ih => cases h' with
    | seq h1 h2 => cases ih h1
    | seqFails h1 => rfl
  | first _ ih => cases h' with
    | first h1 => exact ih h1
    | second h1 _ => cases ih h1
  | second _ _ ih1 ih2 => cases h' with
    | first h1 => cases ih1 h1
    | second _ h2 => exact ih2 h2
  | starMore _ _ ih1 ih2 => cases h' with
    | starMore h1 h2 => cases ih1 h1; exact ih2 h2
    | starEnd h1 => cases ih1 h1
  | starEnd _ ih => cases h' with
    | starMore h1 h2 => cases ih h1
    | starEnd h1 => rfl
  | not _ ih => cases h' with
    | not _ => rfl
    | notFails h1 => cases ih h1
  | notFails _ ih => cases h' with
    | not h1 => cases ih h1
    | notFails _ => rfl

theorem Parses.length {e : Peg} {s : List Chr} {o : Option (List Chr)} (h : Parses G e s o) :
    ∀ r, o = some r → r.length ≤ s.length := by
  induction h with
  | empty s => rintro r ⟨⟩; exact Nat.le_refl _
  | term s h => rintro r ⟨⟩; simp
  | termEnd cls => rintro r ⟨⟩
  | termOther s h => rintro r ⟨⟩
  | rule _ ih => exact ih
  | seq _ _ ih1 ih2 => intro r hr; exact Nat.le_trans (ih2 r hr) (ih1 _ rfl)
  | seqFails _ ih => rintro r ⟨⟩
  | first _ ih => exact ih
  | second _ _ ih1 ih2 => exact ih2
  | starMore _ _ ih1 ih2 => intro r hr; exact Nat.le_trans (ih2 r hr) (ih1 _ rfl)
  | starEnd _ ih => rintro r ⟨⟩; exact Nat.le_refl _
  | not _ ih => rintro r ⟨⟩; exact Nat.le_refl _
  | notFails _ ih => rintro r ⟨⟩

/-- What happened. -/
def effect (s : List Chr) : Option (List Chr) → Effect
  | none => .fails
  | some r => if r.length < s.length then .consumes else .nothing

theorem Parses.may {e : Peg} {s : List Chr} {o : Option (List Chr)} (h : Parses G e s o) :
    May G e (effect s o) := by
  induction h with
  | empty s => simp [effect, May.empty]
  | term s h => simp [effect, May.term]
  | termEnd cls => exact .termFails cls
  | termOther s h => exact .termFails _
  | rule _ ih => exact .rule ih
  | @seq a b s r o h1 h2 ih1 ih2 =>
    by_cases hr : r.length < s.length
    · simp only [effect, if_pos hr] at ih1
      cases o with
      | none => exact .seqFails2 ih1 ih2
      | some t =>
        have ht := h2.length t rfl
        simp only [effect, if_pos (Nat.lt_of_le_of_lt ht hr)]
        by_cases htr : t.length < r.length
        · simp only [effect, if_pos htr] at ih2; exact .seqConsumes2 ih1 ih2
        · simp only [effect, if_neg htr] at ih2; exact .seqConsumes ih1 ih2
    · have hl := h1.length r rfl
      have he : r.length = s.length := by omega
      simp only [effect, if_neg hr] at ih1
      have : effect s o = effect r o := by cases o <;> simp [effect, he]
      rw [this]
      exact .seqNothing ih1 ih2
  | seqFails _ ih => exact .seqFails ih
  | @first a b s r h ih =>
    by_cases hr : r.length < s.length
    · simp only [effect, if_pos hr] at ih ⊢; exact .firstConsumes ih
    · simp only [effect, if_neg hr] at ih ⊢; exact .firstNothing ih
  | second _ _ ih1 ih2 => exact .second ih1 ih2
  | @starMore a s r o h1 h2 ih1 ih2 =>
    by_cases hr : r.length < s.length
    · simp only [effect, if_pos hr] at ih1
      cases o with
      | none => cases ih2
      | some t =>
        have ht := h2.length t rfl
        simp only [effect, if_pos (Nat.lt_of_le_of_lt ht hr)]
        exact .starConsumes ih1
    · have hl := h1.length r rfl
      have he : r.length = s.length := by omega
      have : effect s o = effect r o := by cases o <;> simp [effect, he]
      rw [this]
      exact ih2
  | starEnd _ ih => simp only [effect, Nat.lt_irrefl, if_false]; exact .starNothing ih
  | not _ ih => simp only [effect, Nat.lt_irrefl, if_false]; exact .not ih
  | @notFails a s r h ih =>
    by_cases hr : r.length < s.length
    · simp only [effect, if_pos hr] at ih; exact .notFails2 ih
    · simp only [effect, if_neg hr] at ih; exact .notFails ih

theorem WellFormed.good {e : Peg} (h : WellFormed G e) : Good G e := by cases h; assumption

theorem WellFormed.part {e a : Peg} (h : WellFormed G e) (ha : a ∈ e.parts) : WellFormed G a := by
  cases h with | mk _ h => exact h a ha

/-- In a well-formed grammar every expression succeeds or fails. -/
theorem tries_total (hG : ∀ i, WellFormed G (G i)) :
    ∀ (n : Nat) (e : Peg), WellFormed G e → ∀ s : List Chr, s.length < n → ∃ o, Tries G e s o := by
  intro n
  induction n with
  | zero => intro e _ s h; omega
  | succ n outer =>
    have key : ∀ e, Good G e → WellFormed G e → ∀ s : List Chr, s.length = n → ∃ o, Tries G e s o := by
      intro e hg
      induction hg with
      | empty => intro _ s _; exact ⟨_, .empty s⟩
      | term cls =>
        intro _ s _
        cases s with
        | nil => exact ⟨_, .termEnd cls⟩
        | cons c s =>
          cases hc : cls c with
          | true => exact ⟨_, .term s hc⟩
          | false => exact ⟨_, .termOther s hc⟩
      | @rule i _ ih =>
        intro _ s hs
        obtain ⟨o, h⟩ := ih (hG i) s hs
        exact ⟨o, .rule h⟩
      | @seq a b _ _ iha ihb =>
        intro hw s hs
        obtain ⟨o, h⟩ := iha (hw.part (by simp [parts])) s hs
        cases o with
        | none => exact ⟨_, .seqFails h⟩
        | some r =>
          have hwb : WellFormed G b := hw.part (by simp [parts])
          by_cases hr : r.length < s.length
          · obtain ⟨o, h2⟩ := outer b hwb r (by omega)
            exact ⟨o, .seq h h2⟩
          · have hm := h.parses.may
            simp only [effect, if_neg hr] at hm
            have := h.parses.length r rfl
            obtain ⟨o, h2⟩ := ihb hm hwb r (by omega)
            exact ⟨o, .seq h h2⟩
      | @alt a b _ _ iha ihb =>
        intro hw s hs
        obtain ⟨o, h⟩ := iha (hw.part (by simp [parts])) s hs
        obtain ⟨o', h'⟩ := ihb (hw.part (by simp [parts])) s hs
        cases o with
        | none => exact ⟨_, .second h h'⟩
        | some r => exact ⟨_, .first h h'⟩
      | @star a _ hn iha =>
        intro hw s hs
        obtain ⟨o, h⟩ := iha (hw.part (by simp [parts])) s hs
        cases o with
        | none => exact ⟨_, .starEnd h⟩
        | some r =>
          by_cases hr : r.length < s.length
          · obtain ⟨o, h2⟩ := outer _ hw r (by omega)
            exact ⟨o, .starMore h h2⟩
          · have hm := h.parses.may
            simp only [effect, if_neg hr] at hm
            exact absurd hm hn
      | @not a _ iha =>
        intro hw s hs
        obtain ⟨o, h⟩ := iha (hw.part (by simp [parts])) s hs
        cases o with
        | none => exact ⟨_, .not h⟩
        | some r => exact ⟨_, .notFails h⟩
    intro e hw s hs
    rcases Nat.lt_or_ge s.length n with h | h
    · exact outer e hw s h
    · exact key e hw.good hw s (by omega)

/-! ## The parsers -/

/-- What is left. -/
def rest : Res (List Chr) → Option (List Chr)
  | .acc _ s _ => some s
  | .rej _ _ => none

variable {E : Env (List Chr)}

theorem chain2 (f g : Sem (List Chr)) (k : List Val → Val) (s : List Chr) (pos : Pos) :
    (chain [f, g] s pos).bind (fun r => .ok (r.toRes k)) = (f s pos).bind fun
      | .rej m q => .ok (.rej m q)
      | .acc v s' q => (g s' q).bind fun
        | .rej m q => .ok (.rej m q)
        | .acc w s'' q => .ok (.acc (k [v, w]) s'' q) := by
  simp only [chain]
  rcases f s pos with (⟨v, s', q⟩ | ⟨m, q⟩) | e | _ <;> try rfl
  simp only [Out.bind_ok]
  rcases g s' q with (⟨w, s'', q'⟩ | ⟨m, q'⟩) | e | _ <;> rfl

theorem sequence2 (hE : Supports E) (f g : Sem (List Chr)) (s : List Chr) (pos : Pos) :
    seqSem E [f, g] s pos = (f s pos).bind fun
      | .rej m q => .ok (.rej m q)
      | .acc v s' q => (g s' q).bind fun
        | .rej m q => .ok (.rej m q)
        | .acc w s'' q => .ok (.acc (.seq [v, w]) s'' q) := by
  rw [seqSem_supported (fs := [f, g]) hE.seq, chain2]

theorem nth2 (hE : Supports E) (f g : Sem (List Chr)) {k : Int} (hk : 0 ≤ k ∧ k < 2) (s : List Chr) (pos : Pos) :
    Comb.nthOf E k [f, g] s pos = (f s pos).bind fun
      | .rej m q => .ok (.rej m q)
      | .acc v s' q => (g s' q).bind fun
        | .rej m q => .ok (.rej m q)
        | .acc w s'' q => .ok (.acc (pick k.toNat [v, w]) s'' q) := by
  rcases nthOf_form (E := E) k (fs := [f, g]) hE.nth with ⟨_, h⟩ | ⟨h, _⟩
  · rw [h, chain2]
  · exact absurd hk h

/-- The outcome of a parser is one of the expression, if it is one at all. -/
def Okay (G : Nat → Peg) (e : Peg) (s : List Chr) : Out (Res (List Chr)) → Prop
  | .deep => True
  | .ill _ => False
  | .ok r => Tries G e s (rest r)

theorem Okay.bind {a e : Peg} {s t : List Chr} {x : Out (Res (List Chr))} {k : Res (List Chr) → Out (Res (List Chr))}
    (h : Okay G a s x) (hacc : ∀ v r q, Tries G a s (some r) → Okay G e t (k (.acc v r q)))
    (hrej : ∀ m q, Tries G a s none → Okay G e t (k (.rej m q))) : Okay G e t (x.bind k) := by
  cases x with
  | deep => trivial
  | ill f => cases h
  | ok r =>
    cases r with
    | acc v r q => exact hacc v r q h
    | rej m q => exact hrej m q h

theorem op_rej (m m' : Msg) (q q' : Pos) :
    ∃ m'' q'', Comb.oneOf98Op (.rej m q) (.rej m' q' : Res (List Chr)) = .rej m'' q'' := by
  simp only [Comb.oneOf98Op]
  split <;> exact ⟨_, _, rfl⟩

theorem rest_op (m m' : Msg) (q q' : Pos) (r : Res (List Chr)) :
    rest (Comb.oneOf98Op (Comb.oneOf98Op (.rej m q) (.rej m' q')) r) = rest r := by
  obtain ⟨m2, q2, h⟩ := op_rej m m' q q'
  rw [h]
  cases r with
  | acc v s q => rfl
  | rej m3 q3 =>
    obtain ⟨m4, q4, h4⟩ := op_rej m2 m3 q2 q3
    rw [h4]; rfl

theorem okay_oneOf (hE : Supports E) {a b : Peg} {f g : Sem (List Chr)} {s : List Chr} {pos : Pos}
    (hf : Okay G a s (f s pos)) (hg : Okay G b s (g s pos)) : Okay G (.alt a b) s (oneOfSem E [f, g] s pos) := by
  have h11 : Okay G (.alt a b) s (Comb.oneOf11 [f, g] s pos) := by
    simp only [Comb.oneOf11]
    refine hf.bind (fun v r q h1 => ?_) (fun m q h1 => ?_)
    · rcases hx : g s pos with (⟨w, t, q'⟩ | ⟨m, q'⟩) | e | _ <;> rw [hx] at hg
      · exact .first h1 hg
      · simp only [Out.bind_ok, Comb.fail]; split <;> exact .first h1 hg
      · cases hg
      · trivial
    · rcases hx : g s pos with (⟨w, t, q'⟩ | ⟨m, q'⟩) | e | _ <;> rw [hx] at hg
      · exact .second h1 hg
      · simp only [Out.bind_ok, Comb.fail]; split <;> simp only [Out.bind_ok] <;> split <;> exact .second h1 hg
      · cases hg
      · trivial
  unfold oneOfSem
  cases hs : E.std with
  | cpp11 => exact h11
  | cpp14 => exact h11
  | cpp98 =>
    simp only [Comb.oneOf98]
    rw [if_pos (show [f, g].length ≤ E.limOneOf from hE.oneOf hs)]
    simp only [Comb.oneOf98Loop]
    refine hf.bind (fun v r q h1 => ?_) (fun m q h1 => ?_)
    · rcases hx : g s pos with (⟨w, t, q'⟩ | ⟨m, q'⟩) | e | _ <;> rw [hx] at hg
      · exact .first h1 hg
      · exact .first h1 hg
      · cases hg
      · trivial
    · rcases hx : g s pos with (⟨w, t, q'⟩ | ⟨m, q'⟩) | e | _ <;> rw [hx] at hg
      · simp only [Out.bind_ok, Okay, rest_op]; exact .second h1 hg
      · simp only [Out.bind_ok, Okay, rest_op]; exact .second h1 hg
      · cases hg
      · trivial

theorem okay_seq {a b : Peg} {f g : Sem (List Chr)} {k : Val → Val → Val} {s : List Chr} {pos : Pos}
    (hf : Okay G a s (f s pos)) (hg : ∀ r q, Okay G b r (g r q)) : Okay G (.seq a b) s ((f s pos).bind fun
      | .rej m q => .ok (.rej m q)
      | .acc v s' q => (g s' q).bind fun
        | .rej m q => .ok (.rej m q)
        | .acc w s'' q => .ok (.acc (k v w) s'' q)) := by
  refine hf.bind (fun v r q h1 => ?_) (fun m q h1 => ?_)
  · refine (hg r q).bind (fun w t q' h2 => ?_) (fun m q' h2 => ?_)
    · exact .seq h1 h2
    · exact .seq h1 h2
  · exact .seqFails h1

theorem okay_term {p : P} {cls : Chr → Bool} {val : Chr → Val} {m0 m1 : Msg}
    (h : CharParser E p cls val m0 m1) (s : List Chr) (pos : Pos) : Okay G (.term cls) s (run E p s pos) := by
  cases s with
  | nil => rw [show run E p [] pos = _ from h.empty pos]; exact .termEnd cls
  | cons c s =>
    cases hc : cls c with
    | true => rw [show run E p _ pos = _ from h.accepts c s pos hc]; exact .term s hc
    | false => rw [show run E p _ pos = _ from h.other c s pos hc]; exact .termOther s hc

theorem okay_of_le {e : Peg} {s : List Chr} {x y : Out (Res (List Chr))} (hxy : x = .deep ∨ x = y)
    (h : Okay G e s y) : Okay G e s x := by
  rcases hxy with rfl | rfl
  · trivial
  · exact h

/-- At every depth the outcome of a written expression is right. -/
theorem written_okay (hE : Supports E) (hG : ∀ i, IsWritten E (G i) (E.rules i)) :
    ∀ (n : Nat) (e : Peg) (p : P), IsWritten E e p → ∀ s pos, Okay G e s (eval E n p s pos) := by
  intro n
  induction n with
  | zero => intro e p _ s pos; trivial
  | succ n ih =>
    intro e p h
    induction h with
    | return_ v => intro s pos; exact .empty s
    | char h => intro s pos; exact okay_of_le ((run_isLim E _ s pos).1 _) (okay_term h s pos)
    | endOfInput v =>
      intro s pos
      simp only [eval, step, Comb.empty, show E.input = listInput from hE.onText]
      cases s with
      | nil => exact .not (.termEnd _)
      | cons c s => exact .notFails (.term s rfl)
    | rule i =>
      intro s pos
      obtain h := ih _ _ (hG i) s pos
      simp only [eval, step]
      cases he : eval E n (E.rules i) s pos with
      | deep => trivial
      | ill f => rw [he] at h; cases h
      | ok r => rw [he] at h; exact .rule h
    | @sequence a b p q hp hq =>
      intro s pos
      show Okay G _ s (seqSem E [eval E n p, eval E n q] s pos)
      rw [sequence2 hE]
      exact okay_seq (k := fun v w => .seq [v, w]) (ih _ _ hp s pos) (ih _ _ hq)
    | @firstOf a b p q hp hq =>
      intro s pos
      show Okay G _ s (Comb.nthOf E 0 [eval E n p, eval E n q] s pos)
      rw [nth2 hE _ _ (by omega)]
      exact okay_seq (k := fun v w => pick 0 [v, w]) (ih _ _ hp s pos) (ih _ _ hq)
    | @lastOf a b p q hp hq =>
      intro s pos
      show Okay G _ s (lastSem E [eval E n p, eval E n q] s pos)
      rw [lastSem_cons, nth2 hE _ _ (by simp)]
      exact okay_seq (k := fun v w => pick _ [v, w]) (ih _ _ hp s pos) (ih _ _ hq)
    | @oneOf a b p q hp hq =>
      intro s pos
      exact okay_oneOf hE (ih _ _ hp s pos) (ih _ _ hq s pos)
    | @foldl a p op st x K hp hop hst hx =>
      intro s pos
      simp only [eval, step, Comb.foldl]
      refine (ih _ _ hp s pos).bind (fun v r q h1 => ?_) (fun m q h1 => ?_)
      · simp only [hst, Out.bind_ok]
        obtain ⟨y, hy, hK⟩ := hop x v hx
        have h2 := ih _ _ (IsWritten.foldl K hp hop hy hK) r q
        cases he : eval E n (.foldl p (op x v) op) r q with
        | deep => trivial
        | ill f => rw [he] at h2; cases h2
        | ok t => rw [he] at h2; exact .starMore h1 h2
      · simp only [hst, Out.bind_ok]; exact .starEnd h1
    | @foldl1 a p op st x K hp hop hst hx =>
      intro s pos
      simp only [P.foldl1, eval, step, Comb.ifAccepts]
      refine (ih _ _ hp s pos).bind (fun v r q h1 => ?_) (fun m q h1 => ?_)
      · have h2 := ih _ _ (IsWritten.foldl K hp hop hst hx) s pos
        simp only []
        cases he : eval E n (.foldl p st op) s pos with
        | deep => trivial
        | ill f => rw [he] at h2; cases h2
        | ok t =>
          rw [he] at h2
          have h2 : Tries G (.star a) s (rest t) := h2
          show Tries G _ s (rest t)
          generalize rest t = o at h2
          cases h2 with
          | starMore h3 h4 => exact .seq h3 h4
          | starEnd h3 => cases h1.parses.unique h3.parses
      · exact .seqFails h1
    | @except a p v m hp _ =>
      intro s pos
      simp only [eval, step, Comb.except]
      exact (ih _ _ hp s pos).bind (fun v r q h1 => .notFails h1) (fun m q h1 => .not h1)
    | @lookAhead a p hp _ =>
      intro s pos
      simp only [eval, step, Comb.lookAhead]
      exact (ih _ _ hp s pos).bind (fun v r q h1 => .not (.notFails h1)) (fun m q h1 => .notFails (.not h1))
    | @optional a p v hp _ =>
      intro s pos
      simp only [eval, step, Comb.optional]
      exact (ih _ _ hp s pos).bind (fun v r q h1 => .first h1 (.empty s)) (fun m q h1 => .second h1 (.empty s))
    | @always a p v hp _ =>
      intro s pos
      simp only [eval, step, Comb.always]
      exact (ih _ _ hp s pos).bind (fun v r q h1 => h1) (fun m q h1 => h1)
    | @transform a p f hp hf _ =>
      intro s pos
      simp only [eval, step, Comb.transform]
      refine (ih _ _ hp s pos).bind (fun v r q h1 => ?_) (fun m q h1 => h1)
      obtain ⟨w, hw⟩ := hf v
      simp only [hw, Out.bind_ok]
      exact h1
    | @changeErrorMessage a p m hp _ =>
      intro s pos
      simp only [eval, step, Comb.changeErrorMessage]
      exact (ih _ _ hp s pos).bind (fun v r q h1 => h1) (fun m q h1 => h1)

theorem run_okay (hE : Supports E) (hG : ∀ i, IsWritten E (G i) (E.rules i)) {e : Peg} {p : P}
    (h : IsWritten E e p) (s : List Chr) (pos : Pos) : Okay G e s (run E p s pos) := by
  obtain ⟨n, hn⟩ := exists_eval E p s pos
  rw [← hn]
  exact written_okay hE hG n e p h s pos

theorem run_sequence2 (hE : Supports E) {a : Peg} {p q : P} {s : List Chr} {o1 : Option (List Chr)} {pos : Pos}
    (hG : ∀ i, IsWritten E (G i) (E.rules i)) (hp : IsWritten E a p) (h : Tries G a s o1)
    (h1 : run E p s pos ≠ .deep) (h2 : ∀ r, o1 = some r → ∀ pos, run E q r pos ≠ .deep) :
    chain [run E p, run E q] s pos ≠ .deep := by
  simp only [chain]
  refine Out.bind_ne_deep h1 fun x hx => ?_
  cases x with
  | rej m e => simp
  | acc v r e =>
    have hk := run_okay hE hG hp s pos
    rw [hx] at hk
    have := h.parses.unique (Tries.parses hk)
    exact Out.bind_ne_deep (Out.bind_ne_deep (h2 r this e) fun y _ => by cases y <;> simp) fun _ _ => by simp

/-- Every way to write the expression finishes on `s`. -/
def Finishes (E : Env (List Chr)) (e : Peg) (s : List Chr) : Prop :=
  ∀ p, IsWritten E e p → ∀ pos, run E p s pos ≠ .deep

/-- The parts of the expression finish where they are applied. -/
def PartsFinish (E : Env (List Chr)) (G : Nat → Peg) (s : List Chr) : Peg → Prop
  | .empty => True
  | .term _ => True
  | .rule i => Finishes E (G i) s
  | .seq a b => Finishes E a s ∧ ∃ o, Tries G a s o ∧ ∀ r, o = some r → Finishes E b r
  | .alt a b => Finishes E a s ∧ Finishes E b s
  | .star a => Finishes E a s ∧ ∃ o, Tries G a s o ∧ ∀ r, o = some r → Finishes E (.star a) r
  | .not a => Finishes E a s

theorem foldl_finishes (hE : Supports E) (hG : ∀ i, IsWritten E (G i) (E.rules i)) {a : Peg} {p : P}
    {op : Val → Val → Val} {st x : Val} {K : Val → Prop} {s : List Chr} {o : Option (List Chr)}
    (hp : IsWritten E a p) (hop : NeverFails K op) (hst : st.force = .ok x) (hx : K x) (ho : Tries G a s o)
    (h1 : Finishes E a s) (h2 : ∀ r, o = some r → Finishes E (.star a) r) (pos : Pos) :
    run E (.foldl p st op) s pos ≠ .deep := by
  rw [run_step]
  simp only [step, Comb.foldl, hst, Out.bind_ok]
  refine Out.bind_ne_deep (h1 p hp pos) fun y hy => ?_
  cases y with
  | rej m e => simp
  | acc v r e =>
    have hk := run_okay hE hG hp s pos
    rw [hy] at hk
    have := ho.parses.unique (Tries.parses hk)
    obtain ⟨y, hy, hK⟩ := hop x v hx
    exact h2 r this _ (IsWritten.foldl K hp hop hy hK) e

theorem partsFinish_finishes (hE : Supports E) (hG : ∀ i, IsWritten E (G i) (E.rules i)) {e : Peg}
    {s : List Chr} (h : PartsFinish E G s e) : Finishes E e s := by
  intro p hp
  induction hp with
  | return_ v => intro pos; rw [run_step]; simp [step, Comb.ret]
  | char hc => exact hc.fin s
  | endOfInput v =>
    intro pos
    rw [run_step]
    simp only [step, Comb.empty, show E.input = listInput from hE.onText]
    cases s <;> simp [listInput]
  | rule i => intro pos; rw [run_step]; exact h _ (hG i) pos
  | @sequence a b p q hp hq =>
    intro pos
    obtain ⟨h1, o, ho, h2⟩ := h
    rw [run_step]
    exact seqSem_ne_deep (run_sequence2 hE hG hp ho (h1 p hp pos) fun r hr pos => h2 r hr q hq pos)
  | @firstOf a b p q hp hq =>
    intro pos
    obtain ⟨h1, o, ho, h2⟩ := h
    rw [run_step]
    exact nthOf_ne_deep _ (run_sequence2 hE hG hp ho (h1 p hp pos) fun r hr pos => h2 r hr q hq pos)
  | @lastOf a b p q hp hq =>
    intro pos
    obtain ⟨h1, o, ho, h2⟩ := h
    rw [run_step]
    exact lastSem_ne_deep (run_sequence2 hE hG hp ho (h1 p hp pos) fun r hr pos => h2 r hr q hq pos)
  | @oneOf a b p q hp hq =>
    intro pos
    rw [run_step]
    refine oneOfSem_ne_deep fun f hf => ?_
    simp only [List.map, List.mem_cons, List.not_mem_nil, or_false] at hf
    rcases hf with rfl | rfl
    · exact h.1 p hp pos
    · exact h.2 q hq pos
  | @foldl a p op st x K hp hop hst hx =>
    intro pos
    obtain ⟨h1, o, ho, h2⟩ := h
    exact foldl_finishes hE hG hp hop hst hx ho h1 h2 pos
  | @foldl1 a p op st x K hp hop hst hx =>
    intro pos
    obtain ⟨h1, o, ho, h2⟩ := h
    have h3 := foldl_finishes hE hG hp hop hst hx ho h1 h2 pos
    simp only [P.foldl1]
    rw [run_step]
    simp only [step, Comb.ifAccepts]
    exact Out.bind_ne_deep (h1 p hp pos) fun y _ => by cases y with | rej m e => simp | acc v r e => exact h3
  | @except a p v m hp _ =>
    intro pos
    rw [run_step]
    exact Out.bind_ne_deep (h p hp pos) fun y _ => by cases y <;> simp
  | @lookAhead a p hp _ =>
    intro pos
    rw [run_step]
    refine Out.bind_ne_deep (fun hd => ?_) fun y _ => by cases y <;> simp
    have := h _ (.except .void_ (.user 0) hp) pos
    rw [run_step] at this
    simp only [step, Comb.except, hd] at this
    exact this rfl
  | @optional a p v hp _ =>
    intro pos
    rw [run_step]
    exact Out.bind_ne_deep (h.1 p hp pos) fun y _ => by cases y <;> simp
  | @always a p v hp ih =>
    intro pos
    rw [run_step]
    exact Out.bind_ne_deep (ih h pos) fun y _ => by cases y <;> simp
  | @transform a p f hp hf ih =>
    intro pos
    rw [run_step]
    refine Out.bind_ne_deep (ih h pos) fun y _ => ?_
    cases y with
    | rej m e => simp
    | acc v r e => obtain ⟨w, hw⟩ := hf v; simp [hw]
  | @changeErrorMessage a p m hp ih =>
    intro pos
    rw [run_step]
    exact Out.bind_ne_deep (ih h pos) fun y _ => by cases y <;> simp

/-- If an outcome is tried, the written expression finishes. -/
theorem tries_finishes (hE : Supports E) (hG : ∀ i, IsWritten E (G i) (E.rules i)) {e : Peg} {s : List Chr}
    {o : Option (List Chr)} (h : Tries G e s o) : Finishes E e s := by
  induction h with
  | empty s => exact partsFinish_finishes hE hG trivial
  | term s h => exact partsFinish_finishes hE hG trivial
  | termEnd cls => exact partsFinish_finishes hE hG trivial
  | termOther s h => exact partsFinish_finishes hE hG trivial
  | rule _ ih => exact partsFinish_finishes hE hG ih
  | seq h1 h2 ih1 ih2 => exact partsFinish_finishes hE hG ⟨ih1, _, h1, fun r hr => by cases hr; exact ih2⟩
  | seqFails h1 ih => exact partsFinish_finishes hE hG ⟨ih, _, h1, fun r hr => by cases hr⟩
  | first _ _ ih1 ih2 => exact partsFinish_finishes hE hG ⟨ih1, ih2⟩
  | second _ _ ih1 ih2 => exact partsFinish_finishes hE hG ⟨ih1, ih2⟩
  | starMore h1 h2 ih1 ih2 => exact partsFinish_finishes hE hG ⟨ih1, _, h1, fun r hr => by cases hr; exact ih2⟩
  | starEnd h1 ih => exact partsFinish_finishes hE hG ⟨ih, _, h1, fun r hr => by cases hr⟩
  | not _ ih => exact partsFinish_finishes hE hG ih
  | notFails _ ih => exact partsFinish_finishes hE hG ih

/-- The outcome is that of the expression. -/
theorem tries_iff (hE : Supports E) (hG : ∀ i, IsWritten E (G i) (E.rules i)) {e : Peg} {p : P}
    (hp : IsWritten E e p) (s : List Chr) (pos : Pos) (o : Option (List Chr)) :
    Tries G e s o ↔ ∃ r, run E p s pos = .ok r ∧ rest r = o := by
  constructor
  · intro h
    have hk := run_okay hE hG hp s pos
    cases hr : run E p s pos with
    | deep => exact absurd hr (tries_finishes hE hG h p hp pos)
    | ill f => rw [hr] at hk; cases hk
    | ok r => rw [hr] at hk; exact ⟨r, rfl, (h.parses.unique (Tries.parses hk)).symm⟩
  · rintro ⟨r, hr, rfl⟩
    have hk := run_okay hE hG hp s pos
    rw [hr] at hk
    exact hk

end Peg

end Metaparse
