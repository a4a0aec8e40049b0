import Verif.Lemmas.Peg
import Verif.Lemmas.Check
/-!
# C76: the library recognises parsing expression grammars
-/

namespace Metaparse

open Peg

variable {E : Env (List Chr)} {G : Nat → Peg}

/-- A parsing expression written with the library accepts, leaving `s'`, exactly if the expression succeeds and
leaves `s'`, where both alternatives of a choice have to succeed or fail. -/
theorem C76_accepts (hE : Supports E) (hG : ∀ i, IsWritten E (G i) (E.rules i)) {e : Peg} {p : P}
    (hp : IsWritten E e p) (s : List Chr) (pos : Pos) (s' : List Chr) :
    (∃ v pos', Accepts E p s pos v s' pos') ↔ Tries G e s (some s') := by
  rw [tries_iff hE hG hp s pos]
  constructor
  · rintro ⟨v, pos', h⟩; exact ⟨_, h, rfl⟩
  · rintro ⟨r, h, hr⟩
    cases r with
    | acc v t q => cases hr; exact ⟨v, q, h⟩
    | rej m q => cases hr

/-- It rejects exactly if the expression fails. -/
theorem C76_rejects (hE : Supports E) (hG : ∀ i, IsWritten E (G i) (E.rules i)) {e : Peg} {p : P}
    (hp : IsWritten E e p) (s : List Chr) (pos : Pos) :
    (∃ m pos', Rejects E p s pos m pos') ↔ Tries G e s none := by
  rw [tries_iff hE hG hp s pos]
  constructor
  · rintro ⟨m, pos', h⟩; exact ⟨_, h, rfl⟩
  · rintro ⟨r, h, hr⟩
    cases r with
    | acc v t q => cases hr
    | rej m q => exact ⟨m, q, h⟩

/-- There are no compile errors, whatever the text. -/
theorem C76_compiles (hE : Supports E) (hG : ∀ i, IsWritten E (G i) (E.rules i)) {e : Peg} {p : P}
    (hp : IsWritten E e p) (s : List Chr) (pos : Pos) : ¬ IllFormed E p s pos := by
  rintro ⟨f, hf⟩
  have hk := run_okay hE hG hp s pos
  rw [hf] at hk
  exact hk

/-- What is accepted or rejected is so according to the definition of parsing expression grammars. -/
theorem C76_sound (hE : Supports E) (hG : ∀ i, IsWritten E (G i) (E.rules i)) {e : Peg} {p : P}
    (hp : IsWritten E e p) (s : List Chr) (pos : Pos) :
    (∀ v s' pos', Accepts E p s pos v s' pos' → Parses G e s (some s')) ∧
    (∀ m pos', Rejects E p s pos m pos' → Parses G e s none) :=
  ⟨fun v s' pos' h => ((C76_accepts hE hG hp s pos s').1 ⟨v, pos', h⟩).parses,
    fun m pos' h => ((C76_rejects hE hG hp s pos).1 ⟨m, pos', h⟩).parses⟩

/-- A parsing expression determines its outcome. -/
theorem C76_unambiguous {e : Peg} {s : List Chr} {o o' : Option (List Chr)} (h : Parses G e s o)
    (h' : Parses G e s o') : o = o' := h.unique h'

/-- In a well-formed grammar every expression is accepted or rejected, and exactly as parsing expression grammars
define it. -/
theorem C76_well_formed (hE : Supports E) (hG : ∀ i, IsWritten E (G i) (E.rules i))
    (hW : ∀ i, WellFormed G (G i)) {e : Peg} {p : P} (hp : IsWritten E e p) (he : WellFormed G e)
    (s : List Chr) (pos : Pos) :
    (∀ s', (∃ v pos', Accepts E p s pos v s' pos') ↔ Parses G e s (some s')) ∧
    ((∃ m pos', Rejects E p s pos m pos') ↔ Parses G e s none) ∧
    ((∃ s', Parses G e s (some s')) ∨ Parses G e s none) := by
  obtain ⟨o, ho⟩ := tries_total hW (s.length + 1) e he s (Nat.lt_succ_self _)
  refine ⟨fun s' => ?_, ?_, ?_⟩
  · rw [C76_accepts hE hG hp]
    exact ⟨fun h => h.parses, fun h => by cases ho.parses.unique h; exact ho⟩
  · rw [C76_rejects hE hG hp]
    exact ⟨fun h => h.parses, fun h => by cases ho.parses.unique h; exact ho⟩
  · cases o with
    | none => exact .inr ho.parses
    | some r => exact .inl ⟨r, ho.parses⟩

/-! ## Both alternatives are tried -/

/-- `S ← 'a' / S` -/
def endless : Nat → Peg := fun _ => .alt (.term (· == ch 'a')) (.rule 0)

/-- A grammar that is not well-formed need not work, even where the definition gives an outcome: with the rule
`S ← 'a' / S`, the text `a` is in the language, and no way to write the grammar ever finishes, on any text. -/
theorem C76_not_well_formed :
    Parses endless (.rule 0) (txt "a") (some []) ∧
    ∀ E, Supports E → (∀ i, IsWritten E (endless i) (E.rules i)) → ∀ s pos, Diverges E (.ref 0) s pos := by
  refine ⟨.rule (.first (.term _ rfl)), fun E hE hG s pos => ?_⟩
  have hno : ∀ (e : Peg) (s : List Chr) (o : Option (List Chr)), Tries endless e s o →
      e ≠ .rule 0 ∧ e ≠ .alt (.term (· == ch 'a')) (.rule 0) := by
    intro e s o h
    induction h with
    | rule h ih => exact absurd rfl ih.2
    | first h1 h2 ih1 ih2 => exact ⟨by simp, fun hc => by cases hc; exact ih2.1 rfl⟩
    | second h1 h2 ih1 ih2 => exact ⟨by simp, fun hc => by cases hc; exact ih2.1 rfl⟩
    | _ => exact ⟨by simp, by simp⟩
  have hk := run_okay hE hG (.rule 0) s pos
  unfold Diverges
  cases hr : run E (.ref 0) s pos with
  | deep => rfl
  | ill f => rw [hr] at hk; cases hk
  | ok r => rw [hr] at hk; exact absurd rfl (hno _ _ _ hk).1

/-- The hypotheses can be met. -/
def endlessEnv : Env (List Chr) := { env11 with rules := fun _ => .oneOf [.litC (ch 'a'), .ref 0] }

theorem env_supports (rules : Nat → P) : Supports { env11 with rules := rules } :=
  ⟨rfl, fun h => (by cases h), fun h => (by cases h), fun h => (by cases h)⟩

example (s : List Chr) (pos : Pos) : Diverges endlessEnv (.ref 0) s pos :=
  C76_not_well_formed.2 endlessEnv (env_supports _)
    (fun _ => .oneOf (.char (charParser_litC (E := endlessEnv) (show endlessEnv.OnText from rfl) (ch 'a'))) (.rule 0)) s pos

/-! ## A language that is not context-free -/

/-- `S ← &(A 'c') 'a'+ B !.`, `A ← 'a' A? 'b'`, `B ← 'b' B? 'c'` -/
def abc : Nat → Peg
  | 0 => .seq (.not (.not (.seq (.rule 1) (.term (· == ch 'c')))))
      (.seq (.seq (.term (· == ch 'a')) (.star (.term (· == ch 'a')))) (.seq (.rule 2) (.not (.term fun _ => true))))
  | 1 => .seq (.term (· == ch 'a')) (.seq (.alt (.rule 1) .empty) (.term (· == ch 'b')))
  | _ => .seq (.term (· == ch 'b')) (.seq (.alt (.rule 2) .empty) (.term (· == ch 'c')))

/-- The grammar, written with the library. -/
def abcEnv : Env (List Chr) :=
  { env11 with
    rules := fun
      | 0 => .lastOf [.lookAhead (.sequence [.ref 1, .litC (ch 'c')]),
          .sequence [.repeated1 (.litC (ch 'a')), .firstOf [.ref 2, .empty .void_]]]
      | 1 => .lastOf [.litC (ch 'a'), .firstOf [.optional (.ref 1) .void_, .litC (ch 'b')]]
      | _ => .lastOf [.litC (ch 'b'), .firstOf [.optional (.ref 2) .void_, .litC (ch 'c')]] }

theorem abc_lit (c : Chr) : IsWritten abcEnv (.term (· == c)) (.litC c) :=
  .char (charParser_litC (E := abcEnv) (show abcEnv.OnText from rfl) c)

theorem neverFails_backInserter : NeverFails (fun x => ∃ l, x = .seq l) backInserter := by
  rintro _ v ⟨l, rfl⟩
  exact ⟨_, rfl, _, rfl⟩

theorem abc_written : ∀ i, IsWritten abcEnv (abc i) (abcEnv.rules i)
  | 0 => .lastOf (.lookAhead (.sequence (.rule 1) (abc_lit _)))
      (.sequence (.foldl1 _ (abc_lit _) neverFails_backInserter rfl ⟨[], rfl⟩) (.firstOf (.rule 2) (.endOfInput _)))
  | 1 => .lastOf (abc_lit _) (.firstOf (.optional _ (.rule 1)) (abc_lit _))
  | _ + 2 => .lastOf (abc_lit _) (.firstOf (.optional _ (.rule 2)) (abc_lit _))

theorem may_term (c : Chr) : ¬ May abc (.term (· == c)) .nothing := by intro h; cases h

theorem good_pair (i : Nat) : Good abc (abc (i + 1)) := by
  cases i with
  | zero => exact .seq (.term _) fun h => absurd h (may_term _)
  | succ i => exact .seq (.term _) fun h => absurd h (may_term _)

theorem may_seq_nothing {a b : Peg} (h : May abc (.seq a b) .nothing) : May abc a .nothing ∧ May abc b .nothing := by
  cases h with | seqNothing h1 h2 => exact ⟨h1, h2⟩

theorem abc_wellFormed : ∀ i, WellFormed abc (abc i) := by
  have hterm : ∀ cls, WellFormed abc (.term cls) := fun cls => .mk (.term cls) (by simp [parts])
  have hempty : WellFormed abc .empty := .mk .empty (by simp [parts])
  have hrule : ∀ i, WellFormed abc (.rule (i + 1)) := fun i => .mk (.rule (good_pair i)) (by simp [parts])
  have hseq : ∀ {a b}, WellFormed abc a → WellFormed abc b → WellFormed abc (.seq a b) := by
    intro a b ha hb
    refine .mk (.seq ha.good fun _ => hb.good) fun c hc => ?_
    simp only [parts, List.mem_cons, List.not_mem_nil, or_false] at hc
    rcases hc with rfl | rfl <;> assumption
  have halt : ∀ {a b}, WellFormed abc a → WellFormed abc b → WellFormed abc (.alt a b) := by
    intro a b ha hb
    refine .mk (.alt ha.good hb.good) fun c hc => ?_
    simp only [parts, List.mem_cons, List.not_mem_nil, or_false] at hc
    rcases hc with rfl | rfl <;> assumption
  have hnot : ∀ {a}, WellFormed abc a → WellFormed abc (.not a) := by
    intro a ha
    refine .mk (.not ha.good) fun c hc => ?_
    simp only [parts, List.mem_cons, List.not_mem_nil, or_false] at hc
    rcases hc with rfl; assumption
  have hstar : ∀ c, WellFormed abc (.star (.term (· == c))) := by
    intro c
    refine .mk (.star (.term _) (may_term c)) fun d hd => ?_
    simp only [parts, List.mem_cons, List.not_mem_nil, or_false] at hd
    rcases hd with rfl; exact hterm _
  intro i
  match i with
  | 0 =>
    exact hseq (hnot (hnot (hseq (hrule 0) (hterm _)))) (hseq (hseq (hterm _) (hstar _)) (hseq (hrule 1) (hnot (hterm _))))
  | 1 => exact hseq (hterm _) (hseq (halt (hrule 0) hempty) (hterm _))
  | _ + 2 => exact hseq (hterm _) (hseq (halt (hrule 1) hempty) (hterm _))

theorem parses_lit {c : Chr} {s r : List Chr} : Parses abc (.term (· == c)) s (some r) ↔ s = c :: r := by
  constructor
  · intro h
    cases h with
    | term _ h => rw [eq_of_beq h]
  · rintro rfl; exact .term _ (by simp)

theorem parses_not_lit {c : Chr} {s : List Chr} (h : ∀ r, s ≠ c :: r) : Parses abc (.term (· == c)) s none := by
  cases s with
  | nil => exact .termEnd _
  | cons d s =>
    refine .termOther _ ?_
    cases hd : d == c with
    | false => rfl
    | true => exact absurd (by rw [eq_of_beq hd]) (h s)

/-- The rules `A` and `B`: as many of the one character as of the other. -/
theorem parses_pair {i : Nat} {x y : Chr} (hxy : x ≠ y)
    (hi : abc i = .seq (.term (· == x)) (.seq (.alt (.rule i) .empty) (.term (· == y)))) {s r : List Chr} :
    Parses abc (.rule i) s (some r) ↔
      ∃ n, s = List.replicate (n + 1) x ++ (List.replicate (n + 1) y ++ r) := by
  constructor
  · suffices H : ∀ e s o, Parses abc e s o → e = .rule i → ∀ r, o = some r →
        ∃ n, s = List.replicate (n + 1) x ++ (List.replicate (n + 1) y ++ r) from fun h => H _ _ _ h rfl r rfl
    have key : ∀ k (s : List Chr), s.length < k → ∀ r, Parses abc (.rule i) s (some r) →
        ∃ n, s = List.replicate (n + 1) x ++ (List.replicate (n + 1) y ++ r) := by
      intro k
      induction k with
      | zero => intro s h; omega
      | succ k ih =>
        intro s hs r h
        cases h with
        | rule h =>
        rw [hi] at h
        cases h with
        | seq h1 h2 =>
        rw [parses_lit] at h1
        subst h1
        cases h2 with
        | seq h2 h3 =>
        rw [parses_lit] at h3
        cases h2 with
        | first h2 =>
          obtain ⟨n, hn⟩ := ih _ (by simp at hs; omega) _ h2
          refine ⟨n + 1, ?_⟩
          rw [hn, h3, List.replicate_succ (n := n + 1), List.replicate_succ' (n := n + 1) (a := y)]
          simp
        | second _ h4 => cases h4; rw [h3]; exact ⟨0, rfl⟩
    intro e s o h he r ho
    subst he ho
    exact key _ s (Nat.lt_succ_self _) r h
  · rintro ⟨n, rfl⟩
    induction n generalizing r with
    | zero =>
      refine .rule ?_
      rw [hi]
      refine .seq (parses_lit.2 rfl) (.seq (.second (.rule ?_) (.empty _)) (parses_lit.2 rfl))
      rw [hi]
      exact .seqFails (parses_not_lit fun r h => by
        simp at h
        exact hxy h.1.symm)
    | succ n ih =>
      have h := ih (r := y :: r)
      refine .rule ?_
      rw [hi]
      refine .seq (r := List.replicate (n + 1) x ++ (List.replicate (n + 1) y ++ (y :: r))) (parses_lit.2 ?_)
        (.seq (.first h) (parses_lit.2 rfl))
      rw [List.replicate_succ (n := n + 1), List.replicate_succ' (n := n + 1) (a := y)]
      simp

theorem parses_star {c : Chr} {s r : List Chr} : Parses abc (.star (.term (· == c))) s (some r) ↔
    (∃ k, s = List.replicate k c ++ r) ∧ ∀ t, r ≠ c :: t := by
  constructor
  · intro h
    generalize he : Peg.star (.term (· == c)) = e at h
    generalize ho : some r = o at h
    induction h with
    | starMore h1 h2 ih1 ih2 =>
      cases he
      obtain ⟨⟨k, hk⟩, hr⟩ := ih2 rfl ho
      rw [parses_lit] at h1
      exact ⟨⟨k + 1, by rw [h1, hk, List.replicate_succ]; rfl⟩, hr⟩
    | starEnd h1 ih =>
      cases he; cases ho
      refine ⟨⟨0, rfl⟩, fun t ht => ?_⟩
      cases h1.unique (parses_lit.2 ht)
    | _ => cases he
  · rintro ⟨⟨k, rfl⟩, hr⟩
    induction k with
    | zero => exact .starEnd (parses_not_lit hr)
    | succ k ih =>
      rw [List.replicate_succ]
      exact .starMore (parses_lit.2 rfl) ih

theorem replicate_split {c : Chr} {x y : List Chr} (hx : ∀ t, x ≠ c :: t) (hy : ∀ t, y ≠ c :: t) :
    ∀ {k n : Nat}, List.replicate k c ++ x = List.replicate n c ++ y → k = n ∧ x = y
  | 0, 0, h => ⟨rfl, h⟩
  | 0, n + 1, h => absurd h (hx _)
  | k + 1, 0, h => absurd h.symm (hy _)
  | k + 1, n + 1, h => by
    simp only [List.replicate_succ, List.cons_append, List.cons.injEq, true_and] at h
    have := replicate_split hx hy h
    exact ⟨by omega, this.2⟩

/-- With look-ahead, the library recognises languages that are not context-free: the parser accepts exactly the
texts of some `a`s, as many `b`s and as many `c`s. -/
theorem C76_abc (s s' : List Chr) (pos : Pos) :
    (∃ v pos', Accepts abcEnv (.ref 0) s pos v s' pos') ↔
      s' = [] ∧ ∃ n, s = List.replicate (n + 1) (ch 'a') ++
        (List.replicate (n + 1) (ch 'b') ++ List.replicate (n + 1) (ch 'c')) := by
  have hab : ch 'a' ≠ ch 'b' := by decide
  have hbc : ch 'b' ≠ ch 'c' := by decide
  have hcb : ch 'c' ≠ ch 'b' := by decide
  have h1 : ∀ {s r : List Chr}, Parses abc (.rule 1) s (some r) ↔ _ := parses_pair (i := 1) hab rfl
  have h2 : ∀ {s r : List Chr}, Parses abc (.rule 2) s (some r) ↔ _ := parses_pair (i := 2) hbc rfl
  have hend : ∀ {s r : List Chr}, Parses abc (.not (.term fun _ => true)) s (some r) ↔ s = [] ∧ r = [] := by
    intro s r
    constructor
    · intro h
      cases h with
      | not h => cases h with
        | termEnd _ => exact ⟨rfl, rfl⟩
        | termOther _ h => cases h
    · rintro ⟨rfl, rfl⟩; exact .not (.termEnd _)
  have hW := (C76_well_formed (env_supports _) abc_written abc_wellFormed (.rule 0)
    (.mk (.rule (abc_wellFormed 0).good) (by simp [parts])) s pos).1 s'
  refine hW.trans ?_
  constructor
  · intro h
    cases h with | rule h =>
    cases h with | seq ha hb =>
    cases ha with | not ha =>
    cases ha with | notFails ha =>
    cases ha with | seq ha hc =>
    rw [h1] at ha
    rw [parses_lit] at hc
    cases hb with | seq hb hd =>
    cases hb with | seq hb hb' =>
    rw [parses_lit] at hb
    rw [parses_star] at hb'
    cases hd with | seq hd he =>
    rw [h2] at hd
    rw [hend] at he
    obtain ⟨rfl, rfl⟩ := he
    obtain ⟨n, hn⟩ := ha
    obtain ⟨⟨k, hk⟩, hk'⟩ := hb'
    obtain ⟨m, hm⟩ := hd
    refine ⟨rfl, n, ?_⟩
    subst hc
    have e1 := hn.symm.trans (hb.trans (by rw [hk]; rfl : _ = List.replicate (k + 1) (ch 'a') ++ _))
    have ⟨e2, e3⟩ := replicate_split (by intro t ht; simp [List.replicate_succ, hab.symm] at ht) hk' e1
    rw [hm] at e3
    have ⟨e4, e5⟩ := replicate_split (by intro t ht; simp [hcb] at ht)
      (by intro t ht; simp [List.replicate_succ, hcb] at ht) e3
    have : m = n := by omega
    subst this
    rw [hn, e5]
    simp
  · rintro ⟨rfl, n, rfl⟩
    refine .rule (.seq (.not (.notFails (.seq (h1.2 ⟨n, rfl⟩) (parses_lit.2 rfl))))
      (.seq (.seq (parses_lit.2 rfl) (parses_star.2 ⟨⟨n, rfl⟩, ?_⟩)) (.seq (h2.2 ⟨n, ?_⟩) (hend.2 ⟨rfl, rfl⟩))))
    · intro t ht; simp [List.replicate_succ, hab.symm] at ht
    · simp

example : Accepts abcEnv (.ref 0) (txt "aabbcc") start
    (.seq [.seq [.chr (ch 'a'), .chr (ch 'a')], .void_]) [] ⟨1, 7, ch 'c'⟩ :=
  accepts_of_eval 30 (by decide +kernel)


/-- C76, for the grammar of `aⁿbⁿcⁿ`: what it does with `aabbcc` and with `aabbc`. -/
example : Tries abc (.rule 0) (txt "aabbcc") (some []) :=
  (C76_accepts (env_supports _) abc_written (.rule 0) (txt "aabbcc") start []).1
    ⟨.seq [.seq [.chr (ch 'a'), .chr (ch 'a')], .void_], ⟨1, 7, ch 'c'⟩, accepts_of_eval 30 (by decide +kernel)⟩

example : Tries abc (.rule 0) (txt "aabbc") none :=
  (C76_rejects (env_supports _) abc_written (.rule 0) (txt "aabbc") start).1
    ⟨.literalExpected (ch 'c'), ⟨1, 6, ch 'c'⟩, rejects_of_eval 30 (by decide +kernel)⟩

example (s : List Chr) : ¬ IllFormed abcEnv (.ref 0) s start := C76_compiles (env_supports _) abc_written (.rule 0) s start

example : Parses abc (.rule 0) (txt "aabbcc") (some []) :=
  (C76_sound (env_supports _) abc_written (.rule 0) (txt "aabbcc") start).1
    (.seq [.seq [.chr (ch 'a'), .chr (ch 'a')], .void_]) [] ⟨1, 7, ch 'c'⟩ (accepts_of_eval 30 (by decide +kernel))

/-- So `aabbcc` is not rejected by the definition. -/
example : ¬ Parses abc (.rule 0) (txt "aabbcc") none := fun h => by
  have h' := (C76_sound (env_supports _) abc_written (.rule 0) (txt "aabbcc") start).1
    (.seq [.seq [.chr (ch 'a'), .chr (ch 'a')], .void_]) [] ⟨1, 7, ch 'c'⟩ (accepts_of_eval 30 (by decide +kernel))
  cases C76_unambiguous h h'

example (s : List Chr) : (∃ s', Parses abc (.rule 0) s (some s')) ∨ Parses abc (.rule 0) s none :=
  (C76_well_formed (env_supports _) abc_written abc_wellFormed (.rule 0)
    (.mk (.rule (abc_wellFormed 0).good) (by simp [parts])) s start).2.2

end Metaparse
