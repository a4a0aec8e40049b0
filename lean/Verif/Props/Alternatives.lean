import Verif.Spec.Alternatives
import Verif.Props.Choice
import Verif.Props.Positions
import Verif.Props.Chars
/-!
# The order of the alternatives

C86.
-/

namespace Metaparse

variable {I : Type} {E : Env I} {ps qs : List P} {s : I} {pos : Pos}

theorem SameAlternatives.symm (h : SameAlternatives ps qs) : SameAlternatives qs ps := fun p => (h p).symm

theorem OneAccepts.same (h : SameAlternatives ps qs) (ho : OneAccepts E ps s pos) : OneAccepts E qs s pos :=
  fun p hp q hq => ho p ((h p).2 hp) q ((h q).2 hq)

theorem FirstAccepting.mem {v : Val} {s' : I} {pos' : Pos} (h : FirstAccepting E ps s pos v s' pos') :
    ∃ p ∈ ps, Accepts E p s pos v s' pos' := by
  obtain ⟨b, p, a, rfl, -, h⟩ := h
  exact ⟨p, by simp, h⟩

theorem oneOf_finishes (hs : E.SupportsOneOf ps.length) :
    (∃ r, run E (.oneOf ps) s pos = .ok r) ↔ AllFinish E ps s pos := by
  constructor
  · rintro ⟨r, hr⟩
    cases r with
    | acc v s' pos' => exact (oneOf_spec ps s pos _ hr).1
    | rej m e => exact (oneOf_spec ps s pos _ hr).1
  · exact oneOf_total ps hs s pos

/-- C86: whether `one_of` compiles (to a result or an error) does not depend on the order. -/
theorem C86_compiles (hps : E.SupportsOneOf ps.length) (hqs : E.SupportsOneOf qs.length)
    (h : SameAlternatives ps qs) :
    (∃ r, run E (.oneOf ps) s pos = .ok r) ↔ ∃ r, run E (.oneOf qs) s pos = .ok r := by
  rw [oneOf_finishes hps, oneOf_finishes hqs]
  exact ⟨fun hf q hq => hf q ((h q).2 hq), fun hf q hq => hf q ((h q).1 hq)⟩

/-- A list with an alternative twice, in another order. -/
example (s : List Chr) (pos : Pos) : (∃ r, run env98 (.oneOf [P.digit, P.int_]) s pos = .ok r) ↔
    ∃ r, run env98 (.oneOf [P.int_, P.digit, P.int_]) s pos = .ok r :=
  C86_compiles (fun _ => by decide) (fun _ => by decide) fun p => by
    simp only [List.mem_cons, List.not_mem_nil, or_false]; constructor <;> intro h <;> rcases h with h | h <;> simp [h]

/-- C86: whether `one_of` accepts does not depend on the order. -/
theorem C86_accepts_some (hs : E.SupportsOneOf qs.length) (h : SameAlternatives ps qs) {v : Val} {s' : I} {pos' : Pos}
    (ha : Accepts E (.oneOf ps) s pos v s' pos') : ∃ v s' pos', Accepts E (.oneOf qs) s pos v s' pos' := by
  obtain ⟨hf, ha⟩ := oneOf_spec ps s pos _ ha
  obtain ⟨p, hp, ha⟩ := ha.mem
  obtain ⟨r, hr⟩ := oneOf_total qs hs s pos fun q hq => hf q ((h q).2 hq)
  cases r with
  | acc v s' pos' => exact ⟨v, s', pos', hr⟩
  | rej m e =>
    obtain ⟨m', e', hrej⟩ := (oneOf_spec qs s pos _ hr).2.1 p ((h p).1 hp)
    exact (ha.not_rejects hrej).elim

/-- `a | ab` and `ab | a` at "ab". -/
example : ∃ v s' pos', Accepts env98 (.oneOf [.keyword (txt "ab") .void_, .keyword (txt "a") .void_]) (txt "ab") start v s' pos' :=
  C86_accepts_some (ps := [.keyword (txt "a") .void_, .keyword (txt "ab") .void_]) (fun _ => by decide)
    (fun p => by simp [or_comm]) (v := .void_) (s' := txt "b") (pos' := ⟨1, 2, ch 'a'⟩) (accepts_of_eval 20 (by decide +kernel))

/-- C86: when the alternatives exclude each other, the whole outcome of accepting does not depend on the order. -/
theorem C86_accepts (hps : E.SupportsOneOf ps.length) (hqs : E.SupportsOneOf qs.length) (h : SameAlternatives ps qs)
    (ho : OneAccepts E ps s pos) (v : Val) (s' : I) (pos' : Pos) :
    Accepts E (.oneOf ps) s pos v s' pos' ↔ Accepts E (.oneOf qs) s pos v s' pos' := by
  have key : ∀ {ps qs : List P}, E.SupportsOneOf qs.length → SameAlternatives ps qs → OneAccepts E ps s pos →
      Accepts E (.oneOf ps) s pos v s' pos' → Accepts E (.oneOf qs) s pos v s' pos' := by
    intro ps qs hqs h ho ha
    obtain ⟨v1, s1, pos1, hb⟩ := C86_accepts_some hqs h ha
    obtain ⟨p, hp, ha'⟩ := (oneOf_spec ps s pos _ ha).2.mem
    obtain ⟨q, hq, hb'⟩ := (oneOf_spec qs s pos _ hb).2.mem
    obtain ⟨rfl, rfl, rfl⟩ := ho p hp q ((h q).2 hq) _ _ _ _ _ _ ha' hb'
    exact hb
  exact ⟨key hqs h ho, key hps h.symm (ho.same h)⟩

/-- C86: the position of the error does not depend on the order, whether or not the alternatives exclude each other. -/
theorem C86_position (hs : E.SupportsOneOf qs.length) (h : SameAlternatives ps qs) {m : Msg} {e : Pos}
    (hr : Rejects E (.oneOf ps) s pos m e) : ∃ m', Rejects E (.oneOf qs) s pos m' e := by
  have hall := (oneOf_spec ps s pos _ hr).2.1
  obtain ⟨m', e', hr'⟩ := (C20_oneOf_rejects_iff qs hs s pos).2 fun q hq => hall q ((h q).2 hq)
  have f1 := C20_oneOf_furthest ps s pos m e hr
  have f2 := C20_oneOf_furthest qs s pos m' e' hr'
  have h1 : e.less e' = false := by
    rcases f2.reached with rfl | ⟨q, hq, m0, h0⟩
    · exact f1.notBeforeStart
    · exact f1.furthest q ((h q).2 hq) m0 e' h0
  have h2 : e'.less e = false := by
    rcases f1.reached with rfl | ⟨q, hq, m0, h0⟩
    · exact f2.notBeforeStart
    · exact f2.furthest q ((h q).1 hq) m0 e h0
  rcases (C06_less_strict_total e e' e).2.2.1 with h | rfl | h
  · rw [h1] at h; cases h
  · exact ⟨m', hr'⟩
  · rw [h2] at h; cases h

/-- The messages are different, the position is not. -/
example : ∃ m', Rejects env98 (.oneOf [.keyword (txt "abd") .void_, .keyword (txt "abc") .void_]) (txt "abx") start m'
    ⟨1, 3, ch 'b'⟩ :=
  C86_position (ps := [.keyword (txt "abc") .void_, .keyword (txt "abd") .void_]) (fun _ => by decide)
    (fun p => by simp [or_comm]) (m := .literalExpected (ch 'd')) (rejects_of_eval 20 (by decide +kernel))

/-- C86: the message does not depend on the order when the alternatives that get there agree (C++11 and C++14). -/
theorem C86_message (hstd : E.std ≠ .cpp98) (h : SameAlternatives ps qs) {m : Msg} {e : Pos}
    (ho : e ≠ pos → OneMessage E ps s pos e) (hr : Rejects E (.oneOf ps) s pos m e) :
    Rejects E (.oneOf qs) s pos m e := by
  obtain ⟨m', hr'⟩ := C86_position (fun h => absurd h hstd) h hr
  by_cases he : e = pos
  · subst he
    rw [C20_oneOf_message_at_start hstd ps s e m hr, ← C20_oneOf_message_at_start hstd qs s e m' hr']
    exact hr'
  · obtain ⟨b, p, a, hp, hrp, -⟩ := (C20_oneOf_furthest ps s pos m e hr).lastThere he
    obtain ⟨b', q, a', hq, hrq, -⟩ := (C20_oneOf_furthest qs s pos m' e hr').lastThere he
    have := ho he p (hp ▸ by simp) q ((h q).2 (hq ▸ by simp)) m m' hrp hrq
    rw [this]
    exact hr'

/-- Only `abc` gets as far as the third character. -/
example : Rejects env11 (.oneOf [P.litC (ch 'b'), .keyword (txt "abc") .void_]) (txt "abx") start (.literalExpected (ch 'c'))
    ⟨1, 3, ch 'b'⟩ := by
  have h1 : Rejects env11 (.keyword (txt "abc") .void_) (txt "abx") start (.literalExpected (ch 'c')) ⟨1, 3, ch 'b'⟩ :=
    rejects_of_eval 20 (by decide +kernel)
  have h2 : Rejects env11 (P.litC (ch 'b')) (txt "abx") start (.literalExpected (ch 'b')) start :=
    rejects_of_eval 20 (by decide +kernel)
  have h3 (m : Msg) : ¬ Rejects env11 (P.litC (ch 'b')) (txt "abx") start m ⟨1, 3, ch 'b'⟩ := fun h => by
    have e := h2.symm.trans h
    injection e with e
    injection e with _ e
    exact absurd e (by decide)
  refine C86_message (ps := [.keyword (txt "abc") .void_, P.litC (ch 'b')]) (by decide) (fun p => by simp [or_comm]) ?_
    (rejects_of_eval 20 (by decide +kernel))
  intro _ p hp q hq m m1 hm hm1
  simp only [List.mem_cons, List.not_mem_nil, or_false] at hp hq
  rcases hp with rfl | rfl
  · rcases hq with rfl | rfl
    · have e := hm.symm.trans hm1
      injection e with e
      injection e
    · exact absurd hm1 (h3 _)
  · exact absurd hm (h3 _)

/-- C86: alternatives that begin with different characters exclude each other, at every text. -/
theorem C86_first_characters {E : Env (List Chr)} {ps : List P} (cls : P → Chr → Bool)
    (hb : ∀ p ∈ ps, OnlyBeginning E p (cls p))
    (hd : ∀ p ∈ ps, ∀ q ∈ ps, ∀ c, cls p c = true → cls q c = true → p = q) (s : List Chr) (pos : Pos) :
    OneAccepts E ps s pos := by
  intro p hp q hq v s' pos' v1 s1 pos1 h1 h2
  obtain ⟨c, r, rfl, hc⟩ := hb p hp _ _ _ _ _ h1
  obtain ⟨c', r', he, hc'⟩ := hb q hq _ _ _ _ _ h2
  obtain ⟨rfl, rfl⟩ := List.cons.inj he
  cases hd p hp q hq c hc hc'
  unfold Accepts at h1 h2
  rw [h1] at h2
  simpa using h2

/-! ## Cases -/

/-- `a` before `ab`, or after it: the order matters when the alternatives do not exclude each other. -/
theorem C86_order_matters :
    Accepts env11 (.oneOf [.keyword (txt "a") .void_, .keyword (txt "ab") .void_]) (txt "ab") start .void_ (txt "b")
      ⟨1, 2, ch 'a'⟩ ∧
    Accepts env11 (.oneOf [.keyword (txt "ab") .void_, .keyword (txt "a") .void_]) (txt "ab") start .void_ []
      ⟨1, 3, ch 'b'⟩ :=
  ⟨accepts_of_eval 20 (by decide +kernel), accepts_of_eval 20 (by decide +kernel)⟩

/-- The message is that of the last one: the order matters for it, though the alternatives exclude each other. -/
theorem C86_message_order_matters :
    Rejects env11 (.oneOf [.keyword (txt "abc") .void_, .keyword (txt "abd") .void_]) (txt "abx") start
      (.literalExpected (ch 'd')) ⟨1, 3, ch 'b'⟩ ∧
    Rejects env11 (.oneOf [.keyword (txt "abd") .void_, .keyword (txt "abc") .void_]) (txt "abx") start
      (.literalExpected (ch 'c')) ⟨1, 3, ch 'b'⟩ :=
  ⟨rejects_of_eval 20 (by decide +kernel), rejects_of_eval 20 (by decide +kernel)⟩

theorem keyword_onlyBeginning {E : Env (List Chr)} (hE : E.OnText) (c : Chr) (cs : List Chr) (v : Val) :
    OnlyBeginning E (.keyword (c :: cs) v) (· == c) := by
  intro s pos w s' pos' h
  obtain ⟨rfl, -⟩ := (C27_keyword_accepts hE ..).1 h
  exact ⟨c, cs ++ s', rfl, by simp⟩

/-- `let` and `in` in either order, at every text. -/
example (s : List Chr) (pos : Pos) (v : Val) (s' : List Chr) (pos' : Pos) :
    Accepts env98 (.oneOf [.keyword (txt "let") .void_, .keyword (txt "in") .void_]) s pos v s' pos' ↔
      Accepts env98 (.oneOf [.keyword (txt "in") .void_, .keyword (txt "let") .void_]) s pos v s' pos' := by
  have h1 := keyword_onlyBeginning env98_onText (ch 'l') (txt "et") .void_
  have h2 := keyword_onlyBeginning env98_onText (ch 'i') (txt "n") .void_
  refine C86_accepts (fun _ => by decide) (fun _ => by decide) (fun p => by simp [or_comm]) ?_ v s' pos'
  refine C86_first_characters (fun p c => match p with | .keyword (d :: _) _ => c == d | _ => false) ?_ ?_ s pos
  · intro p hp
    simp only [List.mem_cons, List.not_mem_nil, or_false] at hp
    rcases hp with rfl | rfl
    · exact h1
    · exact h2
  · intro p hp q hq c
    simp only [List.mem_cons, List.not_mem_nil, or_false] at hp hq
    rcases hp with rfl | rfl <;> rcases hq with rfl | rfl
    · intros; rfl
    · intro h h'
      have e1 : c = ch 'l' := eq_of_beq (show (c == ch 'l') = true from h)
      have e2 : c = ch 'i' := eq_of_beq (show (c == ch 'i') = true from h')
      exact absurd (e1.symm.trans e2) (by decide)
    · intro h h'
      have e1 : c = ch 'i' := eq_of_beq (show (c == ch 'i') = true from h)
      have e2 : c = ch 'l' := eq_of_beq (show (c == ch 'l') = true from h')
      exact absurd (e1.symm.trans e2) (by decide)
    · intros; rfl

end Metaparse
