import Verif.Lemmas.Lookahead
/-!
# Errors at the end of the longest prefix that may be continued to an expression
-/

namespace Metaparse

variable {E : Env (List Chr)} {n : Nat} {p q o r : P}

/-- Up to length `n`: if `p` rejects, then what is before the error can be continued to a text in `T`, and the
message says what is wrong. -/
def Viable (E : Env (List Chr)) (n : Nat) (p : P) (T : List Chr → AExp → Prop) : Prop :=
  ∀ s pos m e, s.length ≤ n → Rejects E p s pos m e → ∃ u rest w x, s = u ++ rest ∧ e = moveOver pos u ∧
    ErrorMessage E.std pos u m ∧ T (u ++ w) x

theorem ErrorMessage.after {std : Std} {pos : Pos} {x u : List Chr} {m : Msg}
    (h : ErrorMessage std (moveOver pos x) u m) (hx : OperandExpected x) : ErrorMessage std pos (x ++ u) m := by
  rcases h with ⟨h, rfl⟩ | ⟨u0, ⟨ws, t, e, rfl, hws, ht⟩, rfl⟩
  · refine .inl ⟨?_, rfl⟩
    rcases h with rfl | ⟨u0, c, ws, rfl, hc, hws⟩
    · simpa using hx
    · exact .inr ⟨x ++ u0, c, ws, by simp, hc, hws⟩
  · exact .inr ⟨x ++ u0, ⟨ws, t, e, by simp, hws, ht⟩, by rw [moveOver_append]⟩

theorem operandExpected_op {t ws : List Chr} {c : Chr}
    (hc : c ∈ [ch '+', ch '-', ch '*', ch '/', ch '(']) (hws : AllSpace ws) : OperandExpected (t ++ c :: ws) :=
  .inr ⟨t, c, ws, rfl, hc, hws⟩

theorem zero_text : NumText (txt "0") (.num 0) :=
  ⟨0, ⟨txt "0", [], rfl, by decide, by decide, by decide, by decide⟩, rfl⟩

theorem AnyDepth.number {t : List Chr} {e : AExp} (h : NumText t e) : AnyDepth dialect18 3 t e := by
  obtain ⟨n, h, rfl⟩ := h
  exact ⟨0, .num h⟩

theorem AnyDepth.bracket {ws t ws' : List Chr} {e : AExp} (hws : AllSpace ws) (h : AnyDepth dialect18 0 t e)
    (hws' : AllSpace ws') : AnyDepth dialect18 3 (ch '(' :: (ws ++ (t ++ ch ')' :: ws'))) e := by
  obtain ⟨d, h⟩ := h
  exact ⟨d + 1, .bracket hws h hws'⟩

theorem AnyDepth.product {t : List Chr} {e : AExp}
    (h : LeftChain (AnyDepth dialect18 2) (multChars dialect18) t e) : AnyDepth dialect18 1 t e := by
  induction h with
  | one h => obtain ⟨d, h⟩ := h; exact ⟨d, text1_iff18.2 (.one h)⟩
  | more _ hc hws hu ih =>
    obtain ⟨d1, h1⟩ := ih
    obtain ⟨d2, h2⟩ := hu
    exact ⟨max d1 d2, text1_iff18.2 (.more (text1_iff18.1 (h1.mono (Nat.le_max_left ..))) hc hws
      (h2.mono (Nat.le_max_right ..)))⟩

theorem AnyDepth.sum {t : List Chr} {e : AExp}
    (h : LeftChain (AnyDepth dialect18 1) plusChars t e) : AnyDepth dialect18 0 t e := by
  induction h with
  | one h => obtain ⟨d, h⟩ := h; exact ⟨d, text0_iff.2 (.one h)⟩
  | more _ hc hws hu ih =>
    obtain ⟨d1, h1⟩ := ih
    obtain ⟨d2, h2⟩ := hu
    exact ⟨max d1 d2, text0_iff.2 (.more (text0_iff.1 (h1.mono (Nat.le_max_left ..))) hc hws
      (h2.mono (Nat.le_max_right ..)))⟩

/-! ## Left associative operators -/

variable {A : List Chr → AExp → Prop} {ops : List Chr}

theorem steps_items (hs : E.SupportsSequence 2) (ho : ReadsOp E o ops) (hp : ∀ n, OnlyReads E n p (Values A))
    {s : List Chr} {pos : Pos} {vs : List Val} {s' : List Chr} {pos' : Pos}
    (h : Steps E (.sequence [o, p]) s pos vs s' pos') : ∃ w items, s = w ++ s' ∧ Items A ops w items := by
  induction h with
  | nil => exact ⟨[], [], rfl, .nil⟩
  | cons h1 _ ih =>
    obtain ⟨w, items, rfl, hw⟩ := ih
    obtain ⟨vs', hi, rfl⟩ := (C22_sequence_accepts _ hs ..).1 h1
    obtain ⟨x, y, s1, pos1, rfl, h2, h3⟩ := hi.two
    obtain ⟨c, hc, ws, rfl, hws, -⟩ := ho.sound h2
    obtain ⟨t, rfl, e, k, ht, -⟩ := hp _ _ _ _ _ _ (Nat.le_refl _) h3
    exact ⟨_, _, by simp, .cons hc hws ht hw⟩

theorem Viable.foldsLeft (hE : E.Honest) (h : FoldsLeft E q o p) (hs : E.SupportsSequence 2)
    (ho : ReadsOp E o ops) (hops : ∀ c ∈ ops, c ∈ [ch '+', ch '-', ch '*', ch '/', ch '('])
    (hr : ∀ n, OnlyReads E n p (Values A)) (hp : Viable E n p A) : Viable E n q (LeftChain A ops) := by
  intro s pos m e hn hrej
  rcases h.rejects hrej with hrej | ⟨x, s0, pos0, vs, s', pos', h1, ⟨h2, h3⟩, hne⟩
  · obtain ⟨u, rest, w, a, h1, h2, h3, h4⟩ := hp s pos m e hn hrej
    exact ⟨u, rest, w, a, h1, h2, h3, .one h4⟩
  · obtain ⟨c1, hc1, rfl⟩ := h1.honest hE
    obtain ⟨t, ht, a, k, hta, -⟩ := hr _ _ _ _ _ _ (Nat.le_refl _) h1
    obtain rfl : t = c1 := List.append_cancel_right (ht.symm.trans hc1)
    obtain ⟨w, items, hw, hitems⟩ := steps_items hs ho hr h2
    obtain ⟨c2, hc2, rfl⟩ := h2.honest hE
    obtain rfl : w = c2 := List.append_cancel_right (hw.symm.trans hc2)
    rcases (sequence_two_rejects hs).1 h3 with h3 | ⟨v, s1, pos1, h3, h4⟩
    · exact absurd (ho.error h3).1 hne
    · obtain ⟨c3, hc3, rfl⟩ := h3.honest hE
      obtain ⟨c, hc, ws, hcw, hws, -⟩ := ho.sound h3
      obtain rfl : c :: ws = c3 := List.append_cancel_right (bs := s1) (by simpa [hcw] using hc3)
      subst ht hw hc3
      obtain ⟨u, rest, w', b, rfl, rfl, hm, hb⟩ := hp s1 _ m e (by
        simp only [List.length_append] at hn; omega) h4
      have hchain : LeftChain A ops (t ++ w) (buildLeft a items) :=
        leftChain_iff.2 ⟨t, a, w, items, rfl, hta, hitems, rfl⟩
      have hmore := hchain.more hc hws hb
      refine ⟨t ++ w ++ (c :: ws ++ u), rest, w', _, by simp, ?_, ?_, by simpa using hmore⟩
      · rw [moveOver_append, moveOver_append, moveOver_append]
      · rw [← List.append_assoc]
        refine ErrorMessage.after ?_ (operandExpected_op (hops c hc) hws)
        rw [moveOver_append, moveOver_append]
        exact hm

/-! ## Unary minus -/

theorem minus_expects (h : E.Tutorial) {s : List Chr} {pos : Pos} {vs : List Val} {s' : List Chr} {pos' : Pos}
    (hst : Steps E Tutorial.minusToken s pos vs s' pos') : ∃ pre, s = pre ++ s' ∧ OperandExpected pre ∧
      ∀ u a, AnyDepth dialect18 2 u a → ∃ e, AnyDepth dialect18 2 (pre ++ u) e := by
  induction hst with
  | nil => exact ⟨[], rfl, .inl rfl, fun u a h => ⟨a, h⟩⟩
  | cons h1 _ ih =>
    obtain ⟨c, hc, ws, rfl, hws, -⟩ := h.minus.sound h1
    obtain ⟨pre, rfl, hpre, htext⟩ := ih
    simp only [List.mem_cons, List.not_mem_nil, or_false] at hc
    subst hc
    refine ⟨ch '-' :: (ws ++ pre), by simp, ?_, fun u a h => ?_⟩
    · rcases hpre with rfl | ⟨u0, c, ws', rfl, hc, hws'⟩
      · exact .inr ⟨[], ch '-', ws, by simp, by simp, hws⟩
      · exact .inr ⟨ch '-' :: (ws ++ u0), c, ws', by simp, hc, hws'⟩
    · obtain ⟨e, d, he⟩ := htext u a h
      exact ⟨_, d, by simpa using TutorialText.neg rfl hws he⟩

theorem Viable.unary (hE : E.Honest) (h : E.Tutorial) (hp : Viable E n p (AnyDepth dialect18 3)) :
    Viable E n (Tutorial.unaryExp p) (AnyDepth dialect18 2) := by
  intro s pos m e hn hr
  obtain ⟨vs, s0, pos0, m', e', hm, h2⟩ := (C18_foldr_start_with_parser_rejects ..).1 hr
  obtain ⟨pre, hpre, hexp, htext⟩ := minus_expects h hm.1
  obtain ⟨c1, hc1, rfl⟩ := hm.1.honest hE
  obtain rfl : pre = c1 := List.append_cancel_right (hpre.symm.trans hc1)
  subst hpre
  rw [List.length_append] at hn
  obtain ⟨u, rest, w, x, rfl, rfl, hmsg, d, hx⟩ := hp s0 _ m e (by omega) h2
  obtain ⟨x', hx'⟩ := htext (u ++ w) x ⟨d, .primary hx⟩
  exact ⟨pre ++ u, rest, w, x', by simp, (moveOver_append ..).symm, hmsg.after hexp, by simpa using hx'⟩

/-! ## Brackets -/

theorem rparen_message (h : E.Tutorial) {s : List Chr} {pos : Pos} {m : Msg} {e : Pos}
    (hr : Rejects E Tutorial.rparenToken s pos m e) : m = .literalExpected (ch ')') ∧ e = pos := by
  have hr' : Rejects E (P.litC (ch ')')) s pos m e := (C29_token_rejects h.onText h.nth2 ..).1 hr
  have hl := charParser_litC h.onText (ch ')')
  cases s with
  | nil => exact hr'.unique (hl.empty pos)
  | cons c s =>
    cases hc : c == ch ')' with
    | false => exact hr'.unique (hl.other c s pos hc)
    | true => exact absurd hr' (hl.accepts c s pos hc).not_rejects

theorem Viable.brackets (hE : E.Honest) (h : E.Tutorial) (hr : ∀ n, OnlyReads E n p (Values (AnyDepth dialect18 0)))
    (hp : ∀ k, k < n → Viable E k p (AnyDepth dialect18 0)) {s : List Chr} {pos : Pos} {m : Msg} {e : Pos}
    (hn : s.length ≤ n) (hrej : Rejects E (Metaparse.brackets p) s pos m e) :
    e = pos ∧ beginsWith (· == ch '(') s = false ∨
    beginsWith (· == ch '(') s = true ∧ e ≠ pos ∧ ∃ u rest w x, s = u ++ rest ∧ e = moveOver pos u ∧ ErrorMessage E.std pos u m ∧
      AnyDepth dialect18 3 (u ++ w) x := by
  rcases (brackets_rejects h).1 hrej with hrej | ⟨v, s1, pos1, h1, h2⟩ |
      ⟨v, s1, pos1, w, s2, pos2, m3, h1, h2, h3, rfl⟩
  · obtain ⟨he, hb⟩ := h.lparen.error hrej
    exact .inl ⟨he, beginsWith_mono (fun c hc => by simpa using hc) hb⟩
  · obtain ⟨c, hc, ws, hcw, hws, -⟩ := h.lparen.sound h1
    simp only [List.mem_cons, List.not_mem_nil, or_false] at hc
    subst hc
    obtain ⟨c1, hc1, rfl⟩ := h1.honest hE
    obtain rfl : ch '(' :: ws = c1 := List.append_cancel_right (bs := s1) (by simpa [hcw] using hc1)
    subst hcw
    simp only [List.length_cons, List.length_append] at hn
    obtain ⟨u, rest, w, x, rfl, rfl, hmsg, hx⟩ := hp (n - 1) (by omega) s1 _ m e (by omega) h2
    refine .inr ⟨by simp [beginsWith], ?_, ch '(' :: ws ++ u, rest, w ++ [ch ')'], x, by simp, ?_, ?_, ?_⟩
    · rw [← moveOver_append]
      intro he
      have := C06_move_forward pos (ch '(' :: ws ++ u) (by simp)
      rw [he, Pos.less_irrefl] at this
      cases this
    · rw [moveOver_append]
    · refine hmsg.after (operandExpected_op (t := []) (by simp) hws)
    · have := AnyDepth.bracket (ws' := []) hws hx (by simp [AllSpace])
      simpa using this
  · obtain ⟨c, hc, ws, hcw, hws, -⟩ := h.lparen.sound h1
    simp only [List.mem_cons, List.not_mem_nil, or_false] at hc
    subst hc
    obtain ⟨c1, hc1, rfl⟩ := h1.honest hE
    obtain rfl : ch '(' :: ws = c1 := List.append_cancel_right (bs := s1) (by simpa [hcw] using hc1)
    subst hcw
    obtain ⟨rfl, rfl⟩ := rparen_message h h3
    obtain ⟨t, ht, a, k, hta, -⟩ := hr _ _ _ _ _ _ (Nat.le_refl _) h2
    obtain ⟨c2, hc2, rfl⟩ := h2.honest hE
    obtain rfl : t = c2 := List.append_cancel_right (ht.symm.trans hc2)
    subst ht
    refine .inr ⟨by simp [beginsWith], ?_, ch '(' :: ws ++ t, s2, [ch ')'], a, by simp, ?_, ?_, ?_⟩
    · rw [← moveOver_append]
      intro he
      have := C06_move_forward pos (ch '(' :: ws ++ t) (by simp)
      rw [he, Pos.less_irrefl] at this
      cases this
    · rw [moveOver_append]
    · exact .inr ⟨[], ⟨ws, t, a, by simp, hws, hta⟩, rfl⟩
    · have := AnyDepth.bracket (ws' := []) hws hta (by simp [AllSpace])
      simpa using this

theorem Viable.primary (hE : E.Honest) (h : E.Tutorial) (hr : ∀ n, OnlyReads E n p (Values (AnyDepth dialect18 0)))
    (hp : ∀ k, k < n → Viable E k p (AnyDepth dialect18 0)) :
    Viable E n (primaryExp p [.fail Tutorial.missingPrimaryExpression]) (AnyDepth dialect18 3) := by
  intro s pos m e hn hrej
  have hall := (C20_oneOf_rejects_iff _ h.oneOf3 ..).1 ⟨m, e, hrej⟩
  have hf := C20_oneOf_furthest _ _ _ _ _ hrej
  obtain ⟨m1, e1, h1⟩ := hall Tutorial.intToken (by simp)
  obtain ⟨hd, rfl, rfl⟩ := (number_rejects h.onText h.nth2).1 h1
  obtain ⟨m2, e2, h2⟩ := hall (Metaparse.brackets p) (by simp)
  rcases Viable.brackets hE h hr hp hn h2 with ⟨rfl, hb⟩ | ⟨hb, hne, hv⟩
  · have hmiss := primary_missing h (r := p) (pos := e2) (s := s) (by
      cases s with
      | nil => rfl
      | cons c s => simp only [beginsWith] at hd hb ⊢; simp [hd, hb])
    obtain ⟨rfl, rfl⟩ := hrej.unique hmiss
    exact ⟨[], s, txt "0", .num 0, rfl, rfl, .inl ⟨.inl rfl, rfl⟩, .number zero_text⟩
  · have hee : e = e2 := by
      have hle : e.less e2 = false := hf.furthest _ (by simp) _ _ h2
      have hpe2 : e1.less e2 = true := by
        obtain ⟨u, rest, w, x, -, rfl, -⟩ := hv
        refine C06_move_forward _ u ?_
        rintro rfl
        exact hne rfl
      rcases hf.reached with rfl | ⟨q, hq, m', hq'⟩
      · rw [hpe2] at hle; cases hle
      · simp only [List.mem_cons, List.not_mem_nil, or_false] at hq
        rcases hq with rfl | rfl | rfl
        · obtain ⟨-, rfl⟩ := hq'.unique h1
          rw [hpe2] at hle; cases hle
        · exact (hq'.unique h2).2
        · obtain ⟨-, rfl⟩ := hq'.unique (C35_fail_total ..)
          rw [hpe2] at hle; cases hle
    subst hee
    obtain ⟨b, q, a, hl, hq, -⟩ := hf.lastThere hne
    have hmem : q ∈ [Tutorial.intToken, Metaparse.brackets p, .fail Tutorial.missingPrimaryExpression] := by
      rw [hl]; simp
    simp only [List.mem_cons, List.not_mem_nil, or_false] at hmem
    have hm : m = m2 := by
      rcases hmem with rfl | rfl | rfl
      · exact absurd (hq.unique h1).2 hne
      · exact (hq.unique h2).1
      · exact absurd (hq.unique (C35_fail_total ..)).2 hne
    subst hm
    exact hv

theorem Viable.of_run {T : List Chr → AExp → Prop} (h : Viable E n q T) (he : ∀ s pos, run E p s pos = run E q s pos) : Viable E n p T := by
  intro s pos m e hn hr
  exact h s pos m e hn (by unfold Rejects at hr ⊢; rw [← he]; exact hr)

theorem Viable.mono {T T' : List Chr → AExp → Prop} (h : Viable E n p T) (hT : ∀ t e, T t e → T' t e) : Viable E n p T' := by
  intro s pos m e hn hr
  obtain ⟨u, rest, w, x, h1, h2, h3, h4⟩ := h s pos m e hn hr
  exact ⟨u, rest, w, x, h1, h2, h3, hT _ _ h4⟩

/-- The class of `exp_parser23`. -/
theorem viable_six (hE : E.Honest) (h : E.Tutorial) (n : Nat) :
    Viable E n Tutorial.plusExp6 (AnyDepth dialect18 0) := by
  have hrec := recurses_six h
  induction n using Nat.strongRecOn with
  | _ n ih =>
    have hprim := Viable.primary (n := n) (p := .ref Tutorial.plusExp6Id) hE h
      (fun k => (hrec.sum_any k).of_run hrec.again) fun k hk => (ih k hk).of_run hrec.again
    have hmul : Viable E n Tutorial.multExp7 (AnyDepth dialect18 1) :=
      (Viable.foldsLeft hE hrec.product h.seq2 h.multOps (by simp) hrec.unary_any (.unary hE h hprim)).mono
        fun _ _ => AnyDepth.product
    exact (Viable.foldsLeft hE hrec.sum h.seq2 h.plusOps (by simp) hrec.mult_any hmul).mono
        fun _ _ => AnyDepth.sum

end Metaparse
