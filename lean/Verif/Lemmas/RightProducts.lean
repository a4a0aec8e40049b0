import Verif.Lemmas.ExpressionParsers
/-!
# The products of the tutorial that associate to the right
-/

namespace Metaparse

variable {E : Env (List Chr)}

/-- A number and an operator. -/
abbrev numberOp : P := .sequence [Tutorial.intToken, .oneOf [Tutorial.timesToken, Tutorial.dividesToken]]

theorem reverseBinaryOp_eq (x y : Int) (c : Chr) :
    Tutorial.reverseBinaryOp (.int y) (.seq [.int x, .chr c])
      = Tutorial.binaryOp (.int x) (.seq [.chr c, .int y]) := rfl

theorem numberOp_accepts (h : E.Tutorial) {s : List Chr} {pos : Pos} {v : Val} {s' : List Chr} {pos' : Pos} :
    Accepts E numberOp s pos v s' pos' ↔ ∃ x c s1 pos1, Accepts E Tutorial.intToken s pos (.int x) s1 pos1 ∧
      Accepts E (.oneOf [Tutorial.timesToken, Tutorial.dividesToken]) s1 pos1 (.chr c) s' pos' ∧
      v = .seq [.int x, .chr c] := by
  rw [C22_sequence_accepts _ h.seq2]
  constructor
  · rintro ⟨vs, hi, rfl⟩
    obtain ⟨a, b, s1, pos1, rfl, h1, h2⟩ := hi.two
    obtain ⟨t, -, e, k, -, -, rfl⟩ := OnlyReads.num h _ _ _ _ _ _ (Nat.le_refl _) h1
    obtain ⟨c, -, ws, -, -, -, rfl⟩ := h.multOps.sound h2
    exact ⟨k, c, s1, pos1, h1, h2, rfl⟩
  · rintro ⟨x, c, s1, pos1, h1, h2, rfl⟩
    exact ⟨_, .cons h1 (.cons h2 (.nil ..)), rfl⟩

theorem OnlyReads.right (h : E.Tutorial) (n : Nat) :
    OnlyReads E n Tutorial.multExp3 (Values (OpChain NumText [ch '*', ch '/'] buildRight)) := by
  intro s pos v s' pos' _ ha
  obtain ⟨vs, s0, pos0, m, e, x, ⟨hst, -⟩, hx, hf⟩ := (C18_foldr_start_with_parser ..).1 ha
  obtain ⟨t0, rfl, b, k0, hb, hk0, rfl⟩ := OnlyReads.num h _ _ _ _ _ _ (Nat.le_refl _) hx
  clear ha
  suffices ∀ {s pos vs s0 pos0}, Steps E numberOp s pos vs s0 pos0 → s0 = t0 ++ s' → ∀ v,
      rightFold Tutorial.reverseBinaryOp (.int k0) vs = .ok v →
      ∃ t, s = t ++ s' ∧ Values (OpChain NumText [ch '*', ch '/'] buildRight) t v from this hst rfl v hf
  intro s pos vs s0 pos0 hst
  induction hst with
  | nil =>
    rintro rfl v hf
    cases hf
    exact ⟨t0, rfl, b, k0, ⟨t0, b, [], [], by simp, hb, .nil, rfl⟩, hk0, rfl⟩
  | cons h1 _ ih =>
    rintro rfl v hf
    obtain ⟨y, hy, hf⟩ := Out.bind_eq_ok.1 hf
    obtain ⟨t, rfl, e1, k1, ⟨u1, a1, w1, items1, rfl, hu1, hw1, rfl⟩, hk1, rfl⟩ := ih rfl y hy
    obtain ⟨x, c, s1, pos1, h3, h4, rfl⟩ := (numberOp_accepts h).1 h1
    obtain ⟨c', hc, ws, rfl, hws, -, hcc⟩ := h.multOps.sound h4
    cases hcc
    obtain ⟨u, rfl, a, k2, hu, hk2, hkk⟩ := OnlyReads.num h _ _ _ _ _ _ (Nat.le_refl _) h3
    cases hkk
    rw [reverseBinaryOp_eq] at hf
    have hce : c ∈ expOps := by
      simp only [List.mem_cons, List.not_mem_nil, or_false] at hc
      rcases hc with rfl | rfl <;> decide
    obtain ⟨k, hk, rfl⟩ := (binaryOp_value hce hk2 hk1 v).1 hf
    exact ⟨u ++ c :: (ws ++ (u1 ++ w1)), by simp, _, k, ⟨u, a, _, _, rfl, hu, .cons hc hws hu1 hw1, rfl⟩, hk,
      rfl⟩

/-- The characters that may not follow a product. -/
def prodStop (c : Chr) : Bool := numCont c || [ch '*', ch '/'].contains c

theorem stop_cases {rest : List Chr} (h : beginsWith prodStop rest = false) :
    beginsWith numCont rest = false ∧ beginsWith ([ch '*', ch '/'].contains) rest = false :=
  ⟨beginsWith_mono (fun _ hc => Bool.or_eq_true_iff.2 (.inl hc)) h,
    beginsWith_mono (fun _ hc => Bool.or_eq_true_iff.2 (.inr hc)) h⟩

theorem numberOp_stops (h : E.Tutorial) {u rest : List Chr} {a : AExp} {k : Int} (hu : NumText u a)
    (hk : a.value = some k) (hr : beginsWith prodStop rest = false) (pos : Pos) :
    ∃ m e, Rejects E numberOp (u ++ rest) pos m e := by
  obtain ⟨h1, h2⟩ := stop_cases hr
  obtain ⟨pos1, ha⟩ := ReadsAll.num h u _ rest pos ⟨a, k, hu, hk, rfl⟩ h1
  obtain ⟨m, hr⟩ := h.multOps.rejects pos1 h2
  exact ⟨m, _, (sequence_two_rejects h.seq2).2 (.inr ⟨_, _, _, ha, hr⟩)⟩

theorem items_op {w : List Chr} {items : List (Chr × AExp)} {A : List Chr → AExp → Prop}
    (h : Items A [ch '*', ch '/'] w items) (hn : w ≠ []) (rest : List Chr) :
    beginsWith numCont (w ++ rest) = false := by
  cases h with
  | nil => exact absurd rfl hn
  | cons hc =>
    simp only [List.mem_cons, List.not_mem_nil, or_false] at hc
    rcases hc with rfl | rfl <;> (simp only [List.cons_append, beginsWith]; decide)

theorem mul_values {a b : AExp} {c : Chr} {items : List (Chr × AExp)} {k : Int}
    (h : (buildRight a ((c, b) :: items)).value = some k) :
    (∃ x, a.value = some x) ∧ ∃ y, (buildRight b items).value = some y := mkOp_values h

theorem ReadsAll.right (h : E.Tutorial) : ReadsAll E Tutorial.multExp3
    (Values (OpChain NumText [ch '*', ch '/'] buildRight)) prodStop := by
  rintro t v rest pos ⟨e, k, ⟨u, a, w, items, rfl, hu, hw, rfl⟩, hk, rfl⟩ hr
  suffices ∃ vs s0 pos0 m e x pos', MaximalRun E numberOp (u ++ w ++ rest) pos vs s0 pos0 m e ∧
      Accepts E Tutorial.intToken s0 pos0 x rest pos' ∧
      rightFold Tutorial.reverseBinaryOp x vs = .ok (.int k) by
    obtain ⟨vs, s0, pos0, m, e, x, pos', h1, h2, h3⟩ := this
    exact ⟨pos', (C18_foldr_start_with_parser ..).2 ⟨_, _, _, _, _, _, h1, h2, h3⟩⟩
  induction hw generalizing u a pos k with
  | nil =>
    obtain ⟨m, e, hrj⟩ := numberOp_stops h hu hk hr pos
    obtain ⟨pos1, ha⟩ := ReadsAll.num h u _ rest pos ⟨a, k, hu, hk, rfl⟩ (stop_cases hr).1
    exact ⟨[], u ++ rest, pos, m, e, _, pos1, by simpa using ⟨.nil .., hrj⟩, ha, rfl⟩
  | @cons c ws u1 w1 b items hc hws hu1 hw1 ih =>
    obtain ⟨⟨x, hx⟩, y, hy⟩ := mul_values hk
    have hs := solid_num _ _ hu1
    have hb : beginsWith numCont (c :: (ws ++ (u1 ++ w1)) ++ rest) = false :=
      items_op (.cons hc hws hu1 hw1) (by simp) rest
    obtain ⟨pos1, h1⟩ := ReadsAll.num h u _ _ pos ⟨a, x, hu, hx, rfl⟩ hb
    obtain ⟨pos2, h2⟩ := h.multOps.accepts (c := c) (ws := ws) (s' := u1 ++ w1 ++ rest) pos1 hc hws
      (by rw [List.append_assoc, beginsWith_append hs.2]; exact hs.1)
    obtain ⟨vs, s0, pos0, m, e, z, pos', ⟨hst, hrj⟩, h4, h5⟩ := ih pos2 y u1 b hu1 hy
    refine ⟨.seq [.int x, .chr c] :: vs, s0, pos0, m, e, z, pos', ⟨.cons ?_ hst, hrj⟩, h4, ?_⟩
    · refine (numberOp_accepts h).2 ⟨x, c, _, pos1, by simpa using h1, by simpa using h2, rfl⟩
    · simp only [rightFold, h5, Out.bind_ok, reverseBinaryOp_eq]
      refine (binaryOp_value ?_ hx hy _).2 ⟨k, hk, rfl⟩
      simp only [List.mem_cons, List.not_mem_nil, or_false] at hc
      rcases hc with rfl | rfl <;> decide

theorem Decides.right (h : E.Tutorial) : Decides E Tutorial.multExp3
    (OpChain NumText [ch '*', ch '/'] buildRight) prodStop := by
  -- what a maximal run of numbers with operators leaves
  have key : ∀ {w items}, Items NumText [ch '*', ch '/'] w items → ∀ {u a rest pos vs s0 pos0 m e},
      NumText u a → beginsWith prodStop rest = false →
      MaximalRun E numberOp (u ++ w ++ rest) pos vs s0 pos0 m e → ∃ u' a', s0 = u' ++ rest ∧ NumText u' a' ∧
        ∀ v, (∃ k0, a'.value = some k0 ∧ rightFold Tutorial.reverseBinaryOp (.int k0) vs = .ok v) →
          ∃ k, (buildRight a items).value = some k ∧ v = .int k := by
    intro w items hw
    induction hw with
    | nil =>
      intro u a rest pos vs s0 pos0 m e hu hr hm
      rw [List.append_nil] at hm
      obtain ⟨hst, hrj⟩ := hm
      cases hst with
      | nil =>
        refine ⟨u, a, rfl, hu, ?_⟩
        rintro v ⟨k0, hk0, hf⟩
        cases hf
        exact ⟨k0, hk0, rfl⟩
      | cons h1 _ =>
        exfalso
        obtain ⟨x, c, s1, pos1, h2, h3, -⟩ := (numberOp_accepts h).1 h1
        obtain ⟨k, pos', -, hk⟩ := Decides.num h _ _ _ _ _ hu (stop_cases hr).1 h2
        cases hk
        obtain ⟨m, hrr⟩ := h.multOps.rejects pos1 (stop_cases hr).2
        exact h3.not_rejects hrr
    | @cons c ws u1 w1 b items hc hws hu1 hw1 ih =>
      intro u a rest pos vs s0 pos0 m e hu hr hm
      have hs := solid_num _ _ hu1
      have hb : beginsWith numCont (c :: (ws ++ (u1 ++ w1)) ++ rest) = false :=
        items_op (.cons hc hws hu1 hw1) (by simp) rest
      have heq : c :: (ws ++ (u1 ++ w1)) ++ rest = c :: (ws ++ (u1 ++ w1 ++ rest)) := by simp
      rw [List.append_assoc, heq] at hm
      rw [heq] at hb
      have hop : ∀ pos1, ∃ pos2, Accepts E (.oneOf [Tutorial.timesToken, Tutorial.dividesToken])
          (c :: (ws ++ (u1 ++ w1 ++ rest))) pos1 (.chr c) (u1 ++ w1 ++ rest) pos2 := fun pos1 =>
        h.multOps.accepts (c := c) (ws := ws) (s' := u1 ++ w1 ++ rest) pos1 hc hws
          (by rw [List.append_assoc, beginsWith_append hs.2]; exact hs.1)
      obtain ⟨hst, hrj⟩ := hm
      cases hst with
      | nil =>
        exfalso
        rcases (sequence_two_rejects h.seq2).1 hrj with hrj | ⟨v, s1, pos1, h1, h2⟩
        · obtain ⟨k, pos', -, hk⟩ := Decides.num h _ _ _ _ _ hu hb hrj
          cases hk
        · obtain ⟨k, pos', -, hk⟩ := Decides.num h _ _ _ _ _ hu hb h1
          cases hk
          obtain ⟨pos2, ho⟩ := hop pos1
          exact ho.not_rejects h2
      | cons h1 hst =>
        obtain ⟨x, c', s1, pos1, h2, h3, rfl⟩ := (numberOp_accepts h).1 h1
        obtain ⟨k, pos', hk, hk'⟩ := Decides.num h _ _ _ _ _ hu hb h2
        cases hk'
        obtain ⟨pos2, ho⟩ := hop pos1
        obtain ⟨hcc, rfl, rfl⟩ := ho.unique h3
        cases hcc
        obtain ⟨u', a', rfl, hu', hv⟩ := ih hu1 hr ⟨hst, hrj⟩
        refine ⟨u', a', rfl, hu', ?_⟩
        rintro v ⟨k0, hk0, hf⟩
        obtain ⟨y, hy, hf⟩ := Out.bind_eq_ok.1 hf
        obtain ⟨k1, hk1, rfl⟩ := hv y ⟨k0, hk0, hy⟩
        rw [reverseBinaryOp_eq] at hf
        refine (binaryOp_value ?_ hk hk1 v).1 hf
        simp only [List.mem_cons, List.not_mem_nil, or_false] at hc
        rcases hc with rfl | rfl <;> decide
  rintro t e rest pos r ⟨u, a, w, items, rfl, hu, hw, rfl⟩ hr hrun
  cases r with
  | acc v s' pos' =>
    obtain ⟨vs, s0, pos0, m, e, x, hm, hx, hf⟩ := (C18_foldr_start_with_parser ..).1 hrun
    obtain ⟨u', a', rfl, hu', hv⟩ := key hw hu hr hm
    obtain ⟨k0, pos1, hk0, h0⟩ := Decides.num h _ _ _ _ _ hu' (stop_cases hr).1 hx
    cases h0
    obtain ⟨k, hk, rfl⟩ := hv v ⟨k0, hk0, hf⟩
    exact ⟨k, _, hk, rfl⟩
  | rej m e =>
    obtain ⟨vs, s0, pos0, m', e', hm, hx⟩ := (C18_foldr_start_with_parser_rejects ..).1 hrun
    obtain ⟨u', a', rfl, hu', hv⟩ := key hw hu hr hm
    obtain ⟨k0, pos1, hk0, h0⟩ := Decides.num h _ _ _ _ _ hu' (stop_cases hr).1 hx
    cases h0

end Metaparse
