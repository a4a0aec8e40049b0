import Verif.Spec.Depth
import Verif.Lemmas.Instantiations
import Verif.Props.Termination
/-!
# C79: how many instantiations a parser needs
-/

namespace Metaparse

variable {E : Env (List Chr)}

/-- The instantiations of `AppliesTo` are all that is needed: whatever the others give, the outcome is the same. -/
theorem C79_enough {I : Type} {E : Env I} {p : P} {s : I} {pos : Pos} (f : P → Sem I)
    (h : ∀ q t u, AppliesTo E p s pos q t u → f q t u = run E q t u) : step E f p s pos = run E p s pos :=
  step_congr h

/-- A replacement that is right only about the digits: enough for a transformed digit. -/
example (g : Val → Val) (s : List Chr) (pos : Pos) (f : P → Sem (List Chr)) (h : f P.digit = run env11 P.digit) :
    step env11 f (.transform P.digit g) s pos = run env11 (.transform P.digit g) s pos :=
  C79_enough f fun q t u hq => by cases hq; rw [h]

/-- In a well-formed system with finitely many parser classes the number of different instantiations of parsers is at
most quadratic in the length of the text, although all alternatives are tried everywhere. -/
theorem C79_quadratic (hE : E.WellFormed) (hF : E.FinitelyManyRules) {p : P} (hp : p.Sound E) :
    ∃ c, ∀ (s : List Chr) (pos : Pos), ∃ L : List (P × List Chr × Pos), L.length ≤ c * (s.length + 1) ^ 2 ∧
      ∀ q t u, Instantiates E p s pos q t u → (q, t, u) ∈ L := by
  obtain ⟨N, hN⟩ := hF
  have hEv : ∀ {q : P}, q.Sound E → q.Every (P.RepeatsConsume E) := by
    intro q
    induction q using P.partsInduction with
    | _ q ih => intro hq; exact .mk hq.here.1 fun r hr => ih r hr (hq.part hr)
  obtain ⟨A, hpA, hA⟩ := sub_exists (E := E) (Q := P.RepeatsConsume E)
    (by intro q hq; cases q <;> first | trivial | exact hq.elim) (fun i => hEv (hE.sound i)) hN p (hEv hp)
  obtain ⟨k, hk⟩ := nesting_common A
  refine ⟨A.length * (k + 1), fun s pos => ?_⟩
  obtain ⟨L, hL, hL'⟩ := nodes_bound hE.honest hpA s pos (s.length + k) (by
    intro q hq t u hr
    obtain ⟨D, hD, hc⟩ := covers_exists hE.honest (hA q hq).1 hq (hA q hq).2 t u
    obtain ⟨c, rfl, _⟩ := hr
    have := hk q hq
    exact ⟨D, by rw [List.length_append]; omega, hc⟩)
  refine ⟨L, Nat.le_trans hL ?_, hL'⟩
  rw [Nat.pow_two, Nat.mul_assoc, ← Nat.mul_assoc (k + 1)]
  refine Nat.mul_le_mul_left _ ?_
  rw [Nat.mul_comm (k + 1), Nat.mul_assoc]
  refine Nat.mul_le_mul_left _ ?_
  rw [Nat.add_mul, Nat.mul_add]
  omega

/-- Without folds from the left the number is linear, even if the system is not well-formed. -/
theorem C79_linear (hE : E.Honest) (hF : E.FinitelyManyRules) (hR : ∀ i, (E.rules i).Every P.Stateless) {p : P}
    (hp : p.Every P.Stateless) :
    ∃ c, ∀ (s : List Chr) (pos : Pos), ∃ L : List (P × List Chr × Pos), L.length ≤ c * (s.length + 1) ∧
      ∀ q t u, Instantiates E p s pos q t u → (q, t, u) ∈ L := by
  obtain ⟨N, hN⟩ := hF
  obtain ⟨A, hpA, hA⟩ := sub_exists (E := E) (Q := P.Stateless)
    (by intro q hq; cases q <;> first | trivial | exact hq.elim) hR hN p hp
  refine ⟨A.length, fun s pos => ?_⟩
  obtain ⟨L, hL, hL'⟩ := nodes_bound hE hpA s pos 0 (by
    intro q hq t u hr
    refine ⟨[], by simp, CoversNodes.nil fun r t' u' h => ?_⟩
    rcases calls_stateless (hA q hq).1 h with h | rfl
    · exact (hA q hq).2 r h
    · exact hq)
  exact ⟨L, by simpa using hL, hL'⟩

/-- Lists of digits in nested brackets. -/
example : ∃ c, ∀ (s : List Chr) (pos : Pos), ∃ L : List (P × List Chr × Pos), L.length ≤ c * (s.length + 1) ^ 2 ∧
    ∀ q t u, Instantiates nestedEnv (.ref 1) s pos q t u → (q, t, u) ∈ L := by
  refine C79_quadratic nestedEnv_wellFormed ⟨3, ?_⟩ (.mk ⟨trivial, trivial⟩ fun q hq => by cases hq)
  rintro (_ | _ | i)
  · exact ⟨0, by omega, rfl⟩
  · exact ⟨1, by omega, rfl⟩
  · exact ⟨2, by omega, rfl⟩

/-- `e = '(' e ')' | '(' e ']' | 'x'`: each opening bracket is tried twice, with the same instantiation of `e` on what
follows. -/
def twiceEnv : Env (List Chr) :=
  { env11 with
    rules := fun _ => .oneOf [.sequence [.litC (ch '('), .ref 0, .litC (ch ')')],
      .sequence [.litC (ch '('), .ref 0, .litC (ch ']')], .litC (ch 'x')] }

theorem twiceEnv_stateless : ∀ i, (twiceEnv.rules i).Every P.Stateless := by
  intro i
  simp [twiceEnv, P.every_iff, P.EveryL, P.parts, P.Stateless, P.litC]

example : ∃ c, ∀ (s : List Chr) (pos : Pos), ∃ L : List (P × List Chr × Pos), L.length ≤ c * (s.length + 1) ∧
    ∀ q t u, Instantiates twiceEnv (.ref 0) s pos q t u → (q, t, u) ∈ L :=
  C79_linear (E := twiceEnv) ⟨rfl, env11_honest.native, env11_honest.onError⟩ ⟨1, fun _ => ⟨0, by omega, rfl⟩⟩
    twiceEnv_stateless (.mk (p := .ref 0) trivial fun q hq => by cases hq)

/-- The sharing matters: on `n` opening brackets there are `2 ^ n` different sequences of calls, and still only linearly
many different instantiations. -/
theorem C79_sharing (n : Nat) (pos : Pos) : ∃ Ls : List (List (P × List Chr × Pos)), Ls.length = 2 ^ n ∧ Ls.Nodup ∧
    ∀ l ∈ Ls, CallPath twiceEnv (.ref 0, List.replicate n (ch '('), pos) l := by
  induction n generalizing pos with
  | zero => exact ⟨[[_]], rfl, by simp, fun l hl => by rw [List.mem_singleton.1 hl]; exact .last _⟩
  | succ n ih =>
    obtain ⟨Ls, hlen, hnd, hpath⟩ := ih (moveOver pos [ch '('])
    let s := List.replicate (n + 1) (ch '(')
    let alt : Chr → P := fun c => .sequence [.litC (ch '('), .ref 0, .litC c]
    let via : Chr → List (P × List Chr × Pos) → List (P × List Chr × Pos) := fun c l =>
      (.ref 0, s, pos) :: (twiceEnv.rules 0, s, pos) :: (alt c, s, pos) :: l
    have hin : InSequence twiceEnv [.litC (ch '(')] s pos [.chr (ch '(')] (List.replicate n (ch '('))
        (moveOver pos [ch '(']) := by
      refine .cons ?_ (.nil _ _)
      exact (charParser_litC (E := twiceEnv) rfl (ch '(')).accepts (ch '(') _ pos (by simp)
    have hvia : ∀ c, (c = ch ')' ∨ c = ch ']') → ∀ l ∈ Ls, CallPath twiceEnv (.ref 0, s, pos) (via c l) := by
      intro c hc l hl
      refine .call (.ref ..) (.call (.oneOf ?_ ..) (.call (.sequence (before := [.litC (ch '(')]) _ _ hin) (hpath l hl)))
      rcases hc with rfl | rfl
      · exact List.mem_cons_self ..
      · exact List.mem_cons_of_mem _ (List.mem_cons_self ..)
    have hinj : ∀ c l l', via c l = via c l' → l = l' := by
      intro c l l' h
      simpa [via] using h
    have hnd' : ∀ c, (Ls.map (via c)).Nodup := by
      intro c
      clear hlen hpath hvia
      induction Ls with
      | nil => simp
      | cons l Ls ih =>
        rw [List.nodup_cons] at hnd
        rw [List.map_cons, List.nodup_cons]
        refine ⟨fun h => ?_, ih hnd.2⟩
        obtain ⟨l', hl', e⟩ := List.mem_map.1 h
        exact hnd.1 (hinj _ _ _ e ▸ hl')
    refine ⟨Ls.map (via (ch ')')) ++ Ls.map (via (ch ']')), by simp [hlen, Nat.pow_succ]; omega, ?_, ?_⟩
    · refine List.nodup_append.2 ⟨hnd' _, hnd' _, ?_⟩
      intro a ha b hb e
      obtain ⟨l, _, rfl⟩ := List.mem_map.1 ha
      obtain ⟨l', _, rfl⟩ := List.mem_map.1 hb
      simp only [via, alt, List.cons.injEq, Prod.mk.injEq, P.sequence.injEq, P.litC, P.acceptWhen.injEq,
        P.changeErrorMessage.injEq, Msg.literalExpected.injEq] at e
      exact absurd e.2.2.1.1.2.2.1.1.2 (by decide)
    · intro l hl
      rcases List.mem_append.1 hl with hl | hl
      · obtain ⟨l, hl', rfl⟩ := List.mem_map.1 hl
        exact hvia _ (.inl rfl) l hl'
      · obtain ⟨l, hl', rfl⟩ := List.mem_map.1 hl
        exact hvia _ (.inr rfl) l hl'

/-- After one bracket there is one instantiation of `e`, for both alternatives. -/
example : Instantiates twiceEnv (.ref 0) (txt "(x)") start (.ref 0) (txt "x)") ⟨1, 2, ch '('⟩ :=
  .call (.call (.call .self (.ref ..)) (.oneOf (List.mem_cons_self ..) ..))
    (.sequence (before := [.litC (ch '(')]) _ _
      (.cons (accepts_of_eval 5 (v := .chr (ch '(')) (by decide +kernel)) (.nil _ _)))

end Metaparse
