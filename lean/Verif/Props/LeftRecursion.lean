import Verif.Spec.LeftRecursion
import Verif.Lemmas.Terminate
/-!
# C77: left recursion never compiles
-/

namespace Metaparse

variable {I : Type} {E : Env I}

theorem chain_cons_ok {f : Sem I} {fs : List (Sem I)} {s : I} {pos : Pos} {r : ChainRes I}
    (h : chain (f :: fs) s pos = .ok r) : ∃ x, f s pos = .ok x := by
  simp only [chain, Out.bind_eq_ok] at h
  obtain ⟨x, hx, _⟩ := h
  exact ⟨x, hx⟩

theorem oneOfSem_ok_all {fs : List (Sem I)} {s : I} {pos : Pos} {r : Res I} (h : oneOfSem E fs s pos = .ok r) :
    ∀ f ∈ fs, ∃ x, f s pos = .ok x := by
  have h11 : ∀ (fs : List (Sem I)) (r : Res I), Comb.oneOf11 fs s pos = .ok r → ∀ f ∈ fs, ∃ x, f s pos = .ok x := by
    intro fs
    induction fs with
    | nil => intro _ _ f hf; cases hf
    | cons g fs ih =>
      intro r h f hf
      rw [oneOf11_op] at h
      simp only [Out.bind_eq_ok] at h
      obtain ⟨x, hx, y, hy, _⟩ := h
      rcases List.mem_cons.1 hf with rfl | hf
      · exact ⟨x, hx⟩
      · exact ih y hy f hf
  have h98 : ∀ (fs : List (Sem I)) (st r : Res I), Comb.oneOf98Loop s pos fs st = .ok r →
      ∀ f ∈ fs, ∃ x, f s pos = .ok x := by
    intro fs
    induction fs with
    | nil => intro _ _ _ f hf; cases hf
    | cons g fs ih =>
      intro st r h f hf
      simp only [Comb.oneOf98Loop, Out.bind_eq_ok] at h
      obtain ⟨x, hx, h⟩ := h
      rcases List.mem_cons.1 hf with rfl | hf
      · exact ⟨x, hx⟩
      · exact ih _ _ h f hf
  unfold oneOfSem at h
  cases hs : E.std with
  | cpp98 =>
    simp only [hs, Comb.oneOf98] at h
    split at h
    · exact h98 _ _ _ h
    · cases h
  | cpp11 => rw [hs] at h; exact h11 _ _ h
  | cpp14 => rw [hs] at h; exact h11 _ _ h

theorem seqSem_ok {fs : List (Sem I)} {s : I} {pos : Pos} {r : Res I} (h : seqSem E fs s pos = .ok r) :
    ∃ x, chain fs s pos = .ok x := by
  by_cases hs : E.SupportsSequence fs.length
  · rw [seqSem_supported hs, Out.bind_eq_ok] at h
    obtain ⟨x, hx, _⟩ := h
    exact ⟨x, hx⟩
  · rw [seqSem_unsupported hs] at h; cases h

theorem nthOf_ok {k : Int} {fs : List (Sem I)} {s : I} {pos : Pos} {r : Res I} (hk : 0 ≤ k ∧ k < (fs.length : Int))
    (h : Comb.nthOf E k fs s pos = .ok r) : ∃ x, chain fs s pos = .ok x := by
  by_cases hs : E.SupportsNth fs.length
  · rcases nthOf_form k hs with ⟨_, e⟩ | ⟨hn, _⟩
    · rw [e, Out.bind_eq_ok] at h
      obtain ⟨x, hx, _⟩ := h
      exact ⟨x, hx⟩
    · exact absurd hk hn
  · rw [nthOf_unsupported k hs] at h; cases h

/-- If applying `p` gives a result at some depth, so does what `p` must apply, at no greater depth. -/
theorem mustApply_eval {p : P} {i : Nat} (h : MustApply E p i) :
    ∀ (n : Nat) (s : I) (pos : Pos) (r : Res I), eval E n p s pos = .ok r →
      ∃ m, m ≤ n ∧ ∃ x, eval E m (.ref i) s pos = .ok x := by
  have sub : ∀ {q : P} {i : Nat} {n : Nat} {s : I} {pos : Pos} {x : Res I},
      (∀ (n : Nat) (s : I) (pos : Pos) (r : Res I), eval E n q s pos = .ok r →
        ∃ m, m ≤ n ∧ ∃ x, eval E m (.ref i) s pos = .ok x) → eval E n q s pos = .ok x →
      ∃ m, m ≤ n + 1 ∧ ∃ x, eval E m (.ref i) s pos = .ok x := by
    intro q i n s pos x ih hx
    obtain ⟨m, hm, y, hy⟩ := ih _ _ _ _ hx
    exact ⟨m, by omega, y, hy⟩
  have bnd : ∀ {q : P} {i : Nat} {n : Nat} {s : I} {pos : Pos} {f : Res I → Out (Res I)} {r : Res I},
      (∀ (n : Nat) (s : I) (pos : Pos) (r : Res I), eval E n q s pos = .ok r →
        ∃ m, m ≤ n ∧ ∃ x, eval E m (.ref i) s pos = .ok x) → (eval E n q s pos).bind f = .ok r →
      ∃ m, m ≤ n + 1 ∧ ∃ x, eval E m (.ref i) s pos = .ok x := by
    intro q i n s pos f r ih h
    obtain ⟨x, hx, _⟩ := Out.bind_eq_ok.1 h
    exact sub ih hx
  induction h with
  | ref i => intro n s pos r hr; exact ⟨n, Nat.le_refl _, r, hr⟩
  | rule _ ih =>
    intro n s pos r hr
    cases n with
    | zero => cases hr
    | succ n => exact sub ih hr
  | sequence ps _ ih =>
    intro n s pos r hr
    cases n with
    | zero => cases hr
    | succ n =>
      obtain ⟨x, hx⟩ := seqSem_ok (fs := List.map (eval E n) (_ :: ps)) hr
      obtain ⟨y, hy⟩ := chain_cons_ok hx
      exact sub ih hy
  | oneOf ps hp _ ih =>
    intro n s pos r hr
    cases n with
    | zero => cases hr
    | succ n =>
      obtain ⟨y, hy⟩ := oneOfSem_ok_all (fs := List.map (eval E n) ps) hr _ (List.mem_map.2 ⟨_, hp, rfl⟩)
      exact sub ih hy
  | nthOfC k ps h0 h1 _ ih =>
    intro n s pos r hr
    cases n with
    | zero => cases hr
    | succ n =>
      obtain ⟨x, hx⟩ := nthOf_ok (fs := List.map (eval E n) (_ :: ps)) (by simpa using ⟨h0, h1⟩) hr
      obtain ⟨y, hy⟩ := chain_cons_ok hx
      exact sub ih hy
  | lastOf ps _ ih =>
    intro n s pos r hr
    cases n with
    | zero => cases hr
    | succ n =>
      have hr : lastSem E (List.map (eval E n) (_ :: ps)) s pos = .ok r := hr
      simp only [List.map_cons] at hr
      rw [lastSem_cons] at hr
      obtain ⟨x, hx⟩ := nthOf_ok (by simp only [List.length_cons]; omega) hr
      obtain ⟨y, hy⟩ := chain_cons_ok hx
      exact sub ih hy
  | middleOf q r _ ih =>
    intro n s pos r hr
    cases n with
    | zero => cases hr
    | succ n =>
      obtain ⟨x, hx⟩ := nthOf_ok (by simp) (show Comb.nthOf E 1 [_, _, _] s pos = .ok r from hr)
      obtain ⟨y, hy⟩ := chain_cons_ok hx
      exact sub ih hy
  | iterate k accum hk _ ih =>
    intro n s pos r hr
    cases n with
    | zero => cases hr
    | succ n =>
      simp only [eval, step, Comb.iterate, if_neg hk] at hr
      exact bnd ih hr
  | _ =>
    rename_i ih
    intro n s pos r hr
    cases n with
    | zero => cases hr
    | succ n => exact bnd ih hr

/-- A parser that has to apply itself to the text it is applied to, be it in the last alternative of a choice,
never accepts and never rejects: it does not compile, whatever the text. -/
theorem C77_left_recursion {i : Nat} (h : MustApply E (E.rules i) i) (s : I) (pos : Pos) :
    IllFormed E (.ref i) s pos ∨ Diverges E (.ref i) s pos := by
  have key : ∀ n, ∀ r, eval E n (.ref i) s pos ≠ .ok r := by
    intro n
    induction n using Nat.strongRecOn with
    | _ n ih =>
      intro r hr
      cases n with
      | zero => cases hr
      | succ n =>
        obtain ⟨m, hm, x, hx⟩ := mustApply_eval h n s pos r hr
        exact ih m (by omega) x hx
  obtain ⟨n, hn⟩ := exists_eval E (.ref i) s pos
  cases hr : run E (.ref i) s pos with
  | ok r => rw [hr] at hn; exact absurd hn (key n r)
  | ill f => exact .inl ⟨f, hr⟩
  | deep => exact .inr hr

/-- So does every parser that has to apply it. -/
theorem C77_propagates {i : Nat} (h : MustApply E (E.rules i) i) {p : P} (hp : MustApply E p i) (s : I) (pos : Pos) :
    IllFormed E p s pos ∨ Diverges E p s pos := by
  cases hr : run E p s pos with
  | ok r =>
    obtain ⟨n, hn⟩ := exists_eval E p s pos
    rw [hr] at hn
    obtain ⟨m, _, x, hx⟩ := mustApply_eval hp n s pos r hn
    have := run_eq_of_eval hx (by simp)
    rcases C77_left_recursion h s pos with ⟨f, hf⟩ | hd
    · rw [hf] at this; cases this
    · rw [show run E (.ref i) s pos = .deep from hd] at this; cases this
  | ill f => exact .inl ⟨f, hr⟩
  | deep => exact .inr hr

/-- `e = digit | e '+' digit`: in a parser that tries the alternatives in order and stops at the first match, `1`
would be accepted. -/
def lateEnv : Env (List Chr) :=
  { env11 with rules := fun _ => .oneOf [.digit, .sequence [.ref 0, .litC (ch '+'), .digit]] }

example (s : List Chr) (pos : Pos) : IllFormed lateEnv (.ref 0) s pos ∨ Diverges lateEnv (.ref 0) s pos :=
  C77_left_recursion (.oneOf _ (List.mem_cons_of_mem _ (List.mem_cons_self ..)) (.sequence _ (.ref 0))) s pos

/-- Two parsers that begin with each other. -/
def mutualEnv : Env (List Chr) :=
  { env11 with
    rules := fun
      | 0 => .transform (.ref 1) id
      | _ => .oneOf [.digit, .lastOf [.ref 0, .digit]] }

example (s : List Chr) (pos : Pos) :
    IllFormed mutualEnv (.repeated (.ref 1)) s pos ∨ Diverges mutualEnv (.repeated (.ref 1)) s pos :=
  C77_propagates (i := 0) (.transform _ (.rule (.oneOf _ (List.mem_cons_of_mem _ (List.mem_cons_self ..)) (.lastOf _ (.ref 0)))))
    (.foldl _ _ (.rule (.oneOf _ (List.mem_cons_of_mem _ (List.mem_cons_self ..)) (.lastOf _ (.ref 0))))) s pos

end Metaparse
