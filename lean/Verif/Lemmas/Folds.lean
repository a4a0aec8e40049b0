import Verif.Lemmas.Lists
import Verif.Spec.Fold
/-!
# Facts about runs of a parser and the folds over them
-/

namespace Metaparse

variable {I : Type} {E : Env I}

/-! ### Runs -/

theorem Steps.append {p : P} {s : I} {pos : Pos} {vs : List Val} {s1 : I} {pos1 : Pos}
    {ws : List Val} {s2 : I} {pos2 : Pos} (h : Steps E p s pos vs s1 pos1)
    (h' : Steps E p s1 pos1 ws s2 pos2) : Steps E p s pos (vs ++ ws) s2 pos2 := by
  induction h with
  | nil => exact h'
  | cons ha _ ih => exact .cons ha (ih h')

/-- Runs are determined by their length. -/
theorem Steps.unique {p : P} {s : I} {pos : Pos} {vs : List Val} {s1 : I} {pos1 : Pos}
    {ws : List Val} {s2 : I} {pos2 : Pos} (h : Steps E p s pos vs s1 pos1)
    (h' : Steps E p s pos ws s2 pos2) (hl : vs.length = ws.length) :
    vs = ws ∧ s1 = s2 ∧ pos1 = pos2 := by
  induction h generalizing ws with
  | nil => cases h' with
    | nil => exact ⟨rfl, rfl, rfl⟩
    | cons _ _ => simp at hl
  | cons ha _ ih => cases h' with
    | nil => simp at hl
    | cons ha' h' =>
      obtain ⟨rfl, rfl, rfl⟩ := ha.unique ha'
      obtain ⟨rfl, rfl, rfl⟩ := ih h' (by simpa using hl)
      exact ⟨rfl, rfl, rfl⟩

/-- After a maximal run there is no longer one. -/
theorem MaximalRun.longest {p : P} {s : I} {pos : Pos} {vs : List Val} {s1 : I} {pos1 e : Pos}
    {m : Msg} {ws : List Val} {s2 : I} {pos2 : Pos} (h : MaximalRun E p s pos vs s1 pos1 m e)
    (h' : Steps E p s pos ws s2 pos2) : ws.length ≤ vs.length := by
  obtain ⟨h, hr⟩ := h
  induction h generalizing ws with
  | nil => cases h' with
    | nil => simp
    | cons ha _ => exact (ha.not_rejects hr).elim
  | cons ha _ ih => cases h' with
    | nil => simp
    | cons ha' h' =>
      obtain ⟨rfl, rfl, rfl⟩ := ha.unique ha'
      simpa using ih h' hr

theorem MaximalRun.unique {p : P} {s : I} {pos : Pos} {vs : List Val} {s1 : I} {pos1 e : Pos}
    {m : Msg} {ws : List Val} {s2 : I} {pos2 e2 : Pos} {m2 : Msg}
    (h : MaximalRun E p s pos vs s1 pos1 m e) (h' : MaximalRun E p s pos ws s2 pos2 m2 e2) :
    vs = ws ∧ s1 = s2 ∧ pos1 = pos2 ∧ m = m2 ∧ e = e2 := by
  have := h.longest h'.1
  have := h'.longest h.1
  obtain ⟨rfl, rfl, rfl⟩ := h.1.unique h'.1 (by omega)
  obtain ⟨rfl, rfl⟩ := h.2.unique h'.2
  exact ⟨rfl, rfl, rfl, rfl, rfl⟩

theorem InfiniteRun.not_maximal {p : P} {s : I} {pos : Pos} {vs : List Val} {s1 : I} {pos1 e : Pos}
    {m : Msg} (h : InfiniteRun E p s pos) (h' : MaximalRun E p s pos vs s1 pos1 m e) : False := by
  obtain ⟨ws, s', pos', hl, hs⟩ := h (vs.length + 1)
  have := h'.longest hs
  omega

/-- If the run can be continued for ever, then `p` accepts after any of its runs. -/
theorem InfiniteRun.accepts {p : P} {s : I} {pos : Pos} {vs : List Val} {s1 : I} {pos1 : Pos}
    (h : InfiniteRun E p s pos) (h' : Steps E p s pos vs s1 pos1) :
    ∃ v s2 pos2, Accepts E p s1 pos1 v s2 pos2 := by
  obtain ⟨ws, s', pos', hl, hs⟩ := h (vs.length + 1)
  clear h
  induction h' generalizing ws with
  | nil => cases hs with
    | nil => simp at hl
    | cons ha _ => exact ⟨_, _, _, ha⟩
  | cons ha _ ih => cases hs with
    | nil => simp at hl
    | cons ha' hs =>
      obtain ⟨rfl, rfl, rfl⟩ := ha.unique ha'
      exact ih _ (by simpa using hl) hs

theorem InfiniteRun.after {p : P} {s : I} {pos : Pos} {vs : List Val} {s1 : I} {pos1 : Pos}
    (h' : Steps E p s pos vs s1 pos1) (h : InfiniteRun E p s1 pos1) : InfiniteRun E p s pos := by
  induction h' with
  | nil => exact h
  | @cons s pos v s1 pos1 vs s2 pos2 ha _ ih =>
    intro n
    cases n with
    | zero => exact ⟨[], s, pos, rfl, .nil s pos⟩
    | succ n =>
      obtain ⟨ws, s', pos', hl, hs⟩ := ih h n
      exact ⟨v :: ws, s', pos', by simp [hl], .cons ha hs⟩

theorem InfiniteRun.tail {p : P} {s : I} {pos : Pos} {v : Val} {s1 : I} {pos1 : Pos}
    (h : InfiniteRun E p s pos) (ha : Accepts E p s pos v s1 pos1) : InfiniteRun E p s1 pos1 := by
  intro n
  obtain ⟨ws, s', pos', hl, hs⟩ := h (n + 1)
  cases hs with
  | nil => simp at hl
  | cons ha' hs =>
    obtain ⟨rfl, rfl, rfl⟩ := ha.unique ha'
    exact ⟨_, s', pos', by simpa using hl, hs⟩

/-- Accepting without moving can be repeated for ever. -/
theorem infiniteRun_of_stays {p : P} {s : I} {pos : Pos} {v : Val}
    (h : Accepts E p s pos v s pos) : InfiniteRun E p s pos := by
  intro n
  induction n with
  | zero => exact ⟨[], s, pos, rfl, .nil s pos⟩
  | succ n ih =>
    obtain ⟨vs, s', pos', hl, hs⟩ := ih
    exact ⟨v :: vs, s', pos', by simp [hl], .cons h hs⟩

/-- What can happen when a parser is applied again and again. -/
theorem run_cases (E : Env I) (p : P) (s : I) (pos : Pos) :
    (∃ vs s' pos' m e, MaximalRun E p s pos vs s' pos' m e) ∨
    (∃ vs s' pos' f, Steps E p s pos vs s' pos' ∧ run E p s' pos' = .ill f) ∨
    (∃ vs s' pos', Steps E p s pos vs s' pos' ∧ Diverges E p s' pos') ∨
    InfiniteRun E p s pos := by
  by_cases h : InfiniteRun E p s pos
  · exact .inr (.inr (.inr h))
  · have hn : ∃ n, ¬ ∃ vs s' pos', vs.length = n ∧ Steps E p s pos vs s' pos' := by
      unfold InfiniteRun at h
      exact Classical.not_forall.1 h
    obtain ⟨n, hn⟩ := hn
    clear h
    induction n with
    | zero => exact absurd ⟨[], s, pos, rfl, .nil s pos⟩ hn
    | succ n ih =>
      by_cases hk : ∃ vs s' pos', vs.length = n ∧ Steps E p s pos vs s' pos'
      · obtain ⟨vs, s', pos', hl, hs⟩ := hk
        rcases outcome E p s' pos' with ⟨v, s2, pos2, ha⟩ | ⟨m, e, hr⟩ | ⟨f, hf⟩ | hd
        · exact absurd ⟨vs ++ [v], s2, pos2, by simp [hl],
            hs.append (.cons ha (.nil _ _))⟩ hn
        · exact .inl ⟨vs, s', pos', m, e, hs, hr⟩
        · exact .inr (.inl ⟨vs, s', pos', f, hs, hf⟩)
        · exact .inr (.inr (.inl ⟨vs, s', pos', hs, hd⟩))
      · exact ih hk

/-! ### Folds over lists of results -/

/-- The state class (not yet evaluated) after folding over `vs`. -/
def foldStates (op : Val → Val → Val) : Val → List Val → Out Val
  | st, [] => .ok st
  | st, v :: vs => st.force.bind fun x => foldStates op (op x v) vs

theorem foldStates_force (op : Val → Val → Val) (st : Val) (vs : List Val) :
    ((foldStates op st vs).bind Val.force) = st.force.bind fun x => leftFold op x vs := by
  induction vs generalizing st with
  | nil =>
    simp only [foldStates, leftFold, Out.bind_ok]
    cases st.force <;> rfl
  | cons v vs ih =>
    simp only [foldStates, leftFold, Out.bind_assoc]
    congr 1; funext x
    exact ih _

theorem foldStates_snoc (op : Val → Val → Val) (st : Val) (vs : List Val) (v : Val) :
    foldStates op st (vs ++ [v]) =
      (st.force.bind fun x => leftFold op x vs).bind fun x => .ok (op x v) := by
  induction vs generalizing st with
  | nil => simp only [List.nil_append, foldStates, leftFold, Out.bind_assoc, Out.bind_ok]
  | cons w vs ih =>
    simp only [List.cons_append, foldStates, leftFold, Out.bind_assoc]
    congr 1; funext x
    rw [ih, Out.bind_assoc]

theorem foldStates_ne_deep (op : Val → Val → Val) (st : Val) (vs : List Val) :
    foldStates op st vs ≠ .deep := by
  induction vs generalizing st with
  | nil => simp [foldStates]
  | cons v vs ih =>
    simp only [foldStates, ne_eq, Out.bind_eq_deep, not_or, not_exists, not_and]
    exact ⟨st.force_ne_deep, fun x _ => ih _⟩

theorem leftFold_ne_deep (op : Val → Val → Val) (x : Val) (vs : List Val) :
    leftFold op x vs ≠ .deep := by
  induction vs generalizing x with
  | nil => simp [leftFold]
  | cons v vs ih =>
    simp only [leftFold, ne_eq, Out.bind_eq_deep, not_or, not_exists, not_and]
    exact ⟨Val.force_ne_deep _, fun x _ => ih _⟩

theorem rightFold_ne_deep (op : Val → Val → Val) (x : Val) (vs : List Val) :
    rightFold op x vs ≠ .deep := by
  induction vs with
  | nil => simp [rightFold]
  | cons v vs ih =>
    simp only [rightFold, ne_eq, Out.bind_eq_deep, not_or, not_exists, not_and]
    exact ⟨ih, fun x _ => Val.force_ne_deep _⟩

theorem NeverFails.foldStates {K : Val → Prop} {op : Val → Val → Val} (h : NeverFails K op)
    {st x : Val} (hst : st.force = .ok x) (hx : K x) (vs : List Val) :
    ∃ st' x', Metaparse.foldStates op st vs = .ok st' ∧ st'.force = .ok x' ∧ K x' := by
  induction vs generalizing st x with
  | nil => exact ⟨st, x, rfl, hst, hx⟩
  | cons v vs ih =>
    obtain ⟨y, hy, hK⟩ := h x v hx
    simp only [Metaparse.foldStates, hst, Out.bind_ok]
    exact ih hy hK

theorem NeverFails.leftFold {K : Val → Prop} {op : Val → Val → Val} (h : NeverFails K op)
    {x : Val} (hx : K x) (vs : List Val) : ∃ y, Metaparse.leftFold op x vs = .ok y ∧ K y := by
  induction vs generalizing x with
  | nil => exact ⟨x, rfl, hx⟩
  | cons v vs ih =>
    obtain ⟨y, hy, hK⟩ := h x v hx
    simp only [Metaparse.leftFold, hy, Out.bind_ok]
    exact ih hK

theorem NeverFails.rightFold {K : Val → Prop} {op : Val → Val → Val} (h : NeverFails K op)
    {x : Val} (hx : K x) (vs : List Val) : ∃ y, Metaparse.rightFold op x vs = .ok y ∧ K y := by
  induction vs with
  | nil => exact ⟨x, rfl, hx⟩
  | cons v vs ih =>
    obtain ⟨y, hy, hK⟩ := ih
    simp only [Metaparse.rightFold, hy, Out.bind_ok]
    exact h y v hK

/-! ### `foldl` -/

theorem run_foldl (p : P) (st : Val) (op : Val → Val → Val) (s : I) (pos : Pos) :
    run E (.foldl p st op) s pos = (run E p s pos).bind fun
      | .rej _ _ => st.force.bind fun v => .ok (.acc v s pos)
      | .acc r s' pos' => st.force.bind fun x => run E (.foldl p (op x r) op) s' pos' := by
  rw [run_step]; rfl

theorem run_foldl_steps {p : P} {s : I} {pos : Pos} {vs : List Val} {s' : I} {pos' : Pos}
    (h : Steps E p s pos vs s' pos') (st : Val) (op : Val → Val → Val) :
    run E (.foldl p st op) s pos =
      (foldStates op st vs).bind fun st' => run E (.foldl p st' op) s' pos' := by
  induction h generalizing st with
  | nil => rfl
  | cons ha _ ih =>
    rw [run_foldl, ha]
    simp only [Out.bind_ok, foldStates, Out.bind_assoc]
    congr 1; funext x
    exact ih _

theorem run_foldl_maximal {p : P} {s : I} {pos : Pos} {vs : List Val} {s' : I} {pos' e : Pos}
    {m : Msg} (h : MaximalRun E p s pos vs s' pos' m e) (st : Val) (op : Val → Val → Val) :
    run E (.foldl p st op) s pos =
      (st.force.bind fun x => leftFold op x vs).bind fun v => .ok (.acc v s' pos') := by
  rw [run_foldl_steps h.1, ← foldStates_force, Out.bind_assoc]
  congr 1; funext st'
  rw [run_foldl, h.2]
  rfl

/-- If `foldl` produces anything but unlimited recursion, it is because the run ends. -/
theorem foldl_ends {n : Nat} {p : P} {st : Val} {op : Val → Val → Val} {s : I} {pos : Pos}
    (h : eval E n (.foldl p st op) s pos ≠ .deep) :
    ∃ vs s' pos', Steps E p s pos vs s' pos' ∧
      ((∃ m e, Rejects E p s' pos' m e) ∨ IllFormed E p s' pos' ∨
        ∃ st' f, foldStates op st vs = .ok st' ∧ st'.force = .ill f) := by
  induction n generalizing st s pos with
  | zero => exact absurd rfl h
  | succ n ih =>
    simp only [eval, step, Comb.foldl] at h
    cases hp : eval E n p s pos with
    | deep => rw [hp] at h; exact absurd rfl h
    | ill f => exact ⟨[], s, pos, .nil s pos, .inr (.inl ⟨f, run_eq_of_eval hp (by simp)⟩)⟩
    | ok r =>
      rw [hp] at h
      cases r with
      | rej m e => exact ⟨[], s, pos, .nil s pos, .inl ⟨m, e, run_eq_of_eval hp (by simp)⟩⟩
      | acc v s1 pos1 =>
        simp only [Out.bind_ok] at h
        have ha : Accepts E p s pos v s1 pos1 := run_eq_of_eval hp (by simp)
        cases hst : st.force with
        | deep => exact absurd hst st.force_ne_deep
        | ill f => exact ⟨[], s, pos, .nil s pos, .inr (.inr ⟨st, f, rfl, hst⟩)⟩
        | ok x =>
          rw [hst] at h
          obtain ⟨vs, s', pos', hs, hend⟩ := ih h
          refine ⟨v :: vs, s', pos', .cons ha hs, ?_⟩
          rcases hend with h | h | ⟨st', f, h, hf⟩
          · exact .inl h
          · exact .inr (.inl h)
          · exact .inr (.inr ⟨st', f, by simp [foldStates, hst, h], hf⟩)

theorem foldl_ok_maximal {p : P} {st : Val} {op : Val → Val → Val} {s : I} {pos : Pos} {r : Res I}
    (h : run E (.foldl p st op) s pos = .ok r) :
    ∃ vs s' pos' m e, MaximalRun E p s pos vs s' pos' m e := by
  obtain ⟨n, hn⟩ := exists_eval E (.foldl p st op) s pos
  obtain ⟨vs, s', pos', hs, hend⟩ := foldl_ends (n := n) (by rw [hn, h]; simp)
  rw [run_foldl_steps hs] at h
  rcases hend with ⟨m, e, hr⟩ | ⟨f, hf⟩ | ⟨st', f, hst, hf⟩
  · exact ⟨vs, s', pos', m, e, hs, hr⟩
  · rw [Out.bind_eq_ok] at h
    obtain ⟨st', _, h⟩ := h
    rw [run_foldl, hf] at h
    cases h
  · rw [hst, Out.bind_ok, run_foldl] at h
    rcases outcome E p s' pos' with ⟨v, s2, pos2, ha⟩ | ⟨m, e, hr⟩ | ⟨f, hf'⟩ | hd
    · rw [ha, Out.bind_ok, hf] at h; cases h
    · rw [hr, Out.bind_ok, hf] at h; cases h
    · rw [hf'] at h; cases h
    · rw [hd] at h; cases h

theorem foldl_infinite {p : P} {st x : Val} {op : Val → Val → Val} {s : I} {pos : Pos}
    {K : Val → Prop} (hop : NeverFails K op) (hst : st.force = .ok x) (hx : K x)
    (h : InfiniteRun E p s pos) : run E (.foldl p st op) s pos = .deep := by
  obtain ⟨n, hn⟩ := exists_eval E (.foldl p st op) s pos
  refine Classical.byContradiction fun hd => ?_
  obtain ⟨vs, s', pos', hs, hend⟩ := foldl_ends (n := n) (by rw [hn]; exact hd)
  obtain ⟨v, s2, pos2, ha⟩ := h.accepts hs
  rcases hend with ⟨m, e, hr⟩ | ⟨f, hf⟩ | ⟨st', f, h', hf⟩
  · exact ha.not_rejects hr
  · rw [Accepts, hf] at ha; cases ha
  · obtain ⟨st2, x2, h2, hf2, _⟩ := hop.foldStates hst hx vs
    rw [h2] at h'; cases h'
    rw [hf2] at hf; cases hf

/-! ### `foldl_reject_incomplete` -/

theorem run_foldlRI (p : P) (st : Val) (op : Val → Val → Val) (s : I) (pos : Pos) :
    run E (.foldlRejectIncomplete p st op) s pos = (run E p s pos).bind fun
      | .rej m pos' =>
          if pos.equalTo pos' then st.force.bind fun v => .ok (.acc v s pos)
          else .ok (.rej m pos')
      | .acc r s' pos' =>
          st.force.bind fun x => run E (.foldlRejectIncomplete p (op x r) op) s' pos' := by
  rw [run_step]; rfl

theorem run_foldlRI_steps {p : P} {s : I} {pos : Pos} {vs : List Val} {s' : I} {pos' : Pos}
    (h : Steps E p s pos vs s' pos') (st : Val) (op : Val → Val → Val) :
    run E (.foldlRejectIncomplete p st op) s pos =
      (foldStates op st vs).bind fun st' => run E (.foldlRejectIncomplete p st' op) s' pos' := by
  induction h generalizing st with
  | nil => rfl
  | cons ha _ ih =>
    rw [run_foldlRI, ha]
    simp only [Out.bind_ok, foldStates, Out.bind_assoc]
    congr 1; funext x
    exact ih _

theorem run_foldlRI_complete {p : P} {s : I} {pos : Pos} {vs : List Val} {s' : I} {pos' : Pos}
    {m : Msg} (h : MaximalRun E p s pos vs s' pos' m pos') (st : Val) (op : Val → Val → Val) :
    run E (.foldlRejectIncomplete p st op) s pos =
      (st.force.bind fun x => leftFold op x vs).bind fun v => .ok (.acc v s' pos') := by
  rw [run_foldlRI_steps h.1, ← foldStates_force, Out.bind_assoc]
  congr 1; funext st'
  have hc : pos'.equalTo pos' = true := (Pos.equalTo_iff _ _).2 rfl
  rw [run_foldlRI, h.2]
  simp only [Out.bind_ok, if_pos hc]

theorem run_foldlRI_incomplete {p : P} {s : I} {pos : Pos} {vs : List Val} {s' : I} {pos' e : Pos}
    {m : Msg} (h : MaximalRun E p s pos vs s' pos' m e) (he : e ≠ pos') (st : Val)
    (op : Val → Val → Val) :
    run E (.foldlRejectIncomplete p st op) s pos =
      (foldStates op st vs).bind fun _ => .ok (.rej m e) := by
  rw [run_foldlRI_steps h.1]
  congr 1; funext st'
  have hc : ¬ pos'.equalTo e = true := fun h => he ((Pos.equalTo_iff _ _).1 h)
  rw [run_foldlRI, h.2]
  simp only [Out.bind_ok, if_neg hc]

theorem foldlRI_ends {n : Nat} {p : P} {st : Val} {op : Val → Val → Val} {s : I} {pos : Pos}
    (h : eval E n (.foldlRejectIncomplete p st op) s pos ≠ .deep) :
    ∃ vs s' pos', Steps E p s pos vs s' pos' ∧
      ((∃ m e, Rejects E p s' pos' m e) ∨ IllFormed E p s' pos' ∨
        ∃ st' f, foldStates op st vs = .ok st' ∧ st'.force = .ill f) := by
  induction n generalizing st s pos with
  | zero => exact absurd rfl h
  | succ n ih =>
    simp only [eval, step, Comb.foldlRejectIncomplete] at h
    cases hp : eval E n p s pos with
    | deep => rw [hp] at h; exact absurd rfl h
    | ill f => exact ⟨[], s, pos, .nil s pos, .inr (.inl ⟨f, run_eq_of_eval hp (by simp)⟩)⟩
    | ok r =>
      rw [hp] at h
      cases r with
      | rej m e => exact ⟨[], s, pos, .nil s pos, .inl ⟨m, e, run_eq_of_eval hp (by simp)⟩⟩
      | acc v s1 pos1 =>
        simp only [Out.bind_ok] at h
        have ha : Accepts E p s pos v s1 pos1 := run_eq_of_eval hp (by simp)
        cases hst : st.force with
        | deep => exact absurd hst st.force_ne_deep
        | ill f => exact ⟨[], s, pos, .nil s pos, .inr (.inr ⟨st, f, rfl, hst⟩)⟩
        | ok x =>
          rw [hst] at h
          obtain ⟨vs, s', pos', hs, hend⟩ := ih h
          refine ⟨v :: vs, s', pos', .cons ha hs, ?_⟩
          rcases hend with h | h | ⟨st', f, h, hf⟩
          · exact .inl h
          · exact .inr (.inl h)
          · exact .inr (.inr ⟨st', f, by simp [foldStates, hst, h], hf⟩)

theorem foldlRI_ok_maximal {p : P} {st : Val} {op : Val → Val → Val} {s : I} {pos : Pos} {r : Res I}
    (h : run E (.foldlRejectIncomplete p st op) s pos = .ok r) :
    ∃ vs s' pos' m e, MaximalRun E p s pos vs s' pos' m e := by
  obtain ⟨n, hn⟩ := exists_eval E (.foldlRejectIncomplete p st op) s pos
  obtain ⟨vs, s', pos', hs, hend⟩ := foldlRI_ends (n := n) (by rw [hn, h]; simp)
  rw [run_foldlRI_steps hs] at h
  rcases outcome E p s' pos' with ⟨v, s2, pos2, ha⟩ | ⟨m, e, hr⟩ | ⟨f, hf'⟩ | hd
  · rcases hend with ⟨m, e, hr⟩ | ⟨f, hf⟩ | ⟨st', f, hst, hf⟩
    · exact (ha.not_rejects hr).elim
    · rw [Accepts, hf] at ha; cases ha
    · rw [hst, Out.bind_ok, run_foldlRI, ha, Out.bind_ok, hf] at h; cases h
  · exact ⟨vs, s', pos', m, e, hs, hr⟩
  · rw [Out.bind_eq_ok] at h
    obtain ⟨st', _, h⟩ := h
    rw [run_foldlRI, hf'] at h; cases h
  · rw [Out.bind_eq_ok] at h
    obtain ⟨st', _, h⟩ := h
    rw [run_foldlRI, hd] at h; cases h

theorem foldlRI_infinite {p : P} {st x : Val} {op : Val → Val → Val} {s : I} {pos : Pos}
    {K : Val → Prop} (hop : NeverFails K op) (hst : st.force = .ok x) (hx : K x)
    (h : InfiniteRun E p s pos) : run E (.foldlRejectIncomplete p st op) s pos = .deep := by
  obtain ⟨n, hn⟩ := exists_eval E (.foldlRejectIncomplete p st op) s pos
  refine Classical.byContradiction fun hd => ?_
  obtain ⟨vs, s', pos', hs, hend⟩ := foldlRI_ends (n := n) (by rw [hn]; exact hd)
  obtain ⟨v, s2, pos2, ha⟩ := h.accepts hs
  rcases hend with ⟨m, e, hr⟩ | ⟨f, hf⟩ | ⟨st', f, h', hf⟩
  · exact ha.not_rejects hr
  · rw [Accepts, hf] at ha; cases ha
  · obtain ⟨st2, x2, h2, hf2, _⟩ := hop.foldStates hst hx vs
    rw [h2] at h'; cases h'
    rw [hf2] at hf; cases hf

/-! ### `foldr_start_with_parser` -/

theorem run_foldrSWP (p sp : P) (op : Val → Val → Val) (s : I) (pos : Pos) :
    run E (.foldrStartWithParser p sp op) s pos = (run E p s pos).bind fun
      | .rej _ _ => run E sp s pos
      | .acc r s' pos' => (run E (.foldrStartWithParser p sp op) s' pos').bind fun
          | .rej m pos'' => .ok (.rej m pos'')
          | .acc st s'' pos'' => (op st r).force.bind fun w => .ok (.acc w s'' pos'') := by
  rw [run_step]; rfl

/-- Combine the results of a run with the outcome after it, from the last to the first. -/
def foldrOver (op : Val → Val → Val) (vs : List Val) : Res I → Out (Res I)
  | .rej m e => .ok (.rej m e)
  | .acc x s pos => (rightFold op x vs).bind fun w => .ok (.acc w s pos)

theorem run_foldrSWP_steps {p : P} {s : I} {pos : Pos} {vs : List Val} {s' : I} {pos' : Pos}
    (h : Steps E p s pos vs s' pos') (sp : P) (op : Val → Val → Val) :
    run E (.foldrStartWithParser p sp op) s pos =
      (run E (.foldrStartWithParser p sp op) s' pos').bind (foldrOver op vs) := by
  induction h with
  | nil =>
    generalize run E (.foldrStartWithParser p sp op) _ _ = x
    cases x with
    | ok r => cases r <;> rfl
    | _ => rfl
  | cons ha _ ih =>
    rw [run_foldrSWP, ha]
    simp only [Out.bind_ok]
    rw [ih, Out.bind_assoc]
    congr 1; funext r
    cases r with
    | rej m e => rfl
    | acc x s2 pos2 =>
      simp only [foldrOver, rightFold, Out.bind_assoc, Out.bind_ok]

theorem run_foldrSWP_maximal {p : P} {s : I} {pos : Pos} {vs : List Val} {s' : I} {pos' e : Pos}
    {m : Msg} (h : MaximalRun E p s pos vs s' pos' m e) (sp : P) (op : Val → Val → Val) :
    run E (.foldrStartWithParser p sp op) s pos = (run E sp s' pos').bind (foldrOver op vs) := by
  rw [run_foldrSWP_steps h.1, run_foldrSWP, h.2]
  rfl

theorem foldrSWP_ends {n : Nat} {p sp : P} {op : Val → Val → Val} {s : I} {pos : Pos}
    (h : eval E n (.foldrStartWithParser p sp op) s pos ≠ .deep) :
    ∃ vs s' pos', Steps E p s pos vs s' pos' ∧
      ((∃ m e, Rejects E p s' pos' m e) ∨ IllFormed E p s' pos') := by
  induction n generalizing s pos with
  | zero => exact absurd rfl h
  | succ n ih =>
    simp only [eval, step, Comb.foldrStartWithParser] at h
    cases hp : eval E n p s pos with
    | deep => rw [hp] at h; exact absurd rfl h
    | ill f => exact ⟨[], s, pos, .nil s pos, .inr ⟨f, run_eq_of_eval hp (by simp)⟩⟩
    | ok r =>
      rw [hp] at h
      cases r with
      | rej m e => exact ⟨[], s, pos, .nil s pos, .inl ⟨m, e, run_eq_of_eval hp (by simp)⟩⟩
      | acc v s1 pos1 =>
        simp only [Out.bind_ok] at h
        have ha : Accepts E p s pos v s1 pos1 := run_eq_of_eval hp (by simp)
        obtain ⟨vs, s', pos', hs, hend⟩ := ih (s := s1) (pos := pos1)
          (fun hd => by rw [hd] at h; exact h rfl)
        exact ⟨v :: vs, s', pos', .cons ha hs, hend⟩

theorem foldrSWP_ok_maximal {p sp : P} {op : Val → Val → Val} {s : I} {pos : Pos} {r : Res I}
    (h : run E (.foldrStartWithParser p sp op) s pos = .ok r) :
    ∃ vs s' pos' m e, MaximalRun E p s pos vs s' pos' m e := by
  obtain ⟨n, hn⟩ := exists_eval E (.foldrStartWithParser p sp op) s pos
  obtain ⟨vs, s', pos', hs, hend⟩ := foldrSWP_ends (n := n) (by rw [hn, h]; simp)
  rcases hend with ⟨m, e, hr⟩ | ⟨f, hf⟩
  · exact ⟨vs, s', pos', m, e, hs, hr⟩
  · rw [run_foldrSWP_steps hs, run_foldrSWP, hf] at h
    cases h

theorem foldrSWP_infinite {p sp : P} {op : Val → Val → Val} {s : I} {pos : Pos}
    (h : InfiniteRun E p s pos) : run E (.foldrStartWithParser p sp op) s pos = .deep := by
  obtain ⟨n, hn⟩ := exists_eval E (.foldrStartWithParser p sp op) s pos
  refine Classical.byContradiction fun hd => ?_
  obtain ⟨vs, s', pos', hs, hend⟩ := foldrSWP_ends (n := n) (by rw [hn]; exact hd)
  obtain ⟨v, s2, pos2, ha⟩ := h.accepts hs
  rcases hend with ⟨m, e, hr⟩ | ⟨f, hf⟩
  · exact ha.not_rejects hr
  · rw [Accepts, hf] at ha; cases ha

/-! ### The `start_with_parser` left folds and the `…1` variants -/

theorem run_foldlSWP (p sp : P) (op : Val → Val → Val) (s : I) (pos : Pos) :
    run E (.foldlStartWithParser p sp op) s pos = (run E sp s pos).bind fun
      | .rej m e => .ok (.rej m e)
      | .acc x s' pos' => run E (.foldl p x op) s' pos' := by
  rw [run_step]; rfl

theorem run_foldlRISWP (p sp : P) (op : Val → Val → Val) (s : I) (pos : Pos) :
    run E (.foldlRejectIncompleteStartWithParser p sp op) s pos = (run E sp s pos).bind fun
      | .rej m e => .ok (.rej m e)
      | .acc x s' pos' => run E (.foldlRejectIncomplete p x op) s' pos' := by
  rw [run_step]; rfl

theorem run_ifAccepts (p q : P) (s : I) (pos : Pos) :
    run E (.ifAccepts p q) s pos = (run E p s pos).bind fun
      | .rej m e => .ok (.rej m e)
      | .acc _ _ _ => run E q s pos := by
  rw [run_step]; rfl

theorem run_failAtFirst (p : P) (s : I) (pos : Pos) :
    run E (.failAtFirstCharExpected p) s pos = (run E p s pos).bind fun
      | .rej m e => if pos.equalTo e then .ok (.acc .void_ s pos) else .ok (.rej m e)
      | .acc _ _ _ => .ok (.rej .expectedToFail pos) := by
  rw [run_step]; rfl

theorem run_ret (v : Val) (s : I) (pos : Pos) : run E (.ret v) s pos = .ok (.acc v s pos) := by
  rw [run_step]; rfl

end Metaparse
