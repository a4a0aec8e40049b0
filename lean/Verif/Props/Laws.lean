import Verif.Props.Reference
import Verif.Props.Positions
/-!
# Laws of the combinators (C58)
-/

namespace Metaparse

variable {I : Type} {E : Env I}

/-! ## Combinators applied to themselves -/

/-- `look_ahead` twice is `look_ahead`. -/
theorem C58_look_ahead_idempotent (p : P) : Equivalent E (.lookAhead (.lookAhead p)) (.lookAhead p) := by
  have h : ∀ p s pos, run E (.lookAhead p) s pos = Comb.lookAhead (run E p) s pos := by
    intro p s pos; rw [run_step]; rfl
  intro s pos
  rw [h, h]
  simp only [Comb.lookAhead, h, Out.bind_assoc]
  congr 1; funext r
  cases r <;> rfl

/-- An `optional` parser never rejects, making it `optional` again changes nothing. -/
theorem C58_optional_absorbs (p : P) (d d' : Val) :
    Equivalent E (.optional (.optional p d) d') (.optional p d) := by
  have h : ∀ p d s pos, run E (.optional p d) s pos = Comb.optional (run E p) d s pos := by
    intro p d s pos; rw [run_step]; rfl
  intro s pos
  rw [h, h]
  simp only [Comb.optional, h, Out.bind_assoc]
  congr 1; funext r
  cases r <;> rfl

/-- The outer `always` wins. -/
theorem C58_always_absorbs (p : P) (a b : Val) : Equivalent E (.always (.always p a) b) (.always p b) := by
  have h : ∀ p d s pos, run E (.always p d) s pos = Comb.always (run E p) d s pos := by
    intro p d s pos; rw [run_step]; rfl
  intro s pos
  rw [h, h]
  simp only [Comb.always, h, Out.bind_assoc]
  congr 1; funext r
  cases r <;> rfl

/-- The outer message wins. -/
theorem C58_change_error_message_absorbs (p : P) (a b : Msg) :
    Equivalent E (.changeErrorMessage (.changeErrorMessage p a) b) (.changeErrorMessage p b) := by
  have h : ∀ p d s pos, run E (.changeErrorMessage p d) s pos = Comb.changeErrorMessage (run E p) d s pos := by
    intro p d s pos; rw [run_step]; rfl
  intro s pos
  rw [h, h]
  simp only [Comb.changeErrorMessage, h, Out.bind_assoc]
  congr 1; funext r
  cases r <;> rfl

/-- Transforming twice is transforming with the composition. -/
theorem C58_transform_fusion (p : P) (f f' g : Val → Val) (hf : ∀ v, (f v).force = .ok (f' v)) :
    Equivalent E (.transform (.transform p f) g) (.transform p fun v => g (f' v)) := by
  have h : ∀ p d s pos, run E (.transform p d) s pos = Comb.transform (run E p) d s pos := by
    intro p d s pos; rw [run_step]; rfl
  intro s pos
  rw [h, h]
  simp only [Comb.transform, h, Out.bind_assoc]
  congr 1; funext r
  cases r with
  | rej m e => rfl
  | acc v s' pos' => simp only [hf, Out.bind_ok]

/-- Two conditions with the same message are their conjunction. -/
theorem C58_accept_when_fusion (p : P) (f g : Val → Bool) (m : Msg) :
    Equivalent E (.acceptWhen (.acceptWhen p (fun v => .ok (f v)) m) (fun v => .ok (g v)) m)
      (.acceptWhen p (fun v => .ok (f v && g v)) m) := by
  intro s pos
  simp only [run_acceptWhen, Out.bind_assoc]
  congr 1; funext r
  cases r with
  | rej m e => rfl
  | acc v s' pos' =>
    simp only [Out.bind_ok]
    cases f v <;> cases hg : g v <;> simp [hg]

/-! ## Sequences -/

/-- Put results in front. -/
def ChainRes.prepend (us : List Val) : ChainRes I → ChainRes I
  | .done vs s pos => .done (us ++ vs) s pos
  | .failed m pos => .failed m pos

theorem chain_append (fs gs : List (Sem I)) (s : I) (pos : Pos) :
    chain (fs ++ gs) s pos = (chain fs s pos).bind fun
      | .failed m e => .ok (.failed m e)
      | .done us s' pos' => (chain gs s' pos').bind fun r => .ok (r.prepend us) := by
  induction fs generalizing s pos with
  | nil =>
    simp only [List.nil_append, chain, Out.bind_ok]
    rw [show (fun r : ChainRes I => (Out.ok (r.prepend []) : Out (ChainRes I))) = Out.ok from by
      funext r; cases r <;> rfl]
    cases chain gs s pos <;> rfl
  | cons f fs ih =>
    simp only [List.cons_append, chain, Out.bind_assoc]
    congr 1; funext r
    cases r with
    | rej m e => rfl
    | acc v s' pos' =>
      simp only [ih, Out.bind_assoc]
      congr 1; funext r
      cases r with
      | failed m e => rfl
      | done us s2 pos2 =>
        simp only [Out.bind_ok, ChainRes.cons, Out.bind_assoc]
        congr 1; funext r
        cases r <;> rfl

/-- `last_of<ps…, last_of<qs…>>` is `last_of<ps…, qs…>`. -/
theorem C58_last_of_flatten (ps qs : List P) (hq : qs ≠ []) (hs : E.SupportsNth (ps ++ qs).length)
    (hs' : E.SupportsNth (ps.length + 1)) :
    Equivalent E (.lastOf (ps ++ [.lastOf qs])) (.lastOf (ps ++ qs)) := by
  induction ps with
  | nil => exact fun s pos => run_lastOf_one hs' _ s pos
  | cons p ps ih =>
    have h1 : E.SupportsNth (ps ++ qs).length := fun h => by have := hs h; simp at this ⊢; omega
    have h2 : E.SupportsNth (ps.length + 1) := fun h => by have := hs' h; simp at this ⊢; omega
    obtain ⟨r, rs, hr⟩ : ∃ r rs, ps ++ [P.lastOf qs] = r :: rs := by cases ps <;> simp
    obtain ⟨t, ts, ht⟩ : ∃ t ts, ps ++ qs = t :: ts := by
      cases ps with
      | nil => cases qs with
        | nil => exact absurd rfl hq
        | cons a l => exact ⟨a, l, rfl⟩
      | cons a l => exact ⟨a, l ++ qs, rfl⟩
    intro s pos
    have ih := ih h1 h2
    rw [hr, ht] at ih
    have hl1 : (r :: rs).length = ps.length + 1 := by rw [← hr]; simp
    have hl2 : (t :: ts).length = (ps ++ qs).length := by rw [← ht]
    rw [List.cons_append, List.cons_append, hr, ht, run_lastOf_cons p r rs, run_lastOf_cons p t ts]
    · congr 1; funext x
      cases x with
      | rej m e => rfl
      | acc v s' pos' => exact ih s' pos'
    · intro h
      have := hs h
      simp only [List.length_cons, List.cons_append] at this hl2 ⊢
      omega
    · intro h
      have := hs' h
      simp only [List.length_cons] at this hl1 ⊢
      omega

/-- The results of a sequence are those of its two halves. -/
theorem C58_sequence_append (ps qs : List P) (hp : E.SupportsSequence ps.length)
    (hq : E.SupportsSequence qs.length) (hs : E.SupportsSequence (ps ++ qs).length) (s : I) (pos : Pos) :
    (∀ m e, Rejects E (.sequence ps) s pos m e → Rejects E (.sequence (ps ++ qs)) s pos m e) ∧
    (∀ us s' pos', Accepts E (.sequence ps) s pos (.seq us) s' pos' →
      (∀ m e, Rejects E (.sequence qs) s' pos' m e → Rejects E (.sequence (ps ++ qs)) s pos m e) ∧
      (∀ vs s'' pos'', Accepts E (.sequence qs) s' pos' (.seq vs) s'' pos'' →
        Accepts E (.sequence (ps ++ qs)) s pos (.seq (us ++ vs)) s'' pos'')) := by
  unfold Accepts Rejects
  simp only [run_sequence ps hp, run_sequence qs hq, run_sequence (ps ++ qs) hs, List.map_append,
    chain_append]
  constructor
  · intro m e h
    cases hc : chain (ps.map (run E)) s pos with
    | ill f => rw [hc] at h; cases h
    | deep => rw [hc] at h; cases h
    | ok r => rw [hc] at h; cases r <;> cases h; rfl
  · intro us s' pos' h
    cases hc : chain (ps.map (run E)) s pos with
    | ill f => rw [hc] at h; cases h
    | deep => rw [hc] at h; cases h
    | ok r =>
      rw [hc] at h
      cases r with
      | failed m e => cases h
      | done us1 s1 pos1 =>
        simp only [Out.bind_ok, ChainRes.toRes, Out.ok.injEq, Res.acc.injEq, Val.seq.injEq] at h
        obtain ⟨rfl, rfl, rfl⟩ := h
        constructor
        · intro m e h
          cases hd : chain (qs.map (run E)) s1 pos1 with
          | ill f => rw [hd] at h; cases h
          | deep => rw [hd] at h; cases h
          | ok r => rw [hd] at h; simp only [Out.bind_ok, hd]; cases r <;> cases h; rfl
        · intro vs s2 pos2 h
          cases hd : chain (qs.map (run E)) s1 pos1 with
          | ill f => rw [hd] at h; cases h
          | deep => rw [hd] at h; cases h
          | ok r =>
            rw [hd] at h; simp only [Out.bind_ok, hd]
            cases r with
            | failed m e => cases h
            | done vs1 s3 pos3 =>
              simp only [Out.bind_ok, ChainRes.toRes, Out.ok.injEq, Res.acc.injEq, Val.seq.injEq] at h
              obtain ⟨rfl, rfl, rfl⟩ := h
              rfl

/-- A keyword can be split. -/
theorem C58_keyword_append (hs : E.SupportsNth 2) (a b : List Chr) (x r : Val) :
    Equivalent E (.keyword (a ++ b) r) (.lastOf [.keyword a x, .keyword b r]) := by
  intro s pos
  rw [run_lastOf2 hs]
  have hnil : ∀ v s pos, run E (.keyword [] v) s pos = .ok (.acc v s pos) := by
    intro v s pos; rw [run_step]; rfl
  have hcons : ∀ c kw v s pos, run E (.keyword (c :: kw) v) s pos =
      Comb.keywordCons (run E (P.litC c)) (run E (.keyword kw v)) s pos := by
    intro c kw v s pos; rw [run_step]; rfl
  induction a generalizing s pos with
  | nil => rw [hnil]; rfl
  | cons c a ih =>
    rw [List.cons_append, hcons, hcons]
    simp only [Comb.keywordCons, Out.bind_assoc]
    congr 1; funext y
    cases y with
    | rej m e => rfl
    | acc v s' pos' => exact ih s' pos'

/-! ## Choice -/

theorem oneOf98Op_assoc (a b c : Res I) :
    Comb.oneOf98Op (Comb.oneOf98Op a b) c = Comb.oneOf98Op a (Comb.oneOf98Op b c) := by
  cases a with
  | acc v s pos => rfl
  | rej m1 e1 => cases b with
    | acc v s pos => rfl
    | rej m2 e2 => cases c with
      | acc v s pos =>
        simp only [Comb.oneOf98Op]
        by_cases h : e2.less e1 = true <;> simp [h]
      | rej m3 e3 =>
        simp only [Comb.oneOf98Op]
        by_cases h1 : e2.less e1 = true <;> by_cases h2 : e3.less e2 = true <;>
          simp only [h1, h2, Bool.false_eq_true, if_true, if_false]
        · rw [if_pos (Pos.less_trans h2 h1)]
        · rw [if_neg (fun h3 => ?_)]
          rw [Pos.less_iff] at h1 h2 h3; omega

theorem oneOf11_cons (f : Sem I) (fs : List (Sem I)) (s : I) (pos : Pos) :
    Comb.oneOf11 (f :: fs) s pos = (f s pos).bind fun r1 => (Comb.oneOf11 fs s pos).bind fun r2 =>
      .ok (Comb.oneOf98Op r1 r2) := by
  rw [Comb.oneOf11]
  show ((f s pos).bind _) = _
  congr 1; funext r1
  congr 1; funext r2
  cases r1 with
  | acc v s pos => rfl
  | rej m1 e1 => cases r2 with
    | acc v s pos => rfl
    | rej m2 e2 =>
      simp only [Comb.oneOf98Op]
      by_cases h : e2.less e1 = true <;> simp [h]

/-- A rejection of `one_of` (C++11, C++14) is at a later place than the start, or it is its own error. -/
theorem oneOf11_rejection (fs : List (Sem I)) (s : I) (pos : Pos) (m : Msg) (e : Pos)
    (h : Comb.oneOf11 fs s pos = .ok (.rej m e)) :
    pos.less e = true ∨ (m = .noneOfTheExpectedCasesFound ∧ e = pos) := by
  induction fs generalizing m e with
  | nil => cases h; exact .inr ⟨rfl, rfl⟩
  | cons f fs ih =>
    rw [oneOf11_cons, Out.bind_eq_ok] at h
    obtain ⟨r1, -, h⟩ := h
    rw [Out.bind_eq_ok] at h
    obtain ⟨r2, h2, h⟩ := h
    cases r1 with
    | acc v s pos => cases h
    | rej m1 e1 => cases r2 with
      | acc v s pos => cases h
      | rej m2 e2 =>
        simp only [Comb.oneOf98Op] at h
        by_cases hl : e2.less e1 = true
        · rw [if_pos hl] at h
          cases h
          rcases ih _ _ h2 with h3 | ⟨-, rfl⟩
          · exact .inl (Pos.less_trans h3 hl)
          · exact .inl hl
        · rw [if_neg hl] at h
          cases h
          exact ih _ _ h2

theorem oneOf11_append (fs gs : List (Sem I)) (s : I) (pos : Pos) :
    Comb.oneOf11 (fs ++ gs) s pos = (Comb.oneOf11 fs s pos).bind fun r1 =>
      (Comb.oneOf11 gs s pos).bind fun r2 => .ok (Comb.oneOf98Op r1 r2) := by
  induction fs with
  | nil =>
    simp only [List.nil_append, Comb.oneOf11, Comb.fail, Out.bind_ok]
    cases h : Comb.oneOf11 gs s pos with
    | ill f => rfl
    | deep => rfl
    | ok r =>
      cases r with
      | acc v s' pos' => rfl
      | rej m e =>
        simp only [Out.bind_ok, Comb.oneOf98Op]
        rw [if_neg]
        rcases oneOf11_rejection _ _ _ _ _ h with h | ⟨-, rfl⟩
        · rw [Pos.less_asymm h]; simp
        · rw [Pos.less_irrefl]; simp
  | cons f fs ih =>
    rw [List.cons_append, oneOf11_cons, oneOf11_cons, ih]
    simp only [Out.bind_assoc, Out.bind_ok, oneOf98Op_assoc]

theorem oneOf11_nested (fs : List (Sem I)) (s : I) (pos : Pos) :
    Comb.oneOf11 [Comb.oneOf11 fs] s pos = Comb.oneOf11 fs s pos := by
  rw [oneOf11_cons]
  simp only [Comb.oneOf11, Comb.fail, Out.bind_ok]
  cases h : Comb.oneOf11 fs s pos with
  | ill f => rfl
  | deep => rfl
  | ok r =>
    cases r with
    | acc v s' pos' => rfl
    | rej m e =>
      simp only [Out.bind_ok, Comb.oneOf98Op]
      rcases oneOf11_rejection _ _ _ _ _ h with h | ⟨rfl, rfl⟩
      · rw [if_pos h]
      · rw [Pos.less_irrefl]; simp

theorem run_oneOf11 (hstd : E.std ≠ .cpp98) (ps : List P) :
    run E (.oneOf ps) = Comb.oneOf11 (ps.map (run E)) := by
  funext s pos
  rw [run_step]
  simp only [step]

/-- In C++11 and C++14, a `one_of` inside a `one_of` can be flattened, with the same outcome including
the error. -/
theorem C58_one_of_flatten (hstd : E.std ≠ .cpp98) (as bs cs : List P) :
    Equivalent E (.oneOf (as ++ .oneOf bs :: cs)) (.oneOf (as ++ bs ++ cs)) := by
  intro s pos
  rw [run_oneOf11 hstd, run_oneOf11 hstd, show as ++ P.oneOf bs :: cs = as ++ ([.oneOf bs] ++ cs) by simp,
    List.append_assoc]
  simp only [List.map_append, oneOf11_append]
  congr 1; funext r1
  congr 1
  simp only [List.map_cons, List.map_nil, run_oneOf11 hstd bs, oneOf11_nested]

/-- An alternative that never rejects makes those after it superfluous, if they have an outcome at all. -/
theorem C58_one_of_return (hstd : E.std ≠ .cpp98) (ps qs : List P) (v : Val) (s : I) (pos : Pos)
    (hq : ∀ q ∈ qs, ∃ r, run E q s pos = .ok r) :
    run E (.oneOf (ps ++ .ret v :: qs)) s pos = run E (.oneOf (ps ++ [.ret v])) s pos := by
  rw [run_oneOf11 hstd, run_oneOf11 hstd]
  simp only [List.map_append, oneOf11_append, List.map_cons, oneOf11_cons, List.map_nil]
  congr 1; funext r1
  congr 1
  have hok : ∃ r, Comb.oneOf11 (qs.map (run E)) s pos = .ok r := by
    induction qs with
    | nil => exact ⟨_, rfl⟩
    | cons q qs ih =>
      obtain ⟨r1, h1⟩ := hq q (by simp)
      obtain ⟨r2, h2⟩ := ih fun q hq' => hq q (by simp [hq'])
      exact ⟨Comb.oneOf98Op r1 r2, by rw [List.map_cons, oneOf11_cons, h1, h2]; rfl⟩
  obtain ⟨r, hr⟩ := hok
  rw [hr, run_ret]
  rfl

theorem oneOf98Loop_accepted (qs : List P) (s : I) (pos : Pos) (hq : ∀ q ∈ qs, ∃ r, run E q s pos = .ok r) (v : Val)
    (s' : I) (pos' : Pos) :
    Comb.oneOf98Loop s pos (qs.map (run E)) (.acc v s' pos') = .ok (.acc v s' pos') := by
  induction qs with
  | nil => rfl
  | cons q qs ih =>
    obtain ⟨r, hr⟩ := hq q (by simp)
    rw [List.map_cons, Comb.oneOf98Loop, hr]
    exact ih fun q hq' => hq q (by simp [hq'])

/-- An alternative that accepts makes those after it superfluous, if they have an outcome at all, whatever the
alternatives before it do. -/
theorem C58_one_of_superfluous (ps qs : List P) (p : P) (hs : E.SupportsOneOf (ps ++ p :: qs).length) (s : I) (pos : Pos)
    {v : Val} {s' : I} {pos' : Pos} (hp : Accepts E p s pos v s' pos') (hq : ∀ q ∈ qs, ∃ r, run E q s pos = .ok r) :
    run E (.oneOf (ps ++ p :: qs)) s pos = run E (.oneOf (ps ++ [p])) s pos := by
  unfold Accepts at hp
  by_cases h : E.std = .cpp98
  · have hl := hs h
    have hl' : (ps ++ [p]).length ≤ E.limOneOf := by simp at hl ⊢; omega
    rw [run_step, run_step]
    simp only [step, h, Comb.oneOf98, List.length_map, if_true, if_pos hl, if_pos hl']
    generalize (Res.rej Msg.noneOfTheExpectedCasesFound pos : Res I) = st
    induction ps generalizing st with
    | nil =>
      simp only [List.nil_append, List.map_cons, List.map_nil, Comb.oneOf98Loop, hp, Out.bind_ok]
      cases st with
      | acc v1 s1 q1 => exact oneOf98Loop_accepted qs s pos hq v1 s1 q1
      | rej m q1 => exact oneOf98Loop_accepted qs s pos hq v s' pos'
    | cons a ps ih =>
      simp only [List.cons_append, List.map_cons, Comb.oneOf98Loop]
      congr 1; funext r
      refine ih ?_ ?_ ?_ _
      · intro h'; have := hs h'; simp at this ⊢; omega
      · simp at hl ⊢; omega
      · simp at hl' ⊢; omega
  · rw [run_oneOf11 h, run_oneOf11 h]
    simp only [List.map_append, oneOf11_append, List.map_cons, oneOf11_cons, List.map_nil]
    congr 1; funext r1
    congr 1
    have hok : ∃ r, Comb.oneOf11 (qs.map (run E)) s pos = .ok r := by
      clear hs
      induction qs with
      | nil => exact ⟨_, rfl⟩
      | cons q qs ih =>
        obtain ⟨r1, h1⟩ := hq q (by simp)
        obtain ⟨r2, h2⟩ := ih fun q hq' => hq q (by simp [hq'])
        exact ⟨Comb.oneOf98Op r1 r2, by rw [List.map_cons, oneOf11_cons, h1, h2]; rfl⟩
    obtain ⟨r, hr⟩ := hok
    rw [hr, hp]
    rfl

example : Accepts env98 (.optional P.digit .void_) (txt "x") start .void_ (txt "x") start ∧
    (∀ q ∈ [P.letter, P.space], ∃ r, run env98 q (txt "x") start = .ok r) ∧
    env98.SupportsOneOf ([P.digit] ++ .optional P.digit .void_ :: [P.letter, P.space]).length := by
  refine ⟨accepts_of_eval 20 (by decide +kernel), ?_, fun _ => by decide⟩
  intro q hq
  rcases List.mem_cons.1 hq with rfl | hq
  · exact ⟨_, (accepts_of_eval 20 (by decide +kernel) : Accepts env98 P.letter (txt "x") start (.chr (ch 'x')) [] ⟨1, 2, ch 'x'⟩)⟩
  · rcases List.mem_cons.1 hq with rfl | hq
    · exact ⟨_, (rejects_of_eval 20 (by decide +kernel) : Rejects env98 P.space (txt "x") start .whitespaceExpected start)⟩
    · cases hq

theorem run_oneOf2 (hs : E.SupportsOneOf 2) (p q : P) (s : I) (pos : Pos) :
    run E (.oneOf [p, q]) s pos = (run E p s pos).bind fun r1 => (run E q s pos).bind fun r2 =>
      .ok (if E.std = .cpp98 then
          Comb.oneOf98Op (Comb.oneOf98Op (.rej .noneOfTheExpectedCasesFound pos) r1) r2
        else Comb.oneOf98Op r1 (Comb.oneOf98Op r2 (.rej .noneOfTheExpectedCasesFound pos))) := by
  by_cases h : E.std = .cpp98
  · rw [run_step]
    simp only [step, h, Comb.oneOf98, List.length_map, if_true]
    rw [if_pos (show [p, q].length ≤ E.limOneOf from hs h)]
    rfl
  · have hnil : Comb.oneOf11 ([] : List (Sem I)) s pos = .ok (.rej .noneOfTheExpectedCasesFound pos) := rfl
    simp only [run_oneOf11 h, List.map_cons, List.map_nil, oneOf11_cons, hnil,
      Out.bind_ok, if_neg h, Out.bind_assoc]

/-- Left factoring: `one_of<last_of<a, b>, last_of<a, c>>` is `last_of<a, one_of<b, c>>` but for the
message, if the three parsers do not go back in the input. -/
theorem C58_left_factoring (hn : E.SupportsNth 2) (hs : E.SupportsOneOf 2) (a b c : P) (s : I) (pos : Pos)
    (ha : ∀ m e, Rejects E a s pos m e → e.less pos = false)
    (ha' : ∀ v s' pos', Accepts E a s pos v s' pos' → pos'.less pos = false ∧
      (∀ m e, Rejects E b s' pos' m e → e.less pos' = false) ∧
      (∀ m e, Rejects E c s' pos' m e → e.less pos' = false)) :
    SameButMessage (run E (.oneOf [.lastOf [a, b], .lastOf [a, c]]) s pos)
      (run E (.lastOf [a, .oneOf [b, c]]) s pos) := by
  rw [run_oneOf2 hs, run_lastOf2 hn, run_lastOf2 hn, run_lastOf2 hn]
  unfold Accepts at ha'
  unfold Rejects at ha ha'
  cases h : run E a s pos with
  | ill f => exact .ill f
  | deep => exact .deep
  | ok r => cases r with
    | rej m e =>
      have := ha m e h
      simp only [Out.bind_ok, Comb.oneOf98Op]
      rcases Pos.less_trichotomy pos e with h1 | rfl | h1
      · have h2 := Pos.less_irrefl e
        simp only [h1, this, h2, Bool.false_eq_true, if_true, if_false, ite_self]
        exact .rej _ _ _
      · simp only [this, Bool.false_eq_true, if_false]
        by_cases hstd : E.std = .cpp98 <;> simp only [hstd, if_true, if_false] <;> exact .rej _ _ _
      · rw [h1] at this; cases this
    | acc v s' pos' =>
      obtain ⟨h1, hb, hc⟩ := ha' v s' pos' h
      simp only [Out.bind_ok]
      rw [run_oneOf2 hs]
      cases hrb : run E b s' pos' with
      | ill f => exact .ill f
      | deep => exact .deep
      | ok rb =>
        simp only [Out.bind_ok]
        cases hrc : run E c s' pos' with
        | ill f => exact .ill f
        | deep => exact .deep
        | ok rc =>
          simp only [Out.bind_ok]
          cases rb with
          | acc v2 s2 pos2 =>
            by_cases hstd : E.std = .cpp98 <;> simp only [hstd, if_true, if_false, Comb.oneOf98Op] <;>
              exact .acc _ _ _
          | rej mb eb =>
            have hb := hb mb eb hrb
            have hb2 : eb.less pos = false := by
              rw [Bool.eq_false_iff, ne_eq, Pos.less_iff] at *; omega
            cases rc with
            | acc v2 s2 pos2 =>
              by_cases hstd : E.std = .cpp98 <;>
                simp only [hstd, hb, hb2, Bool.false_eq_true, if_true, if_false, Comb.oneOf98Op] <;>
                exact .acc _ _ _
            | rej mc ec =>
              have hc := hc mc ec hrc
              have hc2 : ec.less pos = false := by
                rw [Bool.eq_false_iff, ne_eq, Pos.less_iff] at *; omega
              by_cases hstd : E.std = .cpp98
              · simp only [hstd, hb, hb2, Bool.false_eq_true, if_true, if_false, Comb.oneOf98Op]
                by_cases h3 : ec.less eb = true <;> simp only [h3, if_true] <;>
                  exact .rej _ _ _
              · simp only [hstd, if_false, Comb.oneOf98Op]
                have key : ∀ q : Pos, ec.less q = false → ∃ m,
                    Comb.oneOf98Op (.rej mb eb) (Comb.oneOf98Op (.rej mc ec)
                      (.rej .noneOfTheExpectedCasesFound q)) =
                      (.rej m (if ec.less eb then eb else ec) : Res I) := by
                  intro q hq1
                  have hin : ∃ m, Comb.oneOf98Op (.rej mc ec) (.rej .noneOfTheExpectedCasesFound q) =
                      (.rej m ec : Res I) := by
                    simp only [Comb.oneOf98Op]
                    rcases Pos.less_trichotomy q ec with h3 | rfl | h3
                    · exact ⟨mc, if_pos h3⟩
                    · exact ⟨_, if_neg (by rw [Pos.less_irrefl]; simp)⟩
                    · rw [h3] at hq1; cases hq1
                  obtain ⟨m, hm⟩ := hin
                  rw [hm]
                  simp only [Comb.oneOf98Op]
                  by_cases h3 : ec.less eb = true
                  · exact ⟨mb, by rw [if_pos h3, if_pos h3]⟩
                  · exact ⟨m, by rw [if_neg h3, if_neg h3]⟩
                obtain ⟨m1, k1⟩ := key pos hc2
                obtain ⟨m2, k2⟩ := key pos' hc
                simp only [Comb.oneOf98Op] at k1 k2
                rw [k1, k2]
                exact .rej _ _ _

example (s : List Chr) : SameButMessage (run env98 (.oneOf [.lastOf [P.letter, P.digit], .lastOf [P.letter, P.space]]) s start)
    (run env98 (.lastOf [P.letter, .oneOf [P.digit, P.space]]) s start) := by
  have stays : ∀ (q : Pos) t, (moveOver q t).less q = false := fun q t => by
    have h := less_moveOver_iff q (s := t) (u := t) (u' := []) (v := []) (v' := t) (by simp) rfl
    exact Bool.eq_false_iff.2 fun h' => absurd (h.1 h') (by simp)
  have back : ∀ (p : P) t q m e, Rejects env98 p t q m e → e.less q = false := fun p t q m e h => by
    obtain ⟨seen, rest, -, rfl⟩ := h.honest env98_honest
    exact stays _ _
  have on : ∀ v s' pos', Accepts env98 P.letter s start v s' pos' → pos'.less start = false := fun v s' pos' h => by
    obtain ⟨c, -, rfl⟩ := h.honest env98_honest
    exact stays _ _
  exact C58_left_factoring (fun _ => by decide) (fun _ => by decide) _ _ _ s start (fun m e h => back _ _ _ _ _ h)
    fun v s' pos' h => ⟨on v s' pos' h, fun m e h => back _ _ _ _ _ h, fun m e h => back _ _ _ _ _ h⟩

/-! ## `middle_of` and `nth_of` -/

/-- `middle_of` is `nth_of` with another error message. -/
theorem C58_middle_of (hs : E.SupportsNth 3) (p1 p2 p3 : P) (s : I) (pos : Pos) :
    SameButMessage (run E (.middleOf p1 p2 p3) s pos) (run E (.nthOfC 1 [p1, p2, p3]) s pos) := by
  rw [show (1 : Int) = ((1 : Nat) : Int) from rfl, run_nthOfC E [p1, p2, p3] 1 (by simp) hs,
    run_middleOf p1 p2 p3 hs]
  simp only [List.map, chain, Out.bind_assoc]
  cases run E p1 s pos with
  | ill f => exact .ill f
  | deep => exact .deep
  | ok r => cases r with
    | rej m e => exact .rej _ _ _
    | acc v1 s1 pos1 =>
      simp only [Out.bind_ok, Out.bind_assoc]
      cases run E p2 s1 pos1 with
      | ill f => exact .ill f
      | deep => exact .deep
      | ok r => cases r with
        | rej m e => exact .rej _ _ _
        | acc v2 s2 pos2 =>
          simp only [Out.bind_ok, Out.bind_assoc]
          cases run E p3 s2 pos2 with
          | ill f => exact .ill f
          | deep => exact .deep
          | ok r => cases r with
            | rej m e => exact .rej _ _ _
            | acc v3 s3 pos3 => exact .acc _ _ _

section Text

variable {E : Env (List Chr)}

theorem not_less_of_moveOver (pos : Pos) (t : List Chr) : (moveOver pos t).less pos = false := by
  by_cases ht : t = []
  · subst ht; exact Pos.less_irrefl pos
  · exact Pos.less_asymm (less_moveOver pos t ht)

/-- Left factoring is possible for all parsers of texts: the same texts are accepted, with the same
results, and errors are at the same places. -/
theorem C58_left_factoring_on_text (hE : E.Honest) (hn : E.SupportsNth 2) (hs : E.SupportsOneOf 2)
    (a b c : P) (s : List Chr) (pos : Pos) :
    SameButMessage (run E (.oneOf [.lastOf [a, b], .lastOf [a, c]]) s pos)
      (run E (.lastOf [a, .oneOf [b, c]]) s pos) := by
  have hrej : ∀ (p : P) s pos m e, Rejects E p s pos m e → e.less pos = false := by
    intro p s pos m e h
    obtain ⟨t, u, -, rfl⟩ := C03_error_inside hE p s pos m e h
    exact not_less_of_moveOver pos t
  refine C58_left_factoring hn hs a b c s pos (hrej a s pos) fun v s' pos' h => ⟨?_, hrej b s' pos', hrej c s' pos'⟩
  obtain ⟨t, -, rfl⟩ := C02_suffix_and_position hE a s pos v s' pos' h
  exact not_less_of_moveOver pos t

example (s : List Chr) (pos : Pos) :
    SameButMessage (run env98 (.oneOf [.lastOf [P.letter, P.digit], .lastOf [P.letter, P.space]]) s pos)
      (run env98 (.lastOf [P.letter, .oneOf [P.digit, P.space]]) s pos) :=
  C58_left_factoring_on_text env98_honest (by intro _; decide) (by intro _; decide) _ _ _ s pos

/-! ## White space and the end of the input -/

theorem dropWhile_dropWhile (f : Chr → Bool) (s : List Chr) :
    (s.dropWhile f).dropWhile f = s.dropWhile f ∧ (s.dropWhile f).takeWhile f = [] := by
  induction s with
  | nil => exact ⟨rfl, rfl⟩
  | cons c s ih =>
    by_cases h : f c = true
    · simpa [List.dropWhile, h] using ih
    · simp [List.dropWhile, h]

/-- `token` twice is `token`. -/
theorem C58_token_idempotent (hE : E.OnText) (hs : E.SupportsNth 2) (p : P) :
    Equivalent E (P.token (P.token p)) (P.token p) := by
  intro s pos
  rw [run_token hE hs, run_token hE hs]
  simp only [Out.bind_assoc]
  congr 1; funext r
  cases r with
  | rej m e => rfl
  | acc v s' pos' =>
    simp only [Out.bind_ok, (dropWhile_dropWhile spaceChar s').1, (dropWhile_dropWhile spaceChar s').2]
    rfl

/-- It does not matter whether the result is transformed before or after skipping white space. -/
theorem C58_token_transform (hE : E.OnText) (hs : E.SupportsNth 2) (p : P) (f : Val → Val) :
    Equivalent E (P.token (.transform p f)) (.transform (P.token p) f) := by
  have h : ∀ p d s pos, run E (.transform p d) s pos = Comb.transform (run E p) d s pos := by
    intro p d s pos; rw [run_step]; rfl
  intro s pos
  rw [run_token hE hs, h, h]
  simp only [Comb.transform, run_token hE hs, Out.bind_assoc]
  congr 1; funext r
  cases r with
  | rej m e => rfl
  | acc v s' pos' => simp only [Out.bind_ok, Out.bind_assoc]

/-- `entire_input` twice is `entire_input` with the inner message. -/
theorem C58_entire_input_absorbs (hE : E.OnText) (hs : E.SupportsNth 2) (p : P) (m m' : Msg) :
    Equivalent E (P.entireInput (P.entireInput p m) m') (P.entireInput p m) := by
  intro s pos
  rw [run_entireInput hE hs, run_entireInput hE hs]
  simp only [Out.bind_assoc]
  congr 1; funext r
  cases r with
  | rej m e => rfl
  | acc v s' pos' =>
    by_cases h : s' = []
    · simp [h]
    · simp [h]

end Text

/-! ## Examples -/

example : Equivalent env11 (.lastOf [P.digit, .lastOf [P.letter, P.space]])
    (.lastOf [P.digit, P.letter, P.space]) :=
  C58_last_of_flatten [P.digit] [P.letter, P.space] (by simp) (by intro h; cases h) (by intro h; cases h)
example : Equivalent env98 (.keyword (txt "else if") (.int 1))
    (.lastOf [.keyword (txt "else") .void_, .keyword (txt " if") (.int 1)]) :=
  C58_keyword_append (by intro _; decide) (txt "else") (txt " if") .void_ (.int 1)
example : Equivalent env11 (.oneOf [P.digit, .oneOf [P.letter, P.space], .oneChar])
    (.oneOf [P.digit, P.letter, P.space, .oneChar]) :=
  C58_one_of_flatten (by decide) [P.digit] [P.letter, P.space] [.oneChar]

/-- In C++98 flattening can change the message. -/
theorem C58_one_of_flatten_cpp98_refuted :
    ¬ Equivalent env98 (.oneOf [P.digit, .oneOf []]) (.oneOf [P.digit]) :=
  not_equivalent (s := txt "a") (pos := start)
    (rejects_of_eval (m := .noneOfTheExpectedCasesFound) (pos' := start) 20 (by decide +kernel))
    (rejects_of_eval (m := .digitExpected) (pos' := start) 20 (by decide +kernel)) (by simp)

/-- Left factoring can change the message. -/
theorem C58_left_factoring_message_refuted :
    ¬ Equivalent env11 (.oneOf [.lastOf [P.letter, P.digit], .lastOf [P.letter, P.space]])
      (.lastOf [P.letter, .oneOf [P.digit, P.space]]) :=
  not_equivalent (s := txt "a+") (pos := start)
    (rejects_of_eval (m := .whitespaceExpected) (pos' := ⟨1, 2, ch 'a'⟩) 20 (by decide +kernel))
    (rejects_of_eval (m := .noneOfTheExpectedCasesFound) (pos' := ⟨1, 2, ch 'a'⟩) 20 (by decide +kernel))
    (by simp)

/-- A `one_of` of one parser is not that parser: the message of an error at the start is lost. -/
theorem C58_one_of_single_refuted : ¬ Equivalent env11 (.oneOf [P.digit]) P.digit :=
  not_equivalent (s := txt "a") (pos := start)
    (rejects_of_eval (m := .noneOfTheExpectedCasesFound) (pos' := start) 20 (by decide +kernel))
    (rejects_of_eval (m := .digitExpected) (pos' := start) 20 (by decide +kernel)) (by simp)

example (g : Val → Val) : Equivalent env98 (.transform (.transform P.digit fun _ => .int 1) g)
    (.transform P.digit fun _ => g (.int 1)) :=
  C58_transform_fusion P.digit (fun _ => .int 1) (fun _ => .int 1) g fun _ => rfl

/-- `[digit, letter]` and then `[space]`, on `1a `. -/
example : Accepts env98 (.sequence ([P.digit, P.letter] ++ [P.space])) (txt "1a x") start
    (.seq ([.chr (ch '1'), .chr (ch 'a')] ++ [.chr (ch ' ')])) (txt "x") ⟨1, 4, ch ' '⟩ :=
  ((C58_sequence_append [P.digit, P.letter] [P.space] (by intro _; decide) (by intro _; decide)
    (by intro _; decide) (txt "1a x") start).2 _ (txt " x") ⟨1, 3, ch 'a'⟩
    (accepts_of_eval 20 (by decide +kernel))).2 _ _ _ (accepts_of_eval 20 (by decide +kernel))

example (s : List Chr) (pos : Pos) : run env11 (.oneOf ([P.digit] ++ .ret .void_ :: [.fail (.user 1)])) s pos =
    run env11 (.oneOf ([P.digit] ++ [.ret .void_])) s pos :=
  C58_one_of_return (by decide) [P.digit] [.fail (.user 1)] .void_ s pos fun q hq => by
    simp only [List.mem_cons, List.not_mem_nil, or_false] at hq
    subst hq
    exact ⟨_, run_ok_of_eval (r := .rej (.user 1) pos) 5 rfl⟩

example (s : List Chr) (pos : Pos) : SameButMessage (run env98 (.middleOf P.space P.digit P.letter) s pos)
    (run env98 (.nthOfC 1 [P.space, P.digit, P.letter]) s pos) :=
  C58_middle_of (by intro _; decide) P.space P.digit P.letter s pos

example : Equivalent env98 (P.token (P.token P.int_)) (P.token P.int_) ∧
    Equivalent env98 (P.token (.transform P.digit fun _ => .int 1)) (.transform (P.token P.digit) fun _ => .int 1) :=
  ⟨C58_token_idempotent env98_onText (by intro _; decide) P.int_,
    C58_token_transform env98_onText (by intro _; decide) P.digit fun _ => .int 1⟩

end Metaparse
