import Verif.Props.Brackets
/-!
# Parsers that look one character ahead
-/

namespace Metaparse

variable {E : Env (List Chr)} {n : Nat} {p q o : P}

/-- For texts up to length `n`: whether `p` accepts the text, and whether the error is at its end, depends only
on the text and the character after it. -/
def Local (E : Env (List Chr)) (n : Nat) (p : P) : Prop :=
  ∀ u c r r' pos, u.length ≤ n →
    (∀ v pos', Accepts E p (u ++ c :: r) pos v (c :: r) pos' →
      Accepts E p (u ++ c :: r') pos v (c :: r') pos') ∧
    ∀ m, Rejects E p (u ++ c :: r) pos m (moveOver pos u) →
      ∃ m', Rejects E p (u ++ c :: r') pos m' (moveOver pos u)

theorem Local.accepts (h : Local E n p) {u u2 r r' : List Chr} {c : Chr} {pos : Pos} {v : Val} {pos' : Pos}
    (hn : u.length ≤ n) (ha : Accepts E p (u ++ (u2 ++ c :: r)) pos v (u2 ++ c :: r) pos') :
    Accepts E p (u ++ (u2 ++ c :: r')) pos v (u2 ++ c :: r') pos' := by
  cases u2 with
  | nil => exact (h u c r r' pos hn).1 v pos' ha
  | cons d u2 => exact (h u d (u2 ++ c :: r) (u2 ++ c :: r') pos hn).1 v pos' ha

theorem Local.rejects (h : Local E n p) {u u2 r r' : List Chr} {c : Chr} {pos : Pos} {m : Msg}
    (hn : u.length ≤ n) (hr : Rejects E p (u ++ (u2 ++ c :: r)) pos m (moveOver pos u)) :
    ∃ m', Rejects E p (u ++ (u2 ++ c :: r')) pos m' (moveOver pos u) := by
  cases u2 with
  | nil => exact (h u c r r' pos hn).2 m hr
  | cons d u2 => exact (h u d (u2 ++ c :: r) (u2 ++ c :: r') pos hn).2 m hr

/-- What is left after the first part of what is read. -/
theorem rest_split {u s r : List Chr} {c : Chr} {c1 c2 : List Chr} (h1 : u ++ c :: r = c1 ++ s)
    (h2 : s = c2 ++ c :: r) : u = c1 ++ c2 := by
  subst h2
  rw [← List.append_assoc] at h1
  exact List.append_cancel_right h1

/-- Where the error in the second part of what is read is. -/
theorem error_split (hE : E.Honest) {u s r : List Chr} {c : Chr} {c1 : List Chr} {pos : Pos} {m : Msg}
    (h1 : u ++ c :: r = c1 ++ s) (hr : Rejects E p s (moveOver pos c1) m (moveOver pos u)) :
    ∃ c2, u = c1 ++ c2 ∧ s = c2 ++ c :: r := by
  obtain ⟨c2, t, rfl, he⟩ := hr.honest hE
  rw [← moveOver_append] at he
  have hl := (moveOver_eq_iff pos (s := u ++ c :: r) rfl (by rw [h1, List.append_assoc])).1 he
  rw [← List.append_assoc] at h1
  obtain ⟨rfl, rfl⟩ := append_eq_of_length h1 hl
  exact ⟨c2, rfl, rfl⟩

theorem Steps.honest (hE : E.Honest) {s : List Chr} {pos : Pos} {vs : List Val} {s' : List Chr} {pos' : Pos}
    (h : Steps E p s pos vs s' pos') : ∃ c, s = c ++ s' ∧ pos' = moveOver pos c := by
  induction h with
  | nil => exact ⟨[], rfl, rfl⟩
  | cons h _ ih =>
    obtain ⟨c1, rfl, rfl⟩ := h.honest hE
    obtain ⟨c2, rfl, rfl⟩ := ih
    exact ⟨c1 ++ c2, by simp, (moveOver_append ..).symm⟩

theorem Local.steps (hE : E.Honest) (h : Local E n p) {u u2 r : List Chr} (r' : List Chr) {c : Chr} {pos : Pos}
    {vs : List Val} {pos' : Pos} (hn : u.length ≤ n)
    (hst : Steps E p (u ++ (u2 ++ c :: r)) pos vs (u2 ++ c :: r) pos') :
    Steps E p (u ++ (u2 ++ c :: r')) pos vs (u2 ++ c :: r') pos' := by
  generalize hs : u ++ (u2 ++ c :: r) = s at hst
  generalize hs' : u2 ++ c :: r = s' at hst
  induction hst generalizing u with
  | nil =>
    have := congrArg List.length (hs.trans hs'.symm)
    simp only [List.length_append] at this
    have : u = [] := List.length_eq_zero_iff.1 (by omega)
    subst this
    exact .nil ..
  | @cons s pos v s1 pos1 vs s2 pos2 h1 h2 ih =>
    obtain ⟨c1, hc1, hp1⟩ := h1.honest hE
    obtain ⟨c2, hc2, -⟩ := h2.honest hE
    subst hs'
    subst hs
    have hu : u = c1 ++ c2 := by
      rw [hc2, ← List.append_assoc c1 c2] at hc1
      exact List.append_cancel_right hc1
    subst hu
    subst hc2
    rw [List.length_append] at hn
    have := ih (u := c2) (by omega) rfl rfl
    refine .cons ?_ this
    have h1' : Accepts E p (c1 ++ ((c2 ++ u2) ++ c :: r)) pos v ((c2 ++ u2) ++ c :: r) pos1 := by
      simpa using h1
    have := h.accepts (r' := r') (by omega) h1'
    simpa using this

/-! ## Sequences and repetition -/

theorem Local.sequence (hE : E.Honest) (hs : E.SupportsSequence 2) (ho : Local E n o) (hp : Local E n p) :
    Local E n (.sequence [o, p]) := by
  intro u c r r' pos hn
  constructor
  · intro v pos' ha
    obtain ⟨vs, hi, rfl⟩ := (C22_sequence_accepts _ hs ..).1 ha
    obtain ⟨x, y, s1, pos1, rfl, h1, h2⟩ := hi.two
    obtain ⟨c1, hc1, rfl⟩ := h1.honest hE
    obtain ⟨c2, rfl, rfl⟩ := h2.honest hE
    obtain rfl := rest_split hc1 rfl
    rw [List.length_append] at hn
    rw [hc1] at h1
    have h1' := ho.accepts (r' := r') (by omega) h1
    have h2' := (hp c2 c r r' _ (by omega)).1 _ _ h2
    exact (C22_sequence_accepts _ hs ..).2 ⟨_, .cons (by simpa using h1') (.cons h2' (.nil ..)), rfl⟩
  · intro m hr
    rcases (sequence_two_rejects hs).1 hr with hr | ⟨v, s1, pos1, h1, h2⟩
    · obtain ⟨m', hr'⟩ := (ho u c r r' pos hn).2 m hr
      exact ⟨m', (sequence_two_rejects hs).2 (.inl hr')⟩
    · obtain ⟨c1, hc1, rfl⟩ := h1.honest hE
      obtain ⟨c2, rfl, rfl⟩ := error_split hE hc1 h2
      rw [List.length_append] at hn
      rw [hc1] at h1
      have h1' := ho.accepts (r' := r') (by omega) h1
      rw [moveOver_append] at h2
      obtain ⟨m', h2'⟩ := (hp c2 c r r' _ (by omega)).2 m h2
      exact ⟨m', (sequence_two_rejects hs).2 (.inr ⟨_, _, _, by simpa using h1',
        by rw [moveOver_append]; exact h2'⟩)⟩

/-- A fold that rejects incomplete elements. -/
theorem Local.foldlRejectIncomplete (hE : E.Honest) {op : Val → Val → Val} (hq : Local E n q) (hp : Local E n p) :
    Local E n (.foldlRejectIncompleteStartWithParser q p op) := by
  intro u c r r' pos hn
  constructor
  · intro v pos' ha
    obtain ⟨x, s0, pos0, vs, m, x', h1, ⟨h2, h3⟩, h4, h5⟩ :=
      (C18_foldl_reject_incomplete_start_with_parser ..).1 ha
    obtain ⟨c1, hc1, rfl⟩ := h1.honest hE
    obtain ⟨c2, rfl, rfl⟩ := h2.honest hE
    obtain rfl := rest_split hc1 rfl
    rw [List.length_append] at hn
    rw [hc1] at h1
    have h1' := hp.accepts (r' := r') (by omega) h1
    have h2' := hq.steps (u2 := []) hE r' (by omega) h2
    obtain ⟨m', h3'⟩ := (hq [] c r r' _ (Nat.zero_le _)).2 m h3
    exact (C18_foldl_reject_incomplete_start_with_parser ..).2
      ⟨x, _, _, vs, m', x', by simpa using h1', ⟨h2', h3'⟩, h4, h5⟩
  · intro m hr
    rcases (C18_foldl_reject_incomplete_start_with_parser_rejects ..).1 hr with hr |
      ⟨x, s0, pos0, vs, s', pos', h1, ⟨h2, h3⟩, h4, h5⟩
    · obtain ⟨m', hr'⟩ := (hp u c r r' pos hn).2 m hr
      exact ⟨m', (C18_foldl_reject_incomplete_start_with_parser_rejects ..).2 (.inl hr')⟩
    · obtain ⟨c1, hc1, rfl⟩ := h1.honest hE
      obtain ⟨c2, rfl, rfl⟩ := h2.honest hE
      rw [← moveOver_append] at h3
      rw [← List.append_assoc] at hc1
      obtain ⟨c3, rfl, rfl⟩ := error_split hE hc1 h3
      simp only [List.length_append] at hn
      have h1' : Accepts E p (c1 ++ ((c2 ++ c3) ++ c :: r)) pos x ((c2 ++ c3) ++ c :: r) (moveOver pos c1) := by
        simpa using h1
      have h1' := hp.accepts (r' := r') (by omega) h1'
      have h2' := hq.steps (u2 := c3) hE r' (by omega) h2
      rw [moveOver_append _ (c1 ++ c2) c3] at h3
      obtain ⟨m', h3'⟩ := (hq c3 c r r' _ (by omega)).2 m h3
      refine ⟨m', (C18_foldl_reject_incomplete_start_with_parser_rejects ..).2
        (.inr ⟨x, _, _, vs, _, _, by simpa using h1', ⟨h2', ?_⟩, h4, h5⟩)⟩
      rw [moveOver_append _ (c1 ++ c2) c3, ← moveOver_append _ c1 c2]
      exact h3'

/-- A fold whose repeated part is recognised by its first character. -/
theorem Local.foldr (hE : E.Honest) {op : Val → Val → Val} (hq : Local E n q) (hp : Local E n p)
    (hfirst : ∀ {s pos m e}, Rejects E q s pos m e → e = pos) :
    Local E n (.foldrStartWithParser q p op) := by
  have maximal : ∀ {c1 c2 r r' : List Chr} {c pos vs m e}, c1.length ≤ n →
      MaximalRun E q (c1 ++ (c2 ++ c :: r)) pos vs (c2 ++ c :: r) (moveOver pos c1) m e →
      ∃ m', MaximalRun E q (c1 ++ (c2 ++ c :: r')) pos vs (c2 ++ c :: r') (moveOver pos c1) m' (moveOver pos c1) := by
    rintro c1 c2 r r' c pos vs m e hn ⟨h1, h2⟩
    obtain rfl := hfirst h2
    obtain ⟨m', h2'⟩ := hq.rejects (u := []) (r' := r') (Nat.zero_le _) h2
    exact ⟨m', hq.steps hE r' hn h1, h2'⟩
  intro u c r r' pos hn
  constructor
  · intro v pos' ha
    obtain ⟨vs, s0, pos0, m, e, x, hm, h2, h3⟩ := (C18_foldr_start_with_parser ..).1 ha
    obtain ⟨c1, hc1, rfl⟩ := hm.1.honest hE
    obtain ⟨c2, rfl, rfl⟩ := h2.honest hE
    obtain rfl := rest_split hc1 rfl
    rw [List.length_append] at hn
    rw [hc1] at hm
    obtain ⟨m', hm'⟩ := maximal (r' := r') (by omega) hm
    exact (C18_foldr_start_with_parser ..).2 ⟨vs, _, _, m', _, x, by simpa using hm',
      (hp c2 c r r' _ (by omega)).1 _ _ h2, h3⟩
  · intro m hr
    obtain ⟨vs, s0, pos0, m', e', hm, h2⟩ := (C18_foldr_start_with_parser_rejects ..).1 hr
    obtain ⟨c1, hc1, rfl⟩ := hm.1.honest hE
    obtain ⟨c2, rfl, rfl⟩ := error_split hE hc1 h2
    rw [List.length_append] at hn
    rw [hc1] at hm
    obtain ⟨m', hm'⟩ := maximal (r' := r') (by omega) hm
    rw [moveOver_append] at h2
    obtain ⟨m2, h2'⟩ := (hp c2 c r r' _ (by omega)).2 m h2
    exact ⟨m2, (C18_foldr_start_with_parser_rejects ..).2 ⟨vs, _, _, m', _, by simpa using hm',
      by rw [moveOver_append]; exact h2'⟩⟩

/-! ## Alternatives -/

/-- Alternatives: when one accepts, the others reject at the beginning. -/
theorem Local.oneOf (hE : E.Honest) {ps : List P} (hs : E.SupportsOneOf ps.length) (h : ∀ p ∈ ps, Local E n p)
    (hx : ∀ p ∈ ps, ∀ s pos v s' pos', Accepts E p s pos v s' pos' → ∀ q ∈ ps, q = p ∨
      ∃ m, Rejects E q s pos m pos) : Local E n (.oneOf ps) := by
  intro u c r r' pos hn
  constructor
  · intro v pos' ha
    obtain ⟨-, b, p, a, hl, hrej, hp⟩ := (C19_oneOf_accepts _ hs ..).1 ha
    have hmem : p ∈ ps := by rw [hl]; simp
    have hp' := (h p hmem u c r r' pos hn).1 _ _ hp
    have others : ∀ q ∈ ps, q = p ∨ ∃ m, Rejects E q (u ++ c :: r') pos m pos := by
      intro q hq
      rcases hx p hmem _ _ _ _ _ hp q hq with rfl | ⟨m, hr⟩
      · exact .inl rfl
      · exact .inr ((h q hq).rejects (u := []) (r' := r') (Nat.zero_le _) hr)
    refine (C19_oneOf_accepts _ hs ..).2 ⟨?_, b, p, a, hl, ?_, hp'⟩
    · intro q hq
      rcases others q hq with rfl | ⟨m, hr⟩
      · exact ⟨_, hp'⟩
      · exact ⟨_, hr⟩
    · intro q hq
      obtain ⟨m, e, hr⟩ := hrej q hq
      rcases others q (by rw [hl]; simp [hq]) with rfl | ⟨m, hr'⟩
      · exact absurd hr hp.not_rejects
      · exact ⟨m, _, hr'⟩
  · intro m hr
    have hf := C20_oneOf_furthest _ _ _ _ _ hr
    have hall := (C20_oneOf_rejects_iff _ hs ..).1 ⟨m, _, hr⟩
    have both : ∀ q ∈ ps, ∃ m1 m2 e, Rejects E q (u ++ c :: r) pos m1 e ∧ Rejects E q (u ++ c :: r') pos m2 e := by
      intro q hq
      obtain ⟨m1, e, h1⟩ := hall q hq
      obtain ⟨c1, t, hc1, rfl⟩ := h1.honest hE
      have hle : c1.length ≤ u.length := by
        have := hf.furthest q hq _ _ h1
        cases hlt : decide (u.length < c1.length) with
        | false => simpa using hlt
        | true =>
          rw [(less_moveOver_iff pos (s := u ++ c :: r) rfl hc1).2 (by simpa using hlt)] at this
          cases this
      have hpre : c1 <+: u := by
        refine List.prefix_of_prefix_length_le (l₃ := u ++ c :: r) ?_ (List.prefix_append ..) hle
        rw [hc1]; exact List.prefix_append ..
      obtain ⟨c2, rfl⟩ := hpre
      obtain ⟨m2, h2⟩ := (h q hq).rejects (u := c1) (u2 := c2) (r' := r') (by omega) (by simpa using h1)
      exact ⟨m1, m2, _, h1, by simpa using h2⟩
    obtain ⟨m', e', hr'⟩ := (C20_oneOf_rejects_iff _ hs (u ++ c :: r') pos).2 fun q hq => by
      obtain ⟨m1, m2, e, -, h2⟩ := both q hq
      exact ⟨m2, e, h2⟩
    have hf' := C20_oneOf_furthest _ _ _ _ _ hr'
    have h1 : (moveOver pos u).less e' = false := by
      rcases hf'.reached with rfl | ⟨q, hq, m2, h2⟩
      · exact hf.notBeforeStart
      · obtain ⟨m3, m4, e, h3, h4⟩ := both q hq
        obtain ⟨-, rfl⟩ := h4.unique h2
        exact hf.furthest q hq _ _ h3
    have h2 : e'.less (moveOver pos u) = false := by
      rcases hf.reached with he | ⟨q, hq, m2, h2⟩
      · rw [he]; exact hf'.notBeforeStart
      · obtain ⟨m3, m4, e, h3, h4⟩ := both q hq
        obtain ⟨-, rfl⟩ := h3.unique h2
        exact hf'.furthest q hq _ _ h4
    obtain he : e' = moveOver pos u := by
      rcases Pos.less_trichotomy e' (moveOver pos u) with h | h | h
      · rw [h2] at h; cases h
      · exact h
      · rw [h1] at h; cases h
    subst he
    exact ⟨m', hr'⟩

/-! ## Tokens -/

theorem ReadsOp.error {ops : List Chr} (h : ReadsOp E o ops) {s : List Chr} {pos : Pos} {m : Msg} {e : Pos}
    (hr : Rejects E o s pos m e) : e = pos ∧ beginsWith ops.contains s = false := by
  cases hb : beginsWith ops.contains s with
  | false =>
    obtain ⟨m', hr'⟩ := h.rejects pos hb
    exact ⟨(hr.unique hr').2, rfl⟩
  | true =>
    exfalso
    cases s with
    | nil => cases hb
    | cons c s =>
      have hc : c ∈ ops := by simpa [beginsWith] using hb
      obtain ⟨pos', ha⟩ := h.accepts (c := c) (ws := s.takeWhile spaceChar) (s' := s.dropWhile spaceChar) pos hc
        (all_takeWhile _ _) (beginsWith_dropWhile _ _)
      rw [List.takeWhile_append_dropWhile] at ha
      exact ha.not_rejects hr

theorem Local.op (hE : E.Honest) {ops : List Chr} (h : ReadsOp E o ops) (n : Nat) : Local E n o := by
  intro u c r r' pos _
  constructor
  · intro v pos' ha
    obtain ⟨d, hd, ws, heq, hws, hb, rfl⟩ := h.sound ha
    obtain ⟨c1, hc1, rfl⟩ := ha.honest hE
    have hu : u = d :: ws := by
      have : u ++ c :: r = (d :: ws) ++ c :: r := by simpa using heq
      exact List.append_cancel_right this
    have hu1 : u = c1 := List.append_cancel_right hc1
    subst hu1
    obtain ⟨pos1, ha'⟩ := h.accepts (c := d) (ws := ws) (s' := c :: r') pos hd hws hb
    obtain ⟨c2, hc2, rfl⟩ := ha'.honest hE
    have : u = c2 := by
      rw [hu]
      have : (d :: ws) ++ c :: r' = c2 ++ c :: r' := by simpa using hc2
      exact List.append_cancel_right this
    subst this
    rw [hu] at ha' ⊢
    simpa using ha'
  · intro m hr
    obtain ⟨he, hb⟩ := h.error hr
    have hu : u = [] := by
      cases u with
      | nil => rfl
      | cons d u =>
        have := C06_move_forward pos (d :: u) (by simp)
        rw [he, Pos.less_irrefl] at this
        cases this
    subst hu
    exact h.rejects (s := c :: r') pos hb

theorem Local.number (hE : E.Honest) (hs : E.SupportsNth 2) (n : Nat) : Local E n Tutorial.intToken := by
  intro u c r r' pos _
  constructor
  · intro v pos' ha
    obtain ⟨t, k, ht, hk, rfl⟩ := takes_of_accepts hE.onText hs ha
    obtain ⟨c1, hc1, rfl⟩ := ha.honest hE
    have hu1 : u = c1 := List.append_cancel_right hc1
    subst hu1
    have hut : u = t := List.append_cancel_right ht.number.1
    subst hut
    have ht' : TakesNumber (u ++ c :: r') u k (c :: r') := by
      obtain ⟨w, ws, rfl, -, h1, h2, h3, rfl, h4, h5⟩ := ht
      refine ⟨w, ws, rfl, by simp, h1, h2, h3, rfl, ?_, h5⟩
      cases ws with
      | nil => exact h4
      | cons d ws => exact h4
    obtain ⟨pos1, ha'⟩ := ht'.accepts hE.onText hs hk pos
    obtain ⟨c2, hc2, rfl⟩ := ha'.honest hE
    have : u = c2 := List.append_cancel_right hc2
    subst this
    exact ha'
  · intro m hr
    obtain ⟨hb, rfl, he⟩ := (number_rejects hE.onText hs).1 hr
    have hu : u = [] := by
      cases u with
      | nil => rfl
      | cons d u =>
        have := C06_move_forward pos (d :: u) (by simp)
        rw [he, Pos.less_irrefl] at this
        cases this
    subst hu
    exact ⟨_, (number_rejects hE.onText hs).2 ⟨hb, rfl, rfl⟩⟩

theorem Local.fail (m : Msg) (n : Nat) : Local E n (.fail m) := by
  intro u c r r' pos _
  constructor
  · intro v pos' ha
    exact absurd (C35_fail_total m _ _) ha.not_rejects
  · intro m' hr
    have := hr.unique (C35_fail_total m _ _)
    rw [this.2]
    exact ⟨m, C35_fail_total m _ _⟩

/-! ## Brackets -/

theorem Local.brackets (hE : E.Honest) (h : E.Tutorial) (hp : ∀ k, k < n → Local E k p) :
    Local E n (brackets p) := by
  have hl := Local.op hE h.lparen n
  have hr := Local.op hE h.rparen n
  -- the opening bracket is not empty
  have opens : ∀ {c1 s pos v pos'}, Accepts E Tutorial.lparenToken (c1 ++ s) pos v s pos' → c1 ≠ [] := by
    rintro c1 s pos v pos' ha rfl
    obtain ⟨d, -, ws, heq, -⟩ := h.lparen.sound ha
    have := congrArg List.length heq
    simp only [List.nil_append, List.length_cons, List.length_append] at this
    omega
  intro u c r r' pos hn
  constructor
  · intro v pos' ha
    obtain ⟨v1, v3, hi⟩ := (C25_middleOf_accepts _ _ _ h.nth3 ..).1 ha
    obtain ⟨x, y, z, s1, pos1, s2, pos2, he, h1, h2, h3⟩ := hi.three
    obtain ⟨c1, hc1, rfl⟩ := h1.honest hE
    obtain ⟨c2, rfl, rfl⟩ := h2.honest hE
    obtain ⟨c3, rfl, rfl⟩ := h3.honest hE
    rw [← List.append_assoc] at hc1
    obtain rfl := rest_split hc1 rfl
    have hne := opens (c1 := c1) (s := c2 ++ (c3 ++ c :: r)) (by simpa using h1)
    have hpos := List.length_pos_iff.2 hne
    simp only [List.length_append] at hn
    have h1' : Accepts E Tutorial.lparenToken (c1 ++ ((c2 ++ c3) ++ c :: r)) pos x ((c2 ++ c3) ++ c :: r) (moveOver pos c1) := by
      simpa using h1
    have h1' := hl.accepts (r' := r') (by omega) h1'
    have h2' := (hp (n - 1) (by omega)).accepts (r' := r') (by omega) h2
    have h3' := (hr c3 c r r' _ (by omega)).1 _ _ h3
    refine (C25_middleOf_accepts _ _ _ h.nth3 ..).2 ⟨v1, v3, ?_⟩
    rw [he]
    exact .cons (by simpa using h1') (.cons h2' (.cons h3' (.nil ..)))
  · intro m hrej
    rcases (brackets_rejects h).1 hrej with hrej | ⟨v, s1, pos1, h1, h2⟩ |
      ⟨v, s1, pos1, w, s2, pos2, m3, h1, h2, h3, rfl⟩
    · obtain ⟨m', h'⟩ := (hl u c r r' pos hn).2 _ hrej
      exact ⟨m', (brackets_rejects h).2 (.inl h')⟩
    · obtain ⟨c1, hc1, rfl⟩ := h1.honest hE
      obtain ⟨c2, rfl, rfl⟩ := error_split hE hc1 h2
      rw [hc1] at h1
      have hpos := List.length_pos_iff.2 (opens h1)
      rw [List.length_append] at hn
      have h1' := hl.accepts (r' := r') (by omega) h1
      rw [moveOver_append] at h2
      obtain ⟨m', h2'⟩ := (hp (n - 1) (by omega) c2 c r r' _ (by omega)).2 m h2
      exact ⟨m', (brackets_rejects h).2 (.inr (.inl ⟨_, _, _, by simpa using h1',
        by rw [moveOver_append]; exact h2'⟩))⟩
    · obtain ⟨c1, hc1, rfl⟩ := h1.honest hE
      obtain ⟨c2, rfl, rfl⟩ := h2.honest hE
      rw [← moveOver_append] at h3
      rw [← List.append_assoc] at hc1
      obtain ⟨c3, rfl, rfl⟩ := error_split hE hc1 h3
      have hpos := List.length_pos_iff.2 (opens (c1 := c1) (s := c2 ++ (c3 ++ c :: r)) (by simpa using h1))
      simp only [List.length_append] at hn
      have h1' : Accepts E Tutorial.lparenToken (c1 ++ ((c2 ++ c3) ++ c :: r)) pos v ((c2 ++ c3) ++ c :: r) (moveOver pos c1) := by
        simpa using h1
      have h1' := hl.accepts (r' := r') (by omega) h1'
      have h2' := (hp (n - 1) (by omega)).accepts (r' := r') (by omega) h2
      rw [moveOver_append _ (c1 ++ c2) c3] at h3
      obtain ⟨m', h3'⟩ := (hr c3 c r r' _ (by omega)).2 m3 h3
      refine ⟨_, (brackets_rejects h).2 (.inr (.inr ⟨_, _, _, _, _, _, m', by simpa using h1', h2', ?_, rfl⟩))⟩
      rw [moveOver_append _ (c1 ++ c2) c3, ← moveOver_append _ c1 c2]
      exact h3'

theorem Local.of_run (h : Local E n q) (he : ∀ s pos, run E p s pos = run E q s pos) : Local E n p := by
  intro u c r r' pos hn
  unfold Accepts Rejects
  simp only [he]
  exact h u c r r' pos hn

variable {r : P} {more : List P}

theorem Local.primary (hE : E.Honest) (h : E.Tutorial) (hs : E.SupportsOneOf (more.length + 2))
    (hm : ∀ p ∈ more, ∃ m, p = .fail m) (hp : ∀ k, k < n → Local E k r) : Local E n (primaryExp r more) := by
  have fails : ∀ q ∈ more, ∀ s pos, ∃ m, Rejects E q s pos m pos := by
    intro q hq s pos
    obtain ⟨m, rfl⟩ := hm q hq
    exact ⟨m, C35_fail_total m s pos⟩
  refine .oneOf hE (by simpa using hs) ?_ ?_
  · intro q hq
    simp only [List.mem_cons] at hq
    rcases hq with rfl | rfl | hq
    · exact .number hE h.nth2 n
    · exact .brackets hE h hp
    · obtain ⟨m, rfl⟩ := hm q hq
      exact .fail m n
  · intro q hq s pos v s' pos' ha q' hq'
    simp only [List.mem_cons] at hq hq'
    rcases hq' with rfl | rfl | hq'
    · rcases hq with rfl | rfl | hq
      · exact .inl rfl
      · right
        obtain ⟨v1, v3, hi⟩ := (C25_middleOf_accepts _ _ _ h.nth3 ..).1 ha
        obtain ⟨x, y, z, s1, pos1, s2, pos2, he, h1, -⟩ := hi.three
        obtain ⟨d, hd, ws, rfl, -⟩ := h.lparen.sound h1
        simp only [List.mem_cons, List.not_mem_nil, or_false] at hd
        subst hd
        exact ⟨_, (number_rejects h.onText h.nth2).2 ⟨by simp only [beginsWith]; decide, rfl, rfl⟩⟩
      · obtain ⟨m, hr⟩ := fails q hq s pos
        exact absurd hr ha.not_rejects
    · rcases hq with rfl | rfl | hq
      · right
        obtain ⟨t, k, ht, -⟩ := takes_of_accepts h.onText h.nth2 ha
        obtain ⟨rfl, hn⟩ := ht.number
        refine brackets_beginsIn (c := Tutorial.rparenToken) (p := r) h.nth3 h.lparen _ pos ?_
        rw [beginsWith_append hn.begins.2.2]
        have := hn.begins.1
        cases t with
        | nil => rfl
        | cons c t =>
          simp only [beginsWith, List.contains_cons, List.contains_nil, Bool.or_false,
            beq_eq_false_iff_ne, ne_eq] at this ⊢
          rintro rfl
          exact absurd this (by decide)
      · exact .inl rfl
      · obtain ⟨m, hr⟩ := fails q hq s pos
        exact absurd hr ha.not_rejects
    · exact .inr (fails q' hq' s pos)

/-- The class of `exp_parser23`. -/
theorem local_six (hE : E.Honest) (h : E.Tutorial) (n : Nat) : Local E n Tutorial.plusExp6 := by
  induction n using Nat.strongRecOn with
  | _ n ih =>
    have hprim : Local E n (primaryExp (.ref Tutorial.plusExp6Id) [.fail Tutorial.missingPrimaryExpression]) :=
      .primary hE h h.oneOf3 (by simp) fun k hk => (ih k hk).of_run fun s pos => by rw [run_ref, h.plusExp6]
    have hun : Local E n (Tutorial.unaryExp (primaryExp (.ref Tutorial.plusExp6Id)
        [.fail Tutorial.missingPrimaryExpression])) :=
      .foldr hE (.op hE h.minus n) hprim fun hr => (h.minus.error hr).1
    have hmul : Local E n Tutorial.multExp7 :=
      .foldlRejectIncomplete hE (.sequence hE h.seq2 (.op hE h.multOps n) hun) hun
    exact .foldlRejectIncomplete hE (.sequence hE h.seq2 (.op hE h.plusOps n) hmul) hmul

end Metaparse
