import Verif.Props.Laws
import Verif.Props.Positions
/-!
# C92: nothing that was accepted is given back

A parser decides how much it accepts from its own input alone. What comes after it can not make it accept less, or in
another way.
-/

namespace Metaparse

variable {I : Type} {E : Env I} {p q : P} {ps : List P} {s : I} {pos : Pos}

/-- **C92.** After a fold or a repetition the repeated parser rejects: all it could take was taken. -/
theorem C92_after_repetition {st : Val} {op : Val → Val → Val} {sp : P} {v : Val} {s' : I} {pos' : Pos} :
    (Accepts E (.foldl p st op) s pos v s' pos' ∨ Accepts E (P.foldl1 p st op) s pos v s' pos' ∨
      Accepts E (P.foldr p st op) s pos v s' pos' ∨ Accepts E (P.foldr1 p st op) s pos v s' pos' ∨
      Accepts E (P.repeated p) s pos v s' pos' ∨ Accepts E (P.repeated1 p) s pos v s' pos' ∨
      Accepts E (.foldlStartWithParser p sp op) s pos v s' pos') → ∃ m e, Rejects E p s' pos' m e := by
  rintro (h | h | h | h | h | h | h)
  · obtain ⟨vs, m, e, x, hm, -⟩ := (C12_foldl_accepts ..).1 h
    exact ⟨m, e, hm.2⟩
  · obtain ⟨vs, m, e, x, -, hm, -⟩ := (C13_foldl1_accepts ..).1 h
    exact ⟨m, e, hm.2⟩
  · obtain ⟨vs, m, e, hm, -⟩ := (C15_foldr_accepts ..).1 h
    exact ⟨m, e, hm.2⟩
  · have h' : Accepts E (P.foldr p st op) s pos v s' pos' := by
      cases hr : run E p s pos with
      | ok r =>
          cases r with
          | acc v1 s1 pos1 => unfold Accepts at h ⊢; rw [← (C13_foldr1 p st op s pos).2 v1 s1 pos1 hr]; exact h
          | rej m e => exact (h.not_rejects (((C13_foldr1 p st op s pos).1 m e).2 hr)).elim
      | ill f =>
          unfold Accepts at h
          rw [P.foldr1, run_step] at h
          simp [step, Comb.ifAccepts, hr, Out.bind] at h
      | deep =>
          unfold Accepts at h
          rw [P.foldr1, run_step] at h
          simp [step, Comb.ifAccepts, hr, Out.bind] at h
    obtain ⟨vs, m, e, hm, -⟩ := (C15_foldr_accepts ..).1 h'
    exact ⟨m, e, hm.2⟩
  · obtain ⟨vs, m, e, hm, -⟩ := (C14_repeated ..).1 h
    exact ⟨m, e, hm.2⟩
  · obtain ⟨vs, m, e, -, hm, -⟩ := (C14_repeated1 ..).1 h
    exact ⟨m, e, hm.2⟩
  · obtain ⟨x, s0, pos0, vs, m, e, x', -, hm, -⟩ := (C18_foldl_start_with_parser ..).1 h
    exact ⟨m, e, hm.2⟩

/-- After `a*` at "aab" there is no `a`. -/
example : ∃ m e, Rejects env11 (P.litC (ch 'a')) (txt "b") ⟨1, 3, ch 'a'⟩ m e :=
  C92_after_repetition (st := .void_) (op := fun _ v => v) (sp := .oneChar) (s := txt "aab") (pos := start)
    (v := .seq [.chr (ch 'a'), .chr (ch 'a')])
    (.inr <| .inr <| .inr <| .inr <| .inl <| accepts_of_eval 20 (by decide +kernel))

theorem lastOf2_accepts (hs : E.SupportsNth 2) {v : Val} {s' : I} {pos' : Pos} :
    Accepts E (.lastOf [p, q]) s pos v s' pos' ↔
      ∃ u s1 pos1, Accepts E p s pos u s1 pos1 ∧ Accepts E q s1 pos1 v s' pos' := by
  unfold Accepts
  rw [run_lastOf2 hs, Out.bind_eq_ok]
  constructor
  · rintro ⟨r, hr, h⟩
    cases r with
    | acc u s1 pos1 => exact ⟨u, s1, pos1, hr, h⟩
    | rej m e => cases h
  · rintro ⟨u, s1, pos1, hr, h⟩
    exact ⟨_, hr, h⟩

theorem lastOf2_rejects (hs : E.SupportsNth 2) {m : Msg} {e : Pos} :
    Rejects E (.lastOf [p, q]) s pos m e ↔ Rejects E p s pos m e ∨
      ∃ u s1 pos1, Accepts E p s pos u s1 pos1 ∧ Rejects E q s1 pos1 m e := by
  unfold Rejects Accepts
  rw [run_lastOf2 hs, Out.bind_eq_ok]
  constructor
  · rintro ⟨r, hr, h⟩
    cases r with
    | acc u s1 pos1 => exact .inr ⟨u, s1, pos1, hr, h⟩
    | rej m e => cases h; exact .inl hr
  · rintro (h | ⟨u, s1, pos1, hr, h⟩)
    · exact ⟨_, h, rfl⟩
    · exact ⟨_, hr, h⟩

/-- **C92**, so one more of the same after a repetition is never there. -/
theorem C92_repeated_then_one_more (hs : E.SupportsNth 2) {v : Val} {s' : I} {pos' : Pos} :
    ¬ Accepts E (.lastOf [P.repeated p, p]) s pos v s' pos' := by
  rw [lastOf2_accepts hs]
  rintro ⟨u, s1, pos1, h1, h2⟩
  obtain ⟨m, e, hr⟩ := C92_after_repetition (st := .void_) (op := fun _ v => v) (sp := p)
    (.inr (.inr (.inr (.inr (.inl h1)))))
  exact h2.not_rejects hr

/-- `a* a` accepts no text, "aaa" for instance. -/
example (v : Val) (s' : List Chr) (pos' : Pos) :
    ¬ Accepts env98 (.lastOf [P.repeated (P.litC (ch 'a')), P.litC (ch 'a')]) (txt "aaa") start v s' pos' :=
  C92_repeated_then_one_more fun _ => by decide

/-- **C92**, `one_of` commits to the first alternative that accepts: when what comes next is rejected after it, the whole is
rejected with that error, whatever the other alternatives are. -/
theorem C92_one_of_commits (hn : E.SupportsNth 2) (hs : E.SupportsOneOf ps.length) {v : Val} {s' : I}
    {pos' : Pos} (hall : AllFinish E ps s pos) (hf : FirstAccepting E ps s pos v s' pos') {m : Msg} {e : Pos}
    (hq : Rejects E q s' pos' m e) : Rejects E (.lastOf [.oneOf ps, q]) s pos m e :=
  (lastOf2_rejects hn).2 (.inr ⟨v, s', pos', (C19_oneOf_accepts ps hs s pos v s' pos').2 ⟨hall, hf⟩, hq⟩)

/-- **C92**, `optional` does not try without what it accepted. -/
theorem C92_optional_commits (hn : E.SupportsNth 2) {d v : Val} {s' : I} {pos' : Pos}
    (hp : Accepts E p s pos v s' pos') {m : Msg} {e : Pos} (hq : Rejects E q s' pos' m e) :
    Rejects E (.lastOf [.optional p d, q]) s pos m e := by
  refine (lastOf2_rejects hn).2 (.inr ⟨v, s', pos', ?_, hq⟩)
  unfold Accepts at hp ⊢
  rw [run_step]
  simp only [step, Comb.optional, hp]
  rfl

theorem first_map {f : P → P} {v : Val} {s' : I} {pos' : Pos} : FirstAccepting E (ps.map f) s pos v s' pos' ↔
    ∃ before p after, ps = before ++ p :: after ∧ (∀ x ∈ before, ∃ m e, Rejects E (f x) s pos m e) ∧
      Accepts E (f p) s pos v s' pos' := by
  constructor
  · rintro ⟨b, x, a, h1, h2, h3⟩
    obtain ⟨b', r', rfl, rfl, hr⟩ := List.map_eq_append_iff.mp h1
    obtain ⟨p', a', rfl, rfl, rfl⟩ := List.map_eq_cons_iff.mp hr
    exact ⟨b', p', a', rfl, fun x hx => h2 _ (List.mem_map.mpr ⟨x, hx, rfl⟩), h3⟩
  · rintro ⟨b, p, a, rfl, h2, h3⟩
    refine ⟨b.map f, f p, a.map f, by simp, ?_, h3⟩
    intro x hx
    obtain ⟨y, hy, rfl⟩ := List.mem_map.mp hx
    exact h2 y hy

/-- **C92**, a common beginning of all alternatives can be put before them: the same texts are accepted with the same
result. -/
theorem C92_common_beginning (hn : E.SupportsNth 2) (hs : E.SupportsOneOf ps.length) (v : Val) (s' : I) (pos' : Pos) :
    Accepts E (.oneOf (ps.map fun p => .lastOf [q, p])) s pos v s' pos' ↔
      Accepts E (.lastOf [q, .oneOf ps]) s pos v s' pos' := by
  rw [C19_oneOf_accepts _ (by simpa using hs), first_map, lastOf2_accepts hn]
  constructor
  · rintro ⟨hall, b, p, a, rfl, hb, hp⟩
    obtain ⟨u, s1, pos1, hq, hp⟩ := (lastOf2_accepts hn).1 hp
    refine ⟨u, s1, pos1, hq, (C19_oneOf_accepts _ hs ..).2 ⟨?_, b, p, a, rfl, ?_, hp⟩⟩
    · intro x hx
      obtain ⟨r, hr⟩ := hall _ (List.mem_map.mpr ⟨x, hx, rfl⟩)
      rw [run_lastOf2 hn, hq] at hr
      exact ⟨r, hr⟩
    · intro x hx
      obtain ⟨m, e, hr⟩ := hb x hx
      rcases (lastOf2_rejects hn).1 hr with h | ⟨u', s2, pos2, h1, h2⟩
      · exact (hq.not_rejects h).elim
      · obtain ⟨rfl, rfl, rfl⟩ := hq.unique h1
        exact ⟨m, e, h2⟩
  · rintro ⟨u, s1, pos1, hq, ho⟩
    obtain ⟨hall, b, p, a, rfl, hb, hp⟩ := (C19_oneOf_accepts _ hs ..).1 ho
    refine ⟨?_, b, p, a, rfl, ?_, (lastOf2_accepts hn).2 ⟨u, s1, pos1, hq, hp⟩⟩
    · intro x hx
      obtain ⟨y, hy, rfl⟩ := List.mem_map.mp hx
      obtain ⟨r, hr⟩ := hall y hy
      exact ⟨r, by rw [run_lastOf2 hn, hq]; exact hr⟩
    · intro x hx
      obtain ⟨m, e, hr⟩ := hb x hx
      exact ⟨m, e, (lastOf2_rejects hn).2 (.inr ⟨u, s1, pos1, hq, hr⟩)⟩

/-- **C92**, with the common beginning put before the alternatives, the same texts are rejected. -/
theorem C92_common_beginning_rejects (hn : E.SupportsNth 2) (hs : E.SupportsOneOf ps.length) (hne : ps ≠ []) :
    (∃ m e, Rejects E (.oneOf (ps.map fun p => .lastOf [q, p])) s pos m e) ↔
      ∃ m e, Rejects E (.lastOf [q, .oneOf ps]) s pos m e := by
  rw [C20_oneOf_rejects_iff _ (by simpa using hs)]
  constructor
  · intro h
    obtain ⟨p, hp⟩ := List.exists_mem_of_ne_nil ps hne
    obtain ⟨m, e, hr⟩ := h _ (List.mem_map.mpr ⟨p, hp, rfl⟩)
    rcases (lastOf2_rejects hn).1 hr with h' | ⟨u, s1, pos1, h1, h2⟩
    · exact ⟨m, e, (lastOf2_rejects hn).2 (.inl h')⟩
    · have : AllReject E ps s1 pos1 := by
        intro x hx
        obtain ⟨m, e, hr⟩ := h _ (List.mem_map.mpr ⟨x, hx, rfl⟩)
        rcases (lastOf2_rejects hn).1 hr with h' | ⟨u', s2, pos2, h1', h2'⟩
        · exact (h1.not_rejects h').elim
        · obtain ⟨rfl, rfl, rfl⟩ := h1.unique h1'
          exact ⟨m, e, h2'⟩
      obtain ⟨m, e, hr⟩ := (C20_oneOf_rejects_iff ps hs s1 pos1).2 this
      exact ⟨m, e, (lastOf2_rejects hn).2 (.inr ⟨u, s1, pos1, h1, hr⟩)⟩
  · rintro ⟨m, e, hr⟩ x hx
    obtain ⟨p, hp, rfl⟩ := List.mem_map.mp hx
    rcases (lastOf2_rejects hn).1 hr with h | ⟨u, s1, pos1, h1, h2⟩
    · exact ⟨m, e, (lastOf2_rejects hn).2 (.inl h)⟩
    · obtain ⟨m', e', h3⟩ := (C20_oneOf_rejects_iff ps hs s1 pos1).1 ⟨m, e, h2⟩ p hp
      exact ⟨m', e', (lastOf2_rejects hn).2 (.inr ⟨u, s1, pos1, h1, h3⟩)⟩

/-- **C92**, a common end put after the alternatives accepts nothing new and nothing differently, -/
theorem C92_common_end (hn : E.SupportsNth 2) (hs : E.SupportsOneOf ps.length)
    (hall : AllFinish E (ps.map fun p => .lastOf [p, q]) s pos) {v : Val} {s' : I} {pos' : Pos}
    (h : Accepts E (.lastOf [.oneOf ps, q]) s pos v s' pos') :
    Accepts E (.oneOf (ps.map fun p => .lastOf [p, q])) s pos v s' pos' := by
  rw [C19_oneOf_accepts _ (by simpa using hs), first_map]
  obtain ⟨u, s1, pos1, ho, hq⟩ := (lastOf2_accepts hn).1 h
  obtain ⟨-, b, p, a, rfl, hb, hp⟩ := (C19_oneOf_accepts _ hs ..).1 ho
  refine ⟨hall, b, p, a, rfl, ?_, (lastOf2_accepts hn).2 ⟨u, s1, pos1, hp, hq⟩⟩
  intro x hx
  obtain ⟨m, e, hr⟩ := hb x hx
  exact ⟨m, e, (lastOf2_rejects hn).2 (.inl hr)⟩

/-- The alternatives of the example: `a` and `ab`. -/
def alternativesAB : List P := [.keyword (txt "a") .void_, .keyword (txt "ab") .void_]

/-- **C92**, but it may accept less: `(a | ab) c` rejects "abc", `a c | ab c` accepts it. -/
theorem C92_common_end_less :
    Rejects env11 (.lastOf [.oneOf alternativesAB, .keyword (txt "c") .void_]) (txt "abc") start (.literalExpected 99)
      ⟨1, 2, 97⟩ ∧
    Accepts env11 (.oneOf (alternativesAB.map fun p => .lastOf [p, .keyword (txt "c") .void_])) (txt "abc") start .void_ []
      ⟨1, 4, 99⟩ :=
  ⟨rejects_of_eval 20 (by decide +kernel), accepts_of_eval 20 (by decide +kernel)⟩

/-- **C92**, so the error that is reported need not be the one that is furthest in the text: `(abc)? d` rejects "abx" at
its first character, though `abc` was only rejected at the third. -/
theorem C92_furthest_lost :
    Rejects env11 (.keyword (txt "abc") .void_) (txt "abx") start (.literalExpected 99) ⟨1, 3, 98⟩ ∧
    Rejects env11 (.lastOf [.optional (.keyword (txt "abc") .void_) .void_, P.litC 100]) (txt "abx") start
      (.literalExpected 100) ⟨1, 1, 0⟩ :=
  ⟨rejects_of_eval 20 (by decide +kernel), rejects_of_eval 20 (by decide +kernel)⟩

/-- The first alternative is the one that decides. -/
example : Rejects env11 (.lastOf [.oneOf alternativesAB, .keyword (txt "c") .void_]) (txt "abc") start
    (.literalExpected 99) ⟨1, 2, 97⟩ :=
  C92_one_of_commits (ps := alternativesAB) (by intro h; cases h) (by intro h; cases h) (v := .void_) (s' := txt "bc") (pos' := ⟨1, 2, 97⟩)
    (by
      intro p hp
      simp only [alternativesAB, List.mem_cons, List.not_mem_nil, or_false] at hp
      rcases hp with rfl | rfl
      · exact ⟨_, run_ok_of_eval (r := .acc .void_ (txt "bc") ⟨1, 2, 97⟩) 20 rfl⟩
      · exact ⟨_, run_ok_of_eval (r := .acc .void_ (txt "c") ⟨1, 3, 98⟩) 20 rfl⟩)
    ⟨[], _, _, rfl, by simp, accepts_of_eval 20 (by decide +kernel)⟩ (rejects_of_eval 20 (by decide +kernel))

/-- `a?a` rejects "a". -/
example : Rejects env11 (.lastOf [.optional (P.litC 97) .void_, P.litC 97]) (txt "a") start (.literalExpected 97) ⟨1, 2, 97⟩ :=
  C92_optional_commits (by intro h; cases h) (v := .chr 97) (s' := []) (pos' := ⟨1, 2, 97⟩)
    (accepts_of_eval 20 (by decide +kernel)) (rejects_of_eval 20 (by decide +kernel))

/-- A common beginning: `(x a | x ab)` and `x (a | ab)`. -/
example : Accepts env11 (.lastOf [P.litC 120, .oneOf alternativesAB]) (txt "xab") start .void_ (txt "b") ⟨1, 3, 97⟩ :=
  (C92_common_beginning (by intro h; cases h) (by intro h; cases h) ..).1 (accepts_of_eval 20 (by decide +kernel))

/-- `x a | x ab` and `x (a | ab)` at "xb". -/
example : ∃ m e, Rejects env98 (.lastOf [P.litC (ch 'x'), .oneOf alternativesAB]) (txt "xb") start m e :=
  (C92_common_beginning_rejects (fun _ => by decide) (fun _ => by decide) (by decide)).1
    ⟨.literalExpected (ch 'a'), ⟨1, 2, ch 'x'⟩, rejects_of_eval 20 (by decide +kernel)⟩

/-- `(a | ab) b` and `a b | ab b` at "abb". -/
example : Accepts env11 (.oneOf (alternativesAB.map fun p => .lastOf [p, P.litC (ch 'b')])) (txt "abb") start (.chr (ch 'b'))
    (txt "b") ⟨1, 3, ch 'b'⟩ := by
  refine C92_common_end (by intro h; cases h) (by intro h; cases h) ?_ (accepts_of_eval 20 (by decide +kernel))
  intro p hp
  simp only [alternativesAB, List.map_cons, List.map_nil, List.mem_cons, List.not_mem_nil, or_false] at hp
  rcases hp with rfl | rfl
  · exact ⟨_, run_ok_of_eval (r := .acc (.chr (ch 'b')) (txt "b") ⟨1, 3, ch 'b'⟩) 20 rfl⟩
  · exact ⟨_, run_ok_of_eval (r := .acc (.chr (ch 'b')) [] ⟨1, 4, ch 'b'⟩) 20 rfl⟩

end Metaparse
