import Verif.Spec.Forms
import Verif.Props.Choice
import Verif.Props.Sequences
import Verif.Props.Folds
import Verif.Props.Chars
import Verif.Props.Wrappers
/-!
# The parts of a text and the parts of a parser

C87.
-/

namespace Metaparse

variable {E : Env (List Chr)}

theorem inSequence_each {as : List Part} (h : ∀ a ∈ as, a.Ok E) : ∀ s pos vs s' pos',
    InSequence E (as.map Part.p) s pos vs s' pos' ↔
      ∃ t, s = t ++ s' ∧ Form.Each as t vs s' ∧ pos' = moveOver pos t := by
  induction as with
  | nil =>
    intro s pos vs s' pos'
    constructor
    · intro h; cases h; exact ⟨[], rfl, .nil _, rfl⟩
    · rintro ⟨t, rfl, h, rfl⟩; cases h; exact .nil _ _
  | cons a as ih =>
    have ha := h a (by simp)
    have ih := ih fun b hb => h b (by simp [hb])
    intro s pos vs s' pos'
    constructor
    · intro h
      cases h with
      | cons h1 h2 =>
        obtain ⟨t, rfl, hF, rfl⟩ := (ha.accepts ..).1 h1
        obtain ⟨u, rfl, hE, rfl⟩ := (ih ..).1 h2
        exact ⟨t ++ u, by simp, .cons hF hE, by rw [moveOver_append]⟩
    · rintro ⟨t, rfl, h, rfl⟩
      cases h with
      | cons hF hE =>
        rename_i t u v vs
        exact .cons ((ha.accepts ..).2 ⟨t, by simp, hF, rfl⟩) ((ih ..).2 ⟨u, rfl, hE, by rw [moveOver_append]⟩)

theorem firstRejection_breaks {as : List Part} (h : ∀ a ∈ as, a.Ok E) (s : List Chr) (pos : Pos) :
    (∃ m e, FirstRejection E (as.map Part.p) s pos m e) ↔ Form.Breaks as s := by
  constructor
  · rintro ⟨m, e, before, p, after, vs, s1, pos1, he, hi, hr⟩
    obtain ⟨b, c, rfl, rfl, hc⟩ := List.map_eq_append_iff.1 he
    obtain ⟨a, af, rfl, rfl, rfl⟩ := List.map_eq_cons_iff.1 hc
    obtain ⟨t, rfl, hE, rfl⟩ := (inSequence_each (fun x hx => h x (by simp [hx])) ..).1 hi
    exact ⟨b, a, af, t, vs, s1, rfl, rfl, hE, ((h a (by simp)).rejects ..).1 ⟨m, e, hr⟩⟩
  · rintro ⟨b, a, af, t, vs, rest, rfl, rfl, hE, hR⟩
    obtain ⟨m, e, hr⟩ := ((h a (by simp)).rejects rest (moveOver pos t)).2 hR
    exact ⟨m, e, b.map Part.p, a.p, af.map Part.p, vs, rest, moveOver pos t, by simp,
      (inSequence_each (fun x hx => h x (by simp [hx])) ..).2 ⟨t, rfl, hE, rfl⟩, hr⟩

theorem steps_many {p : P} {F : Form} {R : List Chr → Prop} (h : Describes E p F R) (s : List Chr) (pos : Pos)
    (vs : List Val) (s' : List Chr) (pos' : Pos) :
    Steps E p s pos vs s' pos' ↔ ∃ t, s = t ++ s' ∧ Form.Many F t vs s' ∧ pos' = moveOver pos t := by
  constructor
  · intro hs
    induction hs with
    | nil => exact ⟨[], rfl, .nil _, rfl⟩
    | cons h1 _ ih =>
      obtain ⟨u, rfl, hM, rfl⟩ := ih
      obtain ⟨t, rfl, hF, rfl⟩ := (h.accepts ..).1 h1
      exact ⟨t ++ u, by simp, .cons hF hM, by rw [moveOver_append]⟩
  · rintro ⟨t, rfl, hM, rfl⟩
    induction hM generalizing pos with
    | nil => exact .nil _ _
    | @cons t u rest v vs hF _ ih =>
      refine .cons ((h.accepts ..).2 ⟨t, by simp, hF, rfl⟩) ?_
      have := ih (moveOver pos t)
      rwa [← moveOver_append] at this

/-! ## The combinators -/

/-- C87: `sequence`. -/
theorem C87_sequence {as : List Part} (h : ∀ a ∈ as, a.Ok E) (hs : E.SupportsSequence as.length) :
    Describes E (.sequence (as.map Part.p)) (fun t v rest => ∃ vs, v = .seq vs ∧ Form.Each as t vs rest)
      (Form.Breaks as) where
  accepts s pos v s' pos' := by
    rw [C22_sequence_accepts _ (by simpa using hs)]
    constructor
    · rintro ⟨vs, hi, rfl⟩
      obtain ⟨t, rfl, hE, rfl⟩ := (inSequence_each h ..).1 hi
      exact ⟨t, rfl, ⟨vs, rfl, hE⟩, rfl⟩
    · rintro ⟨t, rfl, ⟨vs, rfl, hE⟩, rfl⟩
      exact ⟨vs, (inSequence_each h ..).2 ⟨t, rfl, hE, rfl⟩, rfl⟩
  rejects s pos := by
    simp only [C22_sequence_rejects _ (show E.SupportsSequence (as.map Part.p).length by simpa using hs)]
    exact firstRejection_breaks h s pos

/-- C87: `nth_of`, and with it `first_of` and `last_of`. -/
theorem C87_nth_of {as : List Part} (h : ∀ a ∈ as, a.Ok E) (hs : E.SupportsNth as.length) (k : Nat)
    (hk : k < as.length) :
    Describes E (.nthOfC k (as.map Part.p)) (fun t v rest => ∃ vs, vs[k]? = some v ∧ Form.Each as t vs rest)
      (Form.Breaks as) where
  accepts s pos v s' pos' := by
    rw [C23_nthOf_accepts _ k (by simpa using hk) (by simpa using hs)]
    constructor
    · rintro ⟨vs, hi, hv⟩
      obtain ⟨t, rfl, hE, rfl⟩ := (inSequence_each h ..).1 hi
      exact ⟨t, rfl, ⟨vs, hv, hE⟩, rfl⟩
    · rintro ⟨t, rfl, ⟨vs, hv, hE⟩, rfl⟩
      exact ⟨vs, (inSequence_each h ..).2 ⟨t, rfl, hE, rfl⟩, hv⟩
  rejects s pos := by
    simp only [C23_nthOf_rejects _ k (show k < (as.map Part.p).length by simpa using hk)
      (show E.SupportsNth (as.map Part.p).length by simpa using hs)]
    exact firstRejection_breaks h s pos

/-- C87: `middle_of`. -/
theorem C87_middle_of {a b c : Part} (ha : a.Ok E) (hb : b.Ok E) (hc : c.Ok E) (hs : E.SupportsNth 3) :
    Describes E (.middleOf a.p b.p c.p) (fun t v rest => ∃ x y, Form.Each [a, b, c] t [x, v, y] rest)
      (Form.Breaks [a, b, c]) := by
  have h : ∀ x ∈ [a, b, c], x.Ok E := by
    intro x hx
    simp only [List.mem_cons, List.not_mem_nil, or_false] at hx
    rcases hx with rfl | rfl | rfl <;> assumption
  constructor
  · intro s pos v s' pos'
    rw [C25_middleOf_accepts _ _ _ hs]
    constructor
    · rintro ⟨x, y, hi⟩
      obtain ⟨t, rfl, hE, rfl⟩ := (inSequence_each h ..).1 hi
      exact ⟨t, rfl, ⟨x, y, hE⟩, rfl⟩
    · rintro ⟨t, rfl, ⟨x, y, hE⟩, rfl⟩
      exact ⟨x, y, (inSequence_each h ..).2 ⟨t, rfl, hE, rfl⟩⟩
  · intro s pos
    rw [← firstRejection_breaks h s pos]
    constructor
    · rintro ⟨m, e, hr⟩
      rcases (C25_middleOf_rejects _ _ _ hs ..).1 hr with ⟨b', q, af, vs, s1, pos1, he, hi, hr⟩ | ⟨vs, s2, pos2, m3, hi, hr, -⟩
      · exact ⟨m, e, b', q, af ++ [c.p], vs, s1, pos1, by
          rw [show [a, b, c].map Part.p = [a.p, b.p] ++ [c.p] from rfl, he]; simp, hi, hr⟩
      · exact ⟨m3, e, [a.p, b.p], c.p, [], vs, s2, pos2, rfl, hi, hr⟩
    · rintro ⟨m, e, b', q, af, vs, s1, pos1, he, hi, hr⟩
      by_cases haf : af = []
      · subst haf
        obtain ⟨rfl, hq⟩ := List.append_inj' (show [a.p, b.p] ++ [c.p] = b' ++ [q] from he) rfl
        cases hq
        exact ⟨_, e, (C25_middleOf_rejects _ _ _ hs ..).2 (.inr ⟨vs, s1, pos1, m, hi, hr, rfl⟩)⟩
      · obtain ⟨af', z, rfl⟩ : ∃ af' z, af = af' ++ [z] := ⟨_, _, (List.dropLast_concat_getLast haf).symm⟩
        obtain ⟨h1, -⟩ := List.append_inj' (show [a.p, b.p] ++ [c.p] = (b' ++ q :: af') ++ [z] by
          rw [show [a.p, b.p] ++ [c.p] = [a, b, c].map Part.p from rfl, he]; simp) rfl
        exact ⟨m, e, (C25_middleOf_rejects _ _ _ hs ..).2 (.inl ⟨b', q, af', vs, s1, pos1, h1, hi, hr⟩)⟩

theorem Part.finishes_iff {a : Part} (ha : a.Ok E) (s : List Chr) (pos : Pos) :
    a.Finishes s ↔ ∃ r, run E a.p s pos = .ok r := by
  constructor
  · rintro (h | ⟨t, v, rest, rfl, h⟩)
    · obtain ⟨m, e, h⟩ := (ha.rejects s pos).2 h
      exact ⟨_, h⟩
    · exact ⟨_, (ha.accepts ..).2 ⟨t, rfl, h, rfl⟩⟩
  · rintro ⟨r, hr⟩
    cases r with
    | rej m e => exact .inl ((ha.rejects s pos).1 ⟨m, e, hr⟩)
    | acc v s' pos' =>
      obtain ⟨t, h, hF, -⟩ := (ha.accepts ..).1 hr
      exact .inr ⟨t, v, s', h, hF⟩

/-- C87: `one_of`. -/
theorem C87_one_of {as : List Part} (h : ∀ a ∈ as, a.Ok E) (hs : E.SupportsOneOf as.length) :
    Describes E (.oneOf (as.map Part.p)) (Form.First as) (fun s => ∀ a ∈ as, a.R s) where
  accepts s pos v s' pos' := by
    rw [C19_oneOf_accepts _ (by simpa using hs)]
    constructor
    · rintro ⟨hall, before, p, after, he, hb, ha⟩
      obtain ⟨b, c, rfl, rfl, hc⟩ := List.map_eq_append_iff.1 he
      obtain ⟨a, af, rfl, rfl, rfl⟩ := List.map_eq_cons_iff.1 hc
      obtain ⟨t, rfl, hF, rfl⟩ := ((h a (by simp)).accepts ..).1 ha
      refine ⟨t, rfl, ⟨b, a, af, rfl, ?_, hF, ?_⟩, rfl⟩
      · intro x hx
        exact ((h x (by simp [hx])).rejects _ pos).1 (hb x.p (List.mem_map_of_mem hx))
      · intro x hx
        exact (Part.finishes_iff (h x (by simp [hx])) _ pos).2 (hall x.p (List.mem_map_of_mem (by simp [hx])))
    · rintro ⟨t, rfl, ⟨b, a, af, rfl, hb, hF, haf⟩, rfl⟩
      have hrej : ∀ x ∈ b, ∃ m e, Rejects E x.p (t ++ s') pos m e := fun x hx =>
        ((h x (by simp [hx])).rejects _ pos).2 (hb x hx)
      have hacc : Accepts E a.p (t ++ s') pos v s' (moveOver pos t) :=
        ((h a (by simp)).accepts ..).2 ⟨t, rfl, hF, rfl⟩
      refine ⟨?_, b.map Part.p, a.p, af.map Part.p, by simp, ?_, hacc⟩
      · intro p hp
        obtain ⟨x, hx, rfl⟩ := List.mem_map.1 hp
        rcases List.mem_append.1 hx with hx | hx
        · obtain ⟨m, e, h⟩ := hrej x hx
          exact ⟨_, h⟩
        · rcases List.mem_cons.1 hx with rfl | hx
          · exact ⟨_, hacc⟩
          · exact (Part.finishes_iff (h x (by simp [hx])) _ pos).1 (haf x hx)
      · intro p hp
        obtain ⟨x, hx, rfl⟩ := List.mem_map.1 hp
        exact hrej x hx
  rejects s pos := by
    rw [C20_oneOf_rejects_iff _ (by simpa using hs)]
    constructor
    · intro hall a ha
      exact ((h a ha).rejects s pos).1 (hall a.p (List.mem_map_of_mem ha))
    · intro hall p hp
      obtain ⟨a, ha, rfl⟩ := List.mem_map.1 hp
      exact ((h a ha).rejects s pos).2 (hall a ha)

variable {p : P} {F : Form} {R : List Chr → Prop}

/-- C87: `foldl`. -/
theorem C87_foldl (h : Describes E p F R) (st : Val) (op : Val → Val → Val) :
    Describes E (.foldl p st op)
      (fun t v rest => ∃ vs x, Form.Many F t vs rest ∧ R rest ∧ st.force = .ok x ∧ leftFold op x vs = .ok v)
      (fun _ => False) where
  accepts s pos v s' pos' := by
    rw [C12_foldl_accepts]
    constructor
    · rintro ⟨vs, m, e, x, ⟨hst, hr⟩, hx, hv⟩
      obtain ⟨t, rfl, hM, rfl⟩ := (steps_many h ..).1 hst
      exact ⟨t, rfl, ⟨vs, x, hM, (h.rejects ..).1 ⟨m, e, hr⟩, hx, hv⟩, rfl⟩
    · rintro ⟨t, rfl, ⟨vs, x, hM, hR, hx, hv⟩, rfl⟩
      obtain ⟨m, e, hr⟩ := (h.rejects s' (moveOver pos t)).2 hR
      exact ⟨vs, m, e, x, ⟨(steps_many h ..).2 ⟨t, rfl, hM, rfl⟩, hr⟩, hx, hv⟩
  rejects s pos := ⟨fun ⟨_, _, h⟩ => C12_foldl_never_rejects _ _ _ _ _ _ _ h, False.elim⟩

/-- C87: `foldr`. -/
theorem C87_foldr (h : Describes E p F R) (st : Val) (op : Val → Val → Val) :
    Describes E (P.foldr p st op)
      (fun t v rest => ∃ vs, Form.Many F t vs rest ∧ R rest ∧ rightFold op st vs = .ok v) (fun _ => False) where
  accepts s pos v s' pos' := by
    rw [C15_foldr_accepts]
    constructor
    · rintro ⟨vs, m, e, ⟨hst, hr⟩, hv⟩
      obtain ⟨t, rfl, hM, rfl⟩ := (steps_many h ..).1 hst
      exact ⟨t, rfl, ⟨vs, hM, (h.rejects ..).1 ⟨m, e, hr⟩, hv⟩, rfl⟩
    · rintro ⟨t, rfl, ⟨vs, hM, hR, hv⟩, rfl⟩
      obtain ⟨m, e, hr⟩ := (h.rejects s' (moveOver pos t)).2 hR
      exact ⟨vs, m, e, ⟨(steps_many h ..).2 ⟨t, rfl, hM, rfl⟩, hr⟩, hv⟩
  rejects s pos := ⟨fun ⟨_, _, h⟩ => C15_foldr_never_rejects _ _ _ _ _ _ _ h, False.elim⟩

/-- C87: `repeated`. -/
theorem C87_repeated (h : Describes E p F R) :
    Describes E (.repeated p) (fun t v rest => ∃ vs, v = .seq vs ∧ Form.Many F t vs rest ∧ R rest)
      (fun _ => False) where
  accepts s pos v s' pos' := by
    rw [C14_repeated]
    constructor
    · rintro ⟨vs, m, e, ⟨hst, hr⟩, rfl⟩
      obtain ⟨t, rfl, hM, rfl⟩ := (steps_many h ..).1 hst
      exact ⟨t, rfl, ⟨vs, rfl, hM, (h.rejects ..).1 ⟨m, e, hr⟩⟩, rfl⟩
    · rintro ⟨t, rfl, ⟨vs, rfl, hM, hR⟩, rfl⟩
      obtain ⟨m, e, hr⟩ := (h.rejects s' (moveOver pos t)).2 hR
      exact ⟨vs, m, e, ⟨(steps_many h ..).2 ⟨t, rfl, hM, rfl⟩, hr⟩, rfl⟩
  rejects s pos := ⟨fun ⟨m, e, h⟩ => (C14_repeated_rejects p s pos m e).1 h, False.elim⟩

/-- C87: `repeated1`. -/
theorem C87_repeated1 (h : Describes E p F R) :
    Describes E (.repeated1 p) (fun t v rest => ∃ vs, vs ≠ [] ∧ v = .seq vs ∧ Form.Many F t vs rest ∧ R rest) R where
  accepts s pos v s' pos' := by
    rw [C14_repeated1]
    constructor
    · rintro ⟨vs, m, e, hne, ⟨hst, hr⟩, rfl⟩
      obtain ⟨t, rfl, hM, rfl⟩ := (steps_many h ..).1 hst
      exact ⟨t, rfl, ⟨vs, hne, rfl, hM, (h.rejects ..).1 ⟨m, e, hr⟩⟩, rfl⟩
    · rintro ⟨t, rfl, ⟨vs, hne, rfl, hM, hR⟩, rfl⟩
      obtain ⟨m, e, hr⟩ := (h.rejects s' (moveOver pos t)).2 hR
      exact ⟨vs, m, e, hne, ⟨(steps_many h ..).2 ⟨t, rfl, hM, rfl⟩, hr⟩, rfl⟩
  rejects s pos := by simp only [(C14_repeated_rejects p s pos _ _).2]; exact h.rejects s pos

/-- C87: `token`. -/
theorem C87_token (h : Describes E p F R) (hE : E.OnText) (hs : E.SupportsNth 2) :
    Describes E (.token p) (Form.Spaced F) R where
  accepts s pos v s' pos' := by
    rw [C29_token_accepts hE hs]
    constructor
    · rintro ⟨sp, pos1, ha, hsp, hb, rfl⟩
      obtain ⟨t, rfl, hF, rfl⟩ := (h.accepts ..).1 ha
      exact ⟨t ++ sp, by simp, ⟨t, sp, rfl, hF, hsp, hb⟩, by rw [moveOver_append]⟩
    · rintro ⟨_, rfl, ⟨t, sp, rfl, hF, hsp, hb⟩, rfl⟩
      exact ⟨sp, moveOver pos t, (h.accepts ..).2 ⟨t, by simp, hF, rfl⟩, hsp, hb, by rw [moveOver_append]⟩
  rejects s pos := by simp only [C29_token_rejects hE hs]; exact h.rejects s pos

/-- C87: `transform`. -/
theorem C87_transform (h : Describes E p F R) (f : Val → Val) :
    Describes E (.transform p f) (fun t w rest => ∃ v, F t v rest ∧ (f v).force = .ok w) R where
  accepts s pos v s' pos' := by
    rw [C36_transform_accepts]
    constructor
    · rintro ⟨v, ha, hf⟩
      obtain ⟨t, rfl, hF, rfl⟩ := (h.accepts ..).1 ha
      exact ⟨t, rfl, ⟨v, hF, hf⟩, rfl⟩
    · rintro ⟨t, rfl, ⟨v, hF, hf⟩, rfl⟩
      exact ⟨v, (h.accepts ..).2 ⟨t, rfl, hF, rfl⟩, hf⟩
  rejects s pos := by simp only [C36_transform_rejects]; exact h.rejects s pos

/-- C87: `entire_input`. -/
theorem C87_entire_input (h : Describes E p F R) (hE : E.OnText) (hs : E.SupportsNth 2) (m : Msg) :
    Describes E (.entireInput p m) (fun t v rest => rest = [] ∧ F t v [])
      (fun s => R s ∨ ∃ t v rest, s = t ++ rest ∧ rest ≠ [] ∧ F t v rest) where
  accepts s pos v s' pos' := by
    rw [C33_entireInput_accepts hE hs]
    constructor
    · rintro ⟨ha, rfl⟩
      obtain ⟨t, rfl, hF, rfl⟩ := (h.accepts ..).1 ha
      exact ⟨t, rfl, ⟨rfl, hF⟩, rfl⟩
    · rintro ⟨t, rfl, ⟨rfl, hF⟩, rfl⟩
      exact ⟨(h.accepts ..).2 ⟨t, rfl, hF, rfl⟩, rfl⟩
  rejects s pos := by
    simp only [C33_entireInput_rejects hE hs]
    constructor
    · rintro ⟨m', e, hr | ⟨v, s', ha, hne, -⟩⟩
      · exact .inl ((h.rejects ..).1 ⟨m', e, hr⟩)
      · obtain ⟨t, rfl, hF, -⟩ := (h.accepts ..).1 ha
        exact .inr ⟨t, v, s', rfl, hne, hF⟩
    · rintro (hR | ⟨t, v, rest, rfl, hne, hF⟩)
      · obtain ⟨m', e, hr⟩ := (h.rejects s pos).2 hR
        exact ⟨m', e, .inl hr⟩
      · exact ⟨m, _, .inr ⟨v, rest, (h.accepts ..).2 ⟨t, rfl, hF, rfl⟩, hne, rfl⟩⟩

/-! ## The basic parsers -/

/-- C87: the parsers of one character (C28). -/
theorem C87_character {cls : Chr → Bool} {val : Chr → Val} {m0 m1 : Msg} (h : CharParser E p cls val m0 m1) :
    Describes E p (fun t v _ => ∃ c, t = [c] ∧ cls c = true ∧ v = val c) (fun s => beginsWith cls s = false) where
  accepts s pos v s' pos' := by
    cases s with
    | nil =>
      constructor
      · intro ha; exact (ha.not_rejects (h.empty pos)).elim
      · rintro ⟨t, he, ⟨c, rfl, -⟩, -⟩; simp at he
    | cons d s =>
      cases hd : cls d with
      | true =>
        have ha := h.accepts d s pos hd
        constructor
        · intro hb
          unfold Accepts at ha hb
          rw [ha] at hb
          cases hb
          exact ⟨[d], rfl, ⟨d, rfl, hd, rfl⟩, rfl⟩
        · rintro ⟨t, he, ⟨c, rfl, hc, rfl⟩, rfl⟩
          cases he
          exact ha
      | false =>
        constructor
        · intro ha; exact (ha.not_rejects (h.other d s pos hd)).elim
        · rintro ⟨t, he, ⟨c, rfl, hc, -⟩, -⟩
          cases he
          rw [hd] at hc; cases hc
  rejects s pos := by
    cases s with
    | nil => exact ⟨fun _ => rfl, fun _ => ⟨_, _, h.empty pos⟩⟩
    | cons d s =>
      constructor
      · rintro ⟨m, e, hr⟩
        cases hd : beginsWith cls (d :: s) with
        | false => rfl
        | true => exact ((h.accepts d s pos hd).not_rejects hr).elim
      · intro hd; exact ⟨_, _, h.other d s pos hd⟩

/-- C87: `int_`. -/
theorem C87_int (hE : E.OnText) :
    Describes E .int_
      (fun t v rest => t ≠ [] ∧ (∀ c ∈ t, digitChar c = true) ∧ beginsWith digitChar rest = false ∧
        v = .int (decimal t) ∧ decimal t ≤ 2147483647)
      (fun s => beginsWith digitChar s = false) where
  accepts s pos v s' pos' := by
    rw [C30_int_accepts hE]
    constructor
    · rintro ⟨t, rfl, h1, h2, h3, h4, h5, rfl⟩; exact ⟨t, rfl, ⟨h1, h2, h3, h4, h5⟩, rfl⟩
    · rintro ⟨t, rfl, ⟨h1, h2, h3, h4, h5⟩, rfl⟩; exact ⟨t, rfl, h1, h2, h3, h4, h5, rfl⟩
  rejects s pos := by
    simp only [C30_int_rejects hE]
    exact ⟨fun ⟨_, _, h, _⟩ => h, fun h => ⟨_, _, h, rfl, rfl⟩⟩

/-- C87: `keyword`. -/
theorem C87_keyword (hE : E.OnText) (kw : List Chr) (w : Val) :
    Describes E (.keyword kw w) (fun t v _ => t = kw ∧ v = w) (fun s => ¬ ∃ rest, s = kw ++ rest) where
  accepts s pos v s' pos' := by
    rw [C27_keyword_accepts hE]
    constructor
    · rintro ⟨rfl, rfl, rfl⟩; exact ⟨kw, rfl, ⟨rfl, rfl⟩, rfl⟩
    · rintro ⟨t, rfl, ⟨rfl, rfl⟩, rfl⟩; exact ⟨rfl, rfl, rfl⟩
  rejects s pos := by
    constructor
    · rintro ⟨m, e, hr⟩ ⟨rest, rfl⟩
      exact ((C27_keyword_accepts hE kw w _ pos _ _ _).2 ⟨rfl, rfl, rfl⟩).not_rejects hr
    · intro hn
      rcases C27_keyword_total hE kw w s pos with ⟨v, s', pos', ha⟩ | h
      · exact (hn ⟨s', ((C27_keyword_accepts hE ..).1 ha).1⟩).elim
      · exact h

/-! ## What follows from a description -/

/-- C87: nothing is written in two ways that begin the same text: neither the value nor where it ends is in doubt. -/
theorem C87_unambiguous (h : Describes E p F R) {t t' : List Chr} {v v' : Val} {rest rest' : List Chr}
    (h1 : F t v rest) (h2 : F t' v' rest') (he : t ++ rest = t' ++ rest') : t = t' ∧ v = v' ∧ rest = rest' := by
  have a1 := (h.accepts (t ++ rest) start v rest _).2 ⟨t, rfl, h1, rfl⟩
  have a2 := (h.accepts (t ++ rest) start v' rest' _).2 ⟨t', he, h2, rfl⟩
  unfold Accepts at a1 a2
  rw [a1] at a2
  simp only [Out.ok.injEq, Res.acc.injEq] at a2
  obtain ⟨rfl, rfl, -⟩ := a2
  exact ⟨List.append_cancel_right he, rfl, rfl⟩

/-- C87: what is printed in the form of the parser is read back by `entire_input`, and different values are
printed differently. -/
theorem C87_round_trip (h : Describes E p F R) (hE : E.OnText) (hs : E.SupportsNth 2) (m : Msg) {α : Type}
    (print : α → List Chr) (val : α → Val) (hp : ∀ x, F (print x) (val x) []) :
    (∀ x pos, Accepts E (.entireInput p m) (print x) pos (val x) [] (moveOver pos (print x))) ∧
    (∀ x y, print x = print y → val x = val y) :=
  ⟨fun x pos => ((C87_entire_input h hE hs m).accepts ..).2 ⟨print x, by simp, ⟨rfl, hp x⟩, rfl⟩,
   fun x y he => (C87_unambiguous h (hp x) (hp y) (by rw [he])).2.1⟩

/-! ## Cases: numbers in brackets, separated by spaces -/

namespace FormExample

/-- `token<int_>` -/
def number : Part := ⟨.token .int_, Form.Spaced fun t v rest => t ≠ [] ∧ (∀ c ∈ t, digitChar c = true) ∧
  beginsWith digitChar rest = false ∧ v = .int (decimal t) ∧ decimal t ≤ 2147483647,
  fun s => beginsWith digitChar s = false⟩

/-- `repeated<token<int_>>` -/
def numbers : Part := ⟨.repeated number.p, fun t v rest => ∃ vs, v = .seq vs ∧ Form.Many number.F t vs rest ∧
  number.R rest, fun _ => False⟩

theorem number_ok (hE : E.OnText) (hs : E.SupportsNth 2) : number.Ok E := C87_token (C87_int hE) hE hs

theorem numbers_ok (hE : E.OnText) (hs : E.SupportsNth 2) : numbers.Ok E := C87_repeated (number_ok hE hs)

/-- A list of numbers, with a blank after each. -/
def print : List (Fin 2147483648) → List Chr
  | [] => []
  | n :: ns => decimalText n.val ++ 32 :: print ns

theorem print_numbers (ns : List (Fin 2147483648)) :
    Form.Many number.F (print ns) (ns.map fun n => .int n.val) [] := by
  induction ns with
  | nil => exact .nil _
  | cons n ns ih =>
    have hb : beginsWith spaceChar (print ns) = false := by
      cases ns with
      | nil => rfl
      | cons k ks =>
        have h1 := decimalText_ne_nil k.val
        have h2 := decimalText_digits k.val
        simp only [print]
        generalize decimalText k.val = d at h1 h2
        cases d with
        | nil => exact absurd rfl h1
        | cons c d =>
          have := h2 c (by simp)
          simp [digitChar] at this
          have h13 : CR = 13 := rfl
          have h10 : LF = 10 := rfl
          simp [beginsWith, spaceChar]
          omega
    have := Form.Many.cons (F := number.F) (t := decimalText n.val ++ [32]) (v := .int n.val) (rest := [])
      ⟨decimalText n.val, [32], rfl, ⟨decimalText_ne_nil _, decimalText_digits _, rfl, by rw [decimal_decimalText],
        by rw [decimal_decimalText]; omega⟩, by simp; rfl, by simpa using hb⟩ ih
    simpa [print] using this

/-- All lists of numbers are read back. -/
example (ns : List (Fin 2147483648)) (pos : Pos) :
    Accepts env98 (.entireInput numbers.p) (print ns) pos (.seq (ns.map fun n => .int n.val)) []
      (moveOver pos (print ns)) :=
  (C87_round_trip (numbers_ok env98_onText fun _ => by decide) env98_onText (fun _ => by decide) _ print
    (fun ns => .seq (ns.map fun n => .int n.val))
    (fun ns => ⟨_, rfl, print_numbers ns, rfl⟩)).1 ns pos

end FormExample

namespace FormExample

/-- `lit_c<C>` -/
def character (c : Chr) : Part :=
  ⟨P.litC c, fun t v _ => ∃ d, t = [d] ∧ decide (d = c) = true ∧ v = .chr d, fun s => beginsWith (fun x => decide (x = c)) s = false⟩

theorem character_ok (hE : E.OnText) (c : Chr) : (character c).Ok E := C87_character (C28_lit hE c).1

theorem three_ok (hE : E.OnText) (hs : E.SupportsNth 2) : ∀ a ∈ [character 40, numbers, character 41], a.Ok E := by
  intro a ha
  simp only [List.mem_cons, List.not_mem_nil, or_false] at ha
  rcases ha with rfl | rfl | rfl
  · exact character_ok hE _
  · exact numbers_ok hE hs
  · exact character_ok hE _

/-- A list of numbers in brackets, as a sequence, as its second part and as what is in the middle. -/
example : Describes env98 (.sequence [P.litC 40, numbers.p, P.litC 41])
      (fun t v rest => ∃ vs, v = .seq vs ∧ Form.Each [character 40, numbers, character 41] t vs rest)
      (Form.Breaks [character 40, numbers, character 41]) ∧
    Describes env98 (.nthOfC 1 [P.litC 40, numbers.p, P.litC 41])
      (fun t v rest => ∃ vs, vs[1]? = some v ∧ Form.Each [character 40, numbers, character 41] t vs rest)
      (Form.Breaks [character 40, numbers, character 41]) ∧
    Describes env98 (.middleOf (P.litC 40) numbers.p (P.litC 41))
      (fun t v rest => ∃ x y, Form.Each [character 40, numbers, character 41] t [x, v, y] rest)
      (Form.Breaks [character 40, numbers, character 41]) :=
  have h := three_ok env98_onText fun _ => by decide
  ⟨C87_sequence h fun _ => by decide, C87_nth_of h (fun _ => by decide) 1 (by decide),
    C87_middle_of (a := character 40) (b := numbers) (c := character 41)
      (h _ (by simp)) (h _ (by simp)) (h _ (by simp)) fun _ => by decide⟩

/-- A letter or a keyword, repeated, with the results put together in three ways. -/
example (f : Val → Val) (st : Val) (op : Val → Val → Val) :
    let kw : Part := ⟨.keyword (txt "if") .void_, fun t v _ => t = txt "if" ∧ v = .void_, fun s => ¬ ∃ rest, s = txt "if" ++ rest⟩
    let F := Form.First [kw, character 97]
    let R := fun s => ∀ a ∈ [kw, character 97], a.R s
    let p : P := .oneOf [.keyword (txt "if") .void_, P.litC 97]
    Describes env11 (.foldl p st op)
      (fun t v rest => ∃ vs x, Form.Many F t vs rest ∧ R rest ∧ st.force = .ok x ∧ leftFold op x vs = .ok v) (fun _ => False) ∧
    Describes env11 (P.foldr p st op)
      (fun t v rest => ∃ vs, Form.Many F t vs rest ∧ R rest ∧ rightFold op st vs = .ok v) (fun _ => False) ∧
    Describes env11 (.repeated1 p) (fun t v rest => ∃ vs, vs ≠ [] ∧ v = .seq vs ∧ Form.Many F t vs rest ∧ R rest) R ∧
    Describes env11 (.transform p f) (fun t w rest => ∃ v, F t v rest ∧ (f v).force = .ok w) R ∧
    Describes env11 (.entireInput p) (fun t v rest => rest = [] ∧ F t v [])
      (fun s => R s ∨ ∃ t v rest, s = t ++ rest ∧ rest ≠ [] ∧ F t v rest) := by
  intro kw F R p
  have h : Describes env11 p F R := C87_one_of (as := [kw, character 97]) (by
    intro a ha
    simp only [List.mem_cons, List.not_mem_nil, or_false] at ha
    rcases ha with rfl | rfl
    · exact C87_keyword env11_onText _ _
    · exact character_ok env11_onText _) (by intro h; cases h)
  exact ⟨C87_foldl h st op, C87_foldr h st op, C87_repeated1 h, C87_transform h f,
    C87_entire_input h env11_onText (by intro h; cases h) _⟩

/-- "12;" stands for the number 12 and for nothing else. -/
example {t rest : List Chr} {v : Val} (h : number.F t v rest) (e : t ++ rest = txt "12" ++ txt ";") :
    t = txt "12" ∧ v = .int 12 ∧ rest = txt ";" :=
  C87_unambiguous (number_ok env11_onText (by intro h; cases h)) h
    ⟨txt "12", [], rfl, ⟨by decide, by decide, by decide, congrArg Val.int (by decide), by decide⟩, by decide, by decide⟩ e

end FormExample

namespace FormExample
/-- `repeated<token<int_>>` and the parts it is made of. -/
example : Describes env98 (.repeated (.token .int_))
    (fun t v rest => ∃ vs, v = .seq vs ∧ Form.Many (Form.Spaced fun t v rest => t ≠ [] ∧ (∀ c ∈ t, digitChar c = true) ∧
      beginsWith digitChar rest = false ∧ v = .int (decimal t) ∧ decimal t ≤ 2147483647) t vs rest ∧
      beginsWith digitChar rest = false) (fun _ => False) :=
  C87_repeated (C87_token (C87_int env98_onText) env98_onText fun _ => by decide)

example : Describes env98 (P.litC 40) (fun t v _ => ∃ c, t = [c] ∧ (c == 40) = true ∧ v = .chr c)
    (fun s => beginsWith (· == 40) s = false) := C87_character (charParser_litC env98_onText 40)

end FormExample

end Metaparse
