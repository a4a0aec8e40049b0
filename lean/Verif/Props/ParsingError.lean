import Verif.Model.ParsingError
import Verif.Props.Debug
import Verif.Props.Folds
/-!
# The example `parsing_error` (C73)
-/

namespace Metaparse

variable {E : Env (List Chr)} {user : Nat → List Chr}

theorem ab_run (h : E.OnText) (n : Nat) (r : List Chr) (pos : Pos) (hr : r.head? ≠ some (ch 'a')) :
    Accepts E (.repeated (.litC (ch 'a'))) (List.replicate n (ch 'a') ++ r) pos
      (.seq (List.replicate n (.chr (ch 'a')))) r (moveOver pos (List.replicate n (ch 'a'))) := by
  have hb : beginsWith (fun x => decide (x = ch 'a')) r = false := by
    cases r with
    | nil => rfl
    | cons c r => exact decide_eq_false fun hc => hr (by rw [hc]; rfl)
  obtain ⟨m, hm⟩ := (C28_lit h (ch 'a')).1.maximalRun (List.replicate n (ch 'a')) r pos
    (fun c hc => decide_eq_true (List.eq_of_mem_replicate hc)) hb
  rw [List.map_replicate] at hm
  exact (C14_repeated ..).2 ⟨_, _, _, hm, rfl⟩

theorem moveOver_as (n : Nat) : ∀ pos : Pos, (moveOver pos (List.replicate n (ch 'a'))).line = pos.line ∧
    (moveOver pos (List.replicate n (ch 'a'))).col = pos.col + n := by
  induction n with
  | zero => intro pos; exact ⟨rfl, by simp [moveOver]⟩
  | succ n ih =>
    intro pos
    have hn : nextPos (ch 'a') pos = pos.nextChar (ch 'a') :=
      if_neg fun h => h.elim (by decide) fun h => absurd h.1 (by decide)
    obtain ⟨h1, h2⟩ := ih (pos.nextChar (ch 'a'))
    show (moveOver (nextPos (ch 'a') pos) (List.replicate n (ch 'a'))).line = _ ∧
      (moveOver (nextPos (ch 'a') pos) (List.replicate n (ch 'a'))).col = _
    rw [hn, h1, h2]
    refine ⟨rfl, ?_⟩
    show pos.col + 1 + (n : Int) = _
    omega

theorem split_as (s : List Chr) : ∃ n r, s = List.replicate n (ch 'a') ++ r ∧ r.head? ≠ some (ch 'a') := by
  induction s with
  | nil => exact ⟨0, [], rfl, by simp⟩
  | cons c s ih =>
    by_cases hc : c = ch 'a'
    · obtain ⟨n, r, rfl, hr⟩ := ih
      exact ⟨n + 1, r, by rw [hc]; rfl, hr⟩
    · exact ⟨0, c :: s, rfl, fun h => hc (Option.some.inj h)⟩

theorem ab_accepts (h : E.OnText) (hs : E.SupportsSequence 2) (n : Nat) (r : List Chr) :
    Accepts E ParsingError.s (List.replicate n (ch 'a') ++ ch 'b' :: r) start
      (.seq [.seq (List.replicate n (.chr (ch 'a'))), .chr (ch 'b')]) r
      (moveOver start (List.replicate n (ch 'a') ++ [ch 'b'])) := by
  refine (C22_sequence_accepts _ hs ..).2 ⟨_, .cons (ab_run h n _ _ (by decide : some (ch 'b') ≠ _)) (.cons
    ((C28_lit h (ch 'b')).1.accepts _ _ _ (decide_eq_true rfl)) ?_), rfl⟩
  rw [moveOver_append]
  exact .nil ..

theorem ab_rejects (h : E.OnText) (hs : E.SupportsSequence 2) (n : Nat) (r : List Chr)
    (ha : r.head? ≠ some (ch 'a')) (hb : r.head? ≠ some (ch 'b')) :
    Rejects E ParsingError.s (List.replicate n (ch 'a') ++ r) start (.literalExpected (ch 'b'))
      (moveOver start (List.replicate n (ch 'a'))) := by
  have h1 : Rejects E (.litC (ch 'b')) r (moveOver start (List.replicate n (ch 'a'))) (.literalExpected (ch 'b'))
      (moveOver start (List.replicate n (ch 'a'))) := by
    cases r with
    | nil => exact (C28_lit h (ch 'b')).1.empty _
    | cons c r => exact (C28_lit h (ch 'b')).1.other _ _ _ (decide_eq_false fun hc => hb (by rw [hc]; rfl))
  exact (C22_sequence_rejects _ hs ..).2 ⟨[.repeated (.litC (ch 'a'))], .litC (ch 'b'), [], _, _, _, rfl,
    .cons (ab_run h n r start ha) (.nil ..), h1⟩

/-- `test_parser` compiles exactly for the texts that begin with any number of `a`s and a `b`; the result has
these characters. -/
theorem C73_compiles (h : E.OnText) (hs : E.SupportsSequence 2) (t : List Chr) (v : Val) :
    ParsingError.testParser E t = .ok v ↔ ∃ n r, t = List.replicate n (ch 'a') ++ ch 'b' :: r ∧
      v = .seq [.seq (List.replicate n (.chr (ch 'a'))), .chr (ch 'b')] := by
  constructor
  · intro hv
    obtain ⟨s', pos', hacc⟩ := (C34_buildParser_accepts ..).1 hv
    obtain ⟨n, r, rfl, ha⟩ := split_as t
    cases hb : r.head? == some (ch 'b') with
    | false => exact (hacc.not_rejects (ab_rejects h hs n r ha (beq_eq_false_iff_ne.1 hb))).elim
    | true =>
      cases r with
      | nil => cases hb
      | cons c r =>
        obtain rfl : c = ch 'b' := Option.some.inj (beq_iff_eq.1 hb)
        exact ⟨n, r, rfl, (hacc.unique (ab_accepts h hs n r)).1⟩
  · rintro ⟨n, r, rfl, rfl⟩
    exact (C34_buildParser_accepts ..).2 ⟨_, _, ab_accepts h hs n r⟩

/-- For every other text the compile error is about a `b` missing after the `a`s at the beginning. -/
theorem C73_error (h : E.OnText) (hs : E.SupportsSequence 2) (n : Nat) (r : List Chr)
    (ha : r.head? ≠ some (ch 'a')) (hb : r.head? ≠ some (ch 'b')) :
    ParsingError.testParser E (List.replicate n (ch 'a') ++ r) =
      .ill (.parsingFailed 1 (n + 1) (.literalExpected (ch 'b'))) := by
  have := C34_buildParser_rejects _ _ _ _ (ab_rejects h hs n r ha hb)
  obtain ⟨h1, h2⟩ := moveOver_as n start
  rw [h1, h2, show start.line = 1 from rfl, show start.col = 1 from rfl, Int.add_comm] at this
  exact this

/-- These are all texts. -/
theorem C73_texts (t : List Chr) : (∃ n r, t = List.replicate n (ch 'a') ++ ch 'b' :: r) ∨
    ∃ n r, t = List.replicate n (ch 'a') ++ r ∧ r.head? ≠ some (ch 'a') ∧ r.head? ≠ some (ch 'b') := by
  obtain ⟨n, r, rfl, ha⟩ := split_as t
  cases hb : r.head? == some (ch 'b') with
  | false => exact .inr ⟨n, r, rfl, ha, beq_eq_false_iff_ne.1 hb⟩
  | true =>
    cases r with
    | nil => cases hb
    | cons c r => exact .inl ⟨n, r, by rw [Option.some.inj (beq_iff_eq.1 hb)]⟩

/-- What the program prints, for any text in place of `invalid_input`. -/
theorem C73_report (h : E.OnText) (hs : E.SupportsSequence 2) (n : Nat) (r : List Chr) :
    ParsingError.debug str11 user E (List.replicate n (ch 'a') ++ ch 'b' :: r) =
      .ok (successReport (List.replicate n (ch 'a') ++ ch 'b' :: r) r) ∧
    (r.head? ≠ some (ch 'a') → r.head? ≠ some (ch 'b') →
      ParsingError.debug str11 user E (List.replicate n (ch 'a') ++ r) =
        .ok (failureReport (List.replicate n (ch 'a') ++ r) 1 (n + 1) (txt "Expected: b"))) := by
  refine ⟨C54_success _ _ _ _ _ (ab_accepts h hs n r), fun ha hb => ?_⟩
  have := C54_failure (user := user) _ _ _ _ (ab_rejects h hs n r ha hb)
  obtain ⟨h1, h2⟩ := moveOver_as n start
  rw [h1, h2, show start.line = 1 from rfl, show start.col = 1 from rfl, Int.add_comm] at this
  exact this

/-- What the program prints. -/
theorem C73_program (h : E.OnText) (hs : E.SupportsSequence 2) :
    ParsingError.debug str11 user E ParsingError.invalidInput = .ok (txt ("Compile-time parsing results\n" ++
      "----------------------------\nInput text:\naaac\n\nParsing failed:\nline 1, col 4: Expected: b\n")) := by
  refine ((C73_report (user := user) h hs 3 [ch 'c']).2 (by decide) (by decide)).trans ?_
  exact congrArg Out.ok (by decide +kernel)

/-- Texts of both kinds. -/
example : env11.OnText ∧ env11.SupportsSequence 2 ∧ txt "aabx" = List.replicate 2 (ch 'a') ++ ch 'b' :: txt "x" ∧
    ParsingError.invalidInput = List.replicate 3 (ch 'a') ++ txt "c" ∧ (txt "c").head? ≠ some (ch 'a') ∧
    (txt "c").head? ≠ some (ch 'b') :=
  ⟨rfl, fun h => (by cases h), by decide, by decide, by decide, by decide⟩

example : ParsingError.testParser env98 (txt "aabx") = .ok (.seq [.seq [.chr (ch 'a'), .chr (ch 'a')], .chr (ch 'b')]) :=
  (C73_compiles env98_onText (fun _ => by decide) _ _).2 ⟨2, txt "x", by decide, rfl⟩

example : ParsingError.testParser env98 (txt "aaac") = .ill (.parsingFailed 1 4 (.literalExpected (ch 'b'))) :=
  C73_error env98_onText (fun _ => by decide) 3 (txt "c") (by decide) (by decide)

example (user : Nat → List Chr) : ParsingError.debug str11 user env98 (txt "aaac") =
    .ok (failureReport (txt "aaac") 1 4 (txt "Expected: b")) :=
  (C73_report env98_onText (fun _ => by decide) 3 (txt "c")).2 (by decide) (by decide)

end Metaparse
