import Verif.Spec.Constexpr
import Verif.Props.Chars
import Verif.Props.Sequences
import Verif.Lemmas.Formula
/-!
# The example that parses with `constexpr` functions (C64)
-/

namespace Metaparse

variable {E : Env (List Chr)}

namespace Counting

/-! ## The functions -/

theorem constListAt_eq : ∀ (s : List Chr) (k : Nat) (h : k < s.length), constListAt s k = s[k] := by
  intro s
  induction s with
  | nil => intro k h; cases h
  | cons c s ih =>
    intro k h
    cases k with
    | zero => rfl
    | succ k => simp only [constListAt]; exact ih k (by simpa using h)

theorem parseCs_eq (c : Chr) (s : List Chr) : ∀ n k : Nat, s.length - k = n →
    parseCs c s k = (((s.drop k).takeWhile (· == c)).length, k + ((s.drop k).takeWhile (· == c)).length) := by
  intro n
  induction n with
  | zero =>
    intro k hk
    have hle : s.length ≤ k := by omega
    rw [parseCs, if_neg (by omega), List.drop_eq_nil_of_le hle]
    rfl
  | succ n ih =>
    intro k hk
    have hlt : k < s.length := by omega
    rw [parseCs, if_pos hlt, constListAt_eq s k hlt, List.drop_eq_getElem_cons hlt]
    by_cases hc : s[k] = c
    · rw [if_pos hc, ih (k + 1) (by omega)]
      have hb : (s[k] == c) = true := by simpa using hc
      simp only [List.takeWhile_cons, hb, if_true, List.length_cons]
      ext <;> simp <;> omega
    · rw [if_neg hc]
      have hb : (s[k] == c) = false := by simpa using hc
      simp only [List.takeWhile_cons, hb]
      rfl

theorem parseCs_zero (c : Chr) (s : List Chr) :
    parseCs c s 0 = ((s.takeWhile (· == c)).length, (s.takeWhile (· == c)).length) := by
  rw [parseCs_eq c s _ 0 rfl]; simp

theorem drop_takeWhile (f : Chr → Bool) (s : List Chr) : s.drop (s.takeWhile f).length = s.dropWhile f := by
  induction s with
  | nil => rfl
  | cons c s ih =>
    simp only [List.takeWhile_cons, List.dropWhile_cons]
    split
    · simpa using ih
    · rfl

/-- The text after the leading `c`. -/
def after (c : Chr) (s : List Chr) : List Chr := s.dropWhile (· == c)
/-- The number of leading `c`. -/
def leading (c : Chr) (s : List Chr) : Nat := (s.takeWhile (· == c)).length

theorem leading_after (c : Chr) (s : List Chr) : leading c s + (after c s).length = s.length := by
  unfold leading after
  rw [← List.length_append, List.takeWhile_append_dropWhile]

theorem leading_replicate (c : Chr) (s : List Chr) : s = List.replicate (leading c s) c ++ after c s := by
  have h : s.takeWhile (· == c) = List.replicate (leading c s) c := by
    refine List.eq_replicate_iff.2 ⟨rfl, fun d hd => ?_⟩
    simpa using all_takeWhile _ _ d hd
  conv => lhs; rw [← List.takeWhile_append_dropWhile (p := (· == c)) (l := s)]
  rw [h]; rfl

theorem leading_of {c : Chr} (n : Nat) {s : List Chr} (h : beginsWith (· == c) s = false) :
    leading c (List.replicate n c ++ s) = n ∧ after c (List.replicate n c ++ s) = s := by
  have := takeWhile_append (· == c) (List.replicate n c) s (by simp [List.mem_replicate]) h
  unfold leading after
  rw [this.1, this.2]; simp

theorem leading_append (c : Chr) (n : Nat) (s : List Chr) :
    leading c (List.replicate n c ++ s) = n + leading c s := by
  induction n with
  | zero => simp
  | succ n ih =>
    unfold leading at *
    simp only [List.replicate_succ, List.cons_append, List.takeWhile_cons, beq_self_eq_true, if_true, List.length_cons, ih]
    omega

theorem after_append (c : Chr) (n : Nat) (s : List Chr) : after c (List.replicate n c ++ s) = after c s := by
  induction n with
  | zero => simp
  | succ n ih =>
    unfold after at *
    simp only [List.replicate_succ, List.cons_append, List.dropWhile_cons, beq_self_eq_true, if_true, ih]

/-- What is left after the leading `c` does not begin with `c`. -/
theorem leading_after_self (c : Chr) (s : List Chr) : leading c (after c s) = 0 := by
  unfold leading after
  have := beginsWith_dropWhile (· == c) s
  cases hd : s.dropWhile (· == c) with
  | nil => rfl
  | cons d u =>
    rw [hd] at this
    simp only [beginsWith] at this
    simp only [List.takeWhile_cons, this]
    rfl

theorem parseImpl_eq (s : List Chr) : parseImpl s = (leading (ch 'a') s, leading (ch 'b') (after (ch 'a') s),
    leading (ch 'a') (after (ch 'b') (after (ch 'a') s))) := by
  unfold parseImpl
  rw [parseCs_zero]
  simp only
  rw [parseCs_eq _ _ _ _ rfl]
  simp only
  rw [parseCs_eq _ _ _ _ rfl]
  simp only [← List.drop_drop, drop_takeWhile]
  rfl

theorem takeWhile_snoc {f : Chr → Bool} {d : Chr} (hd : f d = false) (s : List Chr) :
    (s ++ [d]).takeWhile f = s.takeWhile f ∧ (s ++ [d]).dropWhile f = s.dropWhile f ++ [d] := by
  induction s with
  | nil => simp [hd]
  | cons c s ih =>
    simp only [List.cons_append, List.takeWhile_cons, List.dropWhile_cons]
    split
    · exact ⟨by rw [ih.1], ih.2⟩
    · exact ⟨rfl, rfl⟩

theorem parse_eq (s : List Chr) : parse s = (leading (ch 'a') s, leading (ch 'b') (after (ch 'a') s),
    leading (ch 'a') (after (ch 'b') (after (ch 'a') s))) := by
  unfold parse
  rw [parseImpl_eq]
  unfold leading after
  rw [(takeWhile_snoc (f := (· == ch 'a')) (d := 0) rfl s).1, (takeWhile_snoc (f := (· == ch 'a')) (d := 0) rfl s).2,
    (takeWhile_snoc (f := (· == ch 'b')) (d := 0) rfl _).1, (takeWhile_snoc (f := (· == ch 'b')) (d := 0) rfl _).2,
    (takeWhile_snoc (f := (· == ch 'a')) (d := 0) rfl _).1]

/-! ## The parsers -/

theorem fold_count (vs : List Val) (n : Nat) (h : (n : Int) + vs.length ≤ 2147483647) :
    leftFold count (.int n) vs = .ok (.int (n + vs.length)) := by
  induction vs generalizing n with
  | nil => simp [leftFold]
  | cons v vs ih =>
    simp only [List.length_cons, Int.natCast_add] at h
    have hstep : leftFold count (.int n) (v :: vs) = (count (.int n) v).force.bind fun y => leftFold count y vs := rfl
    have hc : (count (.int n) v).force = .ok (.int ((n + 1 : Nat) : Int)) := by
      unfold count
      rw [show Calc.arith (· + ·) (.int 1) (.int n) = (intC (1 + n)).bind fun z => .ok (.int z) from rfl, intC,
        if_pos (by simp only [intMin, intMax]; omega)]
      simp only [Out.bind_ok, Val.ofOut, Val.force]
      congr 2; omega
    rw [hstep, hc]
    simp only [Out.bind_ok]
    rw [ih (n + 1) (by omega)]
    congr 2
    simp only [List.length_cons, Int.natCast_add]; omega

theorem many_accepts (h : E.OnText) (c : Chr) (s : List Chr) (pos : Pos) (hl : (s.length : Int) ≤ 2147483647) :
    Accepts E (many c) s pos (.int (leading c s)) (after c s) (moveOver pos (s.takeWhile (· == c))) := by
  have hcp : CharParser E (P.litC c) (· == c) .chr _ _ := charParser_litC h c
  obtain ⟨m, hm⟩ := hcp.maximalRun' s pos
  refine (C12_foldl_accepts ..).2 ⟨_, m, _, .int 0, hm, rfl, ?_⟩
  have hle := leading_after c s
  have := fold_count ((s.takeWhile (· == c)).map .chr) 0 (by
    simp only [List.length_map]
    unfold leading at hle
    omega)
  simpa [leading] using this

theorem Steps_oneChar (h : E.OnText) : ∀ (w s : List Chr) (pos : Pos),
    Steps E .oneChar (w ++ s) pos (w.map .chr) s (moveOver pos w) := by
  intro w
  induction w with
  | nil => intro s pos; exact .nil ..
  | cons c w ih =>
    intro s pos
    exact .cons ((charParser_oneChar h).accepts c (w ++ s) pos rfl) (ih s _)

/-- The parser made of the `constexpr` function accepts the same as the fold. -/
theorem mixed_accepts (h : E.CountsLetters) (c : Chr) (s : List Chr) (pos : Pos) :
    parseWithConstexpr E c s pos =
      .ok (.acc (.int (leading c s)) (after c s) (moveOver pos (s.takeWhile (· == c)))) := by
  unfold parseWithConstexpr
  rw [parseCs_zero]
  have hst := Steps_oneChar h.onText (s.takeWhile (· == c)) (s.dropWhile (· == c)) pos
  rw [List.takeWhile_append_dropWhile] at hst
  have h1 : Accepts E (P.iterateC .oneChar ((s.takeWhile (· == c)).length : Nat)) s pos _ _ _ :=
    (C26_iterate_accepts ..).2 ⟨_, hst, by simp, rfl⟩
  exact (C23_lastOf_accepts _ _ (fun e => Nat.lt_trans (Nat.lt_succ_self 2) (h.limSequence e)) ..).2
    ⟨[_], .cons h1 (.cons (v := .int (leading c s)) (by rw [Accepts, run_ret]; rfl) (.nil ..))⟩

theorem s_accepts (h : E.CountsLetters) (t : List Chr) (hl : (t.length : Int) ≤ 2147483647) :
    ∃ pos', Accepts E s t start (.seq [.int (leading (ch 'a') t), .int (leading (ch 'b') (after (ch 'a') t)),
      .int (leading (ch 'a') (after (ch 'b') (after (ch 'a') t)))])
      (after (ch 'a') (after (ch 'b') (after (ch 'a') t))) pos' ∧
    Accepts (mixedEnv E) sMixed t start (.seq [.int (leading (ch 'a') t), .int (leading (ch 'b') (after (ch 'a') t)),
      .int (leading (ch 'a') (after (ch 'b') (after (ch 'a') t)))])
      (after (ch 'a') (after (ch 'b') (after (ch 'a') t))) pos' := by
  have hM : (mixedEnv E).OnText := h.onText
  have l1 := leading_after (ch 'a') t
  have l2 := leading_after (ch 'b') (after (ch 'a') t)
  have b1 : ((after (ch 'a') t).length : Int) ≤ 2147483647 := by omega
  have b2 : ((after (ch 'b') (after (ch 'a') t)).length : Int) ≤ 2147483647 := by omega
  have hs : E.SupportsSequence 3 := fun e => ⟨Nat.lt_trans (by decide) (h.limSequence e), h.limSequence e⟩
  have hs' : (mixedEnv E).SupportsSequence 3 := hs
  refine ⟨_, (C22_sequence_accepts _ hs ..).2 ⟨_, .cons (many_accepts h.onText _ t start hl)
    (.cons (many_accepts h.onText _ _ _ b1) (.cons (many_accepts h.onText _ _ _ b2) (.nil ..))), rfl⟩,
    (C22_sequence_accepts _ hs' ..).2 ⟨_, .cons (many_accepts hM _ t start hl)
    (.cons ?_ (.cons (many_accepts hM _ _ _ b2) (.nil ..))), rfl⟩⟩
  rw [Accepts, run_step]
  exact mixed_accepts h _ _ _

end Counting

theorem isABA_iff (s : List Chr) (i j k : Nat) : IsABA s i j k ↔
    i = Counting.leading (ch 'a') s ∧ j = Counting.leading (ch 'b') (Counting.after (ch 'a') s) ∧
    k = Counting.leading (ch 'a') (Counting.after (ch 'b') (Counting.after (ch 'a') s)) ∧
    Counting.after (ch 'a') (Counting.after (ch 'b') (Counting.after (ch 'a') s)) = [] := by
  have hb : ∀ (c d : Chr) (n : Nat), c ≠ d → beginsWith (· == c) (List.replicate n d) = false := by
    intro c d n hcd
    cases n with
    | zero => rfl
    | succ n => simp [List.replicate_succ, beginsWith, Ne.symm hcd]
  constructor
  · rintro ⟨rfl, hjk⟩
    cases j with
    | zero =>
      obtain rfl := hjk rfl
      simp [Counting.leading, Counting.after]
    | succ j =>
      rw [List.append_assoc]
      obtain ⟨h1, h2⟩ := Counting.leading_of (c := ch 'a') i
        (s := List.replicate (j + 1) (ch 'b') ++ List.replicate k (ch 'a')) rfl
      obtain ⟨h3, h4⟩ := Counting.leading_of (c := ch 'b') (j + 1) (s := List.replicate k (ch 'a'))
        (hb _ _ _ (by decide))
      obtain ⟨h5, h6⟩ := Counting.leading_of (c := ch 'a') k (s := []) rfl
      simp only [List.append_nil] at h5 h6
      rw [h1, h2, h3, h4, h5, h6]
      exact ⟨rfl, rfl, rfl, rfl⟩
  · rintro ⟨rfl, rfl, rfl, hnil⟩
    have h1 := Counting.leading_replicate (ch 'a') s
    have h2 := Counting.leading_replicate (ch 'b') (Counting.after (ch 'a') s)
    have h3 := Counting.leading_replicate (ch 'a') (Counting.after (ch 'b') (Counting.after (ch 'a') s))
    rw [hnil, List.append_nil] at h3
    refine ⟨?_, ?_⟩
    · rw [List.append_assoc, ← h3, ← h2, ← h1]
    · intro hj
      rw [hj] at h2
      simp only [List.replicate_zero, List.nil_append] at h2
      rw [← h2]
      exact Counting.leading_after_self _ _

/-- The parser made of templates compiles exactly for texts of the form `a* b* a*`, and gives the three counts. -/
theorem C64_parser (h : E.CountsLetters) (s : List Chr) (hl : (s.length : Int) ≤ 2147483647) (v : Val) :
    Counting.parser E s = .ok v ↔
      ∃ i j k, IsABA s i j k ∧ v = .seq [.int i, .int j, .int k] := by
  have h2 : E.SupportsNth 2 := fun e => Nat.lt_trans (by decide) (h.limSequence e)
  obtain ⟨pos', ha, -⟩ := Counting.s_accepts h s hl
  have hiff := isABA_iff s
  generalize Counting.after (ch 'a') (Counting.after (ch 'b') (Counting.after (ch 'a') s)) = rest at ha hiff
  rw [Counting.parser, C34_buildParser_accepts]
  constructor
  · rintro ⟨s', pos1, he⟩
    obtain ⟨ha', -⟩ := (C33_entireInput_accepts h.onText h2 ..).1 he
    unfold Accepts at ha ha'
    rw [ha] at ha'
    cases ha'
    exact ⟨_, _, _, (hiff ..).2 ⟨rfl, rfl, rfl, rfl⟩, rfl⟩
  · rintro ⟨i, j, k, hs, rfl⟩
    obtain ⟨rfl, rfl, rfl, hnil⟩ := (hiff ..).1 hs
    rw [hnil] at ha
    exact ⟨[], pos', (C33_entireInput_accepts h.onText h2 ..).2 ⟨ha, rfl⟩⟩

/-- The parser that uses the `constexpr` function in the middle has the same outcome on every text, errors
included. -/
theorem C64_mixed (h : E.CountsLetters) (s : List Chr) (hl : (s.length : Int) ≤ 2147483647) :
    Counting.parserMixed E s = Counting.parser E s := by
  have h2 : E.SupportsNth 2 := fun e => Nat.lt_trans (by decide) (h.limSequence e)
  have h2' : (Counting.mixedEnv E).SupportsNth 2 := h2
  have hM : (Counting.mixedEnv E).OnText := h.onText
  obtain ⟨pos', ha, hb⟩ := Counting.s_accepts h s hl
  unfold Counting.parserMixed Counting.parser
  generalize Counting.after (ch 'a') (Counting.after (ch 'b') (Counting.after (ch 'a') s)) = rest at ha hb
  cases hr : rest with
  | nil =>
    rw [hr] at ha hb
    rw [(C34_buildParser_accepts ..).2 ⟨[], pos', (C33_entireInput_accepts h.onText h2 ..).2 ⟨ha, rfl⟩⟩,
      (C34_buildParser_accepts ..).2 ⟨[], pos', (C33_entireInput_accepts hM h2' ..).2 ⟨hb, rfl⟩⟩]
  | cons c u =>
    rw [hr] at ha hb
    rw [C34_buildParser_rejects _ _ _ _ ((C33_entireInput_rejects h.onText h2 ..).2
        (.inr ⟨_, _, ha, by simp, rfl⟩)),
      C34_buildParser_rejects _ _ _ _ ((C33_entireInput_rejects hM h2' ..).2
        (.inr ⟨_, _, hb, by simp, rfl⟩))]

/-- Whenever the parser made of templates compiles, the `constexpr` function gives the same counts. -/
theorem C64_constexpr (h : E.CountsLetters) (s : List Chr) (hl : (s.length : Int) ≤ 2147483647) (v : Val)
    (hv : Counting.parser E s = .ok v) :
    Counting.build v = .ok ((Counting.parse s).1, (Counting.parse s).2.1, (Counting.parse s).2.2) := by
  obtain ⟨i, j, k, hs, rfl⟩ := (C64_parser h s hl v).1 hv
  obtain ⟨rfl, rfl, rfl, -⟩ := (isABA_iff ..).1 hs
  rw [Counting.parse_eq]
  rfl

/-- The `constexpr` function is the only one that never fails: it counts the longest prefix of the form
`a* b* a*` and ignores what follows. -/
theorem C64_constexpr_ignores (s : List Chr) : ∃ t u, s = t ++ u ∧
    IsABA t (Counting.parse s).1 (Counting.parse s).2.1 (Counting.parse s).2.2 ∧
    ∀ t' u' i j k, s = t' ++ u' → IsABA t' i j k → t'.length ≤ t.length := by
  rw [Counting.parse_eq]
  have h1 := Counting.leading_replicate (ch 'a') s
  have h2 := Counting.leading_replicate (ch 'b') (Counting.after (ch 'a') s)
  have h3 := Counting.leading_replicate (ch 'a') (Counting.after (ch 'b') (Counting.after (ch 'a') s))
  refine ⟨_, Counting.after (ch 'a') (Counting.after (ch 'b') (Counting.after (ch 'a') s)),
    h1.trans ?_, ⟨rfl, ?_⟩, ?_⟩
  · rw [List.append_assoc, List.append_assoc, ← h3, ← h2]
  · intro hj
    replace hj : Counting.leading (ch 'b') (Counting.after (ch 'a') s) = 0 := hj
    show Counting.leading (ch 'a') (Counting.after (ch 'b') (Counting.after (ch 'a') s)) = 0
    rw [hj] at h2
    simp only [List.replicate_zero, List.nil_append] at h2
    rw [← h2]
    exact Counting.leading_after_self _ _
  · rintro t' u' i j k rfl ⟨rfl, hjk⟩
    simp only [List.length_append, List.length_replicate, List.append_assoc, Counting.leading_append,
      Counting.after_append]
    cases j with
    | zero => obtain rfl := hjk rfl; omega
    | succ j =>
      have hw : ∀ w, Counting.leading (ch 'a') (List.replicate (j + 1) (ch 'b') ++ w) = 0 ∧
          Counting.after (ch 'a') (List.replicate (j + 1) (ch 'b') ++ w) = List.replicate (j + 1) (ch 'b') ++ w :=
        fun w => ⟨rfl, rfl⟩
      rw [(hw _).1, (hw _).2, Counting.leading_append, Counting.after_append]
      cases k with
      | zero => omega
      | succ k =>
        have hw : ∀ w, Counting.leading (ch 'b') (List.replicate (k + 1) (ch 'a') ++ w) = 0 ∧
            Counting.after (ch 'b') (List.replicate (k + 1) (ch 'a') ++ w) = List.replicate (k + 1) (ch 'a') ++ w :=
          fun w => ⟨rfl, rfl⟩
        rw [(hw _).1, (hw _).2, Counting.leading_append]
        omega

/-! ## Examples -/

theorem env11_countsLetters : env11.CountsLetters := ⟨env11_onText, by intro h; cases h⟩

/-- `aaaaaaabbbbaaaa` (/repo/example/constexpr_parser/main.cpp:301). -/
example : Counting.parser env11 (txt "aaaaaaabbbbaaaa") = .ok (.seq [.int 7, .int 4, .int 4]) :=
  (C64_parser env11_countsLetters _ (by decide) _).2 ⟨7, 4, 4, ⟨by decide, by decide⟩, rfl⟩

/-- The `constexpr` function accepts `abc`, which does not compile with the other parsers. -/
theorem C64_constexpr_checks_less : Counting.parse (txt "abc") = (1, 1, 0) ∧
    ∀ v, Counting.parser env11 (txt "abc") ≠ .ok v := by
  refine ⟨by rw [Counting.parse_eq]; decide, fun v hv => ?_⟩
  obtain ⟨i, j, k, hs, -⟩ := (C64_parser env11_countsLetters _ (by decide) _).1 hv
  have := ((isABA_iff ..).1 hs).2.2.2
  revert this
  decide

/-- The three ways of counting give the same for "aab". -/
example : Counting.parserMixed env11 (txt "aab") = .ok (.seq [.int 2, .int 1, .int 0]) ∧
    Counting.build (.seq [.int 2, .int 1, .int 0]) =
      .ok ((Counting.parse (txt "aab")).1, (Counting.parse (txt "aab")).2.1, (Counting.parse (txt "aab")).2.2) := by
  have hv : Counting.parser env11 (txt "aab") = .ok (.seq [.int 2, .int 1, .int 0]) :=
    (C64_parser env11_countsLetters _ (by decide) _).2 ⟨2, 1, 0, ⟨by decide, by decide⟩, rfl⟩
  exact ⟨(C64_mixed env11_countsLetters _ (by decide)).trans hv, C64_constexpr env11_countsLetters _ (by decide) _ hv⟩

end Metaparse
