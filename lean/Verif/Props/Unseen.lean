import Verif.Lemmas.Unseen
import Verif.Props.Sequences
import Verif.Props.Chars
import Verif.Props.Folds
/-!
# Only what a parser looks at matters

C85.
-/

namespace Metaparse

variable {k : Nat} {B E : Env (List Chr)}

theorem conses_listInput (hE : E.OnText) : Unseen.Conses E.input := by
  intro c s; rw [show E.input = listInput from hE]; exact ⟨rfl, rfl, rfl⟩

theorem conses_beginning (k : Nat) : Unseen.Conses (beginning k) := fun _ _ => ⟨rfl, rfl, rfl⟩

/-- C85: a parser that does not look beyond `w` has the same outcome for every text that begins with `w`. -/
theorem C85_unseen (hB : OnBeginnings k B E) (hE : E.OnText) (p : P) (w : List Chr) (pos : Pos)
    (h : ¬ LooksBeyond k B p w pos) (t : List Chr) : Continues t (run B p w pos) (run E p (w ++ t) pos) :=
  (Unseen.run_ext hB (conses_listInput hE) p w t pos).resolve_left h

/-- C85: what is accepted, and the result, do not depend on what is not looked at, which all remains. -/
theorem C85_accepts (hB : OnBeginnings k B E) (hE : E.OnText) {p : P} {w : List Chr} {pos : Pos} {v : Val}
    {s : List Chr} {pos' : Pos} (h : Accepts B p w pos v s pos') (t : List Chr) :
    Accepts E p (w ++ t) pos v (s ++ t) pos' := by
  have hc := C85_unseen hB hE p w pos (by unfold LooksBeyond; rw [h]; simp) t
  rw [h] at hc
  unfold Accepts
  generalize run E p (w ++ t) pos = x at hc ⊢
  cases hc; rfl

/-- C85: an error found without looking beyond `w` is the error of every text that begins with `w`. -/
theorem C85_rejects (hB : OnBeginnings k B E) (hE : E.OnText) {p : P} {w : List Chr} {pos : Pos} {m : Msg}
    {e : Pos} (h : Rejects B p w pos m e) (t : List Chr) : Rejects E p (w ++ t) pos m e := by
  have hc := C85_unseen hB hE p w pos (by unfold LooksBeyond; rw [h]; simp) t
  rw [h] at hc
  unfold Rejects
  generalize run E p (w ++ t) pos = x at hc ⊢
  cases hc; rfl

/-- C85: the same for endless recursion. -/
theorem C85_diverges (hB : OnBeginnings k B E) (hE : E.OnText) {p : P} {w : List Chr} {pos : Pos}
    (h : Diverges B p w pos) (t : List Chr) : Diverges E p (w ++ t) pos := by
  have hc := C85_unseen hB hE p w pos (by unfold LooksBeyond; rw [h]; simp) t
  rw [h] at hc
  unfold Diverges
  generalize run E p (w ++ t) pos = x at hc ⊢
  cases hc; rfl

/-- C85: a longer beginning is enough as well, and gives the same. -/
theorem C85_longer (hB : OnBeginnings k B B) (p : P) (w : List Chr) (pos : Pos) (h : ¬ LooksBeyond k B p w pos)
    (u : List Chr) : ¬ LooksBeyond k B p (w ++ u) pos ∧ Continues u (run B p w pos) (run B p (w ++ u) pos) := by
  have hc := (Unseen.run_ext hB (hB.input ▸ conses_beginning k) p w u pos).resolve_left h
  refine ⟨fun h' => h ?_, hc⟩
  unfold LooksBeyond at h' ⊢
  rw [h'] at hc
  generalize run B p w pos = x at hc ⊢
  cases hc; rfl

/-! ## What looks beyond -/

/-- C85: `entire_input` accepts nothing without looking at what follows. -/
theorem C85_entire_input (hB : B.input = beginning k) (hs : B.SupportsNth 2) (p : P) (msg : Msg) (w : List Chr)
    (pos : Pos) (v : Val) (s : List Chr) (pos' : Pos) : ¬ Accepts B (.entireInput p msg) w pos v s pos' := by
  have hempty : ∀ s pos v s' pos', ¬ Accepts B (.empty .cvoid) s pos v s' pos' := by
    intro s pos v s' pos' h
    unfold Accepts at h
    rw [run_step] at h
    cases s <;> simp [step, Comb.empty, hB, beginning] at h
  have hchange : ∀ s pos v s' pos', ¬ Accepts B (.changeErrorMessage (.empty .cvoid) msg) s pos v s' pos' := by
    intro s pos v s' pos' h
    unfold Accepts at h
    rw [run_changeErrorMessage, run_step] at h
    cases s <;> simp [step, Comb.empty, hB, beginning] at h
  intro h
  unfold P.entireInput at h
  split at h
  · obtain ⟨vs, hi⟩ := (C23_firstOf_accepts _ _ hs ..).1 h
    cases hi with
    | cons _ hi => cases hi with
      | cons h1 _ => exact hempty _ _ _ _ _ h1
  · obtain ⟨vs, hi⟩ := (C23_firstOf_accepts _ _ hs ..).1 h
    cases hi with
    | cons _ hi => cases hi with
      | cons h1 _ => exact hchange _ _ _ _ _ h1

theorem run_oneChar_beginning (hB : B.input = beginning k) (w : List Chr) (pos : Pos) :
    run B .oneChar w pos = match w with
      | [] => .ill (.user k)
      | d :: s => .ok (.acc (.chr d) s (moveOver pos [d])) := by
  rw [run_step]
  cases w <;> simp [step, Comb.oneChar, hB, beginning, moveOver]

theorem run_lit_beginning (hB : B.input = beginning k) (c : Chr) (w : List Chr) (pos : Pos) :
    run B (P.litC c) w pos = match w with
      | [] => .ill (.user k)
      | d :: s => if d = c then .ok (.acc (.chr d) s (moveOver pos [d])) else .ok (.rej (.literalExpected c) pos) := by
  unfold P.litC
  rw [run_acceptWhen, run_changeErrorMessage, run_oneChar_beginning hB]
  cases w with
  | nil => rfl
  | cons d s =>
    have hc : isCharC c (.chr d) = .ok (d == c) := rfl
    simp only [Out.bind_ok, hc, beq_iff_eq]

/-- C85: `keyword` looks beyond `w` just when `w` is a part of the keyword that something is missing of: it stops at
the first character that is wrong, and after the last one. -/
theorem C85_keyword (hB : B.input = beginning k) (kw : List Chr) (v : Val) (w : List Chr) (pos : Pos) :
    LooksBeyond k B (.keyword kw v) w pos ↔ ∃ c rest, kw = w ++ c :: rest := by
  unfold LooksBeyond
  induction kw generalizing w pos with
  | nil => rw [run_step]; simp [step, Comb.ret]
  | cons c cs ih =>
    rw [run_step]
    simp only [step, Comb.keywordCons, run_lit_beginning hB]
    cases w with
    | nil => simp
    | cons d s =>
      by_cases h : d = c
      · simp [h, ih]
      · simp [h, Ne.symm h]

/-- C85: repeated spaces are looked for up to the first character that is no space: a text of spaces is never enough. -/
theorem C85_repeated_space (hB : B.input = beginning k) (w : List Chr) (pos : Pos) :
    LooksBeyond k B (.repeated .space) w pos ↔ ∀ c ∈ w, spaceChar c = true := by
  unfold LooksBeyond P.repeated
  suffices h : ∀ l, run B (.foldl .space (.seq l) backInserter) w pos = .ill (.user k) ↔ ∀ c ∈ w, spaceChar c = true
    from h []
  induction w generalizing pos with
  | nil =>
    intro l
    rw [run_foldl, P.space, run_acceptWhen, run_oneChar_beginning hB]
    simp
  | cons d s ih =>
    intro l
    rw [run_foldl, show run B .space (d :: s) pos = _ from run_acceptWhen .., run_oneChar_beginning hB]
    have hw : isWhitespace (.chr d) = .ok (spaceChar d) := by rw [← isWhitespaceC_eq]; rfl
    simp only [Out.bind_ok, hw]
    cases hd : spaceChar d with
    | true =>
      simpa [Val.force, hd, backInserter, Comb.pushBack] using ih (moveOver pos [d]) (l ++ [.chr d])
    | false => simp [Val.force, hd]

/-! ## Cases -/

/-- The environment of the examples for beginnings of texts. -/
def env11B : Env (List Chr) := { input := beginning 0 }

theorem env11B_onBeginnings : OnBeginnings 0 env11B env11 :=
  ⟨rfl, rfl, rfl, rfl, rfl, fun _ => rfl, fun _ _ _ _ => .inr (.rej ..), fun _ _ _ _ => .rej ..⟩

example : OnBeginnings 0 env11B env11B :=
  ⟨rfl, rfl, rfl, rfl, rfl, fun _ => rfl, fun _ _ _ _ => .inr (.rej ..), fun _ _ _ _ => .rej ..⟩

/-- `entire_input<keyword<"let">>` has the same error for all texts that begin with `lx`. -/
example (t : List Chr) : Rejects env11 (.entireInput (.keyword (txt "let") .void_)) (txt "lx" ++ t) start
    (.literalExpected (ch 'e')) ⟨1, 2, ch 'l'⟩ :=
  C85_rejects env11B_onBeginnings rfl (run_ok_of_eval 20 rfl) t

/-- `int_` reads `12` of all texts that begin with `12+`, but `12` alone is not enough. -/
example (t : List Chr) : Accepts env11 .int_ (txt "12+" ++ t) start (.int 12) (txt "+" ++ t) ⟨1, 3, ch '2'⟩ :=
  C85_accepts env11B_onBeginnings rfl (run_ok_of_eval 40 rfl) t

example : LooksBeyond 0 env11B .int_ (txt "12") start :=
  run_eq_of_eval (n := 40) rfl (by simp)

/-- An endless repetition, found by looking at the first character. -/
example (t : List Chr) : Diverges env11 (.repeated (.repeated .digit)) (txt "x" ++ t) start :=
  C85_diverges env11B_onBeginnings rfl
    (C11_repeated _ _ _ [] (txt "x") start (.seq []) (.nil _ _) (run_ok_of_eval 20 rfl)).1 t

example : LooksBeyond 0 env11B (.keyword (txt "let") .void_) (txt "le") start :=
  (C85_keyword rfl ..).2 ⟨ch 't', [], rfl⟩

example : ¬ LooksBeyond 0 env11B (.keyword (txt "let") .void_) (txt "let") start := by
  intro h
  obtain ⟨c, rest, h⟩ := (C85_keyword rfl ..).1 h
  simpa using congrArg List.length h

/-- What `int_` does with `12+` it does with every text that begins so. -/
example (t : List Chr) : Continues t (run env11B .int_ (txt "12+") start) (run env11 .int_ (txt "12+" ++ t) start) :=
  C85_unseen env11B_onBeginnings rfl _ _ _ (fun h => by
    have h' : run env11B .int_ (txt "12+") start = .ok (.acc (.int 12) (txt "+") ⟨1, 3, ch '2'⟩) := run_ok_of_eval 40 rfl
    rw [LooksBeyond, h'] at h
    cases h) t

example (u : List Chr) : ¬ LooksBeyond 0 env11B .int_ (txt "12+" ++ u) start :=
  (C85_longer ⟨rfl, rfl, rfl, rfl, rfl, fun _ => rfl, fun _ _ _ _ => .inr (.rej ..), fun _ _ _ _ => .rej ..⟩ _ _ _ (fun h => by
    have h' : run env11B .int_ (txt "12+") start = .ok (.acc (.int 12) (txt "+") ⟨1, 3, ch '2'⟩) := run_ok_of_eval 40 rfl
    rw [LooksBeyond, h'] at h
    cases h) u).1

example (v : Val) (s : List Chr) (pos' : Pos) : ¬ Accepts env11B (.entireInput .int_ .endOfInputExpected) (txt "12") start v s pos' :=
  C85_entire_input rfl (fun h => by cases h) _ _ _ _ _ _ _

end Metaparse
