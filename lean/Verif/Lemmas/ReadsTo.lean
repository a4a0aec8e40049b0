import Verif.Lemmas.Viable
/-!
# Expressions followed by anything that does not continue them

Unlike in `ReadsAll` there may be a digit after a text that does not end in a digit.
-/

namespace Metaparse

variable {E : Env (List Chr)} {n d : Nat} {p q o r mult plus : P} {more : List P}

/-- The text after `t` does not continue the digits at its end. -/
def KeptApart (t rest : List Chr) : Prop :=
  ∀ t' a x r, t = t' ++ [a] → rest = x :: r → digitChar a = true → digitChar x = false

theorem KeptApart.end_ {t u rest : List Chr} (h : KeptApart (t ++ u) rest) : KeptApart u rest := by
  rintro t' a x r rfl rfl
  exact h (t ++ t') a x r (by simp) rfl

theorem KeptApart.of_begins {t rest : List Chr} (h : beginsWith digitChar rest = false) : KeptApart t rest := by
  rintro t' a x r rfl rfl _
  exact h

/-- `p` accepts the texts in `L` if the text after it neither begins with a character in `cont` nor continues
the digits at the end. -/
def ReadsTo (E : Env (List Chr)) (p : P) (L : List Chr → Val → Prop) (cont : Chr → Bool) : Prop :=
  ∀ t v rest pos, L t v → beginsWith cont rest = false → KeptApart t rest →
    ∃ pos', Accepts E p (t ++ rest) pos v rest pos'

theorem ReadsTo.mono {L L' : List Chr → Val → Prop} {f g : Chr → Bool} (h : ReadsTo E p L f)
    (hL : ∀ t v, L' t v → L t v) (hfg : ∀ c, f c = true → g c = true) : ReadsTo E p L' g :=
  fun t v rest pos ht hb ha => h t v rest pos (hL t v ht) (beginsWith_mono hfg hb) ha

theorem ReadsTo.of_run {L : List Chr → Val → Prop} {cont : Chr → Bool} (h : ReadsTo E q L cont)
    (he : ∀ s pos, run E p s pos = run E q s pos) : ReadsTo E p L cont := by
  intro t v rest pos ht hb ha
  obtain ⟨pos', h⟩ := h t v rest pos ht hb ha
  exact ⟨pos', by unfold Accepts at h ⊢; rw [he]; exact h⟩

theorem ReadsTo.num (h : E.Tutorial) : ReadsTo E Tutorial.intToken (Values NumText) spaceChar := by
  rintro t v rest pos ⟨e, k, ⟨n, ht, rfl⟩, hk, rfl⟩ hb ha
  have hk' : n = k ∧ n ≤ 2147483647 := by
    simp only [AExp.value, fits] at hk
    split at hk
    · cases hk; exact ⟨rfl, by omega⟩
    · cases hk
  obtain ⟨rfl, hle⟩ := hk'
  refine TakesNumber.accepts h.onText h.nth2 (t := t) ?_ hle pos
  obtain ⟨w, ws, rfl, h1, h2, h3, rfl⟩ := ht
  refine ⟨w, ws, rfl, by simp, h1, h2, h3, rfl, ?_, hb⟩
  cases ws with
  | nil =>
    cases rest with
    | nil => rfl
    | cons x r =>
      obtain ⟨t', a, rfl⟩ : ∃ t' a, w = t' ++ [a] := ⟨_, _, (List.dropLast_concat_getLast h1).symm⟩
      exact ha t' a x r (by simp) rfl (h2 a (by simp))
  | cons x ws =>
    have hx : spaceChar x = true := h3 x (by simp)
    show digitChar x = false
    cases hd : digitChar x with
    | false => rfl
    | true => exact absurd hx (by
        simp only [digitChar, spaceChar, Bool.and_eq_true, decide_eq_true_eq, Bool.or_eq_true, beq_iff_eq] at hd ⊢
        omega)

variable {A : List Chr → AExp → Prop} {ops : List Chr} {cont : Chr → Bool}

theorem FoldsLeft.readsTo (h : FoldsLeft E q o p) (hs : E.SupportsSequence 2) (ho : ReadsOp E o ops)
    (hops : ∀ c ∈ ops, c ∈ expOps) (hp : ReadsTo E p (Values A) cont) (hc : ∀ c ∈ ops, cont c = false)
    (hd : ∀ c ∈ ops, digitChar c = false) (hA : Solid A) :
    ReadsTo E q (Values (LeftChain A ops)) fun c => cont c || ops.contains c := by
  have key : ∀ t x, LeftAssoc (Values A) ops Tutorial.binaryOp t x → ∀ s' pos, beginsWith cont s' = false →
      KeptApart t s' → ∃ v s0 pos0 vs x' pos', Accepts E p (t ++ s') pos v s0 pos0 ∧ v.force = .ok x' ∧
        Steps E (.sequence [o, p]) s0 pos0 vs s' pos' ∧ leftFold Tutorial.binaryOp x' vs = .ok x := by
    intro t x h
    induction h with
    | one hA hx =>
      intro s' pos hb hap
      obtain ⟨pos', ha⟩ := hp _ _ s' pos hA hb hap
      exact ⟨_, _, pos', [], _, pos', ha, hx, .nil .., rfl⟩
    | @more t x c ws u y z hl hco hws hu hz ih =>
      intro s' pos hb hap
      obtain ⟨v, s0, pos0, vs, x', pos1, h1, h2, h3, h4⟩ := ih (c :: (ws ++ u) ++ s') pos
        (by simpa [beginsWith] using hc c hco) (.of_begins (by simpa [beginsWith] using hd c hco))
      obtain ⟨e, k, hu', -⟩ := id hu
      obtain ⟨hu1, hu2⟩ := hA u e hu'
      obtain ⟨pos2, h5⟩ := ho.accepts (c := c) (ws := ws) (s' := u ++ s') pos1 hco hws
        (by rw [beginsWith_append hu2]; exact hu1)
      obtain ⟨pos3, h6⟩ := hp u y s' pos2 hu hb (KeptApart.end_ (t := t ++ c :: ws) (by simpa using hap))
      refine ⟨v, s0, pos0, vs ++ [.seq [.chr c, y]], x', pos3, by simpa using h1, h2,
        h3.snoc' ?_, ?_⟩
      · refine (C22_sequence_accepts _ hs ..).2 ⟨_, .cons (s1 := u ++ s') (pos1 := pos2) ?_
          (.cons h6 (.nil ..)), rfl⟩
        simpa using h5
      · rw [leftFold_snoc, h4, Out.bind_ok, hz]
  intro t x s' pos hl hb hap
  obtain ⟨v, s0, pos0, vs, x', pos', h1, h2, h3, h4⟩ := key t x ((leftAssoc_iff hops).2 hl) s' pos
    (beginsWith_mono (fun c hc => by simp [hc]) hb) hap
  obtain ⟨m, hr⟩ := ho.rejects (s := s') pos'
    (beginsWith_mono (fun c hc => Bool.or_eq_true_iff.2 (.inr hc)) hb)
  exact ⟨pos', h.ofRun h1 ⟨h3, (C22_sequence_rejects _ hs ..).2 ⟨[], _, _, [], s', pos', rfl, .nil .., hr⟩⟩
    h2 h4⟩

theorem ReadsTo.unary (hE : E.Tutorial) (hp : ReadsTo E p (Values (TutorialText dialect18 d 3)) cont) :
    ReadsTo E (Tutorial.unaryExp p) (Values (TutorialText dialect18 d 2)) cont := by
  rintro t v rest pos ⟨e, k, ht, hk, rfl⟩ hb ha
  obtain ⟨vs, pos0, u, a, m, pre, hm, hu, rfl, -, hv⟩ := unary_run hE ht rest pos
  obtain ⟨k0, hk0, hf⟩ := (hv (.int k)).2 ⟨k, hk, rfl⟩
  obtain ⟨pos', ha⟩ := hp u _ rest pos0 ⟨a, k0, hu, hk0, rfl⟩ hb ha.end_
  exact ⟨pos', (C18_foldr_start_with_parser ..).2 ⟨_, _, _, _, _, _, hm, ha, hf⟩⟩

theorem ReadsTo.primary (h : E.Tutorial) (hs : E.SupportsOneOf (more.length + 2)) (hm : NeverAccepts E more)
    (hb : ReadsAll E (brackets p) (Values (InBrackets A)) spaceChar) :
    ReadsTo E (primaryExp p more) (Values (NumOr (InBrackets A))) spaceChar := by
  rintro t v rest pos ⟨e, k, ht, hk, rfl⟩ hc ha
  rcases ht with ht | ht
  · obtain ⟨pos', ha⟩ := ReadsTo.num h t _ rest pos ⟨e, k, ht, hk, rfl⟩ hc ha
    have hopen : beginsWith ([ch '('].contains) (t ++ rest) = false := by
      obtain ⟨n, ht, -⟩ := ht
      have := ht.begins
      cases t with
      | nil => exact absurd rfl this.2.2
      | cons c t =>
        simp only [List.cons_append, beginsWith, List.contains_cons, List.contains_nil, Bool.or_false,
          beq_eq_false_iff_ne, ne_eq]
        rintro rfl
        exact absurd this.1 (by simp only [beginsWith]; decide)
    obtain ⟨m, hrj⟩ := brackets_beginsIn (c := Tutorial.rparenToken) (p := p) h.nth3 h.lparen (t ++ rest) pos
      hopen
    refine ⟨pos', (C19_oneOf_accepts _ (by simpa using hs) ..).2 ⟨?_, [], _, _, rfl, by simp, ha⟩⟩
    intro q hq
    simp only [List.mem_cons] at hq
    rcases hq with rfl | rfl | hq
    · exact ⟨_, ha⟩
    · exact ⟨_, hrj⟩
    · obtain ⟨m, e, hr⟩ := hm q hq (t ++ rest) pos
      exact ⟨_, hr⟩
  · obtain ⟨pos', ha⟩ := hb t _ rest pos ⟨e, k, ht, hk, rfl⟩ hc
    have hint := number_rejects_open h ht rest pos
    refine ⟨pos', (C19_oneOf_accepts _ (by simpa using hs) ..).2
      ⟨?_, [Tutorial.intToken], _, _, rfl, ?_, ha⟩⟩
    · intro q hq
      simp only [List.mem_cons] at hq
      rcases hq with rfl | rfl | hq
      · exact ⟨_, hint⟩
      · exact ⟨_, ha⟩
      · obtain ⟨m, e, hr⟩ := hm q hq (t ++ rest) pos
        exact ⟨_, hr⟩
    · intro q hq
      simp only [List.mem_singleton] at hq
      subst hq
      exact ⟨_, _, hint⟩

theorem readsAll_brackets (h : E.Tutorial) (hp : ReadsAll E p (Values A) cont)
    (hc : cont (ch ')') = false) (hS : Solid A) :
    ReadsAll E (brackets p) (Values (InBrackets A)) spaceChar := by
  refine (brackets_readsAll h.nth3 h.lparen h.rparen hp hc ?_).mono ?_ (fun c hc => hc)
  · rintro t v ⟨e, k, he, -⟩
    exact hS t e he
  · rintro _ v ⟨e, k, ⟨ws, u, ws', hws, hu, hws', rfl⟩, hk, rfl⟩
    exact ⟨ws, u, ws', rfl, hws, hws', e, k, hu, hk, rfl⟩

theorem Recurses.readsTo_primary (h : Recurses E r more mult plus) (d : Nat) :
    ReadsTo E (primaryExp r more) (Values (TutorialText dialect18 d 3)) spaceChar := by
  cases d with
  | zero =>
    rw [Values.congr fun _ _ => text3_zero]
    intro t v rest pos ⟨e, k, ht, hk, hv⟩ hb hap
    have := ReadsTo.primary (A := fun _ _ => False) (p := r) h.tutorial h.supports h.never (by
      rintro t v rest pos ⟨e, k, ⟨ws, u, ws', -, hu, -⟩, -⟩; exact hu.elim)
    exact this t v rest pos ⟨e, k, .inl ht, hk, hv⟩ hb hap
  | succ d =>
    rw [Values.congr fun _ _ => text3_succ']
    exact ReadsTo.primary h.tutorial h.supports h.never
      (readsAll_brackets h.tutorial ((h.readsAll d).of_run h.again) (close_stops dialect18 []) (solid_text dialect18 d 0))

/-- The characters that continue an expression wherever it ends. -/
def extends_ (c : Chr) : Bool := spaceChar c || (multChars dialect18).contains c || plusChars.contains c

theorem Recurses.readsTo (h : Recurses E r more mult plus) (d : Nat) :
    ReadsTo E plus (Values (TutorialText dialect18 d 0)) extends_ := by
  have h2 := ReadsTo.unary h.tutorial (h.readsTo_primary d)
  have h1 : ReadsTo E mult (Values (TutorialText dialect18 d 1))
      fun c => spaceChar c || (multChars dialect18).contains c := by
    rw [Values.congr fun _ _ => text1_iff18]
    exact h.product.readsTo h.tutorial.seq2 h.tutorial.multOps (multChars_ops (D := dialect18)) h2
      (by decide) (by decide) (solid_text dialect18 d 2)
  rw [Values.congr fun _ _ => text0_iff]
  exact h.sum.readsTo h.tutorial.seq2 h.tutorial.plusOps plusChars_ops h1 (by decide) (by decide)
    (solid_text dialect18 d 1)

/-! ## Texts that are longer -/

theorem TutorialText.spaced {d l : Nat} {t ws : List Chr} {e : AExp} (h : TutorialText dialect18 d l t e)
    (hws : AllSpace ws) : TutorialText dialect18 d l (t ++ ws) e := by
  induction h with
  | num h =>
    obtain ⟨w, ws', rfl, h1, h2, h3, rfl⟩ := h
    refine .num ⟨w, ws' ++ ws, by simp, h1, h2, ?_, rfl⟩
    intro c hc
    rcases List.mem_append.1 hc with hc | hc
    · exact h3 c hc
    · exact hws c hc
  | @bracket d w t ws' e h1 h2 h3 _ =>
    have : TutorialText dialect18 (d + 1) 3 (ch '(' :: (w ++ (t ++ ch ')' :: (ws' ++ ws)))) e := by
      refine .bracket h1 h2 ?_
      intro c hc
      rcases List.mem_append.1 hc with hc | hc
      · exact h3 c hc
      · exact hws c hc
    simpa using this
  | primary _ ih => exact .primary ih
  | neg h1 h2 _ ih => simpa using TutorialText.neg h1 h2 ih
  | unary _ ih => exact .unary ih
  | mul h1 h2 h3 _ _ ih => simpa using TutorialText.mul h1 h2 h3 ih
  | div h1 h1' h2 h3 _ _ ih => simpa using TutorialText.div h1 h1' h2 h3 ih
  | mulRight h1 => cases h1
  | divRight h1 => cases h1
  | product _ ih => exact .product ih
  | add h1 h2 _ _ ih => simpa using TutorialText.add h1 h2 ih
  | sub h1 h2 _ _ ih => simpa using TutorialText.sub h1 h2 ih

theorem TutorialText.digit {d l : Nat} {t : List Chr} {e : AExp} (h : TutorialText dialect18 d l t e) :
    ∀ {t' : List Chr} {a x : Chr}, t = t' ++ [a] → digitChar a = true → digitChar x = true →
      ∃ e', TutorialText dialect18 d l (t ++ [x]) e' := by
  have last : ∀ {b t t' : List Chr} {a : Chr}, b ++ t = t' ++ [a] → t ≠ [] → ∃ t2, t = t2 ++ [a] := by
    intro b t t' a he hne
    rw [← List.dropLast_concat_getLast hne, ← List.append_assoc] at he
    have h1 := List.append_inj_right' he rfl
    simp only [List.cons.injEq, and_true] at h1
    exact ⟨t.dropLast, by rw [← h1, List.dropLast_concat_getLast hne]⟩
  have notSpace : ∀ {a : Chr}, digitChar a = true → spaceChar a = true → False := by
    intro a h1 h2
    simp only [digitChar, spaceChar, Bool.and_eq_true, decide_eq_true_eq, Bool.or_eq_true, beq_iff_eq] at h1 h2
    omega
  induction h with
  | num h =>
    intro t' a x he ha hx
    obtain ⟨w, ws', rfl, h1, h2, h3, rfl⟩ := h
    cases ws' with
    | nil =>
      exact ⟨_, .num ⟨w ++ [x], [], by simp, by simp, by
        intro c hc
        rcases List.mem_append.1 hc with hc | hc
        · exact h2 c hc
        · simp only [List.mem_singleton] at hc; subst hc; exact hx, by simp [AllSpace], rfl⟩⟩
    | cons c ws =>
      obtain ⟨t2, h⟩ := last he (by simp)
      exact (notSpace ha (h3 a (by rw [h]; simp))).elim
  | @bracket d w t ws' e h1 h2 h3 _ =>
    intro t' a x he ha hx
    obtain ⟨t2, h⟩ := last (b := ch '(' :: (w ++ t)) (t := ch ')' :: ws') (by simpa using he) (by simp)
    cases t2 with
    | nil =>
      simp only [List.nil_append, List.cons.injEq] at h
      obtain ⟨rfl, -⟩ := h
      exact absurd ha (by decide)
    | cons y t2 =>
      simp only [List.cons_append, List.cons.injEq] at h
      exact (notSpace ha (h3 a (by rw [h.2]; simp))).elim
  | primary _ ih =>
    intro t' a x he ha hx
    obtain ⟨e', h⟩ := ih he ha hx
    exact ⟨_, .primary h⟩
  | @neg d ws t e h1 h2 h3 ih =>
    intro t' a x he ha hx
    obtain ⟨t2, h⟩ := last (b := ch '-' :: ws) (by simpa using he) (solid_text dialect18 d 2 t e h3).2
    obtain ⟨e', h⟩ := ih h ha hx
    exact ⟨_, by simpa using TutorialText.neg h1 h2 h⟩
  | unary _ ih =>
    intro t' a x he ha hx
    obtain ⟨e', h⟩ := ih he ha hx
    exact ⟨_, .unary h⟩
  | @mul d t ws u y z h1 h2 h3 h4 _ ih =>
    intro t' a x he ha hx
    obtain ⟨t2, h⟩ := last (b := t ++ ch '*' :: ws) (by simpa using he) (solid_text dialect18 d 2 u z h4).2
    obtain ⟨e', h⟩ := ih h ha hx
    exact ⟨_, by simpa using TutorialText.mul h1 h2 h3 h⟩
  | @div d t ws u y z h1 h1' h2 h3 h4 _ ih =>
    intro t' a x he ha hx
    obtain ⟨t2, h⟩ := last (b := t ++ ch '/' :: ws) (by simpa using he) (solid_text dialect18 d 2 u z h4).2
    obtain ⟨e', h⟩ := ih h ha hx
    exact ⟨_, by simpa using TutorialText.div h1 h1' h2 h3 h⟩
  | mulRight h1 => cases h1
  | divRight h1 => cases h1
  | product _ ih =>
    intro t' a x he ha hx
    obtain ⟨e', h⟩ := ih he ha hx
    exact ⟨_, .product h⟩
  | @add d t ws u y z h2 h3 h4 _ ih =>
    intro t' a x he ha hx
    obtain ⟨t2, h⟩ := last (b := t ++ ch '+' :: ws) (by simpa using he) (solid_text dialect18 d 1 u z h4).2
    obtain ⟨e', h⟩ := ih h ha hx
    exact ⟨_, by simpa using TutorialText.add h2 h3 h⟩
  | @sub d t ws u y z h2 h3 h4 _ ih =>
    intro t' a x he ha hx
    obtain ⟨t2, h⟩ := last (b := t ++ ch '-' :: ws) (by simpa using he) (solid_text dialect18 d 1 u z h4).2
    obtain ⟨e', h⟩ := ih h ha hx
    exact ⟨_, by simpa using TutorialText.sub h2 h3 h⟩

theorem zero_primary {d : Nat} : TutorialText dialect18 d 2 (txt "0") (.num 0) :=
  .primary (.num ⟨txt "0", [], rfl, by decide, by decide, by decide, by decide⟩)

theorem TutorialText.operator {d : Nat} {t : List Chr} {e : AExp} (h : TutorialText dialect18 d 0 t e) {c : Chr}
    (hc : c ∈ expOps) : ∃ e', TutorialText dialect18 d 0 (t ++ c :: txt "0") e' := by
  have mult : ∀ {u : List Chr} {x : AExp}, TutorialText dialect18 d 1 u x → c ∈ [ch '*', ch '/'] →
      ∃ x', TutorialText dialect18 d 1 (u ++ c :: txt "0") x' := by
    intro u x hu hc
    simp only [List.mem_cons, List.not_mem_nil, or_false] at hc
    rcases hc with rfl | rfl
    · exact ⟨_, .mul (ws := []) rfl hu (by simp [AllSpace]) zero_primary⟩
    · exact ⟨_, .div (ws := []) rfl rfl hu (by simp [AllSpace]) zero_primary⟩
  have prod : c ∈ [ch '*', ch '/'] → ∃ e', TutorialText dialect18 d 0 (t ++ c :: txt "0") e' := by
    intro hc
    cases h with
    | product h => obtain ⟨x, h⟩ := mult h hc; exact ⟨_, .product h⟩
    | add h1 h2 h3 => obtain ⟨x, h⟩ := mult h3 hc; exact ⟨_, by simpa using TutorialText.add h1 h2 h⟩
    | sub h1 h2 h3 => obtain ⟨x, h⟩ := mult h3 hc; exact ⟨_, by simpa using TutorialText.sub h1 h2 h⟩
  simp only [expOps, List.mem_cons, List.not_mem_nil, or_false] at hc
  rcases hc with rfl | rfl | rfl | rfl
  · exact ⟨_, .add (ws := []) h (by simp [AllSpace]) (.unary zero_primary)⟩
  · exact ⟨_, .sub (ws := []) h (by simp [AllSpace]) (.unary zero_primary)⟩
  · exact prod (by simp)
  · exact prod (by simp)

end Metaparse
