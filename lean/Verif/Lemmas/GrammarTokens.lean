import Verif.Spec.Grammar
import Verif.Props.Choice
import Verif.Props.Sequences
import Verif.Props.Folds
import Verif.Props.Chars
import Verif.Props.Wrappers
/-!
# The tokens of the rule parser
-/

namespace Metaparse

variable {E : Env (List Chr)}

/-! ## The token at the beginning of a text -/

/-- The character an escape stands for. -/
def unescape (c : Chr) : Chr :=
  if c = 110 then 10 else if c = 114 then 13 else if c = 116 then 9 else c

/-- The first token of a text and the text after it (only used to show that there is at most one). -/
def lexOne : List Chr → Option (Tok × List Chr)
  | [] => none
  | c :: s =>
    let rest (s : List Chr) := s.dropWhile spaceChar
    if nameChar c then
      some (.name ((c :: s).takeWhile nameChar), rest ((c :: s).dropWhile nameChar))
    else if c = 42 then some (.star, rest s)
    else if c = 43 then some (.plus, rest s)
    else if c = 124 then some (.bar, rest s)
    else if c = 40 then some (.open_, rest s)
    else if c = 41 then some (.close, rest s)
    else if c = 58 then some (.define, rest (s.drop 2))
    else match s with
      | d :: e :: r =>
        if d = 92 then some (.chr (unescape e), rest (r.drop 1)) else some (.chr d, rest r)
      | _ => none

theorem nameChar_not_space {c : Chr} (h : nameChar c = true) : spaceChar c = false := by
  simp only [nameChar, letterChar, digitChar, spaceChar, ch] at *
  simp at *
  omega

theorem lexOne_written {t : Tok} {w ws s : List Chr} (h : t.Written w)
    (hws : ∀ c ∈ ws, spaceChar c = true) (hs : beginsWith spaceChar s = false)
    (hn : (∃ n, t = .name n) → ws = [] → beginsWith nameChar s = false) :
    lexOne (w ++ ws ++ s) = some (t, s) := by
  have hd : (ws ++ s).dropWhile spaceChar = s := (takeWhile_append spaceChar ws s hws hs).2
  cases h with
  | @name n hne hall =>
    have hb : beginsWith nameChar (ws ++ s) = false := by
      cases ws with
      | nil => exact hn ⟨_, rfl⟩ rfl
      | cons c ws =>
        have := hws c (by simp)
        simp only [List.cons_append, beginsWith]
        cases h : nameChar c with
        | false => rfl
        | true => rw [nameChar_not_space h] at this; cases this
    obtain ⟨h1, h2⟩ := takeWhile_append nameChar w (ws ++ s) hall hb
    cases w with
    | nil => exact absurd rfl hne
    | cons c n =>
      have hc := hall c (by simp)
      simp only [List.append_assoc, List.cons_append] at h1 h2 ⊢
      simp only [lexOne, hc, if_true, h1, h2, hd]
  | plain c h1 h2 =>
    have e : ∀ x : List Chr, lexOne (39 :: c :: 39 :: x) = some (.chr c, x.dropWhile spaceChar) := by
      intro x
      have : ¬ c = 92 := h2
      simp [lexOne, this, nameChar, letterChar, digitChar, ch]
    simp only [List.cons_append, List.nil_append]
    exact (e _).trans (by rw [hd])
  | _ =>
    simp only [List.cons_append, List.nil_append]
    exact Eq.trans (b := some (_, (ws ++ s).dropWhile spaceChar)) rfl
      (by rw [hd]; try rfl)

theorem Tokens.one {s : List Chr} {t : Tok} {s' : List Chr} :
    Tokens s [t] s' ↔ ∃ w ws, s = w ++ ws ++ s' ∧ t.Written w ∧ (∀ c ∈ ws, spaceChar c = true) ∧
      beginsWith spaceChar s' = false ∧
      ((∃ n, t = .name n) → ws = [] → beginsWith nameChar s' = false) := by
  constructor
  · rintro (_ | ⟨h1, h2, h3, h4, h5⟩)
    cases h5
    exact ⟨_, _, rfl, h1, h2, h3, h4⟩
  · rintro ⟨w, ws, rfl, h1, h2, h3, h4⟩
    exact .cons h1 h2 h3 h4 (.nil _)

theorem Tokens.head {s : List Chr} {t : Tok} {ts : List Tok} {s' : List Chr} :
    Tokens s (t :: ts) s' ↔ ∃ s1, Tokens s [t] s1 ∧ Tokens s1 ts s' := by
  constructor
  · rintro (_ | ⟨h1, h2, h3, h4, h5⟩)
    exact ⟨_, .cons h1 h2 h3 h4 (.nil _), h5⟩
  · rintro ⟨s1, h, h'⟩
    obtain ⟨w, ws, rfl, h1, h2, h3, h4⟩ := Tokens.one.1 h
    exact .cons h1 h2 h3 h4 h'

theorem Tokens.append {ts us : List Tok} : ∀ {s s' : List Chr},
    Tokens s (ts ++ us) s' ↔ ∃ s1, Tokens s ts s1 ∧ Tokens s1 us s' := by
  induction ts with
  | nil =>
    intro s s'
    constructor
    · intro h; exact ⟨s, .nil _, h⟩
    · rintro ⟨s1, h, h'⟩; cases h; exact h'
  | cons t ts ih =>
    intro s s'
    rw [List.cons_append, Tokens.head]
    constructor
    · rintro ⟨s1, h1, h2⟩
      obtain ⟨s2, h3, h4⟩ := ih.1 h2
      exact ⟨s2, Tokens.head.2 ⟨s1, h1, h3⟩, h4⟩
    · rintro ⟨s2, h1, h2⟩
      obtain ⟨s1, h3, h4⟩ := Tokens.head.1 h1
      exact ⟨s1, h3, ih.2 ⟨s2, h4, h2⟩⟩

theorem Tokens.lexOne {s : List Chr} {t : Tok} {s' : List Chr} (h : Tokens s [t] s') :
    lexOne s = some (t, s') := by
  obtain ⟨w, ws, rfl, h1, h2, h3, h4⟩ := Tokens.one.1 h
  exact lexOne_written h1 h2 h3 h4

theorem Tokens.one_unique {s : List Chr} {t t' : Tok} {s' s'' : List Chr} (h : Tokens s [t] s')
    (h' : Tokens s [t'] s'') : t = t' ∧ s' = s'' := by
  have := h.lexOne.symm.trans h'.lexOne
  simpa using this

theorem Written.ne_nil {t : Tok} {w : List Chr} (h : t.Written w) : w ≠ [] := by
  cases h <;> first | assumption | simp

theorem Tokens.shorter {s : List Chr} {t : Tok} {s' : List Chr} (h : Tokens s [t] s') :
    s'.length < s.length := by
  obtain ⟨w, ws, rfl, h1, -⟩ := Tokens.one.1 h
  have := List.length_pos_iff.2 (Written.ne_nil h1)
  simp only [List.length_append]
  omega

theorem Tokens.length_le {ts : List Tok} : ∀ {s s' : List Chr}, Tokens s ts s' →
    s'.length + ts.length ≤ s.length := by
  induction ts with
  | nil => intro s s' h; cases h; simp
  | cons t ts ih =>
    intro s s' h
    obtain ⟨s1, h1, h2⟩ := Tokens.head.1 h
    have := h1.shorter
    have := ih h2
    simp only [List.length_cons]
    omega

/-! ## Parsers of single tokens -/

/-- `p` reads one token: it accepts exactly the texts beginning with a token `t` for which `val t`
is defined, and rejects all others. -/
structure Reads (E : Env (List Chr)) (p : P) (val : Tok → Option Val) : Prop where
  accepts : ∀ {s pos t s' v}, Tokens s [t] s' → val t = some v →
    ∃ pos', Accepts E p s pos v s' pos'
  total : ∀ s pos, (∃ m e, Rejects E p s pos m e) ∨
    ∃ t v s' pos', val t = some v ∧ Tokens s [t] s' ∧ Accepts E p s pos v s' pos'

theorem Reads.rejects {p : P} {val : Tok → Option Val} (h : Reads E p val) {s : List Chr} {pos : Pos}
    {t : Tok} {s' : List Chr} (ht : Tokens s [t] s') (hv : val t = none) :
    ∃ m e, Rejects E p s pos m e := by
  rcases h.total s pos with h | ⟨t', v, s'', pos', h1, h2, -⟩
  · exact h
  · obtain ⟨rfl, -⟩ := ht.one_unique h2
    rw [hv] at h1; cases h1

theorem Reads.rejects_nil {p : P} {val : Tok → Option Val} (h : Reads E p val) (pos : Pos) :
    ∃ m e, Rejects E p [] pos m e := by
  rcases h.total [] pos with h | ⟨t', v, s'', pos', h1, h2, -⟩
  · exact h
  · have := h2.shorter
    simp at this

theorem Reads.transform {p : P} {val val' : Tok → Option Val} (h : Reads E p val) (f : Val → Val)
    (h1 : ∀ t v, val t = some v → ∃ w, (f v).force = .ok w ∧ val' t = some w)
    (h2 : ∀ t, val t = none → val' t = none) :
    Reads E (.transform p f) val' where
  accepts := by
    intro s pos t s' w ht hw
    cases hv : val t with
    | none => rw [h2 t hv] at hw; cases hw
    | some v =>
      obtain ⟨w', e, e'⟩ := h1 t v hv
      rw [e'] at hw; cases hw
      obtain ⟨pos', h⟩ := h.accepts ht hv (pos := pos)
      exact ⟨pos', (C36_transform_accepts ..).2 ⟨v, h, e⟩⟩
  total := by
    intro s pos
    rcases h.total s pos with ⟨m, e, h⟩ | ⟨t, v, s', pos', hv, ht, ha⟩
    · exact .inl ⟨m, e, (C36_transform_rejects ..).2 h⟩
    · obtain ⟨w, e, e'⟩ := h1 t v hv
      exact .inr ⟨t, w, s', pos', e', ht, (C36_transform_accepts ..).2 ⟨v, ha, e⟩⟩

theorem Rejects.finishes {I : Type} {E : Env I} {p : P} {s : I} {pos : Pos}
    (h : ∃ m e, Rejects E p s pos m e) : ∃ r, run E p s pos = .ok r := by
  obtain ⟨m, e, h⟩ := h; exact ⟨_, h⟩

theorem Reads.oneOf {p q : P} {val val' : Tok → Option Val} (hs : E.SupportsOneOf 2)
    (h : Reads E p val) (h' : Reads E q val') (hdis : ∀ t v, val t = some v → val' t = none) :
    Reads E (.oneOf [p, q]) (fun t => (val t).or (val' t)) where
  accepts := by
    intro s pos t s' w ht hw
    cases hv : val t with
    | none =>
      simp only [hv, Option.none_or] at hw
      obtain ⟨pos', ha⟩ := h'.accepts ht hw (pos := pos)
      have hr := h.rejects ht hv (pos := pos)
      refine ⟨pos', (C19_oneOf_accepts _ hs ..).2 ⟨?_, [p], q, [], rfl, by simpa using hr, ha⟩⟩
      intro r hr'
      simp only [List.mem_cons, List.not_mem_nil, or_false] at hr'
      rcases hr' with rfl | rfl
      · exact Rejects.finishes hr
      · exact ⟨_, ha⟩
    | some v =>
      simp only [hv, Option.some_or, Option.some.injEq] at hw
      subst hw
      obtain ⟨pos', ha⟩ := h.accepts ht hv (pos := pos)
      have hr := h'.rejects ht (hdis t v hv) (pos := pos)
      refine ⟨pos', (C19_oneOf_accepts _ hs ..).2 ⟨?_, [], p, [q], rfl, by simp, ha⟩⟩
      intro r hr'
      simp only [List.mem_cons, List.not_mem_nil, or_false] at hr'
      rcases hr' with rfl | rfl
      · exact ⟨_, ha⟩
      · exact Rejects.finishes hr
  total := by
    intro s pos
    rcases h.total s pos with hr | ⟨t, v, s', pos', hv, ht, ha⟩
    · rcases h'.total s pos with hr' | ⟨t, v, s', pos', hv, ht, ha⟩
      · exact .inl ((C20_oneOf_rejects_iff _ hs ..).2 (by
          intro r hr''
          simp only [List.mem_cons, List.not_mem_nil, or_false] at hr''
          rcases hr'' with rfl | rfl
          · exact hr
          · exact hr'))
      · have hv0 : val t = none := by
          cases h0 : val t with
          | none => rfl
          | some v0 => rw [hdis t v0 h0] at hv; cases hv
        refine .inr ⟨t, v, s', pos', by simp [hv0, hv], ht,
          (C19_oneOf_accepts _ hs ..).2 ⟨?_, [p], q, [], rfl, by simpa using hr, ha⟩⟩
        intro r hr'
        simp only [List.mem_cons, List.not_mem_nil, or_false] at hr'
        rcases hr' with rfl | rfl
        · exact Rejects.finishes hr
        · exact ⟨_, ha⟩
    · have hr := h'.rejects ht (hdis t v hv) (pos := pos)
      refine .inr ⟨t, v, s', pos', by simp [hv], ht,
        (C19_oneOf_accepts _ hs ..).2 ⟨?_, [], p, [q], rfl, by simp, ha⟩⟩
      intro r hr'
      simp only [List.mem_cons, List.not_mem_nil, or_false] at hr'
      rcases hr' with rfl | rfl
      · exact ⟨_, ha⟩
      · exact Rejects.finishes hr

/-- A token made of one character. -/
theorem reads_char (hE : E.OnText) (hs : E.SupportsNth 2) (c : Chr) (T : Tok) (hT : T.Written [c])
    (hname : ∀ n, T ≠ .name n) (honly : ∀ w, T.Written w → w = [c]) :
    Reads E (.token (.litC c)) (fun t => if t = T then some (.chr c) else none) where
  accepts := by
    intro s pos t s' v ht hv
    by_cases e : t = T
    · subst e
      simp only [if_true, Option.some.injEq] at hv
      subst hv
      obtain ⟨w, ws, rfl, h1, h2, h3, h4⟩ := Tokens.one.1 ht
      have := honly w h1
      subst this
      refine ⟨_, (C29_token_accepts hE hs ..).2 ⟨ws, moveOver pos [c], ?_, h2, h3, rfl⟩⟩
      exact (C28_lit hE c).1.accepts c (ws ++ s') pos (by simp)
    · simp [e] at hv
  total := by
    intro s pos
    cases s with
    | nil => exact .inl ⟨_, _, (C29_token_rejects hE hs ..).2 ((C28_lit hE c).1.empty pos)⟩
    | cons d s =>
      by_cases hd : d = c
      · subst hd
        refine .inr ⟨T, .chr d, s.dropWhile spaceChar,
          moveOver (moveOver pos [d]) (s.takeWhile spaceChar), by simp, ?_,
          (C29_token_accepts hE hs ..).2
            ⟨s.takeWhile spaceChar, moveOver pos [d], ?_, all_takeWhile _ _,
              beginsWith_dropWhile _ _, rfl⟩⟩
        · refine Tokens.one.2 ⟨[d], s.takeWhile spaceChar, ?_, hT, all_takeWhile _ _,
            beginsWith_dropWhile _ _, ?_⟩
          · simp
          · rintro ⟨n, hn⟩; exact absurd hn (hname n)
        · rw [List.takeWhile_append_dropWhile]
          exact (C28_lit hE d).1.accepts d s pos (by simp)
      · exact .inl ⟨_, _, (C29_token_rejects hE hs ..).2
          ((C28_lit hE c).1.other d s pos (by simp [hd]))⟩

/-- `define_token` -/
theorem reads_define (hE : E.OnText) (hs : E.SupportsNth 2) :
    Reads E Gram.defineToken (fun t => if t = .define then some .void_ else none) where
  accepts := by
    intro s pos t s' v ht hv
    by_cases e : t = .define
    · subst e
      simp only [if_true, Option.some.injEq] at hv
      subst hv
      obtain ⟨w, ws, rfl, h1, h2, h3, h4⟩ := Tokens.one.1 ht
      cases h1
      refine ⟨_, (C29_token_accepts hE hs ..).2
        ⟨ws, moveOver pos [ch ':', ch ':', ch '='], ?_, h2, h3, rfl⟩⟩
      exact (C27_keyword_accepts hE ..).2 ⟨by simp, rfl, rfl⟩
    · simp [e] at hv
  total := by
    intro s pos
    rcases C27_keyword_total hE [ch ':', ch ':', ch '='] .void_ s pos with ⟨w, s', pos', h⟩ | ⟨m, e, h⟩
    · obtain ⟨rfl, rfl, rfl⟩ := (C27_keyword_accepts hE ..).1 h
      refine .inr ⟨.define, .void_, s'.dropWhile spaceChar, _, by simp, ?_,
        (C29_token_accepts hE hs ..).2 ⟨s'.takeWhile spaceChar,
          moveOver pos [ch ':', ch ':', ch '='], ?_, all_takeWhile _ _,
          beginsWith_dropWhile _ _, rfl⟩⟩
      · refine Tokens.one.2 ⟨_, s'.takeWhile spaceChar, ?_, .define, all_takeWhile _ _,
          beginsWith_dropWhile _ _, ?_⟩
        · simp
        · rintro ⟨n, hn⟩; cases hn
      · rw [List.takeWhile_append_dropWhile]; exact h
    · exact .inl ⟨m, e, (C29_token_rejects hE hs ..).2 h⟩

/-! ### Names -/

theorem rightFold_frontInserter (t : List Chr) :
    rightFold frontInserter (.str []) (t.map .chr) = .ok (.str t) := by
  induction t with
  | nil => rfl
  | cons c t ih =>
    simp only [List.map_cons, rightFold, ih, Out.bind_ok]
    rfl

/-- A character of a name. -/
theorem charParser_name (hE : E.OnText) (hs : E.SupportsOneOf 2) :
    ∃ m m', CharParser E (.oneOf [.alphanum, .litC (ch '_')]) nameChar .chr m m' := by
  have ha := C28_alphanum hE hs
  have h_ := (C28_lit hE (ch '_')).1
  have := charParser_oneOf (E := E) (val := .chr)
    (fun b : Bool => if b then P.alphanum else .litC (ch '_'))
    (fun b => if b then fun c => letterChar c || digitChar c else fun c => decide (c = ch '_'))
    (fun b => if b then _ else _) (fun b => if b then _ else _)
    (by
      intro b
      cases b
      · exact h_
      · exact ha) [true, false] hs
  refine ⟨_, _, CharParser.congr this fun c => ?_⟩
  rw [Bool.eq_iff_iff]
  simp [nameChar, or_assoc]

/-- `name_token` -/
theorem reads_name (hE : E.OnText) (hs : E.SupportsNth 2) (ho : E.SupportsOneOf 2) :
    Reads E Gram.nameToken (fun | .name n => some (.str n) | _ => none) := by
  obtain ⟨m, m0, hc⟩ := charParser_name hE ho
  have key : ∀ t u pos, t ≠ [] → (∀ c ∈ t, nameChar c = true) → beginsWith nameChar u = false →
      ∃ pos', Accepts E (.foldr1 (.oneOf [.alphanum, .litC (ch '_')]) (.str []) frontInserter)
        (t ++ u) pos (.str t) u pos' := by
    intro t u pos hne hall hu
    obtain ⟨m', hm⟩ := hc.maximalRun t u pos hall hu
    cases t with
    | nil => exact absurd rfl hne
    | cons c t =>
      have ha := hc.accepts c (t ++ u) pos (hall c (by simp))
      refine ⟨_, ((C13_foldr1 ..).2 _ _ _ ha).trans ((C15_foldr_accepts ..).2 ⟨_, _, _, hm, ?_⟩)⟩
      exact rightFold_frontInserter _
  refine ⟨?_, ?_⟩
  · intro s pos t s' v ht hv
    cases t with
    | name n =>
      simp only [Option.some.injEq] at hv
      subst hv
      obtain ⟨w, ws, rfl, h1, h2, h3, h4⟩ := Tokens.one.1 ht
      cases h1 with
      | name hne hall =>
        have hb : beginsWith nameChar (ws ++ s') = false := by
          cases ws with
          | nil => exact h4 ⟨_, rfl⟩ rfl
          | cons c ws =>
            have := h2 c (by simp)
            simp only [List.cons_append, beginsWith]
            cases h : nameChar c with
            | false => rfl
            | true => rw [nameChar_not_space h] at this; cases this
        obtain ⟨pos1, ha⟩ := key n (ws ++ s') pos hne hall hb
        exact ⟨_, (C29_token_accepts hE hs ..).2 ⟨ws, pos1, by simpa using ha, h2, h3, rfl⟩⟩
    | _ => cases hv
  · intro s pos
    cases hb : beginsWith nameChar s with
    | false =>
      obtain ⟨m', hr⟩ := hc.rejects s pos hb
      exact .inl ⟨m', pos, (C29_token_rejects hE hs ..).2 (((C13_foldr1 ..).1 _ _).2 hr)⟩
    | true =>
      right
      have hne : s.takeWhile nameChar ≠ [] := by
        cases s with
        | nil => cases hb
        | cons c s => simp only [beginsWith] at hb; simp [hb]
      obtain ⟨pos1, ha⟩ := key (s.takeWhile nameChar) (s.dropWhile nameChar) pos hne
        (all_takeWhile _ _) (beginsWith_dropWhile _ _)
      rw [List.takeWhile_append_dropWhile] at ha
      refine ⟨.name (s.takeWhile nameChar), _, (s.dropWhile nameChar).dropWhile spaceChar, _, rfl, ?_,
        (C29_token_accepts hE hs ..).2 ⟨(s.dropWhile nameChar).takeWhile spaceChar, pos1, ?_,
          all_takeWhile _ _, beginsWith_dropWhile _ _, rfl⟩⟩
      · refine Tokens.one.2 ⟨_, (s.dropWhile nameChar).takeWhile spaceChar, ?_,
          .name hne (all_takeWhile _ _), all_takeWhile _ _, beginsWith_dropWhile _ _, ?_⟩
        · simp [List.append_assoc]
        · intro _ h
          have : (s.dropWhile nameChar).dropWhile spaceChar = s.dropWhile nameChar := by
            have := List.takeWhile_append_dropWhile (p := spaceChar) (l := s.dropWhile nameChar)
            rwa [h] at this
          rw [this]
          exact beginsWith_dropWhile _ _
      · rw [List.takeWhile_append_dropWhile]; exact ha

/-! ### Characters -/

/-- The characters after a backslash. -/
def escapable (c : Chr) : Bool := [110, 114, 116, 92, 39].contains c

/-- One of the five escapes, without the backslash. -/
def escapeAlt (c : Chr) : P :=
  if c = 110 then .always (.litC 110) (.chr 10) else if c = 114 then .always (.litC 114) (.chr 13)
  else if c = 116 then .always (.litC 116) (.chr 9) else .litC c

theorem CharParser.always {p : P} {cls : Chr → Bool} {val : Chr → Val} {m0 m1 : Msg}
    (h : CharParser E p cls val m0 m1) (v : Val) : CharParser E (.always p v) cls (fun _ => v) m0 m1 where
  accepts c s pos hc := (C36_always_accepts ..).2 ⟨⟨_, h.accepts c s pos hc⟩, rfl⟩
  empty pos := (C36_always_rejects ..).2 (h.empty pos)
  other c s pos hc := (C36_always_rejects ..).2 (h.other c s pos hc)

theorem CharParser.congr_val {p : P} {cls : Chr → Bool} {val val' : Chr → Val} {m0 m1 : Msg}
    (h : CharParser E p cls val m0 m1) (hv : ∀ c, cls c = true → val c = val' c) :
    CharParser E p cls val' m0 m1 where
  accepts c s pos hc := hv c hc ▸ h.accepts c s pos hc
  empty := h.empty
  other := h.other

theorem charParser_escapeAlt (hE : E.OnText) (c : Chr) :
    CharParser E (escapeAlt c) (fun x => decide (x = c)) (fun x => .chr (unescape x))
      (.literalExpected c) (.literalExpected c) := by
  unfold escapeAlt
  by_cases h1 : c = 110
  · subst h1
    exact ((C28_lit hE _).1.always _).congr_val (by intro c h; simp at h; subst h; rfl)
  · rw [if_neg h1]
    by_cases h2 : c = 114
    · subst h2
      exact ((C28_lit hE _).1.always _).congr_val (by intro c h; simp at h; subst h; rfl)
    · rw [if_neg h2]
      by_cases h3 : c = 116
      · subst h3
        exact ((C28_lit hE _).1.always _).congr_val (by intro c h; simp at h; subst h; rfl)
      · rw [if_neg h3]
        refine (C28_lit hE _).1.congr_val fun x h => ?_
        simp at h; subst h
        simp [unescape, h1, h2, h3]

theorem charParser_escape (hE : E.OnText) (hs : E.SupportsOneOf 5) :
    ∃ m m', CharParser E
      (.oneOf [.always (.litC (ch 'n')) (.chr (ch '\n')), .always (.litC (ch 'r')) (.chr (ch '\r')),
        .always (.litC (ch 't')) (.chr (ch '\t')), .litC (ch '\\'), .litC (ch '\'')])
      escapable (fun x => .chr (unescape x)) m m' := by
  have := charParser_oneOf (E := E) (val := fun x => .chr (unescape x)) escapeAlt
    (fun c x => decide (x = c)) _ _ (charParser_escapeAlt hE) [110, 114, 116, 92, 39] hs
  refine ⟨_, _, CharParser.congr this fun c => ?_⟩
  rw [Bool.eq_iff_iff]
  simp [escapable]

/-- What is between the quotes, at the beginning of a text. -/
def quoted : List Chr → Option (Chr × List Chr)
  | [] => none
  | c :: s =>
    if c = 39 then none
    else if c = 92 then
      match s with
      | e :: r => if escapable e then some (unescape e, r) else some (c, s)
      | [] => some (c, s)
    else some (c, s)

theorem escape_behaves (hE : E.OnText) (hs : E.SupportsNth 2) (ho : E.SupportsOneOf 5)
    (s : List Chr) (pos : Pos) :
    (∃ e r, s = 92 :: e :: r ∧ escapable e = true ∧
      Accepts E Gram.escape s pos (.chr (unescape e)) r (moveOver (moveOver pos [92]) [e])) ∨
    ((∀ e r, s = 92 :: e :: r → escapable e = false) ∧ ∃ m e, Rejects E Gram.escape s pos m e) := by
  obtain ⟨m, m', he⟩ := charParser_escape hE ho
  have hb := (C28_lit hE (ch '\\')).1
  have hrej : ∀ m e, Rejects E (.litC (ch '\\')) s pos m e →
      ∃ m e, Rejects E Gram.escape s pos m e := fun m e h =>
    ⟨m, e, (C23_lastOf_rejects _ _ hs ..).2 ⟨[], _, _, [], s, pos, rfl, .nil .., h⟩⟩
  cases s with
  | nil => exact .inr ⟨by simp, hrej _ _ (hb.empty pos)⟩
  | cons c s =>
    by_cases hc : c = 92
    · subst hc
      have h1 := hb.accepts 92 s pos rfl
      cases s with
      | nil =>
        exact .inr ⟨by simp, _, _, (C23_lastOf_rejects _ _ hs ..).2
          ⟨[_], _, [], _, _, _, rfl, .cons h1 (.nil ..), he.empty _⟩⟩
      | cons e r =>
        cases hx : escapable e with
        | true =>
          refine .inl ⟨e, r, rfl, hx, (C23_lastOf_accepts _ _ hs ..).2 ⟨[.chr 92], ?_⟩⟩
          exact .cons h1 (.cons (he.accepts e r _ hx) (.nil ..))
        | false =>
          refine .inr ⟨?_, _, _, (C23_lastOf_rejects _ _ hs ..).2
            ⟨[_], _, [], _, _, _, rfl, .cons h1 (.nil ..), he.other e r _ hx⟩⟩
          intro e' r' h
          simp at h
          rw [← h.1]; exact hx
    · refine .inr ⟨?_, hrej _ _ (hb.other c s pos (decide_eq_false hc))⟩
      intro e r h
      simp at h
      exact absurd h.1 hc

theorem quoted_behaves (hE : E.OnText) (hs : E.SupportsNth 2) (ho : E.SupportsOneOf 5)
    (hx : E.std = .cpp98 → 1 < E.limOneCharExcept) (s : List Chr) (pos : Pos) :
    (∃ c s', quoted s = some (c, s') ∧ ∃ pos',
      Accepts E (.oneOf [Gram.escape, .oneCharExceptC [ch '\'']]) s pos (.chr c) s' pos') ∨
    (quoted s = none ∧
      ∃ m e, Rejects E (.oneOf [Gram.escape, .oneCharExceptC [ch '\'']]) s pos m e) := by
  have ho2 : E.SupportsOneOf 2 := fun h => Nat.le_trans (by decide) (ho h)
  have hp := C28_one_char_except hE [ch '\''] hx
  have hfin : ∃ r, run E (.oneCharExceptC [ch '\'']) s pos = .ok r := by
    cases s with
    | nil => exact ⟨_, hp.empty pos⟩
    | cons c s =>
      cases hc : ![ch '\''].contains c with
      | true => exact ⟨_, hp.accepts c s pos hc⟩
      | false => exact ⟨_, hp.other c s pos hc⟩
  rcases escape_behaves hE hs ho s pos with ⟨e, r, rfl, he, ha⟩ | ⟨hne, hr⟩
  · left
    refine ⟨unescape e, r, by simp [quoted, he], _, (C19_oneOf_accepts _ ho2 ..).2
      ⟨?_, [], _, [_], rfl, by simp, ha⟩⟩
    intro q hq
    simp only [List.mem_cons, List.not_mem_nil, or_false] at hq
    rcases hq with rfl | rfl
    · exact ⟨_, ha⟩
    · exact hfin
  · cases s with
    | nil =>
      refine .inr ⟨rfl, (C20_oneOf_rejects_iff _ ho2 ..).2 ?_⟩
      intro q hq
      simp only [List.mem_cons, List.not_mem_nil, or_false] at hq
      rcases hq with rfl | rfl
      · exact hr
      · exact ⟨_, _, hp.empty pos⟩
    | cons c s =>
      by_cases hc : c = 39
      · subst hc
        refine .inr ⟨rfl, (C20_oneOf_rejects_iff _ ho2 ..).2 ?_⟩
        intro q hq
        simp only [List.mem_cons, List.not_mem_nil, or_false] at hq
        rcases hq with rfl | rfl
        · exact hr
        · exact ⟨_, _, hp.other 39 s pos rfl⟩
      · left
        have ha := hp.accepts c s pos (by
          have : ¬ c = ch '\'' := hc
          simp [this])
        refine ⟨c, s, ?_, _, (C19_oneOf_accepts _ ho2 ..).2
          ⟨?_, [_], _, [], rfl, by simpa using hr, ha⟩⟩
        · by_cases h92 : c = 92
          · subst h92
            cases s with
            | nil => rfl
            | cons e r => simp [quoted, hne e r rfl]
          · simp [quoted, hc, h92]
        · intro q hq
          simp only [List.mem_cons, List.not_mem_nil, or_false] at hq
          rcases hq with rfl | rfl
          · exact Rejects.finishes hr
          · exact hfin

theorem Written.quoted {c : Chr} {w : List Chr} (h : Tok.Written (.chr c) w) :
    ∃ u, w = 39 :: u ∧ ∀ x, Metaparse.quoted (u ++ x) = some (c, 39 :: x) := by
  cases h with
  | plain c h1 h2 =>
    refine ⟨[c, 39], rfl, fun x => ?_⟩
    have h1 : ¬ c = 39 := h1
    have h2 : ¬ c = 92 := h2
    simp [Metaparse.quoted, h1, h2]
  | _ => exact ⟨_, rfl, fun x => rfl⟩

theorem quoted_written {u x : List Chr} {c : Chr} (h : quoted u = some (c, 39 :: x)) :
    ∃ w, 39 :: u = w ++ x ∧ Tok.Written (.chr c) w := by
  cases u with
  | nil => cases h
  | cons d u =>
    unfold quoted at h
    dsimp only at h
    by_cases h1 : d = 39
    · simp [h1] at h
    · rw [if_neg h1] at h
      by_cases h2 : d = 92
      · rw [if_pos h2] at h
        subst h2
        cases u with
        | nil => simp at h
        | cons e r =>
          dsimp only at h
          cases he : escapable e with
          | false =>
            rw [he] at h
            simp at h
            obtain ⟨-, rfl, -⟩ := h
            cases he
          | true =>
            rw [he] at h
            simp at h
            obtain ⟨rfl, rfl⟩ := h
            simp [escapable] at he
            rcases he with rfl | rfl | rfl | rfl | rfl
            · exact ⟨_, rfl, .newLine⟩
            · exact ⟨_, rfl, .return_⟩
            · exact ⟨_, rfl, .tab⟩
            · exact ⟨_, rfl, .backslash⟩
            · exact ⟨_, rfl, .quote⟩
      · rw [if_neg h2] at h
        simp at h
        obtain ⟨rfl, rfl⟩ := h
        exact ⟨_, rfl, .plain d h1 h2⟩

/-- `char_token` -/
theorem reads_charToken (hE : E.OnText) (hs : E.SupportsNth 3) (ho : E.SupportsOneOf 5)
    (hx : E.std = .cpp98 → 1 < E.limOneCharExcept) :
    Reads E Gram.charToken (fun | .chr c => some (.chr c) | _ => none) := by
  have hs2 : E.SupportsNth 2 := fun h => Nat.lt_trans (by decide) (hs h)
  have hq := (C28_lit hE (ch '\'')).1
  have key : ∀ u x c pos, quoted u = some (c, 39 :: x) →
      ∃ pos', Accepts E Gram.charToken (39 :: u) pos (.chr c) (x.dropWhile spaceChar) pos' := by
    intro u x c pos h
    have h1 := hq.accepts 39 u pos rfl
    rcases quoted_behaves hE hs2 ho hx u (moveOver pos [39]) with ⟨c', s', e, pos', h2⟩ | ⟨e, -⟩
    · rw [h] at e; cases e
      have h3 : Accepts E (.token (.litC (ch '\''))) (39 :: x) pos' (.chr 39)
          (x.dropWhile spaceChar) (moveOver (moveOver pos' [39]) (x.takeWhile spaceChar)) := by
        refine (C29_token_accepts hE hs2 ..).2 ⟨x.takeWhile spaceChar, moveOver pos' [39], ?_,
          all_takeWhile _ _, beginsWith_dropWhile _ _, rfl⟩
        rw [List.takeWhile_append_dropWhile]
        exact hq.accepts 39 x pos' rfl
      exact ⟨_, (C25_middleOf_accepts _ _ _ hs ..).2 ⟨_, _, .cons h1 (.cons h2 (.cons h3 (.nil ..)))⟩⟩
    · rw [h] at e; cases e
  refine ⟨?_, ?_⟩
  · intro s pos t s' v ht hv
    cases t with
    | chr c =>
      simp only [Option.some.injEq] at hv
      subst hv
      obtain ⟨w, ws, rfl, h1, h2, h3, h4⟩ := Tokens.one.1 ht
      obtain ⟨u, rfl, hu⟩ := Written.quoted h1
      obtain ⟨pos', h⟩ := key (u ++ (ws ++ s')) (ws ++ s') c pos (hu _)
      rw [(takeWhile_append spaceChar ws s' h2 h3).2] at h
      exact ⟨pos', by simpa using h⟩
    | _ => cases hv
  · intro s pos
    have hrej1 : ∀ m e, Rejects E (.litC (ch '\'')) s pos m e →
        ∃ m e, Rejects E Gram.charToken s pos m e := fun m e h =>
      ⟨m, e, (C25_middleOf_rejects _ _ _ hs ..).2 (.inl ⟨[], _, _, [], s, pos, rfl, .nil .., h⟩)⟩
    cases s with
    | nil => exact .inl (hrej1 _ _ (hq.empty pos))
    | cons d u =>
      by_cases hd : d = 39
      · subst hd
        have h1 := hq.accepts 39 u pos rfl
        rcases quoted_behaves hE hs2 ho hx u (moveOver pos [39]) with ⟨c, s', e, pos', h2⟩ | ⟨e, m, e', h2⟩
        · have hrej3 : ∀ m e, Rejects E (.litC (ch '\'')) s' pos' m e →
              ∃ m e, Rejects E Gram.charToken (39 :: u) pos m e := fun m e h =>
            ⟨_, e, (C25_middleOf_rejects _ _ _ hs ..).2 (.inr ⟨_, _, _, m,
              .cons h1 (.cons h2 (.nil ..)), (C29_token_rejects hE hs2 ..).2 h, rfl⟩)⟩
          cases s' with
          | nil => exact .inl (hrej3 _ _ (hq.empty pos'))
          | cons d x =>
            by_cases hd : d = 39
            · subst hd
              obtain ⟨pos'', h⟩ := key u x c pos e
              obtain ⟨w, hw, hw'⟩ := quoted_written e
              refine .inr ⟨.chr c, .chr c, _, pos'', rfl, ?_, h⟩
              refine Tokens.one.2 ⟨w, x.takeWhile spaceChar, ?_, hw', all_takeWhile _ _,
                beginsWith_dropWhile _ _, ?_⟩
              · rw [List.append_assoc, List.takeWhile_append_dropWhile, hw]
              · rintro ⟨n, hn⟩; cases hn
            · exact .inl (hrej3 _ _ (hq.other d x pos' (decide_eq_false hd)))
        · exact .inl ⟨_, _, (C25_middleOf_rejects _ _ _ hs ..).2
            (.inl ⟨[_], _, [], _, _, _, rfl, .cons h1 (.nil ..), h2⟩)⟩
      · exact .inl (hrej1 _ _ (hq.other d u pos (decide_eq_false hd)))

end Metaparse
