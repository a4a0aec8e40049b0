import Verif.Lemmas.GrammarRules
import Verif.Lemmas.Check
import Verif.Lemmas.Honest
import Verif.Props.Positions
/-!
# Properties of rule texts

C46 (the language of rules), C47 (printing and parsing), C51 (parsing a rule text always finishes).
-/

namespace Metaparse

variable {E : Env (List Chr)}

/-- The environments of the rule parser with the default limits. -/
def ruleEnv (std : Std) : Env (List Chr) :=
  { input := listInput, std := std,
    rules := fun i => if i = Gram.expressionId then Gram.expression else .fail .unexpectedCharacter }

theorem ruleEnv_parsesRules (std : Std) : (ruleEnv std).ParsesRules where
  onText := rfl
  expression := rfl
  limSequence := fun _ => by simp only [ruleEnv]; decide
  limOneOf := fun _ => by simp only [ruleEnv]; decide
  limOneCharExcept := fun _ => by simp only [ruleEnv]; decide

/-! ## C46 -/

theorem ruleDefinition_total (h : E.ParsesRules) (s : List Chr) (pos : Pos) :
    (∃ m e, Rejects E Gram.ruleDefinition s pos m e) ∨
    ∃ n e ts s' pos', Accepts E Gram.ruleDefinition s pos (.seq [.str n, .void_, .gexp e]) s' pos' ∧
      Tokens s ([.name n, .define] ++ ts) s' ∧ Derives .expression ts e := by
  have hs : E.SupportsSequence 3 := fun h98 => ⟨Nat.lt_trans (by decide) (h.limSequence h98), h.limSequence h98⟩
  rcases (reads_name h.onText h.nth2 h.oneOf2).total s pos with ⟨m, e, hr⟩ | ⟨t, v, s1, pos1, hv, ht1, ha1⟩
  · exact .inl ⟨m, e, (C22_sequence_rejects _ hs ..).2 ⟨[], _, _, [], s, pos, rfl, .nil .., hr⟩⟩
  · cases t with
    | name n =>
      cases hv
      rcases (reads_define h.onText h.nth2).total s1 pos1 with ⟨m, e, hr⟩ | ⟨t, v, s2, pos2, hv, ht2, ha2⟩
      · exact .inl ⟨m, e, (C22_sequence_rejects _ hs ..).2
          ⟨[_], _, _, _, s1, pos1, rfl, .cons ha1 (.nil ..), hr⟩⟩
      · have : t = .define := by
          cases t <;> simp at hv
          rfl
        subst this
        cases hv
        rcases good h _ s2 pos2 (Nat.le_refl _) with ⟨m, e, hr⟩ | ⟨e, ts, s3, pos3, ha3, ht3, hd⟩
        · have hr : Rejects E (.ref Gram.expressionId) s2 pos2 m e := (run_expression h ..).trans hr
          exact .inl ⟨m, e, (C22_sequence_rejects _ hs ..).2
            ⟨[_, _], _, [], _, s2, pos2, rfl, .cons ha1 (.cons ha2 (.nil ..)), hr⟩⟩
        · have ha3 : Accepts E (.ref Gram.expressionId) s2 pos2 _ s3 pos3 :=
            (run_expression h ..).trans ha3
          exact .inr ⟨n, e, ts, s3, pos3, (C22_sequence_accepts _ hs ..).2
            ⟨_, .cons ha1 (.cons ha2 (.cons ha3 (.nil ..))), rfl⟩,
            Tokens.append.2 ⟨s2, Tokens.head.2 ⟨s1, ht1, ht2⟩, ht3⟩, hd⟩
    | _ => cases hv

theorem ruleDefinition_complete (h : E.ParsesRules) {s : List Chr} {n : List Chr} {e : GExp}
    (hr : IsRule s n e) (pos : Pos) :
    ∃ pos', Accepts E Gram.parserParser s pos (.seq [.str n, .void_, .gexp e]) [] pos' := by
  obtain ⟨ts, ht, hd⟩ := hr
  have hs : E.SupportsSequence 3 := fun h98 => ⟨Nat.lt_trans (by decide) (h.limSequence h98), h.limSequence h98⟩
  obtain ⟨s2, ht, ht3⟩ := Tokens.append.1 ht
  obtain ⟨s1, ht1, ht2⟩ := Tokens.head.1 ht
  obtain ⟨pos1, ha1⟩ := (reads_name h.onText h.nth2 h.oneOf2).accepts ht1 rfl (pos := pos)
  obtain ⟨pos2, ha2⟩ := (reads_define h.onText h.nth2).accepts ht2 rfl (pos := pos1)
  obtain ⟨pos3, ha3⟩ := (complete h hd).expr h pos2 ht3 (Follow.nil _)
  have ha3 : Accepts E (.ref Gram.expressionId) s2 pos2 _ [] pos3 := (run_expression h ..).trans ha3
  exact ⟨pos3, (C33_entireInput_accepts h.onText h.nth2 ..).2 ⟨(C22_sequence_accepts _ hs ..).2
    ⟨_, .cons ha1 (.cons ha2 (.cons ha3 (.nil ..))), rfl⟩, rfl⟩⟩

/-- The rule parser accepts a text iff it is a rule according to the BNF, and the result is the name
and the structure that the derivation denotes. -/
theorem C46_rule_language (h : E.ParsesRules) (s : List Chr) (v : Val) :
    buildParser E Gram.parserParser s = .ok v ↔
      ∃ n e, IsRule s n e ∧ v = .seq [.str n, .void_, .gexp e] := by
  rw [C34_buildParser_accepts]
  constructor
  · rintro ⟨s', pos', ha⟩
    obtain ⟨ha', rfl⟩ := (C33_entireInput_accepts h.onText h.nth2 ..).1 ha
    clear ha
    have ha := ha'
    clear ha'
    rcases ruleDefinition_total h s start with ⟨m, e, hr⟩ | ⟨n, e, ts, s', pos'', ha', ht, hd⟩
    · exact (ha.not_rejects hr).elim
    · obtain ⟨rfl, rfl, -⟩ := ha.unique ha'
      exact ⟨n, e, ⟨ts, ht, hd⟩, rfl⟩
  · rintro ⟨n, e, hr, rfl⟩
    obtain ⟨pos', ha⟩ := ruleDefinition_complete h hr start
    exact ⟨_, _, ha⟩

/-- The same for what `rule<…>` takes from the result. -/
theorem C46_parseRule (h : E.ParsesRules) (s n : List Chr) (e : GExp) :
    Grammar.parseRule E s = .ok (n, e) ↔ IsRule s n e := by
  unfold Grammar.parseRule
  rw [Out.bind_eq_ok]
  constructor
  · rintro ⟨v, hv, h'⟩
    obtain ⟨n', e', hr, rfl⟩ := (C46_rule_language h s v).1 hv
    simp only [Out.ok.injEq, Prod.mk.injEq] at h'
    obtain ⟨rfl, rfl⟩ := h'
    exact hr
  · intro hr
    exact ⟨_, (C46_rule_language h s _).2 ⟨n, e, hr, rfl⟩, rfl⟩

theorem parserParser_rejects (h : E.ParsesRules) {s : List Chr} (hno : ∀ n e, ¬ IsRule s n e) :
    ∃ m e, Rejects E Gram.parserParser s start m e := by
  rcases ruleDefinition_total h s start with ⟨m, e, hr⟩ | ⟨n, e, ts, s', pos', ha, ht, hd⟩
  · exact ⟨m, e, (C33_entireInput_rejects h.onText h.nth2 ..).2 (.inl hr)⟩
  · refine ⟨_, _, (C33_entireInput_rejects h.onText h.nth2 ..).2 (.inr ⟨_, s', ha, ?_, rfl⟩)⟩
    rintro rfl
    exact hno n e ⟨ts, ht, hd⟩

/-- A text that is not a rule is a compile error, the one of a failed parse. -/
theorem C46_not_a_rule (h : E.ParsesRules) (s : List Chr) (hno : ∀ n e, ¬ IsRule s n e) :
    ∃ line col m, Grammar.parseRule E s = .ill (.parsingFailed line col m) := by
  obtain ⟨m, e, hr⟩ := parserParser_rejects h hno
  exact ⟨e.line, e.col, m, by simp [Grammar.parseRule, C34_buildParser_rejects _ _ _ _ hr]⟩

/-- The BNF is unambiguous: a text is a rule in at most one way. -/
theorem C46_unambiguous (s n n' : List Chr) (e e' : GExp) (h1 : IsRule s n e) (h2 : IsRule s n' e') :
    n = n' ∧ e = e' := by
  have h := ruleEnv_parsesRules .cpp11
  have := ((C46_parseRule h s n e).2 h1).symm.trans ((C46_parseRule h s n' e').2 h2)
  simpa using this

/-- The C++98 and the C++11 implementation agree on what a rule is. -/
theorem C46_standard_independent {E' : Env (List Chr)} (h : E.ParsesRules) (h' : E'.ParsesRules)
    (s n : List Chr) (e : GExp) :
    Grammar.parseRule E s = .ok (n, e) ↔ Grammar.parseRule E' s = .ok (n, e) := by
  rw [C46_parseRule h, C46_parseRule h']

/-- The name read by `import<Name, …>` and `grammar<Start>`: the one at the beginning of the text;
what follows is ignored. -/
theorem C46_name (h : E.ParsesRules) (s n : List Chr) :
    Grammar.rebuild E s = .ok n ↔ ∃ s', Tokens s [.name n] s' := by
  have hr := reads_name h.onText h.nth2 h.oneOf2
  unfold Grammar.rebuild
  rw [Out.bind_eq_ok]
  constructor
  · rintro ⟨v, hv, h'⟩
    obtain ⟨s', pos', ha⟩ := (C34_buildParser_accepts ..).1 hv
    rcases hr.total s start with ⟨m, e, hrej⟩ | ⟨t, v, s'', pos'', hv, ht, ha'⟩
    · exact (ha.not_rejects hrej).elim
    · obtain ⟨rfl, rfl, -⟩ := ha.unique ha'
      cases t <;> cases hv
      cases h'
      exact ⟨_, ht⟩
  · rintro ⟨s', ht⟩
    obtain ⟨pos', ha⟩ := hr.accepts ht rfl (pos := start)
    exact ⟨_, (C34_buildParser_accepts ..).2 ⟨_, _, ha⟩, rfl⟩

/-! ## C47 -/

theorem derives_bracket {e : GExp} (X : NonTerminal) {ts : List Tok} (h : Derives .expression ts e) :
    Derives X ([.open_] ++ ts ++ [.close]) e := by
  have h := Derives.bracket h
  cases X
  · exact .alone (.single (.once h))
  · exact .single (.once h)
  · exact .once h
  · exact h

theorem derives_write {e : GExp} (hw : e.Writable) : ∀ X, Derives X (e.write X) e := by
  induction e with
  | chr c =>
    intro X
    cases X
    · exact .alone (.single (.once (.chr c)))
    · exact .single (.once (.chr c))
    · exact .once (.chr c)
    · exact .chr c
  | name n =>
    intro X
    cases X
    · exact .alone (.single (.once (.name n)))
    · exact .single (.once (.name n))
    · exact .once (.name n)
    · exact .name n
  | rep op a ih =>
    obtain ⟨hop, ha⟩ := hw
    have key : Derives .repeatedExpression
        (a.write .repeatedExpression ++ [if op = ch '*' then .star else .plus]) (.rep op a) := by
      rcases hop with rfl | rfl
      · exact .star (ih ha _)
      · exact .plus (ih ha _)
    intro X
    cases X
    · exact .alone (.single key)
    · exact .single key
    · exact key
    · exact .bracket (.alone (.single key))
  | seq a b iha ihb =>
    have key : Derives .seqExpression (a.write .seqExpression ++ b.write .repeatedExpression)
        (.seq a b) := .seq (iha hw.1 _) (ihb hw.2 _)
    intro X
    cases X
    · exact .alone key
    · exact key
    · exact derives_bracket _ (.alone key)
    · exact derives_bracket _ (.alone key)
  | sel a b iha ihb =>
    have key : Derives .expression (a.write .expression ++ [.bar] ++ b.write .seqExpression)
        (.sel a b) := .sel (iha hw.1 _) (ihb hw.2 _)
    intro X
    cases X
    · exact key
    · exact derives_bracket _ key
    · exact derives_bracket _ key
    · exact derives_bracket _ key

theorem Tok.written_text (t : Tok) (h : ∀ n, t = .name n → n ≠ [] ∧ ∀ c ∈ n, nameChar c = true) :
    t.Written t.text := by
  cases t with
  | name n => exact .name (h n rfl).1 (h n rfl).2
  | chr c =>
    unfold Tok.text
    dsimp only
    by_cases h1 : c = ch '\n'
    · rw [if_pos h1, h1]; exact .newLine
    rw [if_neg h1]
    by_cases h2 : c = ch '\r'
    · rw [if_pos h2, h2]; exact .return_
    rw [if_neg h2]
    by_cases h3 : c = ch '\t'
    · rw [if_pos h3, h3]; exact .tab
    rw [if_neg h3]
    by_cases h4 : c = ch '\\'
    · rw [if_pos h4, h4]; exact .backslash
    rw [if_neg h4]
    by_cases h5 : c = ch '\''
    · rw [if_pos h5, h5]; exact .quote
    rw [if_neg h5]
    exact .plain c h5 h4
  | star => exact .star
  | plus => exact .plus
  | bar => exact .bar
  | open_ => exact .open_
  | close => exact .close
  | define => exact .define

theorem Written.head {t : Tok} {w : List Chr} (h : t.Written w) (s : List Chr) :
    beginsWith spaceChar (w ++ s) = false ∧
      ((∀ n, t ≠ .name n) → beginsWith nameChar (w ++ s) = false) := by
  cases h with
  | @name n hne hall =>
    cases w with
    | nil => exact absurd rfl hne
    | cons c n =>
      exact ⟨nameChar_not_space (hall c (by simp)), fun h => absurd rfl (h _)⟩
  | _ => exact ⟨rfl, fun _ => rfl⟩

theorem tokens_layOut {l : List (Tok × List Chr)} (h : ProperLayout l) :
    Tokens (layOut l) (l.map (·.1)) [] := by
  induction h with
  | nil => exact .nil _
  | @cons t ws l hws hname hsep hl ih =>
    refine .cons (Tok.written_text t hname) hws ?_ ?_ ih
    · cases hl with
      | nil => rfl
      | @cons t' ws' l' _ hname' _ _ =>
        have := (Written.head (Tok.written_text t' hname') (ws' ++ layOut l')).1
        simpa only [layOut, List.append_assoc] using this
    · rintro ⟨n, rfl⟩ rfl
      cases hl with
      | nil => rfl
      | @cons t' ws' l' _ hname' _ _ =>
        have := (Written.head (Tok.written_text t' hname') (ws' ++ layOut l')).2 (by
          rintro m rfl
          exact hsep n m ws' l' rfl rfl rfl)
        simpa only [layOut, List.append_assoc] using this

/-- Writing a rule with the brackets that are needed and any white space after the tokens, and
parsing it, gives back the rule. -/
theorem C47_round_trip (h : E.ParsesRules) (n : List Chr) (e : GExp) (hw : e.Writable)
    (l : List (Tok × List Chr)) (hl : l.map (·.1) = [.name n, .define] ++ e.write .expression)
    (hp : ProperLayout l) : Grammar.parseRule E (layOut l) = .ok (n, e) := by
  refine (C46_parseRule h ..).2 ⟨e.write .expression, ?_, derives_write hw _⟩
  rw [← hl]
  exact tokens_layOut hp

theorem mem_write {e : GExp} {X : NonTerminal} {n : List Chr} (h : Tok.name n ∈ e.write X) :
    Tok.name n ∈ e.write .expression := by
  cases e <;> cases X <;> simp [GExp.write, GExp.level, NonTerminal.needsBrackets] at h ⊢ <;> exact h

theorem mem_write_name {e : GExp} (hw : e.Writable) : ∀ {X n}, Tok.name n ∈ e.write X →
    n ≠ [] ∧ ∀ c ∈ n, nameChar c = true := by
  induction e with
  | chr c =>
    intro X n h
    have h := mem_write h
    simp [GExp.write, NonTerminal.needsBrackets] at h
  | name m =>
    intro X n h
    have h := mem_write h
    simp only [GExp.write, NonTerminal.needsBrackets, Bool.false_eq_true, if_false,
      List.mem_cons, List.not_mem_nil, or_false, Tok.name.injEq] at h
    subst h; exact hw
  | rep op a ih =>
    intro X n h
    have h := mem_write h
    simp only [GExp.write, NonTerminal.needsBrackets, Bool.false_eq_true, if_false,
      List.mem_append, List.mem_cons, List.not_mem_nil, or_false] at h
    rcases h with h | h
    · exact ih hw.2 h
    · split at h <;> cases h
  | seq a b iha ihb =>
    intro X n h
    have h := mem_write h
    simp only [GExp.write, NonTerminal.needsBrackets, Bool.false_eq_true, if_false,
      List.mem_append] at h
    exact h.elim (iha hw.1) (ihb hw.2)
  | sel a b iha ihb =>
    intro X n h
    have h := mem_write h
    simp only [GExp.write, NonTerminal.needsBrackets, Bool.false_eq_true, if_false,
      List.mem_append, List.mem_cons, List.not_mem_nil, or_false, reduceCtorEq] at h
    exact h.elim (iha hw.1) (ihb hw.2)

theorem properLayout_spaced {ts : List Tok}
    (h : ∀ n, Tok.name n ∈ ts → n ≠ [] ∧ ∀ c ∈ n, nameChar c = true) :
    ProperLayout (ts.map fun t => (t, [ch ' '])) := by
  induction ts with
  | nil => exact .nil
  | cons t ts ih =>
    refine .cons ?_ ?_ ?_ (ih fun n hn => h n (by simp [hn]))
    · intro c hc
      simp only [List.mem_cons, List.not_mem_nil, or_false] at hc
      subst hc; rfl
    · rintro n rfl; exact h n (by simp)
    · intro n m ws' l' _ _; simp

/-- Every rule whose names are proper can be written like that. -/
theorem C47_every_rule_can_be_written (n : List Chr) (hn : n ≠ [] ∧ ∀ c ∈ n, nameChar c = true)
    (e : GExp) (hw : e.Writable) :
    ∃ l : List (Tok × List Chr), l.map (·.1) = [.name n, .define] ++ e.write .expression ∧
      ProperLayout l := by
  refine ⟨([Tok.name n, .define] ++ e.write .expression).map fun t => (t, [ch ' ']), ?_,
    properLayout_spaced ?_⟩
  · rw [List.map_map]
    exact (List.map_congr_left fun t _ => rfl).trans (List.map_id _)
  · intro m hm
    simp only [List.cons_append, List.nil_append, List.mem_cons, Tok.name.injEq, reduceCtorEq,
      false_or] at hm
    rcases hm with rfl | hm
    · exact hn
    · exact mem_write_name hw hm

theorem write_length (e : GExp) (X : NonTerminal) :
    (e.write X).length = (e.write .expression).length + if e.level.needsBrackets X then 2 else 0 := by
  cases e <;> cases X <;>
    simp [GExp.write, GExp.level, NonTerminal.needsBrackets] <;> omega

/-- No derivation of an expression has fewer tokens than the one that is written: only the brackets
that are needed are there. -/
theorem C47_fewest_brackets {X : NonTerminal} {ts : List Tok} {e : GExp} (h : Derives X ts e) :
    (e.write X).length ≤ ts.length := by
  have mono : ∀ e : GExp, (e.write .expression).length ≤ (e.write .seqExpression).length ∧
      (e.write .seqExpression).length ≤ (e.write .repeatedExpression).length ∧
      (e.write .repeatedExpression).length ≤ (e.write .nameExpression).length ∧
      (e.write .nameExpression).length ≤ (e.write .expression).length + 2 := by
    intro e
    rw [write_length e .seqExpression, write_length e .repeatedExpression,
      write_length e .nameExpression]
    cases e <;> simp [GExp.level, NonTerminal.needsBrackets]
  induction h with
  | chr c => simp [GExp.write, GExp.level, NonTerminal.needsBrackets]
  | name n => simp [GExp.write, GExp.level, NonTerminal.needsBrackets]
  | @bracket ts e _ ih => have := mono e; simp; omega
  | @once ts e _ ih => have := mono e; omega
  | @star ts e _ ih => simp [GExp.write, GExp.level, NonTerminal.needsBrackets, ih]
  | @plus ts e _ ih => simp [GExp.write, GExp.level, NonTerminal.needsBrackets, ih]
  | @single ts e _ ih => have := mono e; omega
  | @seq ts us a b _ _ ih1 ih2 =>
    simp [GExp.write, GExp.level, NonTerminal.needsBrackets]; omega
  | @alone ts e _ ih => have := mono e; omega
  | @sel ts us a b _ _ ih1 ih2 =>
    simp [GExp.write, NonTerminal.needsBrackets]; omega

theorem Tokens.names {ts : List Tok} : ∀ {s s' : List Chr}, Tokens s ts s' → ∀ n, Tok.name n ∈ ts →
    n ≠ [] ∧ ∀ c ∈ n, nameChar c = true := by
  induction ts with
  | nil => intro s s' _ n hn; simp at hn
  | cons t ts ih =>
    intro s s' h n hn
    obtain ⟨s1, h1, h2⟩ := Tokens.head.1 h
    rcases List.mem_cons.1 hn with rfl | hn
    · obtain ⟨w, ws, rfl, hw, -⟩ := Tokens.one.1 h1
      cases hw with
      | name hne hall => exact ⟨hne, hall⟩
    · exact ih h2 n hn

theorem Derives.writable {X : NonTerminal} {ts : List Tok} {e : GExp} (h : Derives X ts e)
    (hn : ∀ n, Tok.name n ∈ ts → n ≠ [] ∧ ∀ c ∈ n, nameChar c = true) : e.Writable := by
  induction h with
  | chr c => trivial
  | name n => exact hn n (by simp)
  | bracket _ ih => exact ih fun n h => hn n (by simp [h])
  | once _ ih => exact ih hn
  | star _ ih => exact ⟨.inl rfl, ih fun n h => hn n (by simp [h])⟩
  | plus _ ih => exact ⟨.inr rfl, ih fun n h => hn n (by simp [h])⟩
  | single _ ih => exact ih hn
  | seq _ _ ih1 ih2 => exact ⟨ih1 fun n h => hn n (by simp [h]), ih2 fun n h => hn n (by simp [h])⟩
  | alone _ ih => exact ih hn
  | sel _ _ ih1 ih2 => exact ⟨ih1 fun n h => hn n (by simp [h]), ih2 fun n h => hn n (by simp [h])⟩

/-- The expressions that can be written are exactly the ones the rule parser returns. -/
theorem C47_writable_iff (e : GExp) : e.Writable ↔ ∃ s n, IsRule s n e := by
  constructor
  · intro hw
    obtain ⟨l, hl, hp⟩ := C47_every_rule_can_be_written [ch 'S'] ⟨by simp, by
      intro c hc
      simp only [List.mem_cons, List.not_mem_nil, or_false] at hc
      subst hc; rfl⟩ e hw
    exact ⟨layOut l, [ch 'S'], _, hl ▸ tokens_layOut hp, derives_write hw _⟩
  · rintro ⟨s, n, ts, ht, hd⟩
    exact hd.writable fun n hn => ht.names n (by simp [hn])

/-! ## C51 -/

/-- Parsing a rule text finishes, with a rule or with an error that is inside the text. -/
theorem C51_rule_parser_finishes (h : E.ParsesRules) (s : List Chr) :
    (∃ n e, Grammar.parseRule E s = .ok (n, e)) ∨
    ∃ line col m, Grammar.parseRule E s = .ill (.parsingFailed line col m) := by
  rcases Classical.em (∃ n e, IsRule s n e) with ⟨n, e, hr⟩ | hno
  · exact .inl ⟨n, e, (C46_parseRule h ..).2 hr⟩
  · exact .inr (C46_not_a_rule h s fun n e hr => hno ⟨n, e, hr⟩)

example : (∃ n e, Grammar.parseRule (ruleEnv .cpp98) (txt "a ::= 'x' (b") = .ok (n, e)) ∨
    ∃ line col m, Grammar.parseRule (ruleEnv .cpp98) (txt "a ::= 'x' (b") = .ill (.parsingFailed line col m) :=
  C51_rule_parser_finishes (ruleEnv_parsesRules .cpp98) _

theorem parseRule_rejects {s : List Chr} {m : Msg} {e : Pos}
    (hr : Rejects E Gram.parserParser s start m e) :
    Grammar.parseRule E s = .ill (.parsingFailed e.line e.col m) := by
  simp [Grammar.parseRule, C34_buildParser_rejects _ _ _ _ hr]

/-- Where the error is: after a part of the text. -/
theorem C51_error_inside (h : E.ParsesRules) (hh : E.Honest) (s : List Chr) (line col : Int) (m : Msg)
    (he : Grammar.parseRule E s = .ill (.parsingFailed line col m)) :
    ∃ seen rest, s = seen ++ rest ∧ line = (moveOver start seen).line ∧
      col = (moveOver start seen).col := by
  have hno : ∀ n e, ¬ IsRule s n e := by
    intro n e hr
    rw [(C46_parseRule h s n e).2 hr] at he
    cases he
  obtain ⟨m', e, hr⟩ := parserParser_rejects h hno
  rw [parseRule_rejects hr] at he
  simp only [Out.ill.injEq, Fault.parsingFailed.injEq] at he
  obtain ⟨rfl, rfl, rfl⟩ := he
  obtain ⟨seen, rest, h1, h2⟩ := C03_error_inside hh _ _ _ _ _ hr
  exact ⟨seen, rest, h1, by rw [h2], by rw [h2]⟩

/-! ## Concrete cases -/

/-- The environments meet the hypotheses. -/
theorem ruleEnv_honest (std : Std) : (ruleEnv std).Honest where
  onText := rfl
  native := by intro i s pos r h; cases h; exact ⟨[], s, rfl, rfl⟩
  onError := by intro k m pos r h; cases h; exact ⟨_, rfl⟩

/-- `a ::= 'x'* b | 'y'`, derived by hand. -/
theorem isRule_example : IsRule (txt "a ::= 'x'* b|'y'") (txt "a")
    (.sel (.seq (.rep (ch '*') (.chr (ch 'x'))) (.name (txt "b"))) (.chr (ch 'y'))) := by
  refine ⟨[.chr (ch 'x'), .star, .name (txt "b"), .bar, .chr (ch 'y')], ?_, ?_⟩
  · have sp : ∀ c ∈ txt " ", spaceChar c = true := by decide
    have no : ∀ c ∈ txt "", spaceChar c = true := by decide
    exact .cons (w := txt "a") (ws := txt " ") (.name (by decide) (by decide)) sp rfl
        (fun _ h => by cases h)
      (.cons (w := txt "::=") (ws := txt " ") .define sp rfl (fun ⟨_, h⟩ => by cases h)
      (.cons (w := txt "'x'") (ws := txt "") (.plain _ (by decide) (by decide)) no rfl
        (fun ⟨_, h⟩ => by cases h)
      (.cons (w := txt "*") (ws := txt " ") .star sp rfl (fun ⟨_, h⟩ => by cases h)
      (.cons (w := txt "b") (ws := txt "") (.name (by decide) (by decide)) no rfl (fun _ _ => rfl)
      (.cons (w := txt "|") (ws := txt "") .bar no rfl (fun ⟨_, h⟩ => by cases h)
      (.cons (w := txt "'y'") (ws := txt "") (s := []) (.plain _ (by decide) (by decide)) no rfl
        (fun ⟨_, h⟩ => by cases h) (.nil _)))))))
  · exact .sel (ts := [.chr (ch 'x'), .star, .name (txt "b")]) (us := [.chr (ch 'y')])
      (.alone (.seq (ts := [.chr (ch 'x'), .star]) (us := [.name (txt "b")])
        (.single (.star (ts := [.chr (ch 'x')]) (.once (.chr _)))) (.once (.name _))))
      (.single (.once (.chr _)))

/-- `a ::=('x'| b)+`: an expression with brackets that are needed, laid out with little space. -/
example : Grammar.parseRule (ruleEnv .cpp98) (txt "a ::=('x'| b)+") =
    .ok (txt "a", .rep (ch '+') (.sel (.chr (ch 'x')) (.name (txt "b")))) := by
  refine C47_round_trip (ruleEnv_parsesRules _) (txt "a")
    (.rep (ch '+') (.sel (.chr (ch 'x')) (.name (txt "b")))) ⟨.inr rfl, trivial, by decide, by decide⟩
    [(.name (txt "a"), txt " "), (.define, []), (.open_, []), (.chr (ch 'x'), []), (.bar, txt " "),
      (.name (txt "b"), []), (.close, []), (.plus, [])] rfl ?_
  refine .cons (by decide) ?_ (by simp) (.cons (by simp) (by simp) (by simp) (.cons (by simp)
    (by simp) (by simp) (.cons (by simp) (by simp) (by simp) (.cons (by decide) (by simp) (by simp)
    (.cons (by simp) ?_ (by simp) (.cons (by simp) (by simp) (by simp)
    (.cons (by simp) (by simp) (by simp) .nil)))))))
  · rintro n h; cases h; decide
  · rintro n h; cases h; decide

/-- Not a rule: white space at the beginning. -/
example : Rejects (ruleEnv .cpp11) Gram.parserParser (txt " a ::= b") start
    .noneOfTheExpectedCasesFound start := rejects_of_eval 40 (by decide +kernel)

/-- Not a rule: a backslash that is not escaped. -/
example : Rejects (ruleEnv .cpp11) Gram.parserParser (txt "a ::= '\\'") start
    (.unpaired 1 7 (.literalExpected (ch '\''))) ⟨1, 10, ch '\''⟩ :=
  rejects_of_eval 60 (by decide +kernel)

/-- The rule parser gives that rule, with C++98 and with C++11. -/
example : buildParser (ruleEnv .cpp98) Gram.parserParser (txt "a ::= 'x'* b|'y'") =
    .ok (.seq [.str (txt "a"), .void_,
      .gexp (.sel (.seq (.rep (ch '*') (.chr (ch 'x'))) (.name (txt "b"))) (.chr (ch 'y')))]) :=
  (C46_rule_language (ruleEnv_parsesRules _) _ _).2 ⟨_, _, isRule_example, rfl⟩

example : Grammar.parseRule (ruleEnv .cpp11) (txt "a ::= 'x'* b|'y'") =
    .ok (txt "a", .sel (.seq (.rep (ch '*') (.chr (ch 'x'))) (.name (txt "b"))) (.chr (ch 'y'))) :=
  (C46_standard_independent (ruleEnv_parsesRules .cpp98) (ruleEnv_parsesRules .cpp11) _ _ _).1
    ((C46_parseRule (ruleEnv_parsesRules _) _ _ _).2 isRule_example)

/-- No other reading of it. -/
example : ¬ IsRule (txt "a ::= 'x'* b|'y'") (txt "a")
    (.seq (.rep (ch '*') (.chr (ch 'x'))) (.sel (.name (txt "b")) (.chr (ch 'y')))) := fun h =>
  nomatch (C46_unambiguous _ _ _ _ _ isRule_example h).2

/-- `" a ::= b"` is not a rule, so the build stops with an error that tells where. -/
example : ∃ line col m, Grammar.parseRule (ruleEnv .cpp11) (txt " a ::= b") = .ill (.parsingFailed line col m) := by
  refine C46_not_a_rule (ruleEnv_parsesRules _) _ fun n e h => ?_
  have := (C46_rule_language (ruleEnv_parsesRules .cpp11) _ _).2 ⟨n, e, h, rfl⟩
  rw [C34_buildParser_rejects _ _ _ start (rejects_of_eval (m := .noneOfTheExpectedCasesFound) 40
    (by decide +kernel))] at this
  cases this

/-- A name with text after it. -/
example : Grammar.rebuild (ruleEnv .cpp11) (txt "ab1 *") = .ok (txt "ab1") :=
  (C46_name (ruleEnv_parsesRules _) _ _).2 ⟨txt "*",
    .cons (w := txt "ab1") (ws := txt " ") (.name (by decide) (by decide)) (by decide) rfl
      (fun _ h => by cases h) (.nil _)⟩

/-- A way to write `('x' | b)+`. -/
example : ∃ l : List (Tok × List Chr), l.map (·.1) = [.name (txt "a"), .define, .open_, .chr (ch 'x'), .bar,
      .name (txt "b"), .close, .plus] ∧ ProperLayout l :=
  C47_every_rule_can_be_written (txt "a") ⟨by decide, by decide⟩
    (.rep (ch '+') (.sel (.chr (ch 'x')) (.name (txt "b")))) ⟨.inr rfl, trivial, by decide, by decide⟩

/-- `(('x'))` is written with fewer tokens. -/
example : ((GExp.chr (ch 'x')).write .expression).length ≤ 5 :=
  C47_fewest_brackets (ts := [.open_, .open_, .chr (ch 'x'), .close, .close])
    (.alone (.single (.once (.bracket (ts := [.open_, .chr (ch 'x'), .close])
      (.alone (.single (.once (.bracket (ts := [.chr (ch 'x')]) (.alone (.single (.once (.chr _))))))))))))

end Metaparse
