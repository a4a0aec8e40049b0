import Verif.Lemmas.MetaHsTokens
import Verif.Lemmas.GrammarRules
/-!
# The levels of the expressions of `meta_hs`
-/

namespace Metaparse

variable {E : Env (List Chr)}

open MetaHs MetaHs.Token

/-- The parsers of the levels. -/
def hsLevel : Nat → P
  | 0 => cmpExp
  | 1 => plusExp
  | 2 => multExp
  | 3 => applicationExp
  | _ => singleExp

/-- What is repeated on the levels. -/
def hsItem (l : Nat) : P := if l = 3 then singleExp else .sequence [hsOps l, hsLevel (l + 1)]

/-- How the results are combined on the levels. -/
def hsOp (l : Nat) : Val → Val → Val := if l = 3 then Semantic.application else Semantic.binaryOp

theorem hsLevel_eq {l : Nat} (hl : l < 4) :
    hsLevel l = .foldlRejectIncompleteStartWithParser (hsItem l) (hsLevel (l + 1)) (hsOp l) := by
  match l, hl with
  | 0, _ => rfl
  | 1, _ => rfl
  | 2, _ => rfl
  | 3, _ => rfl

/-- The item of the level can not continue the expression here. -/
def Stuck (E : Env (List Chr)) (k : Nat) (s : List Chr) (pos : Pos) : Prop :=
  ∃ m, Rejects E (hsItem k) s pos m pos

/-- What is known when the parser of a level accepts. -/
structure HsRead (E : Env (List Chr)) (l : Nat) (s : List Chr) (pos : Pos) (v : Val) (s' : List Chr) (pos' : Pos)
    (t : List Chr) (b : Bool) (e : HsExp) : Prop where
  text : s = t ++ s'
  reads : HsText true l b t s' e
  tree : v = e.tree
  moved : pos' = moveOver pos t
  stuck : ∀ k, l ≤ k → k ≤ 3 → Stuck E k s' pos'
  stuckOpen : b = false → ∀ k, k ≤ 3 → Stuck E k s' pos'

/-- Whatever the parser accepts on texts of bounded length is an expression. -/
def HsSound (E : Env (List Chr)) (n : Nat) (l : Nat) (p : P) : Prop :=
  ∀ {s pos v s' pos'}, s.length ≤ n → Accepts E p s pos v s' pos' → ∃ t b e, HsRead E l s pos v s' pos' t b e

theorem tree_force (e : HsExp) : e.tree.force = .ok e.tree := by cases e <;> rfl

theorem hsOp_application (f a : HsExp) :
    (hsOp 3 f.tree a.tree).force = .ok (HsExp.app f a).tree := rfl

theorem hsOp_binary {l : Nat} (hl : l < 3) (o : List Chr) (x y : HsExp) :
    (hsOp l x.tree (.seq [.str (opName o), y.tree])).force = .ok (HsExp.op o x y).tree := by
  rw [hsOp, if_neg (Nat.ne_of_lt hl)]
  rfl

theorem run_hsExpression (h : E.MetaHs) (s : List Chr) (pos : Pos) :
    run E (.ref expressionId) s pos = run E (hsLevel 0) s pos := by
  rw [run_ref, h.expression]
  rfl

theorem ref_accepts (h : E.MetaHs) {s : List Chr} {pos : Pos} {v : Val} {s' : List Chr} {pos' : Pos} :
    Accepts E (.ref expressionId) s pos v s' pos' ↔ Accepts E (hsLevel 0) s pos v s' pos' := by
  unfold Accepts
  rw [run_hsExpression h]

theorem item_accepts (h : E.MetaHs) {l : Nat} (hl : l < 3) {s : List Chr} {pos : Pos} {v : Val} {s' : List Chr}
    {pos' : Pos} : Accepts E (hsItem l) s pos v s' pos' ↔ ∃ o y s1 pos1, Accepts E (hsOps l) s pos o s1 pos1 ∧
      Accepts E (hsLevel (l + 1)) s1 pos1 y s' pos' ∧ v = .seq [o, y] := by
  rw [hsItem, if_neg (Nat.ne_of_lt hl), C22_sequence_accepts _ h.seq2]
  constructor
  · rintro ⟨vs, hi, rfl⟩
    obtain ⟨a, b, s1, pos1, rfl, h1, h2⟩ := hi.two
    exact ⟨_, _, _, _, h1, h2, rfl⟩
  · rintro ⟨o, y, s1, pos1, h1, h2, rfl⟩
    exact ⟨_, .cons h1 (.cons h2 (.nil ..)), rfl⟩

theorem item_rejects (h : E.MetaHs) {l : Nat} (hl : l < 3) {s : List Chr} {pos e : Pos} {m : Msg}
    (hr : Rejects E (hsOps l) s pos m e) : Rejects E (hsItem l) s pos m e := by
  rw [hsItem, if_neg (Nat.ne_of_lt hl)]
  exact sequence_rejects_first h.seq2 hr

/-- A single expression does not begin with such a character. -/
theorem single_rejects (h : E.MetaHs) {s : List Chr} (pos : Pos) (h1 : s.head? ≠ some (ch 'i'))
    (h2 : beginsWith nameStart s = false ∨ s.takeWhile nameChar ∈ keywords) (h3 : beginsWith digitChar s = false)
    (h4 : s.head? ≠ some (ch '(')) : ∃ m, Rejects E singleExp s pos m pos := by
  refine oneOf_rejects_here h.oneOf4 ?_
  intro p hp
  simp only [List.mem_cons, List.not_mem_nil, or_false] at hp
  rcases hp with rfl | rfl | rfl | rfl
  · obtain ⟨m, hr⟩ := keywordToken_rejects h (k := txt "f") pos h1
    exact ⟨m, (C36_transform_rejects ..).2 (sequence_rejects_first h.seq3 (lastOf_rejects_first h.nth2 hr))⟩
  · obtain ⟨m, hr⟩ := name_rejects h pos h2
    exact ⟨m, (C36_transform_rejects ..).2 hr⟩
  · obtain ⟨m, hr⟩ := hsInt_rejects h pos h3
    exact ⟨m, (C36_transform_rejects ..).2 hr⟩
  · obtain ⟨m, hr⟩ := litToken_rejects h pos h4
    exact ⟨m, (C25_middleOf_rejects _ _ _ h.nth3 ..).2 (.inl ⟨[], _, _, [], s, pos, rfl, .nil .., hr⟩)⟩

theorem level_rejects {s : List Chr} {pos e : Pos} {m : Msg} (hr : Rejects E singleExp s pos m e) :
    ∀ l, Rejects E (hsLevel l) s pos m e := by
  have h3 : Rejects E (hsLevel 3) s pos m e :=
    (C18_foldl_reject_incomplete_start_with_parser_rejects ..).2 (.inl hr)
  have h2 : Rejects E (hsLevel 2) s pos m e :=
    (C18_foldl_reject_incomplete_start_with_parser_rejects ..).2 (.inl h3)
  have h1 : Rejects E (hsLevel 1) s pos m e :=
    (C18_foldl_reject_incomplete_start_with_parser_rejects ..).2 (.inl h2)
  have h0 : Rejects E (hsLevel 0) s pos m e :=
    (C18_foldl_reject_incomplete_start_with_parser_rejects ..).2 (.inl h1)
  intro l
  match l with
  | 0 => exact h0
  | 1 => exact h1
  | 2 => exact h2
  | 3 => exact h3
  | l + 4 => exact hr

/-- Where a product can not be continued there is no `/=`: the parser of products takes the `/`. -/
theorem stuck_not_notEqual (h : E.MetaHs) {s : List Chr} {pos : Pos} (hs : Stuck E 2 s pos) (r : List Chr) :
    s ≠ txt "/=" ++ r := by
  rintro rfl
  obtain ⟨m, hr⟩ := hs
  have ha : Accepts E (hsOps 2) (txt "/" ++ ([] ++ (ch '=' :: r))) pos (.str (opName (txt "/"))) (ch '=' :: r)
      (moveOver pos (txt "/" ++ [])) := by
    rcases opPair_total h (ch '*') (ch '/') (by decide) (.str (txt ".*.")) (.str (txt "./."))
      (txt "/" ++ ([] ++ (ch '=' :: r))) pos with ⟨t, ht, ha⟩ | ⟨t, ht, ha⟩ | ⟨hb, -⟩
    · exact absurd (List.cons.inj ht).1 (by decide)
    · exact ha [] _ (List.cons.inj ht).2.symm (by simp [AllSpace]) rfl
    · cases hb
  obtain ⟨m', hs⟩ := single_rejects h (s := ch '=' :: r) (moveOver pos (txt "/" ++ [])) (fun he => absurd (Option.some.inj he) (by decide))
    (.inl rfl) rfl (fun he => absurd (Option.some.inj he) (by decide))
  have hr' : Rejects E (hsItem 2) (txt "/=" ++ r) pos m' (moveOver pos (txt "/" ++ [])) := by
    rw [hsItem, if_neg (by decide)]
    exact (C22_sequence_rejects _ h.seq2 ..).2 (.cons ha ⟨[], _, _, [], _, _, rfl, .nil .., level_rejects hs 3⟩)
  have := (hr.unique hr').2
  exact absurd ((moveOver_eq_self pos (txt "/" ++ [])).1 this.symm) (by decide)

/-- One more item. -/
theorem HsRead.item (h : E.MetaHs) {n l : Nat} (hl : l < 4) (hn : HsSound E n (l + 1) (hsLevel (l + 1)))
    {s : List Chr} {pos : Pos} {v : Val} {s1 : List Chr} {pos1 : Pos} {t : List Chr} {b : Bool} {e : HsExp}
    (hlen : s.length ≤ n) (ht : s = t ++ s1) (hr : HsText true l b t s1 e) (hv : v = e.tree)
    (hp : pos1 = moveOver pos t) (hs : ∀ k, l + 1 ≤ k → k ≤ 3 → Stuck E k s1 pos1)
    (ho : b = false → ∀ k, k ≤ 3 → Stuck E k s1 pos1) {w : Val} {s2 : List Chr} {pos2 : Pos}
    (hi : Accepts E (hsItem l) s1 pos1 w s2 pos2) : ∃ t' b' e', s = t' ++ s2 ∧ HsText true l b' t' s2 e' ∧
      (hsOp l v w).force = .ok e'.tree ∧ pos2 = moveOver pos t' ∧ (∀ k, l + 1 ≤ k → k ≤ 3 → Stuck E k s2 pos2) ∧
      (b' = false → ∀ k, k ≤ 3 → Stuck E k s2 pos2) := by
  have hb : b = true := by
    cases b with
    | true => rfl
    | false =>
      obtain ⟨m, hr⟩ := ho rfl l (by omega)
      exact (hi.not_rejects hr).elim
  subst hb hv ht hp
  have hlen1 : s1.length ≤ n := by simp at hlen; omega
  by_cases hl3 : l = 3
  · subst hl3
    obtain ⟨u, b', a, hu⟩ := hn hlen1 (show Accepts E (hsLevel 4) s1 _ w s2 pos2 from hi)
    obtain ⟨rfl, hu, rfl, rfl, -, ho'⟩ := hu
    exact ⟨t ++ u, b', .app e a, by simp, .app hr hu, hsOp_application e a, (moveOver_append ..).symm,
      fun k hk hk' => by omega, ho'⟩
  · have hl : l < 3 := by omega
    obtain ⟨o, y, s3, pos3, h1, h2, rfl⟩ := (item_accepts h hl).1 hi
    obtain ⟨o, ws, rfl, hw, hsp, hop, rfl, rfl⟩ := hsOps_sound h hl h1
    have hlen3 : s3.length ≤ n := by simp at hlen1; omega
    obtain ⟨u, b', y, rfl, hu, rfl, rfl, hs', ho'⟩ := hn hlen3 h2
    have hop : o ∈ opsAt l := by
      rcases hop with hop | ⟨rfl, rfl⟩
      · exact hop
      · exact (stuck_not_notEqual h (hs 2 (by decide) (by decide)) _ rfl).elim
    refine ⟨t ++ (o ++ (ws ++ u)), b', .op o e y, by simp, .op hop hr hw hu, hsOp_binary hl o e y, ?_, hs', ho'⟩
    simp only [moveOver_append]

theorem level_sound (h : E.MetaHs) {n l : Nat} (hl : l < 4) (hn : HsSound E n (l + 1) (hsLevel (l + 1))) :
    HsSound E n l (hsLevel l) := by
  intro s pos v s' pos' hlen ha
  rw [hsLevel_eq hl] at ha
  obtain ⟨x, s0, pos0, vs, m, x', h0, ⟨hst, hr⟩, hx, hf⟩ := (C18_foldl_reject_incomplete_start_with_parser ..).1 ha
  obtain ⟨t, b, e, ht, hte, rfl, hp, hs, ho⟩ := hn hlen h0
  rw [tree_force] at hx
  injection hx with hx
  subst hx
  have key : ∀ {s0 pos0 vs s' pos'}, Steps E (hsItem l) s0 pos0 vs s' pos' → ∀ {t b e}, s = t ++ s0 →
      HsText true l b t s0 e → pos0 = moveOver pos t → (∀ k, l + 1 ≤ k → k ≤ 3 → Stuck E k s0 pos0) →
      (b = false → ∀ k, k ≤ 3 → Stuck E k s0 pos0) → leftFold (hsOp l) e.tree vs = .ok v →
      ∃ t' b' e', s = t' ++ s' ∧ HsText true l b' t' s' e' ∧ v = e'.tree ∧ pos' = moveOver pos t' ∧
        (∀ k, l + 1 ≤ k → k ≤ 3 → Stuck E k s' pos') ∧ (b' = false → ∀ k, k ≤ 3 → Stuck E k s' pos') := by
    intro s0 pos0 vs s' pos' hst
    induction hst with
    | nil s0 pos0 =>
      intro t b e ht hte hp hs ho hf
      injection hf with hf
      exact ⟨t, b, e, ht, hte, hf.symm, hp, hs, ho⟩
    | @cons s0 pos0 w s1 pos1 vs s2 pos2 hi hst ih =>
      intro t b e ht hte hp hs ho hf
      obtain ⟨t', b', e', ht', hte', hv, hp', hs', ho'⟩ := HsRead.item h hl hn hlen ht hte rfl hp hs ho hi
      simp only [leftFold, hv, Out.bind_ok] at hf
      exact ih ht' hte' hp' hs' ho' hf
  obtain ⟨t', b', e', ht', hte', hv, hp', hs', ho'⟩ := key hst ht (.lift hl hte) hp hs ho hf
  refine ⟨t', b', e', ht', hte', hv, hp', ?_, ho'⟩
  intro k hk hk3
  by_cases hkl : k = l
  · subst hkl
    exact ⟨m, hr⟩
  · exact hs' k (by omega) hk3

/-- All that follows an expression is something else. -/
theorem expression_sound (h : E.MetaHs) {n : Nat} (hn : HsSound E n 4 singleExp) : HsSound E n 0 (hsLevel 0) :=
  level_sound h (by decide) (level_sound h (by decide) (level_sound h (by decide) (level_sound h (by decide) hn)))

theorem name_of_stuck (h : E.MetaHs) {s : List Chr} {pos : Pos} (hs : Stuck E 3 s pos) :
    ∃ m e, Rejects E name s pos m e := by
  obtain ⟨m, hr⟩ := hs
  obtain ⟨m, e, hr⟩ := (C20_oneOf_rejects_iff _ h.oneOf4 s pos).1 ⟨m, _, hr⟩ (.transform name Semantic.ref) (by simp)
  exact ⟨m, e, (C36_transform_rejects ..).1 hr⟩

theorem beginsWith_front {f : Chr → Bool} {a b c : List Chr} (h : beginsWith f (a ++ (b ++ c)) = false) :
    beginsWith f (a ++ b) = false := by
  cases a with
  | nil => cases b with
    | nil => rfl
    | cons d b => exact h
  | cons d a => exact h

theorem single_sound (h : E.MetaHs) {n : Nat} (hn : ∀ k, k < n → HsSound E k 0 (hsLevel 0)) :
    HsSound E n 4 singleExp := by
  intro s pos v s' pos' hlen ha
  obtain ⟨-, pre, p, post, he, -, ha⟩ := (C19_oneOf_accepts _ h.oneOf4 ..).1 ha
  have hp : p ∈ [ifExp, .transform Token.name Semantic.ref, .transform Token.int_ Semantic.value, bracketExp] := by
    rw [he]; simp
  clear he
  simp only [List.mem_cons, List.not_mem_nil, or_false] at hp
  rcases hp with rfl | rfl | rfl | rfl
  · obtain ⟨q, hq, hv⟩ := (C36_transform_accepts ..).1 ha
    obtain ⟨vs, hi, rfl⟩ := (C22_sequence_accepts _ h.seq3 ..).1 hq
    obtain ⟨c, t, e, s1, pos1, s2, pos2, rfl, h1, h2, h3⟩ := hi.three
    obtain ⟨x1, r1, q1, h1, g1⟩ := (lastOf_two h.nth2).1 h1
    obtain ⟨x2, r2, q2, h2, g2⟩ := (lastOf_two h.nth2).1 h2
    obtain ⟨x3, r3, q3, h3, g3⟩ := (lastOf_two h.nth2).1 h3
    obtain ⟨ws1, rfl, hw1, hs1, rfl, rfl⟩ := (keywordToken_accepts h).1 h1
    have hl1 : r1.length < n := by simp [txt] at hlen; omega
    obtain ⟨tc, b1, c, rfl, hc, rfl, rfl, st1, -⟩ := hn _ hl1 (Nat.le_refl _) ((ref_accepts h).1 g1)
    obtain ⟨ws2, rfl, hw2, hs2, rfl, rfl⟩ := (keywordToken_accepts h).1 h2
    have hl2 : r2.length < n := by simp [txt] at hlen; omega
    obtain ⟨tt, b2, t, rfl, ht, rfl, rfl, st2, -⟩ := hn _ hl2 (Nat.le_refl _) ((ref_accepts h).1 g2)
    obtain ⟨ws3, rfl, hw3, hs3, rfl, rfl⟩ := (keywordToken_accepts h).1 h3
    have hl3 : r3.length < n := by simp [txt] at hlen; omega
    obtain ⟨te, b3, e, rfl, he, rfl, rfl, st3, ho3⟩ := hn _ hl3 (Nat.le_refl _) ((ref_accepts h).1 g3)
    obtain ⟨_, _, n2⟩ := name_of_stuck h (st1 3 (by decide) (by decide))
    obtain ⟨_, _, n3⟩ := name_of_stuck h (st2 3 (by decide) (by decide))
    have n2 := keyword_ends h (.inl rfl) n2
    have n3 := keyword_ends h (.inr rfl) n3
    refine ⟨txt "if" ++ (ws1 ++ (tc ++ (txt "then" ++ (ws2 ++ (tt ++ (txt "else" ++ (ws3 ++ te))))))), false,
      .cond c t e, by simp, .cond hw1 hw2 hw3 (by simp) hc (beginsWith_front n2) ht (beginsWith_front n3) he, ?_, ?_,
      fun k hk hk' => by omega, fun _ k hk => st3 k (by omega) hk⟩
    · injection hv with hv
      exact hv.symm
    · simp only [moveOver_append]
  · obtain ⟨x, hx, hv⟩ := (C36_transform_accepts ..).1 ha
    obtain ⟨w, ws, rfl, hw, hws, hn, hs, rfl, rfl⟩ := name_sound h hx
    injection hv with hv
    exact ⟨w ++ ws, true, .var w, by simp, .var hw hws hn hs (by simp), hv.symm, rfl, fun k hk hk' => by omega,
      by simp⟩
  · obtain ⟨x, hx, hv⟩ := (C36_transform_accepts ..).1 ha
    obtain ⟨w, ws, rfl, hne, hd, hb, hws, hnd, hs, rfl, rfl⟩ := (hsInt_accepts h).1 hx
    injection hv with hv
    exact ⟨w ++ ws, true, .num (decimal w), by simp, .num hne hd hb hws hnd hs, hv.symm, rfl,
      fun k hk hk' => by omega, by simp⟩
  · obtain ⟨v1, v3, hi⟩ := (C25_middleOf_accepts _ _ _ h.nth3 ..).1 ha
    obtain ⟨a, b, c, s1, pos1, s2, pos2, he, h1, h2, h3⟩ := hi.three
    obtain ⟨rfl, rfl, rfl⟩ : v1 = a ∧ v = b ∧ v3 = c := by simpa using he
    obtain ⟨ws, rfl, hw, hs, rfl, rfl⟩ := (litToken_accepts h).1 h1
    have hl1 : s1.length < n := by simp at hlen; omega
    obtain ⟨t, b, e, rfl, ht, rfl, rfl, -, -⟩ := hn _ hl1 (Nat.le_refl _) ((ref_accepts h).1 h2)
    obtain ⟨ws', rfl, hw', hs', rfl, rfl⟩ := (litToken_accepts h).1 h3
    refine ⟨ch '(' :: (ws ++ (t ++ ch ')' :: ws')), true, e, by simp, .brackets hw ht hw' hs', rfl, ?_,
      fun k hk hk' => by omega, by simp⟩
    rw [← moveOver_append, ← moveOver_append]
    simp

/-- Whatever the parser accepts is an expression. -/
theorem hs_sound (h : E.MetaHs) {s : List Chr} {pos : Pos} {v : Val} {s' : List Chr} {pos' : Pos}
    (ha : Accepts E (.ref expressionId) s pos v s' pos') : ∃ t b e, HsRead E 0 s pos v s' pos' t b e := by
  have : ∀ n, HsSound E n 0 (hsLevel 0) := by
    intro n
    induction n using Nat.strongRecOn with
    | ind n ih => exact expression_sound h (single_sound h ih)
  exact this _ (Nat.le_refl _) ((ref_accepts h).1 ha)

end Metaparse
