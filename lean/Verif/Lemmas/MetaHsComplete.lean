import Verif.Lemmas.MetaHsLevels
/-!
# The parser of `meta_hs` accepts its language
-/

namespace Metaparse

variable {E : Env (List Chr)}

open MetaHs MetaHs.Token

/-- What follows does not begin with an argument. -/
def EndsApp (r : List Chr) : Prop :=
  beginsWith (fun c => nameChar c || c == ch '(') r = false ∨
    r.takeWhile nameChar = txt "then" ∨ r.takeWhile nameChar = txt "else"

/-- What follows does not continue an expression of the level. -/
structure Stop (l : Nat) (r : List Chr) : Prop where
  app : l ≤ 3 → EndsApp r
  ops : ∀ k, l ≤ k → k < 3 → beginsWith (opFirst k) r = false

theorem Stop.mono {l l' : Nat} {r : List Chr} (h : Stop l r) (hl : l ≤ l') : Stop l' r :=
  ⟨fun h' => h.app (Nat.le_trans hl h'), fun k hk => h.ops k (Nat.le_trans hl hk)⟩

theorem stop_high {l : Nat} (hl : 4 ≤ l) (r : List Chr) : Stop l r :=
  ⟨fun h => by omega, fun k hk hk' => by omega⟩

theorem EndsApp.stuck (h : E.MetaHs) {r : List Chr} (hr : EndsApp r) (pos : Pos) : Stuck E 3 r pos := by
  show ∃ m, Rejects E singleExp r pos m pos
  rcases hr with hr | hr
  · have hn : beginsWith nameChar r = false := beginsWith_mono (fun c hc => by simp [hc]) hr
    refine single_rejects h pos ?_ (.inl (beginsWith_mono (fun c hc => nameStart_nameChar hc) hn))
      (beginsWith_mono (fun c hc => by simp [nameChar, hc]) hn) ?_
    · cases r with
      | nil => simp
      | cons c r =>
        rintro he
        injection he with he
        subst he
        cases hr
    · cases r with
      | nil => simp
      | cons c r =>
        rintro he
        injection he with he
        subst he
        cases hr
  · have hw : ∃ c w, r.takeWhile nameChar = c :: w ∧ (c = ch 't' ∨ c = ch 'e') := by
      rcases hr with hr | hr
      · exact ⟨_, _, hr, .inl rfl⟩
      · exact ⟨_, _, hr, .inr rfl⟩
    obtain ⟨c, w, he, hc⟩ := hw
    obtain ⟨r', rfl⟩ : ∃ r', r = c :: r' := by
      have := List.takeWhile_append_dropWhile (p := nameChar) (l := r)
      rw [he] at this
      exact ⟨_, this.symm⟩
    refine single_rejects h pos ?_ (.inr ?_) ?_ ?_
    · rcases hc with rfl | rfl <;> exact fun h => absurd (Option.some.inj h) (by decide)
    · rcases hr with hr | hr <;> rw [hr] <;> decide
    · rcases hc with rfl | rfl <;> rfl
    · rcases hc with rfl | rfl <;> exact fun h => absurd (Option.some.inj h) (by decide)

theorem Stop.stuck (h : E.MetaHs) {l : Nat} {r : List Chr} (hr : Stop l r) {k : Nat} (hk : l ≤ k) (hk3 : k ≤ 3)
    (pos : Pos) : Stuck E k r pos := by
  by_cases h3 : k = 3
  · subst h3
    exact (hr.app hk).stuck h pos
  · have hlt : k < 3 := by omega
    obtain ⟨m, hm⟩ := hsOps_rejects h hlt pos (hr.ops k hk hlt)
    exact ⟨m, item_rejects h hlt hm⟩

/-- A chain of items that may go on. -/
def HsChain (E : Env (List Chr)) (l : Nat) (s : List Chr) (pos : Pos) (r : List Chr) (pos' : Pos) (v : Val) : Prop :=
  if l < 4 then ∃ x s0 pos0 vs, Accepts E (hsLevel (l + 1)) s pos x s0 pos0 ∧ x.force = .ok x ∧
    Steps E (hsItem l) s0 pos0 vs r pos' ∧ leftFold (hsOp l) x vs = .ok v
  else Accepts E singleExp s pos v r pos'

theorem HsChain.close (h : E.MetaHs) {l : Nat} (hl : l ≤ 4) {s : List Chr} {pos : Pos} {r : List Chr} {pos' : Pos}
    {v : Val} (hc : HsChain E l s pos r pos' v) (hr : Stop l r) : Accepts E (hsLevel l) s pos v r pos' := by
  unfold HsChain at hc
  by_cases h4 : l < 4
  · rw [if_pos h4] at hc
    obtain ⟨x, s0, pos0, vs, h0, hx, hs, hf⟩ := hc
    obtain ⟨m, hm⟩ := hr.stuck h (Nat.le_refl l) (by omega) pos'
    rw [hsLevel_eq h4]
    exact (C18_foldl_reject_incomplete_start_with_parser ..).2 ⟨x, s0, pos0, vs, m, x, h0, ⟨hs, hm⟩, hx, hf⟩
  · rw [if_neg h4] at hc
    obtain rfl : l = 4 := by omega
    exact hc

theorem HsText.level {lax : Bool} {l : Nat} {b : Bool} {t r : List Chr} {e : HsExp} (ht : HsText lax l b t r e) :
    l ≤ 4 := by
  induction ht with
  | num => exact Nat.le_refl _
  | var => exact Nat.le_refl _
  | brackets => exact Nat.le_refl _
  | cond => exact Nat.le_refl _
  | lift h _ _ => exact Nat.le_of_lt h
  | app => decide
  | op h _ _ _ _ ih => exact Nat.le_of_succ_le ih

theorem opsAt_lt {l : Nat} {o : List Chr} (h : o ∈ opsAt l) : l < 3 := by
  match l, h with
  | 0, _ => decide
  | 1, _ => decide
  | 2, _ => decide

/-- What expressions begin with. -/
theorem HsText.begins {lax : Bool} {l : Nat} {b : Bool} {t r : List Chr} {e : HsExp} (ht : HsText lax l b t r e) :
    beginsWith (fun c => nameChar c || c == ch '(') t = true := by
  have hap : ∀ {f : Chr → Bool} {t u : List Chr}, beginsWith f t = true → beginsWith f (t ++ u) = true := by
    intro f t u h
    cases t with
    | nil => cases h
    | cons c t => exact h
  induction ht with
  | @num w ws r hne hd =>
    refine hap ?_
    cases w with
    | nil => exact (hne rfl).elim
    | cons c w => simp [beginsWith, nameChar, hd c (by simp)]
  | @var w ws r hw =>
    refine hap ?_
    cases w with
    | nil => exact absurd hw.starts (by simp [beginsWith])
    | cons c w => simp [beginsWith, hw.chars c (by simp)]
  | brackets => rfl
  | cond => rfl
  | lift _ _ ih => exact ih
  | app _ _ ih _ => exact hap ih
  | op _ _ _ _ ih _ => exact hap ih

theorem HsText.not_space {lax : Bool} {l : Nat} {b : Bool} {t r : List Chr} {e : HsExp}
    (ht : HsText lax l b t r e) (u : List Chr) : beginsWith spaceChar (t ++ u) = false := by
  have := ht.begins
  cases t with
  | nil => cases this
  | cons c t =>
    simp only [beginsWith, Bool.or_eq_true, beq_iff_eq] at this
    rcases this with h | rfl
    · exact nameChar_not_space h
    · rfl

theorem HsText.not_equal {lax : Bool} {l : Nat} {b : Bool} {t r : List Chr} {e : HsExp}
    (ht : HsText lax l b t r e) {ws : List Chr} (hw : AllSpace ws) (u : List Chr) :
    (ws ++ (t ++ u)).head? ≠ some (ch '=') := by
  cases ws with
  | cons c ws =>
    intro he
    injection he with he
    subst he
    exact absurd (hw _ (List.mem_cons_self ..)) (by decide)
  | nil =>
    have := ht.begins
    cases t with
    | nil => cases this
    | cons c t =>
      intro he
      injection he with he
      subst he
      cases this

theorem stop_word {k r : List Chr} (hk : k = txt "then" ∨ k = txt "else") (hr : beginsWith nameChar r = false) :
    Stop 0 (k ++ r) := by
  refine ⟨fun _ => .inr ?_, ?_⟩
  · rw [(takeWhile_append nameChar k r (by rcases hk with rfl | rfl <;> decide) hr).1]
    exact hk
  · intro l _ hl
    match l, hl with
    | 0, _ => rcases hk with rfl | rfl <;> rfl
    | 1, _ => rcases hk with rfl | rfl <;> rfl
    | 2, _ => rcases hk with rfl | rfl <;> rfl

theorem stop_close (r : List Chr) : Stop 0 (ch ')' :: r) := by
  refine ⟨fun _ => .inl rfl, ?_⟩
  intro l _ hl
  match l, hl with
  | 0, _ => rfl
  | 1, _ => rfl
  | 2, _ => rfl

theorem stop_nil : Stop 0 [] := by
  refine ⟨fun _ => .inl rfl, ?_⟩
  intro l _ hl
  rfl

theorem stop_op {l : Nat} {o : List Chr} (ho : o ∈ opsAt l) (r : List Chr) : Stop (l + 1) (o ++ r) := by
  match l, opsAt_lt ho with
  | 0, _ =>
    simp only [opsAt, List.mem_cons, List.not_mem_nil, or_false] at ho
    refine ⟨fun _ => .inl ?_, ?_⟩
    · rcases ho with rfl | rfl | rfl | rfl | rfl <;> rfl
    · intro k hk hk3
      match k, hk, hk3 with
      | 1, _, _ => rcases ho with rfl | rfl | rfl | rfl | rfl <;> rfl
      | 2, _, _ => rcases ho with rfl | rfl | rfl | rfl | rfl <;> rfl
  | 1, _ =>
    simp only [opsAt, List.mem_cons, List.not_mem_nil, or_false] at ho
    refine ⟨fun _ => .inl ?_, ?_⟩
    · rcases ho with rfl | rfl <;> rfl
    · intro k hk hk3
      match k, hk, hk3 with
      | 2, _, _ => rcases ho with rfl | rfl <;> rfl
  | 2, _ =>
    simp only [opsAt, List.mem_cons, List.not_mem_nil, or_false] at ho
    refine ⟨fun _ => .inl ?_, ?_⟩
    · rcases ho with rfl | rfl <;> rfl
    · intro k hk hk3
      omega

/-- Which alternative of `single_exp` is taken. -/
theorem single_accepts (h : E.MetaHs) {s : List Chr} {pos : Pos} {v : Val} {s' : List Chr} {pos' : Pos} {p : P}
    (hp : p ∈ [ifExp, .transform Token.name Semantic.ref, .transform Token.int_ Semantic.value, bracketExp])
    (ha : Accepts E p s pos v s' pos')
    (hq : ∀ q ∈ [ifExp, .transform Token.name Semantic.ref, .transform Token.int_ Semantic.value, bracketExp],
      q ≠ p → ∃ m e, Rejects E q s pos m e) : Accepts E singleExp s pos v s' pos' := by
  refine (C19_oneOf_accepts _ h.oneOf4 ..).2 ⟨?_, ?_⟩
  · intro q hq'
    by_cases he : q = p
    · subst he
      exact ⟨_, ha⟩
    · obtain ⟨m, e, hr⟩ := hq q hq' he
      exact ⟨_, hr⟩
  · rcases first_or_all (A := fun q => q = p) (R := fun q => q ≠ p ∧ ∃ m e, Rejects E q s pos m e)
      [ifExp, .transform Token.name Semantic.ref, .transform Token.int_ Semantic.value, bracketExp] (by
        intro q hq'
        by_cases he : q = p
        · exact .inl he
        · exact .inr ⟨he, hq q hq' he⟩) with ⟨pre, q, post, he, h1, rfl⟩ | hall
    · exact ⟨pre, q, post, he, fun q hq => (h1 q hq).2, ha⟩
    · exact ((hall p hp).1 rfl).elim

theorem ifExp_rejects (h : E.MetaHs) {s : List Chr} (pos : Pos) (hs : ¬ txt "if" <+: s) :
    ∃ m e, Rejects E ifExp s pos m e := by
  have : ∃ m e, Rejects E (.keyword (txt "if") .void_) s pos m e := by
    by_cases h1 : s.head? = some (ch 'i')
    · cases s with
      | nil => cases h1
      | cons c s =>
        injection h1 with h1
        subst h1
        refine ⟨_, _, (C27_keyword_rejects h.onText ..).2 ⟨[ch 'i'], ch 'f', [], s, rfl, rfl, ?_, rfl, rfl⟩⟩
        intro h2
        cases s with
        | nil => cases h2
        | cons d s =>
          injection h2 with h2
          subst h2
          exact hs ⟨s, rfl⟩
    · exact ⟨_, _, (C27_keyword_rejects h.onText ..).2 ⟨[], ch 'i', [ch 'f'], s, rfl, rfl, h1, rfl, rfl⟩⟩
  obtain ⟨m, e, hr⟩ := this
  exact ⟨m, e, (C36_transform_rejects ..).2 (sequence_rejects_first h.seq3 (lastOf_rejects_first h.nth2
    ((C29_token_rejects h.onText h.nth2 ..).2 hr)))⟩

theorem bracketExp_rejects (h : E.MetaHs) {s : List Chr} (pos : Pos) (hs : s.head? ≠ some (ch '(')) :
    ∃ m e, Rejects E bracketExp s pos m e := by
  obtain ⟨m, hr⟩ := litToken_rejects h pos hs
  exact ⟨m, _, (C25_middleOf_rejects _ _ _ h.nth3 ..).2 (.inl ⟨[], _, _, [], s, pos, rfl, .nil .., hr⟩)⟩

theorem intExp_rejects (h : E.MetaHs) {s : List Chr} (pos : Pos) (hs : beginsWith digitChar s = false) :
    ∃ m e, Rejects E (.transform Token.int_ Semantic.value) s pos m e := by
  obtain ⟨m, hr⟩ := hsInt_rejects h pos hs
  exact ⟨m, _, (C36_transform_rejects ..).2 hr⟩

theorem nameExp_rejects (h : E.MetaHs) {s : List Chr} (pos : Pos) (hs : beginsWith nameStart s = false ∨
    s.takeWhile nameChar ∈ keywords) : ∃ m e, Rejects E (.transform Token.name Semantic.ref) s pos m e := by
  obtain ⟨m, hr⟩ := name_rejects h pos hs
  exact ⟨m, _, (C36_transform_rejects ..).2 hr⟩

theorem head_of_begins {f : Chr → Bool} {s : List Chr} (h : beginsWith f s = true) {c : Chr} (hc : f c = false) :
    s.head? ≠ some c := by
  cases s with
  | nil => simp
  | cons d s =>
    intro he
    injection he with he
    subst he
    rw [beginsWith, hc] at h
    cases h

theorem nameStart_not_digit {c : Chr} (h : nameStart c = true) : digitChar c = false := by
  simp only [nameStart, letterChar, digitChar, ch] at *
  simp at *
  omega

theorem begins_disjoint {f g : Chr → Bool} {s : List Chr} (h : beginsWith f s = true)
    (hd : ∀ c, f c = true → g c = false) : beginsWith g s = false := by
  cases s with
  | nil => rfl
  | cons c s => exact hd c h

/-- Every text of the language is accepted by the parser of its level, as far as it goes. -/
theorem hs_chain (h : E.MetaHs) {l : Nat} {b : Bool} {t r : List Chr} {e : HsExp} (ht : HsText false l b t r e) :
    ∀ pos, (b = true → Stop (l + 1) r) → (b = false → Stop 0 r) →
      HsChain E l (t ++ r) pos r (moveOver pos t) e.tree := by
  have hclose : ∀ {l b t r e pos}, l ≤ 4 → ((b = true → Stop (l + 1) r) → (b = false → Stop 0 r) →
      HsChain E l (t ++ r) pos r (moveOver pos t) e) → Stop l r →
      (b = false → Stop 0 r) → Accepts E (hsLevel l) (t ++ r) pos e r (moveOver pos t) := by
    intro l b t r e pos hl ih h1 h2
    exact (ih (fun _ => h1.mono (Nat.le_succ l)) h2).close h hl h1
  induction ht with
  | @num w ws r hne hd hm hws hnd hs =>
    intro pos _ _
    have hb : ∀ u, beginsWith digitChar (w ++ u) = true := by
      intro u
      cases w with
      | nil => exact (hne rfl).elim
      | cons c w => exact hd c (by simp)
    refine single_accepts h (p := .transform Token.int_ Semantic.value) (by simp) ?_ ?_
    · refine (C36_transform_accepts ..).2 ⟨.int (decimal w), (hsInt_accepts h).2 ⟨w, ws, by simp, hne, hd, hm, hws,
        hnd, hs, rfl, rfl⟩, rfl⟩
    · rw [List.append_assoc]
      intro q hq hne
      simp only [List.mem_cons, List.not_mem_nil, or_false] at hq
      rcases hq with rfl | rfl | rfl | rfl
      · refine ifExp_rejects h pos ?_
        rintro ⟨u, hu⟩
        exact head_of_begins (hb (ws ++ r)) (c := ch 'i') rfl (by rw [← hu]; rfl)
      · exact nameExp_rejects h pos (.inl (begins_disjoint (hb _) fun c hc => by
          cases hn : nameStart c with
          | false => rfl
          | true => rw [nameStart_not_digit hn] at hc; cases hc))
      · exact (hne rfl).elim
      · exact bracketExp_rejects h pos (head_of_begins (hb _) rfl)
  | @var w ws r hw hws hn hs hif =>
    intro pos _ _
    have hb : ∀ u, beginsWith nameStart (w ++ u) = true := by
      intro u
      have := hw.starts
      cases w with
      | nil => cases this
      | cons c w => exact this
    refine single_accepts h (p := .transform Token.name Semantic.ref) (by simp) ?_ ?_
    · rw [List.append_assoc]
      exact (C36_transform_accepts ..).2 ⟨.str w, name_accepts h pos hw hws hn hs, rfl⟩
    · rw [List.append_assoc]
      intro q hq hne
      simp only [List.mem_cons, List.not_mem_nil, or_false] at hq
      rcases hq with rfl | rfl | rfl | rfl
      · refine ifExp_rejects h pos ?_
        rintro ⟨u, hu⟩
        have h1 : txt "if" <+: w ∨ w <+: txt "if" :=
          List.prefix_or_prefix_of_prefix (l₃ := w ++ (ws ++ r)) ⟨u, hu⟩ ⟨_, rfl⟩
        rcases h1 with h1 | ⟨v, hv⟩
        · exact hif rfl h1
        · match v with
          | [] => rw [List.append_nil] at hv; exact hw.notIf hv
          | c :: v =>
            rw [← hv, List.append_assoc] at hu
            have hu := List.append_cancel_left hu
            rw [← hu] at hn
            have hc : c ∈ txt "if" := by rw [← hv]; simp
            have := (by decide : ∀ c ∈ txt "if", nameChar c = true) c hc
            rw [List.cons_append, beginsWith, this] at hn
            cases hn
      · exact (hne rfl).elim
      · exact intExp_rejects h pos (begins_disjoint (hb _) fun c hc => nameStart_not_digit hc)
      · exact bracketExp_rejects h pos (head_of_begins (hb _) rfl)
  | @brackets ws t ws' r b e hws ht hws' hr ih =>
    intro pos _ _
    refine single_accepts h (p := bracketExp) (by simp) ?_ ?_
    · have h1 : Accepts E openBracket ((ch '(' :: (ws ++ (t ++ ch ')' :: ws'))) ++ r) pos (.chr (ch '('))
          (t ++ (ch ')' :: (ws' ++ r))) (moveOver pos (ch '(' :: ws)) :=
        (litToken_accepts h).2 ⟨ws, by simp, hws, ht.not_space _, rfl, rfl⟩
      have h2 := hclose (by decide) (ih (moveOver pos (ch '(' :: ws))) (stop_close _) fun _ => stop_close _
      have h3 : Accepts E closeBracket (ch ')' :: (ws' ++ r)) (moveOver (moveOver pos (ch '(' :: ws)) t)
          (.chr (ch ')')) r (moveOver pos (ch '(' :: (ws ++ (t ++ ch ')' :: ws')))) :=
        (litToken_accepts h).2 ⟨ws', rfl, hws', hr, rfl, by rw [← moveOver_append, ← moveOver_append]; simp⟩
      exact (C25_middleOf_accepts _ _ _ h.nth3 ..).2 ⟨_, _, .cons h1 (.cons ((ref_accepts h).2 h2)
        (.cons h3 (.nil ..)))⟩
    · intro q hq hne
      simp only [List.mem_cons, List.not_mem_nil, or_false] at hq
      rcases hq with rfl | rfl | rfl | rfl
      · refine ifExp_rejects h pos ?_
        rintro ⟨u, hu⟩
        exact absurd (List.cons.inj hu).1 (by decide)
      · exact nameExp_rejects h pos (.inl rfl)
      · exact intExp_rejects h pos rfl
      · exact (hne rfl).elim
  | @cond ws1 tc ws2 tt ws3 te r b1 b2 b3 c t e hw1 hw2 hw3 hn1 hc hn2 ht hn3 he ih1 ih2 ih3 =>
    intro pos _ h0
    have h0 := h0 rfl
    have hb : ∀ {ws t : List Chr} {l b r e}, HsText false l b t r e → beginsWith nameChar (ws ++ t) = false →
        ∀ u, beginsWith nameChar (ws ++ (t ++ u)) = false := by
      intro ws t l b r e ht hn u
      cases ws with
      | cons c ws => exact hn
      | nil =>
        have := ht.begins
        cases t with
        | nil => cases this
        | cons c t => exact hn
    have s1 := stop_word (.inl rfl) (hb ht hn2 (txt "else" ++ (ws3 ++ (te ++ r))))
    have s2 := stop_word (.inr rfl) (hb he hn3 r)
    refine single_accepts h (p := ifExp) (by simp) ?_ ?_
    · have k1 : Accepts E Token.if_ (txt "if" ++ (ws1 ++ (tc ++ (txt "then" ++ (ws2 ++ (tt ++ (txt "else" ++
          (ws3 ++ (te ++ r))))))))) pos .void_ _ _ :=
        (keywordToken_accepts h).2 ⟨ws1, rfl, hw1, hc.not_space _, rfl, rfl⟩
      have g1 := hclose (by decide) (ih1 (moveOver pos (txt "if" ++ ws1))) s1 fun _ => s1
      have k2 : Accepts E Token.then_ (txt "then" ++ (ws2 ++ (tt ++ (txt "else" ++ (ws3 ++ (te ++ r))))))
          (moveOver (moveOver pos (txt "if" ++ ws1)) tc) .void_ _ _ :=
        (keywordToken_accepts h).2 ⟨ws2, rfl, hw2, ht.not_space _, rfl, rfl⟩
      have g2 := hclose (by decide) (ih2 (moveOver (moveOver (moveOver pos (txt "if" ++ ws1)) tc)
        (txt "then" ++ ws2))) s2 fun _ => s2
      have k3 : Accepts E Token.else_ (txt "else" ++ (ws3 ++ (te ++ r))) (moveOver (moveOver (moveOver (moveOver pos
          (txt "if" ++ ws1)) tc) (txt "then" ++ ws2)) tt) .void_ _ _ :=
        (keywordToken_accepts h).2 ⟨ws3, rfl, hw3, he.not_space _, rfl, rfl⟩
      have g3 := hclose (by decide) (ih3 (moveOver (moveOver (moveOver (moveOver (moveOver pos (txt "if" ++ ws1)) tc)
        (txt "then" ++ ws2)) tt) (txt "else" ++ ws3))) h0 fun _ => h0
      refine (C36_transform_accepts ..).2 ⟨.seq [c.tree, t.tree, e.tree], (C22_sequence_accepts _ h.seq3 ..).2 ⟨_,
        .cons ((lastOf_two h.nth2).2 ⟨.void_, _, _, ?_, (ref_accepts h).2 g1⟩)
        (.cons ((lastOf_two h.nth2).2 ⟨_, _, _, k2, (ref_accepts h).2 g2⟩)
        (.cons ((lastOf_two h.nth2).2 ⟨_, _, _, k3, (ref_accepts h).2 ?_⟩) (.nil ..))), rfl⟩, rfl⟩
      · simpa using k1
      · simpa [moveOver_append] using g3
    · have ht1 : ((txt "if" ++ (ws1 ++ (tc ++ (txt "then" ++ (ws2 ++ (tt ++ (txt "else" ++ (ws3 ++ te)))))))) ++
          r).takeWhile nameChar = txt "if" := by
        rw [List.append_assoc, (takeWhile_append nameChar (txt "if") _ (by decide) ?_).1]
        rw [List.append_assoc, List.append_assoc]
        exact hb hc (hn1 rfl) _
      intro q hq hne
      simp only [List.mem_cons, List.not_mem_nil, or_false] at hq
      rcases hq with rfl | rfl | rfl | rfl
      · exact (hne rfl).elim
      · exact nameExp_rejects h pos (.inr (by rw [ht1]; decide))
      · exact intExp_rejects h pos rfl
      · exact bracketExp_rejects h pos (fun h => absurd (Option.some.inj h) (by decide))
  | @lift l b t r e hl ht ih =>
    intro pos h1 h0
    unfold HsChain
    rw [if_pos hl]
    have hs : Stop (l + 1) r := by
      cases b with
      | true => exact h1 rfl
      | false => exact (h0 rfl).mono (Nat.zero_le _)
    exact ⟨_, _, _, [], hclose hl (ih pos) hs h0, tree_force e, .nil .., rfl⟩
  | @app b t u r f a ht hu ih1 ih2 =>
    intro pos h1 h0
    have c1 := ih1 pos (fun _ => stop_high (Nat.le_refl _) _) (by simp)
    unfold HsChain at c1 ⊢
    rw [if_pos (by decide)] at c1 ⊢
    obtain ⟨x, s0, pos0, vs, g0, gx, gs, gf⟩ := c1
    have g2 := hclose (Nat.le_refl 4) (ih2 (moveOver pos t)) (stop_high (Nat.le_refl _) _) h0
    rw [moveOver_append, List.append_assoc]
    refine ⟨x, s0, pos0, vs ++ [a.tree], g0, gx, gs.append (.cons g2 (.nil ..)), ?_⟩
    rw [leftFold_snoc, gf]
    rfl
  | @op l b t o ws u r x y ho ht hws hu ih1 ih2 =>
    intro pos h1 h0
    have hl := opsAt_lt ho
    have hs : Stop (l + 1) r := by
      cases b with
      | true => exact h1 rfl
      | false => exact (h0 rfl).mono (Nat.zero_le _)
    have c1 := ih1 pos (fun _ => stop_op ho _) (by simp)
    unfold HsChain at c1 ⊢
    rw [if_pos (Nat.lt_succ_of_lt hl)] at c1 ⊢
    obtain ⟨z, s0, pos0, vs, g0, gx, gs, gf⟩ := c1
    have g2 := hclose (Nat.succ_le_of_lt (Nat.lt_succ_of_lt hl)) (ih2 (moveOver (moveOver pos t) (o ++ ws))) hs h0
    have g1 := hsOps_accepts h hl ho hws (hu.not_space r) (hu.not_equal hws r) (moveOver pos t)
    refine ⟨z, s0, pos0, vs ++ [.seq [.str (opName o), y.tree]], by simpa using g0, gx,
      gs.append (.cons ((item_accepts h hl).2 ⟨_, _, _, _, g1, g2, rfl⟩) ?_), ?_⟩
    · simp only [moveOver_append]
      exact .nil ..
    · rw [leftFold_snoc, gf, Out.bind_ok]
      exact hsOp_binary hl o x y

/-- Expressions followed by what can not continue them are accepted. -/
theorem hs_complete (h : E.MetaHs) {b : Bool} {t r : List Chr} {e : HsExp} (ht : HsText false 0 b t r e)
    (hr : Stop 0 r) (pos : Pos) : Accepts E (.ref expressionId) (t ++ r) pos e.tree r (moveOver pos t) :=
  (ref_accepts h).2 ((hs_chain h ht pos (fun _ => hr.mono (by decide)) fun _ => hr).close h (by decide) hr)

end Metaparse
