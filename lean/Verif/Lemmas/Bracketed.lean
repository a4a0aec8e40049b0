import Verif.Lemmas.ExpressionBrackets
import Verif.Props.Tutorial
/-!
# The levels of the parsers of expressions with brackets
-/

namespace Metaparse

variable {E : Env (List Chr)} {d n : Nat} {p mult plus : P}

/-- The parsers of one operator of products and of sums. -/
abbrev multOp : P := .oneOf [Tutorial.timesToken, Tutorial.dividesToken]
/-- See `multOp`. -/
abbrev plusOp : P := .oneOf [Tutorial.plusToken, Tutorial.minusToken]

theorem text1_iff18 {t : List Chr} {e : AExp} : TutorialText dialect18 d 1 t e ↔
    LeftChain (TutorialText dialect18 d 2) (multChars dialect18) t e := text1_iff_left rfl

theorem Values.congr {T T' : List Chr → AExp → Prop} (hT : ∀ t e, T' t e ↔ T t e) : Values T' = Values T := by
  have : T' = T := funext fun t => funext fun e => propext (hT t e)
  rw [this]

/-- A product. -/
theorem OnlyReads.product (h : E.Tutorial) (hm : FoldsLeft E mult multOp p)
    (hp : OnlyReads E n p (Values (TutorialText dialect18 d 2))) :
    OnlyReads E n mult (Values (TutorialText dialect18 d 1)) :=
  (hm.onlyReads h.seq2 h.multOps (multChars_ops (D := dialect18)) hp).congr fun _ _ => text1_iff18

theorem OnlyReads.sum (h : E.Tutorial) (hm : FoldsLeft E plus plusOp p)
    (hp : OnlyReads E n p (Values (TutorialText dialect18 d 1))) :
    OnlyReads E n plus (Values (TutorialText dialect18 d 0)) :=
  (hm.onlyReads h.seq2 h.plusOps plusChars_ops hp).congr fun _ _ => text0_iff

theorem ReadsAll.product (h : E.Tutorial) (hm : FoldsLeft E mult multOp p)
    (hp : ReadsAll E p (Values (TutorialText dialect18 d 2)) numCont) :
    ReadsAll E mult (Values (TutorialText dialect18 d 1)) (levelCont dialect18 1) := by
  rw [Values.congr fun _ _ => text1_iff18]
  exact hm.readsAll h.seq2 h.multOps (multChars_ops (D := dialect18)) hp (multChars_free (D := dialect18)) (solid_text dialect18 d 2)

theorem ReadsAll.sum (h : E.Tutorial) (hm : FoldsLeft E plus plusOp p)
    (hp : ReadsAll E p (Values (TutorialText dialect18 d 1)) (levelCont dialect18 1)) :
    ReadsAll E plus (Values (TutorialText dialect18 d 0)) (levelCont dialect18 0) := by
  rw [Values.congr fun _ _ => text0_iff]
  exact hm.readsAll h.seq2 h.plusOps plusChars_ops hp plusChars_free (solid_text dialect18 d 1)

theorem Decides.product (h : E.Tutorial) (hm : FoldsLeft E mult multOp p)
    (hp : Decides E p (TutorialText dialect18 d 2) numCont) :
    Decides E mult (TutorialText dialect18 d 1) (levelCont dialect18 1) :=
  (hm.decides h.seq2 h.multOps (multChars_ops (D := dialect18)) hp (multChars_free (D := dialect18)) (solid_text dialect18 d 2)).mono
    (fun _ _ => text1_iff18.1) fun _ h => h

theorem Decides.sum (h : E.Tutorial) (hm : FoldsLeft E plus plusOp p)
    (hp : Decides E p (TutorialText dialect18 d 1) (levelCont dialect18 1)) :
    Decides E plus (TutorialText dialect18 d 0) (levelCont dialect18 0) :=
  (hm.decides h.seq2 h.plusOps plusChars_ops hp plusChars_free (solid_text dialect18 d 1)).mono
    (fun _ _ => text0_iff.1) fun _ h => h

theorem Values.any {l : Nat} {t : List Chr} {v : Val} (h : Values (TutorialText dialect18 d l) t v) :
    Values (AnyDepth dialect18 l) t v := by
  obtain ⟨e, k, ht, hk, rfl⟩ := h
  exact ⟨e, k, ⟨d, ht⟩, hk, rfl⟩

theorem AtLeast.product (h : E.Tutorial) (hp : AtLeast E p (TutorialText dialect18 d 2))
    (hr : ∀ n, OnlyReads E n p (Values (AnyDepth dialect18 2))) :
    AtLeast E (Tutorial.multExp p) (TutorialText dialect18 d 1) :=
  (AtLeast.foldl h.seq2 h.multOps hp hr (AnyDepth.prefixes (prefixes_two dialect18)) (fun _ _ h => ⟨d, h⟩)
    (solid_any _ _) (multChars_free (D := dialect18))).mono fun _ _ => text1_iff18.1

theorem AtLeast.sum (h : E.Tutorial) (hp : AtLeast E p (TutorialText dialect18 d 1))
    (hr : ∀ n, OnlyReads E n p (Values (AnyDepth dialect18 1))) :
    AtLeast E (Tutorial.plusExp p) (TutorialText dialect18 d 0) :=
  (AtLeast.foldl h.seq2 h.plusOps hp hr (AnyDepth.prefixes (prefixes_one dialect18)) (fun _ _ h => ⟨d, h⟩)
    (solid_any _ _) plusChars_free).mono fun _ _ => text0_iff.1

/-! ## Recursive classes -/

/-- A number, or what `r` reads in brackets. -/
abbrev primaryExp (r : P) (more : List P) : P := .oneOf (Tutorial.intToken :: brackets r :: more)

/-- `plus` reads sums whose operands are numbers or what `r` reads in brackets. -/
structure Bracketed (E : Env (List Chr)) (r : P) (more : List P) (mult plus : P) : Prop where
  tutorial : E.Tutorial
  supports : E.SupportsOneOf (more.length + 2)
  never : NeverAccepts E more
  product : FoldsLeft E mult multOp (Tutorial.unaryExp (primaryExp r more))
  sum : FoldsLeft E plus plusOp mult

variable {r : P} {more : List P}

theorem Bracketed.onlyReads_step (h : Bracketed E r more mult plus)
    (hr : ∀ k, k < n → OnlyReads E k r (Values (TutorialText dialect18 d 0))) :
    OnlyReads E n (primaryExp r more) (Values (TutorialText dialect18 (d + 1) 3)) :=
  (OnlyReads.primary h.tutorial h.supports h.never (OnlyReads.brackets h.tutorial hr)).congr
    fun _ _ => text3_succ'

theorem Bracketed.onlyReads_mult (h : Bracketed E r more mult plus)
    (hp : OnlyReads E n (primaryExp r more) (Values (TutorialText dialect18 d 3))) :
    OnlyReads E n mult (Values (TutorialText dialect18 d 1)) :=
  .product h.tutorial h.product (.unary h.tutorial rfl hp)

theorem Bracketed.readsAll_step (h : Bracketed E r more mult plus)
    (hr : ReadsAll E r (Values (TutorialText dialect18 d 0)) (levelCont dialect18 0)) :
    ReadsAll E (primaryExp r more) (Values (TutorialText dialect18 (d + 1) 3)) numCont := by
  rw [Values.congr fun _ _ => text3_succ']
  exact ReadsAll.primary h.tutorial h.supports h.never
    (ReadsAll.brackets h.tutorial hr (close_stops dialect18 []) (solid_text dialect18 d 0))

theorem Bracketed.readsAll_mult (h : Bracketed E r more mult plus)
    (hp : ReadsAll E (primaryExp r more) (Values (TutorialText dialect18 d 3)) numCont) :
    ReadsAll E mult (Values (TutorialText dialect18 d 1)) (levelCont dialect18 1) :=
  .product h.tutorial h.product (.unary h.tutorial hp)

theorem Bracketed.decides_step (h : Bracketed E r more mult plus)
    (hr : Decides E r (TutorialText dialect18 d 0) (levelCont dialect18 0)) :
    Decides E (primaryExp r more) (TutorialText dialect18 (d + 1) 3) numCont :=
  (Decides.primary h.tutorial h.supports (Decides.brackets h.tutorial hr (solid_text dialect18 d 0))).mono
    (fun _ _ => text3_succ'.1) fun _ h => h

theorem Bracketed.decides_mult (h : Bracketed E r more mult plus)
    (hp : Decides E (primaryExp r more) (TutorialText dialect18 d 3) numCont) :
    Decides E mult (TutorialText dialect18 d 1) (levelCont dialect18 1) :=
  .product h.tutorial h.product (.unary h.tutorial hp)

/-- The expression in brackets is of the same kind. -/
structure Recurses (E : Env (List Chr)) (r : P) (more : List P) (mult plus : P) : Prop extends
    Bracketed E r more mult plus where
  again : ∀ s pos, run E r s pos = run E plus s pos

theorem OnlyReads.of_run {p q : P} {L : List Chr → Val → Prop} (h : OnlyReads E n q L)
    (he : ∀ s pos, run E p s pos = run E q s pos) : OnlyReads E n p L := by
  intro s pos v s' pos' hn ha
  exact h s pos v s' pos' hn (by unfold Accepts at ha ⊢; rw [← he]; exact ha)

theorem ReadsAll.of_run {p q : P} {L : List Chr → Val → Prop} {cont : Chr → Bool} (h : ReadsAll E q L cont)
    (he : ∀ s pos, run E p s pos = run E q s pos) : ReadsAll E p L cont := by
  intro t v rest pos ht hb
  obtain ⟨pos', ha⟩ := h t v rest pos ht hb
  exact ⟨pos', by unfold Accepts at ha ⊢; rw [he]; exact ha⟩

theorem Decides.of_run {p q : P} {T : List Chr → AExp → Prop} {cont : Chr → Bool} (h : Decides E q T cont)
    (he : ∀ s pos, run E p s pos = run E q s pos) : Decides E p T cont :=
  fun t e rest pos r ht hb hr => h t e rest pos r ht hb (by rw [← he]; exact hr)

theorem AtLeast.of_run {p q : P} {T : List Chr → AExp → Prop} (h : AtLeast E q T)
    (he : ∀ s pos, run E p s pos = run E q s pos) : AtLeast E p T :=
  fun t e rest pos r ht hr => h t e rest pos r ht (by rw [← he]; exact hr)

theorem OnlyReads.deeper {l d' : Nat} (h : OnlyReads E n p (Values (TutorialText dialect18 d l))) (hd : d ≤ d') :
    OnlyReads E n p (Values (TutorialText dialect18 d' l)) :=
  h.mono fun _ _ ⟨e, k, h1, h2, h3⟩ => ⟨e, k, h1.mono hd, h2, h3⟩

theorem Recurses.onlyReads_primary (h : Recurses E r more mult plus) (n : Nat) :
    OnlyReads E n (primaryExp r more) (Values (TutorialText dialect18 (n + 1) 3)) := by
  induction n using Nat.strongRecOn with
  | _ n ih =>
    refine h.onlyReads_step fun k hk => ?_
    exact ((OnlyReads.sum h.tutorial h.sum (h.onlyReads_mult (ih k hk))).of_run h.again).deeper hk

theorem Recurses.onlyReads (h : Recurses E r more mult plus) (n : Nat) :
    OnlyReads E n plus (Values (TutorialText dialect18 (n + 1) 0)) :=
  .sum h.tutorial h.sum (h.onlyReads_mult (h.onlyReads_primary n))

theorem Recurses.primary_any (h : Recurses E r more mult plus) (n : Nat) :
    OnlyReads E n (primaryExp r more) (Values (AnyDepth dialect18 3)) :=
  (h.onlyReads_primary n).mono fun _ _ => Values.any

theorem Recurses.unary_any (h : Recurses E r more mult plus) (n : Nat) :
    OnlyReads E n (Tutorial.unaryExp (primaryExp r more)) (Values (AnyDepth dialect18 2)) :=
  (OnlyReads.unary h.tutorial rfl (h.onlyReads_primary n)).mono fun _ _ => Values.any

theorem Recurses.mult_any (h : Recurses E r more mult plus) (n : Nat) :
    OnlyReads E n mult (Values (AnyDepth dialect18 1)) :=
  (h.onlyReads_mult (h.onlyReads_primary n)).mono fun _ _ => Values.any

theorem Recurses.sum_any (h : Recurses E r more mult plus) (n : Nat) :
    OnlyReads E n plus (Values (AnyDepth dialect18 0)) :=
  (h.onlyReads n).mono fun _ _ => Values.any

theorem Recurses.readsAll_primary (h : Recurses E r more mult plus) (d : Nat) :
    ReadsAll E (primaryExp r more) (Values (TutorialText dialect18 d 3)) numCont := by
  induction d with
  | zero =>
    rw [Values.congr fun _ _ => text3_zero]
    intro t v rest pos ⟨e, k, ht, hk, hv⟩ hb
    have := ReadsAll.primary (A := fun _ _ => False) (p := r) h.tutorial h.supports h.never (by
      rintro t v rest pos ⟨e, k, ⟨ws, u, ws', -, hu, -⟩, -⟩; exact hu.elim)
    exact this t v rest pos ⟨e, k, .inl ht, hk, hv⟩ hb
  | succ d ih =>
    exact h.readsAll_step ((ReadsAll.sum h.tutorial h.sum (h.readsAll_mult ih)).of_run h.again)

theorem Recurses.decides_primary (h : Recurses E r more mult plus) (d : Nat) :
    Decides E (primaryExp r more) (TutorialText dialect18 d 3) numCont := by
  induction d with
  | zero =>
    refine (Decides.primary (A := fun _ _ => False) h.tutorial h.supports ?_).mono
      (fun _ _ ht => .inl (text3_zero.1 ht)) fun _ h => h
    rintro t e rest pos r ⟨ws, u, ws', -, hu, -⟩; exact hu.elim
  | succ d ih =>
    exact h.decides_step ((Decides.sum h.tutorial h.sum (h.decides_mult ih)).of_run h.again)

theorem Recurses.readsAll (h : Recurses E r more mult plus) (d : Nat) :
    ReadsAll E plus (Values (TutorialText dialect18 d 0)) (levelCont dialect18 0) :=
  .sum h.tutorial h.sum (h.readsAll_mult (h.readsAll_primary d))

theorem Recurses.decides (h : Recurses E r more mult plus) (d : Nat) :
    Decides E plus (TutorialText dialect18 d 0) (levelCont dialect18 0) :=
  .sum h.tutorial h.sum (h.decides_mult (h.decides_primary d))

theorem Recurses.atLeast_primary (h : Recurses E r more (Tutorial.multExp (Tutorial.unaryExp (primaryExp r more)))
    (Tutorial.plusExp (Tutorial.multExp (Tutorial.unaryExp (primaryExp r more))))) (d : Nat) :
    AtLeast E (primaryExp r more) (TutorialText dialect18 d 3) := by
  induction d with
  | zero =>
    refine (AtLeast.primary (A := fun _ _ => False) h.tutorial h.supports ?_).mono
      fun _ _ ht => .inl (text3_zero.1 ht)
    rintro t e rest pos r ⟨ws, u, ws', -, hu, -⟩; exact hu.elim
  | succ d ih =>
    have hsum := AtLeast.sum h.tutorial (AtLeast.product h.tutorial (.unary h.tutorial ih) h.unary_any) h.mult_any
    refine (AtLeast.primary h.tutorial h.supports (AtLeast.brackets (A := TutorialText dialect18 d 0)
      (A' := AnyDepth dialect18 0) (D := dialect18) h.tutorial (hsum.of_run h.again) ?_
      (AnyDepth.prefixes (prefixes_zero dialect18)) (fun _ _ h => ⟨d, h⟩) (solid_any _ _))).mono
      fun _ _ => text3_succ'.1
    exact fun n => (h.sum_any n).of_run h.again

theorem Recurses.atLeast (h : Recurses E r more (Tutorial.multExp (Tutorial.unaryExp (primaryExp r more)))
    (Tutorial.plusExp (Tutorial.multExp (Tutorial.unaryExp (primaryExp r more))))) (d : Nat) :
    AtLeast E (Tutorial.plusExp (Tutorial.multExp (Tutorial.unaryExp (primaryExp r more))))
      (TutorialText dialect18 d 0) :=
  .sum h.tutorial (.product h.tutorial (.unary h.tutorial (h.atLeast_primary d)) h.unary_any) h.mult_any

end Metaparse
