import Verif.Spec.Unseen
import Verif.Lemmas.Cont
/-!
# Parsing the beginning of a text
-/

namespace Metaparse

namespace Unseen

/-- Inputs that begin like lists; their end may be anything. -/
def Conses (inp : Input (List Chr)) : Prop :=
  ∀ c s, inp.isEmpty (c :: s) = .ok false ∧ inp.front (c :: s) = .ok c ∧ inp.popFront (c :: s) = .ok s

/-- The first looks beyond the beginning, or the second is what it continues to. -/
def Ext (k : Nat) (t : List Chr) (a b : Out (Res (List Chr))) : Prop := a = .ill (.user k) ∨ Continues t a b

variable {k : Nat} {t : List Chr}

theorem Ext.acc (v : Val) (s : List Chr) (pos : Pos) :
    Ext k t (.ok (.acc v s pos)) (.ok (.acc v (s ++ t) pos)) := .inr (.acc ..)

theorem Ext.rej (m : Msg) (pos : Pos) : Ext k t (.ok (.rej m pos)) (.ok (.rej m pos)) := .inr (.rej ..)

theorem Ext.ill (f : Fault) : Ext k t (.ill f) (.ill f) := .inr (.ill ..)

theorem Ext.deep : Ext k t .deep .deep := .inr .deep

theorem Ext.bind {a b : Out (Res (List Chr))} {f g : Res (List Chr) → Out (Res (List Chr))} (h : Ext k t a b)
    (hacc : ∀ v s q, Ext k t (f (.acc v s q)) (g (.acc v (s ++ t) q)))
    (hrej : ∀ m e, Ext k t (f (.rej m e)) (g (.rej m e))) : Ext k t (a.bind f) (b.bind g) := by
  rcases h with rfl | h
  · exact .inl rfl
  · cases h with
    | acc v s q => exact hacc v s q
    | rej m e => exact hrej m e
    | ill f => exact .ill f
    | deep => exact .deep

theorem Ext.bind_same {α : Type} (x : Out α) {f g : α → Out (Res (List Chr))} (h : ∀ a, Ext k t (f a) (g a)) :
    Ext k t (x.bind f) (x.bind g) := by
  cases x with
  | ok a => exact h a
  | ill f => exact .ill f
  | deep => exact .deep

/-- Related parsers. -/
def SemExt (k : Nat) (t : List Chr) (f g : Sem (List Chr)) : Prop := ∀ w pos, Ext k t (f w pos) (g (w ++ t) pos)

/-- Lists of related parsers. -/
inductive ListExt (k : Nat) (t : List Chr) : List (Sem (List Chr)) → List (Sem (List Chr)) → Prop
  | nil : ListExt k t [] []
  | cons {f g fs gs} : SemExt k t f g → ListExt k t fs gs → ListExt k t (f :: fs) (g :: gs)

theorem ListExt.length {fs gs} (h : ListExt k t fs gs) : fs.length = gs.length := by
  induction h with
  | nil => rfl
  | cons _ _ ih => simp [ih]

theorem listExt_map {r1 r2 : P → Sem (List Chr)} (h : ∀ p, SemExt k t (r1 p) (r2 p)) (ps : List P) :
    ListExt k t (ps.map r1) (ps.map r2) := by
  induction ps with
  | nil => exact .nil
  | cons p ps ih => exact .cons (h p) ih

theorem ret_ext (v : Val) : SemExt k t (Comb.ret v) (Comb.ret v) := fun _ _ => .acc ..

theorem fail_ext (m : Msg) : SemExt k t (Comb.fail m) (Comb.fail m) := fun _ _ => .rej ..

theorem ill_ext (f : Fault) : SemExt k t (fun _ _ => .ill f) (fun _ _ => .ill f) := fun _ _ => .ill f

theorem transform_ext {f g : Sem (List Chr)} (h : SemExt k t f g) (F : Val → Val) :
    SemExt k t (Comb.transform f F) (Comb.transform g F) := fun w pos =>
  (h w pos).bind (fun _ _ _ => .bind_same _ fun _ => .acc ..) (fun _ _ => .rej ..)

theorem transformErrorMessage_ext {f g : Sem (List Chr)} (h : SemExt k t f g) (F : Msg → Out Msg) :
    SemExt k t (Comb.transformErrorMessage f F) (Comb.transformErrorMessage g F) := fun w pos =>
  (h w pos).bind (fun _ _ _ => .acc ..) (fun _ _ => .bind_same _ fun _ => .rej ..)

theorem sequence11_ext {fs gs} (h : ListExt k t fs gs) : SemExt k t (Comb.sequence11 fs) (Comb.sequence11 gs) := by
  induction h with
  | nil => exact ret_ext _
  | cons hf _ ih =>
    intro w pos
    exact (hf w pos).bind (fun v s q => transform_ext ih _ s q) (fun _ _ => .rej ..)

theorem sequence98Loop_ext {fs gs} (h : ListExt k t fs gs) : ∀ st st', Continues t (.ok st) (.ok st') →
    Ext k t (Comb.sequence98Loop fs st) (Comb.sequence98Loop gs st') := by
  induction h with
  | nil => intro st st' h; exact .inr h
  | cons hf _ ih =>
    intro st st' h
    cases h with
    | acc v s q =>
      refine .bind_same _ fun l => ?_
      refine (transform_ext hf _ s q).bind ?_ ?_
      · intro v s q; exact ih _ _ (.acc ..)
      · intro m e; exact ih _ _ (.rej ..)
    | rej m e => exact ih _ _ (.rej ..)

theorem oneOf11_ext {fs gs} (h : ListExt k t fs gs) : SemExt k t (Comb.oneOf11 fs) (Comb.oneOf11 gs) := by
  induction h with
  | nil => exact fail_ext _
  | cons hf _ ih =>
    intro w pos
    refine (hf w pos).bind ?_ ?_
    · intro v s q
      exact (ih w pos).bind (fun _ _ _ => .acc ..) (fun _ _ => .acc ..)
    · intro m e
      refine (ih w pos).bind (fun _ _ _ => .acc ..) ?_
      intro m' e'
      simp only
      split <;> exact .rej ..

theorem oneOf98Loop_ext {fs gs} (h : ListExt k t fs gs) (w : List Chr) (pos : Pos) :
    ∀ st st', Continues t (.ok st) (.ok st') →
      Ext k t (Comb.oneOf98Loop w pos fs st) (Comb.oneOf98Loop (w ++ t) pos gs st') := by
  induction h with
  | nil => intro st st' h; exact .inr h
  | cons hf _ ih =>
    intro st st' h
    refine (hf w pos).bind ?_ ?_
    · intro v s q
      refine ih _ _ ?_
      cases h <;> exact .acc ..
    · intro m e
      refine ih _ _ ?_
      cases h with
      | acc => exact .acc ..
      | rej m' e' =>
        simp only [Comb.oneOf98Op]
        split <;> exact .rej ..

theorem skipRemaining_ext (v : Val) {fs gs} (h : ListExt k t fs gs) :
    SemExt k t (Comb.skipRemaining v fs) (Comb.skipRemaining v gs) := by
  induction h with
  | nil => exact ret_ext _
  | cons hf _ ih => exact fun w pos => (hf w pos).bind (fun _ s q => ih s q) (fun _ _ => .rej ..)

theorem nthGo11_ext {fs gs} (h : ListExt k t fs gs) :
    ∀ n, SemExt k t (Comb.nthGo11 n fs) (Comb.nthGo11 n gs) := by
  induction h with
  | nil => exact fun _ => ill_ext _
  | cons hf hl ih =>
    intro n w pos
    refine (hf w pos).bind ?_ (fun _ _ => .rej ..)
    intro v s q
    simp only
    split
    · exact skipRemaining_ext v hl s q
    · exact ih _ s q

theorem nthOf11_ext (n : Int) {fs gs} (h : ListExt k t fs gs) :
    SemExt k t (Comb.nthOf11 n fs) (Comb.nthOf11 n gs) := by
  cases h with
  | nil => exact fail_ext _
  | cons hf hl =>
    have hlen := (ListExt.cons hf hl).length
    simp only [Comb.nthOf11, hlen]
    split
    · exact nthGo11_ext (.cons hf hl) n
    · exact fail_ext _

theorem lastOf11_ext {fs gs} (h : ListExt k t fs gs) : SemExt k t (Comb.lastOf11 fs) (Comb.lastOf11 gs) := by
  cases h with
  | nil => exact fail_ext _
  | cons hf hl =>
    have hlen := (ListExt.cons hf hl).length
    simp only [Comb.lastOf11, hlen]
    exact nthGo11_ext (.cons hf hl) _

theorem skipSeq98_ext {fs gs} (h : ListExt k t fs gs) : ∀ st st', Continues t (.ok st) (.ok st') →
    Ext k t (Comb.skipSeq98 fs st) (Comb.skipSeq98 gs st') := by
  induction h with
  | nil => intro st st' h; exact .inr h
  | cons hf _ ih =>
    intro st st' h
    cases h with
    | acc v s q =>
      exact (hf s q).bind (fun _ s q => ih _ _ (.acc ..)) (fun _ _ => ih _ _ (.rej ..))
    | rej m e => exact ih _ _ (.rej ..)

theorem nthGo98_ext {fs gs} (h : ListExt k t fs gs) :
    ∀ n, SemExt k t (Comb.nthGo98 n fs) (Comb.nthGo98 n gs) := by
  induction h with
  | nil => exact fun _ => ill_ext _
  | cons hf hl ih =>
    intro n w pos
    simp only [Comb.nthGo98]
    split
    · exact (hf w pos).bind (fun _ _ _ => skipSeq98_ext hl _ _ (.acc ..)) (fun _ _ => skipSeq98_ext hl _ _ (.rej ..))
    · exact (hf w pos).bind (fun _ s q => ih _ s q) (fun _ _ => .rej ..)

theorem nthOf98_ext (limit : Nat) (n : Int) {fs gs} (h : ListExt k t fs gs) :
    SemExt k t (Comb.nthOf98 limit n fs) (Comb.nthOf98 limit n gs) := by
  have hlen := h.length
  simp only [Comb.nthOf98, hlen]
  split
  · split
    · exact nthGo98_ext h n
    · exact fail_ext _
  · exact ill_ext _

theorem nthOf_ext {B E : Env (List Chr)} (hs : B.std = E.std) (hl : B.limSequence = E.limSequence) (n : Int) {fs gs}
    (h : ListExt k t fs gs) : SemExt k t (Comb.nthOf B n fs) (Comb.nthOf E n gs) := by
  simp only [Comb.nthOf, hs, hl]
  cases E.std with
  | cpp98 => exact nthOf98_ext _ n h
  | cpp11 => exact nthOf11_ext n h
  | cpp14 => exact nthOf11_ext n h

/-- One layer. -/
theorem step_ext {B E : Env (List Chr)} (hin : B.input = beginning k) (hcs : Conses E.input) (hs : B.std = E.std)
    (h1 : B.limSequence = E.limSequence) (h2 : B.limOneOf = E.limOneOf) (h3 : B.limOneCharExcept = E.limOneCharExcept)
    (hr : ∀ i, B.rules i = E.rules i) (hn : ∀ i, SemExt k t (B.native i) (E.native i))
    (he : ∀ i m pos, Continues t (B.onError i m pos) (E.onError i m pos)) {r1 r2 : P → Sem (List Chr)}
    (ih : ∀ p, SemExt k t (r1 p) (r2 p)) (p : P) : SemExt k t (step B r1 p) (step E r2 p) := by
  intro w pos
  cases p with
  | oneChar =>
    simp only [step, Comb.oneChar, hin]
    cases w with
    | nil => exact .inl rfl
    | cons c s =>
      obtain ⟨e1, e2, e3⟩ := hcs c (s ++ t)
      simp only [List.cons_append, e1, e2, e3, Out.bind_ok, beginning]
      exact .acc ..
  | empty v =>
    simp only [step, Comb.empty, hin]
    cases w with
    | nil => exact .inl rfl
    | cons c s =>
      obtain ⟨e1, e2, e3⟩ := hcs c (s ++ t)
      simp only [List.cons_append, e1, Out.bind_ok, beginning]
      exact .rej ..
  | fail m => exact .rej ..
  | ret v => exact .acc ..
  | acceptWhen p pred m =>
    refine (ih p w pos).bind ?_ (fun _ _ => .rej ..)
    intro v s q
    refine .bind_same _ fun b => ?_
    cases b
    · exact .rej ..
    · exact .acc ..
  | changeErrorMessage p m => exact (ih p w pos).bind (fun _ _ _ => .acc ..) (fun _ _ => .rej ..)
  | transformErrorMessage p f => exact transformErrorMessage_ext (ih p) f w pos
  | transformError p i => exact (ih p w pos).bind (fun _ _ _ => .acc ..) (fun m e => .inr (he i m e))
  | transform p f => exact transform_ext (ih p) f w pos
  | always p v => exact (ih p w pos).bind (fun _ _ _ => .acc ..) (fun _ _ => .rej ..)
  | lookAhead p => exact (ih p w pos).bind (fun _ _ _ => .acc ..) (fun _ _ => .rej ..)
  | except p v m => exact (ih p w pos).bind (fun _ _ _ => .rej ..) (fun _ _ => .acc ..)
  | optional p d => exact (ih p w pos).bind (fun _ _ _ => .acc ..) (fun _ _ => .acc ..)
  | if_ p a b => exact (ih p w pos).bind (fun _ _ _ => .acc ..) (fun _ _ => .acc ..)
  | failAtFirstCharExpected p =>
    refine (ih p w pos).bind (fun _ _ _ => .rej ..) ?_
    intro m e
    simp only
    split
    · exact .acc ..
    · exact .rej ..
  | foldl p st op =>
    exact (ih p w pos).bind (fun v s q => .bind_same _ fun x => ih _ s q) (fun _ _ => .bind_same _ fun _ => .acc ..)
  | foldlRejectIncomplete p st op =>
    refine (ih p w pos).bind (fun v s q => .bind_same _ fun x => ih _ s q) ?_
    intro m e
    simp only
    split
    · exact .bind_same _ fun _ => .acc ..
    · exact .rej ..
  | foldlStartWithParser p sp op => exact (ih sp w pos).bind (fun v s q => ih _ s q) (fun _ _ => .rej ..)
  | foldlRejectIncompleteStartWithParser p sp op =>
    exact (ih sp w pos).bind (fun v s q => ih _ s q) (fun _ _ => .rej ..)
  | foldrStartWithParser p sp op =>
    refine (ih p w pos).bind ?_ (fun _ _ => ih sp w pos)
    intro v s q
    exact (ih _ s q).bind (fun _ _ _ => .bind_same _ fun _ => .acc ..) (fun _ _ => .rej ..)
  | ifAccepts p q => exact (ih p w pos).bind (fun _ _ _ => ih q w pos) (fun _ _ => .rej ..)
  | sequence ps =>
    have h := listExt_map ih ps
    simp only [step, hs, h1]
    cases E.std with
    | cpp98 =>
      simp only [Comb.sequence98, h.length]
      split
      · exact sequence98Loop_ext h _ _ (.acc ..)
      · exact .ill _
    | cpp11 => exact sequence11_ext h w pos
    | cpp14 => exact sequence11_ext h w pos
  | oneOf ps =>
    have h := listExt_map ih ps
    simp only [step, hs, h2]
    cases E.std with
    | cpp98 =>
      simp only [Comb.oneOf98, h.length]
      split
      · exact oneOf98Loop_ext h w pos _ _ (.rej ..)
      · exact .ill _
    | cpp11 => exact oneOf11_ext h w pos
    | cpp14 => exact oneOf11_ext h w pos
  | nthOfC n ps => exact nthOf_ext hs h1 n (listExt_map ih ps) w pos
  | lastOf ps =>
    have h := listExt_map ih ps
    simp only [step, hs, h1]
    cases E.std with
    | cpp98 =>
      simp only [Comb.lastOf98, h.length]
      exact nthOf98_ext _ _ h w pos
    | cpp11 => exact lastOf11_ext h w pos
    | cpp14 => exact lastOf11_ext h w pos
  | middleOf p1 p2 p3 =>
    exact nthOf_ext hs h1 1 (.cons (ih p1) (.cons (ih p2) (.cons (transformErrorMessage_ext (ih p3) _) .nil))) w pos
  | iterate n p accum =>
    simp only [step, Comb.iterate]
    split
    · exact .acc ..
    · exact (ih p w pos).bind (fun v s q => ih _ s q) (fun _ _ => .rej ..)
  | keyword kw v =>
    cases kw with
    | nil => exact .acc ..
    | cons c cs => exact (ih _ w pos).bind (fun _ s q => ih _ s q) (fun _ _ => .rej ..)
  | oneOfC cs =>
    simp only [step, hs, h2]
    cases E.std with
    | cpp98 =>
      simp only
      split
      · exact ih _ w pos
      · exact .ill _
    | cpp11 => exact ih _ w pos
    | cpp14 => exact ih _ w pos
  | oneCharExceptC cs =>
    simp only [step, hs, h3]
    cases E.std with
    | cpp98 =>
      simp only
      split
      · exact ih _ w pos
      · exact .ill _
    | cpp11 => exact ih _ w pos
    | cpp14 => exact ih _ w pos
  | ref i =>
    simp only [step, hr i]
    exact ih _ w pos
  | native i => exact hn i w pos

theorem run_ext {B E : Env (List Chr)} (h : OnBeginnings k B E) (hcs : Conses E.input) (p : P) (w t : List Chr)
    (pos : Pos) : Ext k t (run B p w pos) (run E p (w ++ t) pos) := by
  have key : ∀ n p, SemExt k t (eval B n p) (eval E n p) := by
    intro n
    induction n with
    | zero => exact fun _ _ _ => .deep
    | succ n ih =>
      intro p
      exact step_ext h.input hcs h.std h.limSequence h.limOneOf h.limOneCharExcept h.rules
        (fun i w pos => h.native i w t pos) (fun i m pos => h.onError i m pos t) ih p
  by_cases hd : ∃ n, eval B n p w pos ≠ .deep
  · obtain ⟨n, hn⟩ := hd
    have hB := run_eq_of_eval rfl hn
    have hk := key n p w pos
    rcases hk with hk | hk
    · exact .inl (hB.trans hk)
    · have hE : eval E n p (w ++ t) pos ≠ .deep := by
        intro h0
        rw [h0] at hk
        cases hk' : eval B n p w pos with
        | deep => exact hn hk'
        | ok r => rw [hk'] at hk; cases hk
        | ill f => rw [hk'] at hk; cases hk
      rw [hB, run_eq_of_eval rfl hE]
      exact .inr hk
  · have hB : ∀ n, eval B n p w pos = .deep := fun n => Classical.byContradiction fun h => hd ⟨n, h⟩
    have hE : ∀ n, eval E n p (w ++ t) pos = .deep := by
      intro n
      have hk := key n p w pos
      rw [hB] at hk
      rcases hk with hk | hk
      · cases hk
      · generalize eval E n p (w ++ t) pos = x at hk
        cases hk
        rfl
    have e1 : run B p w pos = .deep := by unfold run; rw [dif_neg hd]
    have e2 : run E p (w ++ t) pos = .deep := by
      unfold run; rw [dif_neg]; rintro ⟨n, h⟩; exact h (hE n)
    rw [e1, e2]
    exact .deep

end Unseen

end Metaparse
