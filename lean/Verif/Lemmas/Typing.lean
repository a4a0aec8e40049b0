import Verif.Spec.Typing
import Verif.Lemmas.Cont
import Verif.Lemmas.Out
import Verif.Lemmas.Chars
/-!
# Soundness of the typing rules
-/

namespace Metaparse

variable {I : Type} {F : Fault → Prop} {T A B : Val → Prop}

/-- The outcome accepts with a result in `T`, rejects, or does not compile with an error in `F`. -/
def Fine (F : Fault → Prop) (T : Val → Prop) : Out (Res I) → Prop
  | .ok (.acc v _ _) => T v
  | .ok (.rej _ _) => True
  | .ill f => F f
  | .deep => True

/-- The outcomes are all fine. -/
def Fines (F : Fault → Prop) (T : Val → Prop) (f : Sem I) : Prop := ∀ s pos, Fine F T (f s pos)

theorem Fine.mono {o : Out (Res I)} (h : Fine F A o) (hT : ∀ v, A v → T v) : Fine F T o := by
  cases o with
  | ok r => cases r with
    | acc v s pos => exact hT v h
    | rej m pos => trivial
  | ill f => exact h
  | deep => trivial

/-- Parsers that do something with the outcome of the first parser. -/
theorem Fine.bind {o : Out (Res I)} {k : Res I → Out (Res I)} (h : Fine F A o)
    (hacc : ∀ v s pos, A v → Fine F T (k (.acc v s pos))) (hrej : ∀ m pos, Fine F T (k (.rej m pos))) :
    Fine F T (o.bind k) := by
  cases o with
  | ok r => cases r with
    | acc v s pos => exact hacc v s pos h
    | rej m pos => exact hrej m pos
  | ill f => exact h
  | deep => trivial

theorem Fine.pass (m : Msg) (pos : Pos) : Fine (I := I) F T (.ok (.rej m pos)) := trivial

theorem Fine.force {v : Val} {k : Val → Out (Res I)} (h : GivesType F A v) (hk : ∀ w, A w → Fine F T (k w)) :
    Fine F T (v.force.bind k) := by
  cases hv : v.force with
  | ok w => exact hk w (h.1 w hv)
  | ill f => exact h.2 f hv
  | deep => trivial

theorem Fines.transform {f : Sem I} {g : Val → Val} (hf : Fines F A f) (hg : ∀ v, A v → GivesType F T (g v)) :
    Fines F T (Comb.transform f g) := by
  intro s pos
  refine (hf s pos).bind (fun v s' pos' hv => ?_) fun m pos' => .pass ..
  exact Fine.force (hg v hv) fun w hw => hw

/-- The meanings have the types given by position. -/
def AllFine (F : Fault → Prop) (U : Nat → Val → Prop) (fs : List (Sem I)) : Prop :=
  ∀ i f, fs[i]? = some f → Fines F (U i) f

variable {U : Nat → Val → Prop} {fs : List (Sem I)}

theorem AllFine.map {rec : P → Sem I} {ps : List P} (h : ∀ i p, ps[i]? = some p → Fines F (U i) (rec p)) :
    AllFine F U (ps.map rec) := by
  intro i f hf
  rw [List.getElem?_map] at hf
  cases hp : ps[i]? with
  | none => rw [hp] at hf; cases hf
  | some p =>
    rw [hp] at hf
    cases hf
    exact h i p hp

theorem AllFine.head {f : Sem I} (h : AllFine F U (f :: fs)) : Fines F (U 0) f := h 0 f rfl

theorem AllFine.tail {f : Sem I} (h : AllFine F U (f :: fs)) : AllFine F (fun i => U (i + 1)) fs :=
  fun i g hg => h (i + 1) g (by simpa using hg)

/-- The results of `n` parsers with types given by position. -/
def IsSeq (U : Nat → Val → Prop) (n : Nat) (v : Val) : Prop :=
  ∃ vs, v = .seq vs ∧ vs.length = n ∧ ∀ i x, vs[i]? = some x → U i x

theorem IsSeq.cons {vs : List Val} {n : Nat} {v : Val} (hv : U 0 v)
    (h : IsSeq (fun i => U (i + 1)) n (.seq vs)) : IsSeq U (n + 1) (.seq (v :: vs)) := by
  obtain ⟨_, h, hl, hU⟩ := h
  cases h
  refine ⟨_, rfl, by simp [hl], fun i x hx => ?_⟩
  cases i with
  | zero => cases hx; exact hv
  | succ i => exact hU i x (by simpa using hx)

theorem fines_sequence11 (h : AllFine F U fs) : Fines F (IsSeq U fs.length) (Comb.sequence11 fs) := by
  induction fs generalizing U with
  | nil => intro s pos; exact ⟨[], rfl, rfl, by simp⟩
  | cons f fs ih =>
    intro s pos
    refine (h.head s pos).bind (fun v s' pos' hv => ?_) fun m pos' => .pass ..
    refine Fines.transform (ih h.tail) (fun l hl => ?_) s' pos'
    obtain ⟨vs, rfl, -⟩ := id hl
    refine ⟨fun w hw => ?_, fun f hf => by cases hf⟩
    cases hw
    exact hl.cons hv

theorem fines_sequence98Loop : ∀ (fs : List (Sem I)) (k : Nat) (st : Res I),
    (∀ i f, fs[i]? = some f → Fines F (U (k + i)) f) → Fine F (IsSeq U k) (.ok st) →
      Fine F (IsSeq U (k + fs.length)) (Comb.sequence98Loop fs st) := by
  intro fs
  induction fs with
  | nil => intro k st _ h; exact h
  | cons f fs ih =>
    intro k st h hst
    have ih : ∀ st : Res I, Fine F (IsSeq U (k + 1)) (.ok st) →
        Fine F (IsSeq U (k + (f :: fs).length)) (Comb.sequence98Loop fs st) := by
      intro st hst
      have := ih (k + 1) st (fun i g hg => by
        have := h (i + 1) g (by simpa using hg)
        rwa [show k + (i + 1) = k + 1 + i by omega] at this) hst
      rwa [show k + 1 + fs.length = k + (f :: fs).length by simp only [List.length_cons]; omega] at this
    cases st with
    | rej m pos => exact ih _ trivial
    | acc v s pos =>
      obtain ⟨vs, rfl, hl, hU⟩ := hst
      show Fine F _ ((Comb.transform f _ s pos).bind _)
      have ht : Fine F (IsSeq U (k + 1)) (Comb.transform f (fun x => Comb.pushBack (.seq vs) x) s pos) := by
        refine Fines.transform (h 0 f rfl) (fun x hx => ⟨fun w hw => ?_, fun f hf => by cases hf⟩) s pos
        cases hw
        refine ⟨vs ++ [x], rfl, by simp [hl], fun i y hy => ?_⟩
        rcases Nat.lt_trichotomy i vs.length with hi | rfl | hi
        · rw [List.getElem?_append_left hi] at hy
          exact hU i y hy
        · have : x = y := by simpa using hy
          rw [hl, ← this]
          exact hx
        · rw [List.getElem?_eq_none (by simp; omega)] at hy
          cases hy
      exact ht.bind (fun v s' pos' hv => ih (.acc v s' pos') hv) fun m pos' => ih (.rej m pos') trivial

theorem fines_oneOf11 (h : ∀ f ∈ fs, Fines F T f) : Fines F T (Comb.oneOf11 fs) := by
  induction fs with
  | nil => intro s pos; trivial
  | cons f fs ih =>
    intro s pos
    refine (h f (by simp) s pos).bind (T := T) (fun v s' pos' hv => ?_) fun m pos' => ?_
    · refine (ih (fun f hf => h f (by simp [hf])) s pos).bind (fun _ _ _ _ => hv) fun _ _ => hv
    · refine (ih (fun f hf => h f (by simp [hf])) s pos).bind (fun _ _ _ hv => hv) fun m2 pos2 => ?_
      show Fine F T (if pos2.less pos' then _ else _)
      split <;> trivial

theorem fines_oneOf98Loop (s : List Chr) (pos : Pos) {fs : List (Sem (List Chr))} (h : ∀ f ∈ fs, Fines F T f) :
    ∀ st, Fine F T (.ok st) → Fine F T (Comb.oneOf98Loop s pos fs st) := by
  induction fs with
  | nil => intro st hst; exact hst
  | cons f fs ih =>
    intro st hst
    have ih := ih fun f hf => h f (by simp [hf])
    refine (h f (by simp) s pos).bind (fun v s' pos' hv => ih _ ?_) fun m pos' => ih _ ?_
    · cases st with
      | acc v s pos => exact hst
      | rej m pos => exact hv
    · cases st with
      | acc v s pos => exact hst
      | rej m pos =>
        simp only [Comb.oneOf98Op]
        split <;> trivial

theorem fines_skipRemaining {v : Val} (hv : T v) (h : AllFine F U fs) : Fines F T (Comb.skipRemaining v fs) := by
  induction fs generalizing U with
  | nil => intro s pos; exact hv
  | cons f fs ih =>
    intro s pos
    exact (h.head s pos).bind (fun _ s' pos' _ => ih h.tail s' pos') fun m pos' => .pass ..

theorem fines_nthGo11 (h : AllFine F U fs) (n : Nat) (hn : n < fs.length) :
    Fines F (U n) (Comb.nthGo11 (n : Int) fs) := by
  induction fs generalizing U n with
  | nil => simp at hn
  | cons f fs ih =>
    intro s pos
    refine (h.head s pos).bind (fun v s' pos' hv => ?_) fun m pos' => .pass ..
    cases n with
    | zero => exact fines_skipRemaining hv h.tail s' pos'
    | succ n =>
      show Fine F _ (if ((n + 1 : Nat) : Int) = 0 then _ else _)
      rw [if_neg (by omega), show ((n + 1 : Nat) : Int) - 1 = n by omega]
      exact ih h.tail n (by simpa using hn) s' pos'

theorem fines_skipSeq98 (h : AllFine F U fs) : ∀ st, Fine F T (.ok st) → Fine F T (Comb.skipSeq98 fs st) := by
  induction fs generalizing U with
  | nil => intro st hst; exact hst
  | cons f fs ih =>
    intro st hst
    cases st with
    | rej m pos => exact ih h.tail _ trivial
    | acc v s pos =>
      exact (h.head s pos).bind (fun _ s' pos' _ => ih h.tail (.acc v s' pos') hst)
        fun m pos' => ih h.tail _ trivial

theorem fines_nthGo98 (h : AllFine F U fs) (n : Nat) (hn : n < fs.length) :
    Fines F (U n) (Comb.nthGo98 (n : Int) fs) := by
  induction fs generalizing U n with
  | nil => simp at hn
  | cons f fs ih =>
    intro s pos
    cases n with
    | zero =>
      show Fine F _ ((f s pos).bind fun r => Comb.skipSeq98 fs r)
      exact (h.head s pos).bind (fun v s' pos' hv => fines_skipSeq98 h.tail _ hv)
        fun m pos' => fines_skipSeq98 h.tail _ trivial
    | succ n =>
      simp only [Comb.nthGo98]
      rw [if_neg (by omega)]
      refine (h.head s pos).bind (fun v s' pos' hv => ?_) fun m pos' => .pass ..
      simp only
      rw [show ((n + 1 : Nat) : Int) - 1 = n by omega]
      exact ih h.tail n (by simpa using hn) s' pos'

theorem fines_nthOf {E : Env I} {n : Int} (h : AllFine F U fs) (hs : E.SupportsNth fs.length) :
    Fines F (U n.toNat) (Comb.nthOf E n fs) := by
  have key : 0 ≤ n ∧ n < (fs.length : Int) →
      Fines F (U n.toNat) (Comb.nthGo11 n fs) ∧ Fines F (U n.toNat) (Comb.nthGo98 n fs) := by
    intro hn
    obtain ⟨k, rfl⟩ := Int.eq_ofNat_of_zero_le hn.1
    exact ⟨fines_nthGo11 h k (by omega), fines_nthGo98 h k (by omega)⟩
  have h11 : Fines F (U n.toNat) (Comb.nthOf11 n fs) := by
    cases fs with
    | nil => intro s pos; trivial
    | cons f fs =>
      simp only [Comb.nthOf11]
      split
      · next hn => exact (key hn).1
      · intro s pos; trivial
  have h98 : E.std = .cpp98 → Fines F (U n.toNat) (Comb.nthOf98 E.limSequence n fs) := by
    intro h8
    unfold Comb.nthOf98
    rw [if_pos (hs h8)]
    split
    · next hn => exact (key hn).2
    · intro s pos; trivial
  unfold Comb.nthOf
  split
  · next h8 => exact h98 h8
  · exact h11

theorem fines_lastOf {E : Env I} (h : AllFine F U fs) (hs : E.SupportsNth fs.length) :
    Fines F (U (fs.length - 1)) (match E.std with
      | .cpp98 => Comb.lastOf98 E.limSequence fs
      | _ => Comb.lastOf11 fs) := by
  have hn := fines_nthOf (E := E) (n := (fs.length : Int) - 1) h hs
  rw [show ((fs.length : Int) - 1).toNat = fs.length - 1 by omega] at hn
  have h11 : E.std ≠ .cpp98 → Fines F (U (fs.length - 1)) (Comb.lastOf11 fs) := by
    intro h8
    have hn : Fines F (U (fs.length - 1)) (Comb.nthOf11 ((fs.length : Int) - 1) fs) := by
      cases hstd : E.std <;> simp only [Comb.nthOf, hstd] at hn
      · exact absurd hstd h8
      · exact hn
      · exact hn
    cases fs with
    | nil => intro s pos; trivial
    | cons f fs =>
      simp only [Comb.nthOf11] at hn
      rw [if_pos (by simp; omega)] at hn
      exact hn
  cases hstd : E.std
  · simp only [Comb.nthOf, hstd] at hn
    exact hn
  · exact h11 (by simp [hstd])
  · exact h11 (by simp [hstd])

theorem value_chr (c : Chr) : (Val.chr c).value = .ok c := rfl

section Sound

variable {E : Env (List Chr)} {Γ : Nat → Option (Val → Prop)}

theorem HasType.litC (c : Chr) : HasType E Γ F (P.litC c) (· = .chr c) := by
  refine .weaken (.acceptWhen (.changeErrorMessage .oneChar) fun v f hv hf => ?_) fun v hv => ?_
  · obtain ⟨d, rfl⟩ := hv
    cases hf
  · obtain ⟨⟨d, rfl⟩, hd⟩ := hv
    simp only [isCharC, value_chr, Out.bind, Out.ok.injEq, beq_iff_eq] at hd
    rw [hd]

/-- A predicate that knows about characters. -/
theorem HasType.charWhen {pred : Val → Out Bool} {m : Msg} {b : Chr → Bool}
    (h : ∀ c, pred (.chr c) = .ok (b c)) :
    HasType E Γ F (.acceptWhen .oneChar pred m) fun v => ∃ c, b c = true ∧ v = .chr c := by
  refine .weaken (.acceptWhen .oneChar fun v f hv hf => ?_) fun v hv => ?_
  · obtain ⟨d, rfl⟩ := hv
    rw [h] at hf
    cases hf
  · obtain ⟨⟨d, rfl⟩, hd⟩ := hv
    rw [h, Out.ok.injEq] at hd
    exact ⟨d, hd, rfl⟩

theorem HasType.oneOfLit {cs : List Chr} (h : E.SupportsOneOf cs.length) :
    HasType E Γ F (.oneOf (cs.map P.litC)) fun v => ∃ c ∈ cs, v = .chr c := by
  refine .oneOf (by simpa using h) fun p hp => ?_
  obtain ⟨c, hc, rfl⟩ := List.mem_map.1 hp
  exact .weaken (.litC c) fun v hv => ⟨c, hc, hv⟩

theorem fines_eval (hE : E.OnText) (hΓ : Typed E Γ F) : ∀ (n : Nat) {p : P} {T : Val → Prop},
    HasType E Γ F p T → Fines F T (eval E n p) := by
  intro n
  induction n with
  | zero => intro p T _ s pos; trivial
  | succ n ih =>
    intro p T h
    show Fines F T (step E (eval E n) p)
    induction h with
    | weaken _ hT ihA => exact fun s pos => (ihA s pos).mono hT
    | oneChar =>
      intro s pos
      simp only [step, Comb.oneChar]
      rw [hE]
      cases s with
      | nil => trivial
      | cons c s => exact ⟨c, rfl⟩
    | empty hv =>
      intro s pos
      simp only [step, Comb.empty]
      rw [hE]
      cases s with
      | nil => exact hv
      | cons c s => trivial
    | fail => intro s pos; trivial
    | ret hv => intro s pos; exact hv
    | @acceptWhen p pred m T hp hpred _ =>
      intro s pos
      refine (ih hp s pos).bind (fun v s' pos' hv => ?_) fun m pos' => .pass ..
      show Fine F _ ((pred v).bind _)
      cases hb : pred v with
      | ok b =>
        cases b with
        | true => exact ⟨hv, hb⟩
        | false => trivial
      | ill f => exact hpred v f hv hb
      | deep => trivial
    | changeErrorMessage hp _ =>
      intro s pos
      exact (ih hp s pos).bind (fun v s' pos' hv => hv) fun m pos' => .pass ..
    | @transformErrorMessage p g T hp hg _ =>
      intro s pos
      refine (ih hp s pos).bind (fun v s' pos' hv => hv) fun m pos' => ?_
      show Fine F _ ((g m).bind _)
      cases hb : g m with
      | ok b => trivial
      | ill f => exact hg m f hb
      | deep => trivial
    | @transformError p k T hp hacc hill _ =>
      intro s pos
      refine (ih hp s pos).bind (fun v s' pos' hv => hv) fun m pos' => ?_
      show Fine F _ (E.onError k m pos')
      cases hb : E.onError k m pos' with
      | ok r => cases r with
        | acc v s pos => exact hacc _ _ _ _ _ hb
        | rej m pos => trivial
      | ill f => exact hill _ _ f hb
      | deep => trivial
    | transform hp hg _ => exact Fines.transform (ih hp) hg
    | always hp hv _ =>
      intro s pos
      exact (ih hp s pos).bind (fun _ _ _ _ => hv) fun m pos' => .pass ..
    | lookAhead hp _ =>
      intro s pos
      exact (ih hp s pos).bind (fun _ _ _ hv => hv) fun m pos' => .pass ..
    | except hp hv _ =>
      intro s pos
      exact (ih hp s pos).bind (fun _ _ _ _ => trivial) fun m pos' => hv
    | optional hp hv _ =>
      intro s pos
      exact (ih hp s pos).bind (fun _ _ _ hv => hv) fun m pos' => hv
    | if_ hp ht hf _ =>
      intro s pos
      exact (ih hp s pos).bind (fun _ _ _ _ => ht) fun m pos' => hf
    | failAtFirstCharExpected hp _ =>
      intro s pos
      refine (ih hp s pos).bind (fun _ _ _ _ => trivial) fun m pos' => ?_
      show Fine F _ (if pos.equalTo pos' then _ else _)
      split
      · exact rfl
      · trivial
    | foldl hp hst hop _ =>
      intro s pos
      refine (ih hp s pos).bind (fun r s' pos' hr => ?_) fun m pos' => ?_
      · exact Fine.force hst fun x hx => ih (.foldl hp (hop x r hx hr) hop) s' pos'
      · exact Fine.force hst fun x hx => hx
    | foldlRejectIncomplete hp hst hop _ =>
      intro s pos
      refine (ih hp s pos).bind (fun r s' pos' hr => ?_) fun m pos' => ?_
      · exact Fine.force hst fun x hx => ih (.foldlRejectIncomplete hp (hop x r hx hr) hop) s' pos'
      · show Fine F _ (if pos.equalTo pos' then _ else _)
        split
        · exact Fine.force hst fun x hx => hx
        · trivial
    | foldlStartWithParser hp hsp hS hop _ _ =>
      intro s pos
      exact (ih hsp s pos).bind (fun v s' pos' hv => ih (.foldl hp (hS v hv) hop) s' pos') fun m pos' => .pass ..
    | foldlRejectIncompleteStartWithParser hp hsp hS hop _ _ =>
      intro s pos
      exact (ih hsp s pos).bind (fun v s' pos' hv => ih (.foldlRejectIncomplete hp (hS v hv) hop) s' pos')
        fun m pos' => .pass ..
    | foldrStartWithParser hp hsp hop _ _ =>
      intro s pos
      refine (ih hp s pos).bind (fun r s' pos' hr => ?_) fun m pos' => ih hsp s pos
      refine (ih (.foldrStartWithParser hp hsp hop) s' pos').bind (fun x s2 pos2 hx => ?_) fun m pos' => .pass ..
      exact Fine.force (hop x r hx hr) fun w hw => hw
    | ifAccepts hp hq _ _ =>
      intro s pos
      exact (ih hp s pos).bind (fun _ _ _ _ => ih hq s pos) fun m pos' => .pass ..
    | @sequence ps U hs hps _ =>
      have hall := AllFine.map (rec := eval E n) fun i p hp => ih (hps i p hp)
      rw [show (fun v => ∃ vs, v = Val.seq vs ∧ vs.length = ps.length ∧ ∀ i x, vs[i]? = some x → U i x) =
        IsSeq U (ps.map (eval E n)).length by simp; rfl]
      simp only [step]
      split
      · next h8 =>
        intro s pos
        simp only [Comb.sequence98]
        rw [if_pos (by simpa using hs h8)]
        have := fines_sequence98Loop _ 0 (.acc (.seq []) s pos) (by
          intro i f hf
          rw [Nat.zero_add]
          exact hall i f hf) ⟨[], rfl, rfl, by simp⟩
        simpa using this
      · exact fines_sequence11 hall
    | @oneOf ps T hs hps _ =>
      have hall : ∀ f ∈ ps.map (eval E n), Fines F T f := by
        intro f hf
        obtain ⟨p, hp, rfl⟩ := List.mem_map.1 hf
        exact ih (hps p hp)
      simp only [step]
      split
      · next h8 =>
        intro s pos
        simp only [Comb.oneOf98]
        rw [if_pos (by simpa using hs h8)]
        exact fines_oneOf98Loop s pos hall _ trivial
      · exact fines_oneOf11 hall
    | @nthOfC k ps U hs hps _ =>
      exact fines_nthOf (AllFine.map (rec := eval E n) fun i p hp => ih (hps i p hp)) (by simpa using hs)
    | @lastOf ps U hs hps _ =>
      have := fines_lastOf (E := E) (AllFine.map (rec := eval E n) fun i p hp => ih (hps i p hp))
        (by simpa using hs)
      rwa [List.length_map] at this
    | @middleOf p1 p2 p3 A T B hs h1 h2 h3 _ _ _ =>
      intro s pos
      have h3' : Fines F B (Comb.transformErrorMessage (eval E n p3)
          fun m => .ok (.unpaired pos.line pos.col m)) := by
        intro s pos
        exact (ih h3 s pos).bind (fun v s' pos' hv => hv) fun m pos' => trivial
      refine fines_nthOf (E := E) (n := 1) (U := fun i => if i = 0 then A else if i = 1 then T else B)
        (fs := [eval E n p1, eval E n p2, _]) ?_ hs s pos
      intro i f hf
      match i, hf with
      | 0, hf => cases hf; exact ih h1
      | 1, hf => cases hf; exact ih h2
      | 2, hf => cases hf; exact h3'
    | @iterate n' p accum A hn hp _ =>
      intro s pos
      simp only [step, Comb.iterate]
      split
      · next h0 => exact ⟨[], by simp, by simp [h0], by simp⟩
      · next h0 =>
        refine (ih hp s pos).bind (fun v s' pos' hv => ?_) fun m pos' => .pass ..
        refine (ih (.iterate (n := n' - 1) (accum := accum ++ [v]) (by omega) hp) s' pos').mono ?_
        rintro w ⟨vs, rfl, hlen, hall⟩
        refine ⟨v :: vs, by simp, by simp only [List.length_cons, hlen]; omega, ?_⟩
        intro x hx
        rcases List.mem_cons.1 hx with rfl | hx
        · exact hv
        · exact hall x hx
    | @keyword kw v T hv =>
      intro s pos
      cases kw with
      | nil => exact hv
      | cons c cs =>
        exact (ih (.litC c) s pos).bind (fun _ s' pos' _ => ih (.keyword hv) s' pos') fun m pos' => .pass ..
    | @oneOfC cs hs =>
      simp only [step]
      split
      · next h8 =>
        rw [if_pos (hs h8)]
        exact ih (.oneOfLit fun h8 => Nat.le_of_lt (hs h8))
      · refine ih (.weaken (.charWhen (anyOfC11_eq cs)) ?_)
        rintro v ⟨c, hc, rfl⟩
        exact ⟨c, by simpa using hc, rfl⟩
      · refine ih (.weaken (.charWhen (anyOfC14_eq cs)) ?_)
        rintro v ⟨c, hc, rfl⟩
        exact ⟨c, by simpa using hc, rfl⟩
    | @oneCharExceptC cs hs =>
      simp only [step]
      split
      · next h8 =>
        rw [if_pos (hs h8)]
        refine ih (.weaken (.charWhen (isNone98_eq cs)) ?_)
        rintro v ⟨c, hc, rfl⟩
        exact ⟨c, by simpa using hc, rfl⟩
      · refine ih (.weaken (.charWhen (b := fun d => !cs.contains d) fun d => ?_) ?_)
        · simp only [isNoneC11, value_chr, Out.bind, isNoneCImpl_eq]
        · rintro v ⟨c, hc, rfl⟩
          exact ⟨c, by simpa using hc, rfl⟩
    | ref hi => exact ih (hΓ _ _ hi)
    | @native i T hacc hill =>
      intro s pos
      simp only [step]
      cases hb : E.native i s pos with
      | ok r => cases r with
        | acc v s pos => exact hacc _ _ _ _ _ hb
        | rej m pos => trivial
      | ill f => exact hill _ _ f hb
      | deep => trivial

theorem fines_run (hE : E.OnText) (hΓ : Typed E Γ F) {p : P} (h : HasType E Γ F p T) : Fines F T (run E p) := by
  intro s pos
  obtain ⟨n, hn⟩ := exists_eval E p s pos
  rw [← hn]
  exact fines_eval hE hΓ n h s pos

end Sound

end Metaparse
