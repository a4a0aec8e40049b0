/-
The check of the headers is right: what it says a header leaves behind is what including the header leaves behind.
-/
import Verif.Lemmas.InclusionCore

namespace Metaparse.Inclusion

/-- More is known. -/
structure Le (a b : Know) : Prop where
  on : ∀ m, a.on.testBit m → b.on.testBit m
  decl : ∀ m, a.decl.testBit m → b.decl.testBit m
  defn : ∀ m, a.defn.testBit m → b.defn.testBit m
  used : ∀ m, a.used.testBit m → b.used.testBit m
  config : a.config → b.config
  depth : a.depth ≤ b.depth

theorem Le.refl (a : Know) : Le a a := ⟨fun _ h => h, fun _ h => h, fun _ h => h, fun _ h => h, fun h => h, Nat.le_refl _⟩

theorem Le.trans {a b c : Know} (p : Le a b) (q : Le b c) : Le a c :=
  ⟨fun m h => q.on m (p.on m h), fun m h => q.decl m (p.decl m h), fun m h => q.defn m (p.defn m h), fun m h => q.used m (p.used m h),
    fun h => q.config (p.config h), Nat.le_trans p.depth q.depth⟩

theorem Le.after {a b c : Know} (q : Le b c) (p : Le a b) : Le a c := p.trans q

theorem put_mono {s i m : Nat} (h : s.testBit m = true) : (put s i).testBit m = true := by
  rw [testBit_put, h, Bool.true_or]

theorem or_mono {s t m : Nat} (h : s.testBit m = true) : (s ||| t).testBit m = true := by
  rw [Nat.testBit_or, h, Bool.true_or]

theorem checkText_le {md : Mode} {me : Nat} {ib : Bool} : ∀ (es : List Ev) (a a' : Abs),
    checkText md me ib es a = some a' →
    Le a.toKnow a'.toKnow ∧ a'.on = a.on ∧ a'.helpers = a.helpers ∧ a'.depth = a.depth ∧ a'.pending = a.pending := by
  intro es
  induction es with
  | nil =>
    intro a a' h
    cases h
    exact ⟨Le.refl _, rfl, rfl, rfl, rfl⟩
  | cons e es ih =>
    intro a a' h
    cases e with
    | declare n =>
      rw [checkText, Abs.force_eq] at h
      obtain ⟨h1, h2, h3, h4, h5⟩ := ih _ _ h
      exact ⟨h1.after ⟨fun _ h => h, fun _ h => put_mono h, fun _ h => h, fun _ h => h, fun h => h, Nat.le_refl _⟩, h2, h3, h4, h5⟩
    | defn n =>
      rw [checkText] at h
      split at h
      · rw [Abs.force_eq] at h
        obtain ⟨h1, h2, h3, h4, h5⟩ := ih _ _ h
        exact ⟨h1.after ⟨fun _ h => h, fun _ h => put_mono h, fun _ h => put_mono h, fun _ h => h, fun h => h, Nat.le_refl _⟩,
          h2, h3, h4, h5⟩
      · cases h
    | use n =>
      rw [checkText] at h
      split at h
      · rw [Abs.force_eq] at h
        obtain ⟨h1, h2, h3, h4, h5⟩ := ih _ _ h
        exact ⟨h1.after ⟨fun _ h => h, fun _ h => h, fun _ h => h, fun _ h => put_mono h, fun h => h, Nat.le_refl _⟩,
          h2, h3, h4, h5⟩
      · cases h
    | expand n =>
      rw [checkText] at h
      split at h
      · exact ih _ _ h
      · cases h

/-- What does not depend on the state. -/
structure Static (md : Mode) (me : Nat) (a : Abs) : Prop where
  owner : ∀ m, a.on.testBit m → isUser m ∨ ∃ f, f ≤ me ∧ md.macroOwner m = some f
  helper : ∀ m, a.on.testBit m → ¬ isHelper m
  helpers : ∀ m, a.helpers.testBit m → isHelper m

theorem check_le {md : Mode} {look : Nat → Option Know} {me : Nat} {ib : Bool}
    (hl : ∀ h w, look h = some w → h < me ∧ Low md h w) : ∀ (p : Prog) (a a' : Abs),
    check look md me ib p a = some a' → Static md me a → Le a.toKnow a'.toKnow ∧ Static md me a' := by
  intro p
  induction p with
  | done =>
    intro a a' h st
    cases h
    exact ⟨Le.refl _, st⟩
  | incl i k ih =>
    intro a a' h st
    rw [check] at h
    split at h
    · rename_i c
      cases e : look i with
      | none => rw [e] at h; cases h
      | some w =>
        rw [e] at h
        dsimp only at h
        rw [Abs.force_eq] at h
        obtain ⟨l1, l2⟩ := hl i w e
        obtain ⟨h1, h2⟩ := ih _ _ h ⟨fun m q => by
            dsimp only at q
            rw [Nat.testBit_or, Bool.or_eq_true] at q
            rcases q with q | q
            · exact st.owner m q
            · rcases l2.owner m q with z | ⟨f, z1, z2⟩
              · exact .inl z
              · exact .inr ⟨f, by omega, z2⟩,
          fun m q => by
            dsimp only at q
            rw [Nat.testBit_or, Bool.or_eq_true] at q
            rcases q with q | q
            · exact st.helper m q
            · exact l2.helper m q,
          st.helpers⟩
        exact ⟨h1.after ⟨fun _ h => or_mono h, fun _ h => or_mono h, fun _ h => or_mono h, fun _ h => or_mono h,
          fun h => by dsimp only; rw [h]; rfl, Nat.le_max_left _ _⟩, h2⟩
    · cases h
  | external x k ih =>
    intro a a' h st
    rw [check, Abs.force_eq] at h
    obtain ⟨h1, h2⟩ := ih _ _ h ⟨st.owner, st.helper, st.helpers⟩
    exact ⟨h1.after ⟨fun _ h => h, fun _ h => h, fun _ h => h, fun _ h => h,
      fun h => by dsimp only; rw [h]; rfl, Nat.le_refl _⟩, h2⟩
  | cond e t f k iht ihf ihk =>
    intro a a' h st
    rw [check] at h
    cases hb : known md me ib a e with
    | none => rw [hb] at h; cases h
    | some b =>
      rw [hb] at h
      dsimp only at h
      cases b with
      | true =>
        rw [if_pos rfl] at h
        cases ht : check look md me ib t a with
        | none => rw [ht] at h; cases h
        | some a1 =>
          rw [ht] at h
          obtain ⟨h1, h2⟩ := iht _ _ ht st
          obtain ⟨h3, h4⟩ := ihk _ _ h h2
          exact ⟨h1.trans h3, h4⟩
      | false =>
        rw [if_neg (by decide)] at h
        cases ht : check look md me ib f a with
        | none => rw [ht] at h; cases h
        | some a1 =>
          rw [ht] at h
          obtain ⟨h1, h2⟩ := ihf _ _ ht st
          obtain ⟨h3, h4⟩ := ihk _ _ h h2
          exact ⟨h1.trans h3, h4⟩
  | define m v ms ns k ih =>
    intro a a' h st
    rw [check] at h
    split at h
    · rename_i hm
      split at h
      · cases h
      · rw [Abs.force_eq] at h
        obtain ⟨h1, h2⟩ := ih _ _ h ⟨st.owner, st.helper, fun x q => by
          dsimp only at q
          rw [testBit_put, Bool.or_eq_true] at q
          rcases q with q | q
          · exact st.helpers x q
          · rw [← of_decide_eq_true q]; exact hm⟩
        exact ⟨h1.after ⟨fun _ h => h, fun _ h => h, fun _ h => h, fun _ h => h, fun h => h, Nat.le_refl _⟩, h2⟩
    · rename_i hm
      split at h
      · rename_i hc
        rw [Bool.and_eq_true, Bool.and_eq_true] at hc
        have ho : md.macroOwner m = some me := of_decide_eq_true hc.1.2
        rw [Abs.force_eq] at h
        obtain ⟨h1, h2⟩ := ih _ _ h ⟨fun x q => by
            dsimp only at q
            rw [testBit_put, Bool.or_eq_true] at q
            rcases q with q | q
            · exact st.owner x q
            · rw [← of_decide_eq_true q]; exact .inr ⟨me, Nat.le_refl _, ho⟩,
          fun x q => by
            dsimp only at q
            rw [testBit_put, Bool.or_eq_true] at q
            rcases q with q | q
            · exact st.helper x q
            · rw [← of_decide_eq_true q]; exact hm,
          st.helpers⟩
        exact ⟨h1.after ⟨fun _ h => put_mono h, fun _ h => h, fun _ h => h, fun _ h => h, fun h => h, Nat.le_refl _⟩, h2⟩
      · cases h
  | undef m k ih =>
    intro a a' h st
    rw [check] at h
    split at h
    · rename_i hc
      rw [Bool.and_eq_true] at hc
      rw [Abs.force_eq] at h
      obtain ⟨h1, h2⟩ := ih _ _ h ⟨st.owner, st.helper, fun x q => by
        dsimp only at q
        rw [testBit_take_out hc.2, Bool.and_eq_true] at q
        exact st.helpers x q.1⟩
      exact ⟨h1.after ⟨fun _ h => h, fun _ h => h, fun _ h => h, fun _ h => h, fun h => h, Nat.le_refl _⟩, h2⟩
    · cases h
  | error t =>
    intro a a' h
    cases h
  | text evs k ih =>
    intro a a' h st
    rw [check] at h
    cases ht : checkText md me ib evs a with
    | none => rw [ht] at h; cases h
    | some a1 =>
      rw [ht] at h
      obtain ⟨h1, h2, h3, h4, h5⟩ := checkText_le _ _ _ ht
      obtain ⟨g1, g2⟩ := ih _ _ h ⟨by rw [h2]; exact st.owner, by rw [h2]; exact st.helper, by rw [h3]; exact st.helpers⟩
      exact ⟨h1.trans g1, g2⟩

/-- What is true in the lines behind the guard. -/
structure Body (md : Mode) (me : Nat) (b : State) (a : Abs) (s : State) : Prop where
  macros : ∀ m, md.macroOwner m = some me → ¬ On b m
  names : ∀ n, md.nameOwner n = some me → Ev.defn n ∉ b.seen
  started : Started md s me
  pend : ∀ m d, s.mac m = some d → md.macroOwner m = some me →
    (d.macros = [] ∧ d.names = []) ∨ (m, d.macros, d.names) ∈ a.pending

/-- What is known of a header and what is there, while the header is being read. -/
structure Rel (md : Mode) (chosen : Choice) (me : Nat) (ib : Bool) (b : State) (a : Abs) (s : State) : Prop where
  core : Core md chosen me s
  clean : NoHelpers b
  on : ∀ m, On s m ↔ On b m ∨ a.on.testBit m ∨ a.helpers.testBit m
  same : ∀ m, On b m → s.mac m = b.mac m
  decl : ∀ n, Declared s.seen n ↔ Declared b.seen n ∨ a.decl.testBit n
  defn : ∀ n, Ev.defn n ∈ s.seen ↔ Ev.defn n ∈ b.seen ∨ a.defn.testBit n
  used : ∀ n, Ev.use n ∈ s.seen ↔ Ev.use n ∈ b.seen ∨ a.used.testBit n
  config : a.config → s.config
  keep : b.config → s.config
  body : ib = true → Body md me b a s

section run

instance (s : State) (m : Nat) : Decidable (On s m) := inferInstanceAs (Decidable (_ = true))

variable {md : Mode} {chosen : Choice} {me : Nat} {ib : Bool} {b s : State} {a : Abs} {env : Env}

theorem known_sound (fit : EnvFits md env) (rel : Rel md chosen me ib b a s) :
    ∀ (e : Expr) (x : Bool), known md me ib a e = some x →
      ∃ v, value (look env s) env.feature e = some v ∧ decide (v ≠ 0) = x := by
  intro e
  induction e with
  | not e ih =>
    intro x h
    rw [known] at h
    cases hk : known md me ib a e with
    | none => rw [hk] at h; cases h
    | some y =>
      rw [hk] at h
      obtain ⟨v, h1, h2⟩ := ih y hk
      cases h
      refine ⟨if v = 0 then 1 else 0, by rw [value, h1]; rfl, ?_⟩
      rw [← h2]
      by_cases z : v = 0
      · simp [z]
      · simp [z]
  | defd r =>
    intro x h
    cases r with
    | own m =>
      have key : decide (On s m) = x := by
        rw [known] at h
        split at h
        · rename_i c
          cases h
          rw [Bool.or_eq_true] at c
          exact decide_eq_true ((rel.on m).mpr (.inr c))
        · rename_i c
          have c1 : ¬ a.on.testBit m = true := fun z => c (by rw [z]; rfl)
          have c2 : ¬ a.helpers.testBit m = true := fun z => c (by rw [z, Bool.or_true])
          split at h
          · rename_i hm
            cases h
            refine decide_eq_false fun z => ?_
            rcases (rel.on m).mp z with q | q | q
            · exact rel.clean m hm q
            · exact c1 q
            · exact c2 q
          · rename_i hm
            split at h
            · cases h
            · rename_i hu
              cases ho : md.macroOwner m with
              | none =>
                rw [ho] at h
                cases h
                refine decide_eq_false fun z => ?_
                rcases rel.core.own m z with q | q | ⟨f, q, _⟩
                · exact hm q
                · exact hu q
                · rw [ho] at q; cases q
              | some f =>
                rw [ho] at h
                dsimp only at h
                split at h
                · rename_i hc
                  cases h
                  rw [Bool.and_eq_true] at hc
                  have hf : f = me := of_decide_eq_true hc.1
                  rw [hf] at ho
                  refine decide_eq_false fun z => ?_
                  rcases (rel.on m).mp z with q | q | q
                  · exact (rel.body hc.2).macros m ho q
                  · exact c1 q
                  · exact c2 q
                · cases h
      refine ⟨if (s.mac m).isSome then 1 else 0, ?_, ?_⟩
      · rw [value, look, Option.isSome_map]
      · rw [← key]
        unfold On
        by_cases z : (s.mac m).isSome = true <;> simp [z]
    | compiler m =>
      rw [known.eq_def] at h
      split at h <;> rename_i he
      · cases he
      · cases he
      · cases he
      · cases he
      · cases he
      · cases he
      · cases he
        split at h
        · rename_i h11
          cases h
          refine ⟨if md.sun then 1 else 0, ?_, ?_⟩
          · rw [value, look, fit.sun h11]
          · cases md.sun <;> rfl
        · cases h
      · cases h
    | config m => cases h
  | ge x y =>
    intro z h
    rw [known.eq_def] at h
    split at h <;> rename_i he <;> try cases he
    · rename_i m c _ _
      split at h
      · rename_i hc
        rw [Bool.and_eq_true] at hc
        have hm : m = 2 := of_decide_eq_true hc.1
        subst hm
        have on : On s 2 := (rel.on 2).mpr (.inr (.inl hc.2))
        cases hd : s.mac 2 with
        | none => unfold On at on; rw [hd] at on; cases on
        | some d =>
          obtain ⟨v, hv, f1, f2, _⟩ := rel.core.std d hd
          refine ⟨if c ≤ v then 1 else 0, ?_, ?_⟩
          · simp only [value, look, hd, Option.map_some, hv]; rfl
          · split at h
            · rename_i e
              cases h
              rw [e, ← f1]
              by_cases z : 2011 ≤ v <;> simp [z]
            · split at h
              · rename_i e
                cases h
                rw [e, ← f2]
                by_cases z : 2014 ≤ v <;> simp [z]
              · cases h
      · cases h
    · cases h
  | gt x y =>
    intro z h
    rw [known.eq_def] at h
    split at h <;> rename_i he <;> try cases he
    · rename_i m c _ _
      split at h
      · rename_i hc
        rw [Bool.and_eq_true, Bool.and_eq_true] at hc
        have hm : m = 5 := of_decide_eq_true hc.1.1
        have hn : c = 2048 := of_decide_eq_true hc.1.2
        subst hm hn
        cases h
        have on : On s 5 := (rel.on 5).mpr (.inr (.inl hc.2))
        cases hd : s.mac 5 with
        | none => unfold On at on; rw [hd] at on; cases on
        | some d =>
          obtain ⟨v, hv, f1⟩ := rel.core.limit d hd
          refine ⟨if 2048 < v then 1 else 0, ?_, ?_⟩
          · simp only [value, look, hd, Option.map_some, hv]; rfl
          · rw [if_neg (by omega)]; rfl
      · cases h
    · cases h
  | val r =>
    intro x h
    rw [known.eq_def] at h
    split at h <;> rename_i he <;> try cases he
    · split at h
      · rename_i h11
        cases h
        obtain ⟨v, h1, h2⟩ := fit.clang h11
        exact ⟨v, by rw [value, look]; exact h1, h2⟩
      · cases h
    · cases h
  | feature f =>
    intro x h
    rw [known.eq_def] at h
    split at h <;> rename_i he <;> try cases he
    · split at h
      · rename_i h11
        cases h
        rw [Bool.and_eq_true] at h11
        refine ⟨if md.literals then 1 else 0, by rw [value, fit.literals h11.1 h11.2], ?_⟩
        cases md.literals <;> rfl
      · cases h
    · cases h
  | num n => intro x h; cases h
  | and a b _ _ => intro x h; cases h
  | or a b _ _ => intro x h; cases h
  | lt a b _ _ => intro x h; cases h
  | eq a b _ _ => intro x h; cases h

theorem Rel.see (rel : Rel md chosen me ib b a s) {e : Ev} (ha : Accepted (e :: s.seen))
    (hn : ∀ n, e = .defn n → ∃ f, md.nameOwner n = some f ∧ Started md s f) (a' : Abs)
    (h1 : a'.on = a.on) (h2 : a'.helpers = a.helpers) (h3 : a'.config = a.config) (h4 : a'.pending = a.pending)
    (h5 : ∀ n, a'.decl.testBit n ↔ a.decl.testBit n ∨ e = .declare n ∨ e = .defn n)
    (h6 : ∀ n, a'.defn.testBit n ↔ a.defn.testBit n ∨ e = .defn n)
    (h7 : ∀ n, a'.used.testBit n ↔ a.used.testBit n ∨ e = .use n) :
    Rel md chosen me ib b a' { s with seen := e :: s.seen } where
  core := rel.core.see ha hn
  clean := rel.clean
  on := by rw [h1, h2]; exact rel.on
  same := rel.same
  decl := fun n => by
    dsimp only
    rw [declared_cons, rel.decl, h5, or_assoc]
  defn := fun n => by
    dsimp only
    rw [List.mem_cons, rel.defn, h6]
    constructor
    · rintro (h | h | h)
      · exact .inr (.inr h.symm)
      · exact .inl h
      · exact .inr (.inl h)
    · rintro (h | h | h)
      · exact .inr (.inl h)
      · exact .inr (.inr h)
      · exact .inl h.symm
  used := fun n => by
    dsimp only
    rw [List.mem_cons, rel.used, h7]
    constructor
    · rintro (h | h | h)
      · exact .inr (.inr h.symm)
      · exact .inl h
      · exact .inr (.inl h)
    · rintro (h | h | h)
      · exact .inr (.inl h)
      · exact .inr (.inr h)
      · exact .inl h.symm
  config := by rw [h3]; exact rel.config
  keep := rel.keep
  body := fun h => ⟨(rel.body h).macros, (rel.body h).names, (rel.body h).started, by rw [h4]; exact (rel.body h).pend⟩

theorem checkText_sound : ∀ (es : List Ev) (a a' : Abs) (s : State),
    checkText md me ib es a = some a' → Rel md chosen me ib b a s → ∃ s', readText es s = .ok s' ∧ Rel md chosen me ib b a' s' := by
  intro es
  induction es with
  | nil =>
    intro a a' s h rel
    cases h
    exact ⟨s, rfl, rel⟩
  | cons e es ih =>
    intro a a' s h rel
    cases e with
    | declare n =>
      rw [checkText, Abs.force_eq] at h
      obtain ⟨s', h1, h2⟩ := ih _ _ { s with seen := .declare n :: s.seen } h
        (rel.see (e := .declare n) rel.core.accepted (fun _ z => by cases z) _ rfl rfl rfl rfl
          (fun x => by dsimp only; rw [testBit_put, Bool.or_eq_true, decide_eq_true_eq]; simp)
          (fun x => by simp) (fun x => by simp))
      exact ⟨s', h1, h2⟩
    | defn n =>
      rw [checkText] at h
      split at h
      · rename_i hc
        rw [Bool.and_eq_true, Bool.and_eq_true] at hc
        have ho : md.nameOwner n = some me := of_decide_eq_true hc.1.2
        have body := rel.body hc.1.1
        rw [Abs.force_eq] at h
        obtain ⟨s', h1, h2⟩ := ih _ _ { s with seen := .defn n :: s.seen } h
          (rel.see (e := .defn n) ⟨(fun z => by
            rcases (rel.defn n).mp z with q | q
            · exact body.names n ho q
            · rw [q] at hc; exact nomatch hc.2), rel.core.accepted⟩ (fun x z => by cases z; exact ⟨me, ho, body.started⟩) _ rfl rfl rfl rfl
            (fun x => by dsimp only; rw [testBit_put, Bool.or_eq_true, decide_eq_true_eq]; simp)
            (fun x => by dsimp only; rw [testBit_put, Bool.or_eq_true, decide_eq_true_eq]; simp)
            (fun x => by simp))
        exact ⟨s', h1, h2⟩
      · cases h
    | use n =>
      rw [checkText] at h
      split at h
      · rename_i hc
        rw [Abs.force_eq] at h
        obtain ⟨s', h1, h2⟩ := ih _ _ { s with seen := .use n :: s.seen } h
          (rel.see (e := .use n) ⟨(rel.decl n).mpr (.inr hc), rel.core.accepted⟩ (fun _ z => by cases z) _ rfl rfl rfl rfl
            (fun x => by simp) (fun x => by simp)
            (fun x => by dsimp only; rw [testBit_put, Bool.or_eq_true, decide_eq_true_eq]; simp))
        exact ⟨s', h1, h2⟩
      · cases h
    | expand m =>
      rw [checkText] at h
      split at h
      · rename_i hc
        rw [Bool.or_eq_true] at hc
        obtain ⟨s', h1, h2⟩ := ih _ _ s h rel
        have on : (s.mac m).isSome = true := (rel.on m).mpr (.inr hc)
        exact ⟨s', by rw [readText, if_pos on]; exact h1, h2⟩
      · cases h

theorem check_sound (fit : EnvFits md env) {look : Nat → Option Know} {n : Nat}
    (hl : ∀ h w, look h = some w → h < me ∧ Spec md chosen env h w) : ∀ (p : Prog) (a a' : Abs) (s : State),
    check look md me ib p a = some a' → a'.depth ≤ n → Static md me a → Rel md chosen me ib b a s →
    ∃ s', exec env (includes headers env n) p s = .ok s' ∧ Rel md chosen me ib b a' s' := by
  have hl' : ∀ h w, look h = some w → h < me ∧ Low md h w := fun h w e => ⟨(hl h w e).1, (hl h w e).2.low⟩
  intro p
  induction p with
  | done =>
    intro a a' s h hd st rel
    cases h
    exact ⟨s, rfl, rel⟩
  | incl i k ih =>
    intro a a' s h hd st rel
    have hall := h
    rw [check] at h
    split at h
    · rename_i c
      rw [Bool.and_eq_true] at c
      have h0 : a.helpers = 0 := of_decide_eq_true c.1
      cases e : look i with
      | none => rw [e] at h; cases h
      | some w =>
        rw [e] at h
        dsimp only at h
        rw [Abs.force_eq] at h
        obtain ⟨l1, l2⟩ := hl i w e
        have st1 : Static md me { a with
          on := a.on ||| w.on, decl := a.decl ||| w.decl, defn := a.defn ||| w.defn, used := a.used ||| w.used
          config := a.config || w.config, depth := max a.depth w.depth } := by
          have one : check look md me ib (.incl i .done) a = some { a with
            on := a.on ||| w.on, decl := a.decl ||| w.decl, defn := a.defn ||| w.defn, used := a.used ||| w.used
            config := a.config || w.config, depth := max a.depth w.depth } := by
            rw [check, if_pos (by rw [Bool.and_eq_true]; exact c), e]
            dsimp only
            rw [Abs.force_eq]
            rfl
          exact (check_le hl' _ _ _ one st).2
        have le := (check_le hl' _ _ _ h st1).1.depth
        dsimp only at le
        have clean : NoHelpers s := fun m hm z => by
          rcases (rel.on m).mp z with q | q | q
          · exact rel.clean m hm q
          · exact st.helper m q hm
          · rw [h0, Nat.zero_testBit] at q; cases q
        obtain ⟨s1, r1, r2, r3, r4⟩ := l2.run me s n l1 (by omega) rel.core clean
          (fun m hm => (rel.on m).mpr (.inr (.inl (List.all_eq_true.mp c.2 m hm))))
        have rel1 : Rel md chosen me ib b { a with
            on := a.on ||| w.on, decl := a.decl ||| w.decl, defn := a.defn ||| w.defn, used := a.used ||| w.used
            config := a.config || w.config, depth := max a.depth w.depth } s1 := {
          core := r2
          clean := rel.clean
          on := fun m => by
            dsimp only
            rw [r4.on, rel.on, Nat.testBit_or, Bool.or_eq_true]
            constructor
            · rintro ((h | h | h) | h)
              · exact .inl h
              · exact .inr (.inl (.inl h))
              · exact .inr (.inr h)
              · exact .inr (.inl (.inr h))
            · rintro (h | (h | h) | h)
              · exact .inl (.inl h)
              · exact .inl (.inr (.inl h))
              · exact .inr h
              · exact .inl (.inr (.inr h))
          same := fun m hm => by rw [r4.same m ((rel.on m).mpr (.inl hm)), rel.same m hm]
          decl := fun m => by
            dsimp only
            rw [r4.decl, rel.decl, Nat.testBit_or, Bool.or_eq_true, or_assoc]
          defn := fun m => by
            dsimp only
            rw [r4.defn, rel.defn, Nat.testBit_or, Bool.or_eq_true, or_assoc]
          used := fun m => by
            dsimp only
            rw [r4.used, rel.used, Nat.testBit_or, Bool.or_eq_true, or_assoc]
          config := fun z => by
            dsimp only at z
            rw [Bool.or_eq_true] at z
            rcases z with z | z
            · exact r4.keep (rel.config z)
            · exact r4.config z
          keep := fun z => r4.keep (rel.keep z)
          body := fun z => {
            macros := (rel.body z).macros
            names := (rel.body z).names
            started := (rel.body z).started.mono fun m _ q => (r4.on m).mpr (.inl q)
            pend := fun m d q ho => by
              have on : On s1 m := by unfold On; rw [q]; rfl
              rcases (r4.on m).mp on with y | y
              · rw [r4.same m y] at q
                exact (rel.body z).pend m d q ho
              · rcases l2.low.owner m y with u | ⟨f, u1, u2⟩
                · rw [owner_not_user ho] at u; cases u
                · rw [ho] at u2; cases u2; omega } }
        obtain ⟨s2, e1, e2⟩ := ih _ _ s1 h hd st1 rel1
        exact ⟨s2, by rw [exec, r1]; exact e1, e2⟩
    · cases h
  | external x k ih =>
    intro a a' s h hd st rel
    rw [check, Abs.force_eq] at h
    obtain ⟨s2, e1, e2⟩ := ih _ _ { s with config := s.config || x = 0 || env.pulls x } h hd
      ⟨st.owner, st.helper, st.helpers⟩ {
        core := rel.core.setConfig fun z => by rw [z]; rfl
        clean := rel.clean
        on := rel.on
        same := rel.same
        decl := rel.decl
        defn := rel.defn
        used := rel.used
        config := fun z => by
          dsimp only at z ⊢
          rw [Bool.or_eq_true] at z
          rcases z with z | z
          · rw [rel.config z]; rfl
          · rw [z, Bool.or_true]; rfl
        keep := fun z => by dsimp only; rw [rel.keep z]; rfl
        body := fun z => ⟨(rel.body z).macros, (rel.body z).names, (rel.body z).started, (rel.body z).pend⟩ }
    exact ⟨s2, by rw [exec]; exact e1, e2⟩
  | cond e t f k iht ihf ihk =>
    intro a a' s h hd st rel
    rw [check] at h
    cases hb : known md me ib a e with
    | none => rw [hb] at h; cases h
    | some x =>
      rw [hb] at h
      dsimp only at h
      obtain ⟨v, hv, hx⟩ := known_sound fit rel e x hb
      cases x with
      | true =>
        rw [if_pos rfl] at h
        cases ht : check look md me ib t a with
        | none => rw [ht] at h; cases h
        | some a1 =>
          rw [ht] at h
          have st1 := (check_le hl' _ _ _ ht st).2
          have le := (check_le hl' _ _ _ h st1).1.depth
          obtain ⟨s1, e1, e2⟩ := iht _ _ s ht (Nat.le_trans le hd) st rel
          obtain ⟨s2, e3, e4⟩ := ihk _ _ s1 h hd st1 e2
          refine ⟨s2, ?_, e4⟩
          rw [exec, hv]
          dsimp only
          rw [if_pos (of_decide_eq_true hx), e1]
          exact e3
      | false =>
        rw [if_neg (by decide)] at h
        cases ht : check look md me ib f a with
        | none => rw [ht] at h; cases h
        | some a1 =>
          rw [ht] at h
          have st1 := (check_le hl' _ _ _ ht st).2
          have le := (check_le hl' _ _ _ h st1).1.depth
          obtain ⟨s1, e1, e2⟩ := ihf _ _ s ht (Nat.le_trans le hd) st rel
          obtain ⟨s2, e3, e4⟩ := ihk _ _ s1 h hd st1 e2
          refine ⟨s2, ?_, e4⟩
          rw [exec, hv]
          dsimp only
          rw [if_neg (of_decide_eq_false hx), e1]
          exact e3
  | define m v ms ns k ih =>
    intro a a' s h hd st rel
    rw [check] at h
    split at h
    · rename_i hm
      split at h
      · cases h
      · rename_i hc
        rw [Abs.force_eq] at h
        have off : ¬ On s m := fun z => by
          rcases (rel.on m).mp z with q | q | q
          · exact rel.clean m hm q
          · exact st.helper m q hm
          · exact hc q
        obtain ⟨s2, e1, e2⟩ := ih _ _ (s.set m (some ⟨v, ms, ns⟩)) h hd ⟨st.owner, st.helper, fun x q => by
            dsimp only at q
            rw [testBit_put, Bool.or_eq_true] at q
            rcases q with q | q
            · exact st.helpers x q
            · rw [← of_decide_eq_true q]; exact hm⟩ {
          core := rel.core.setHelper hm
          clean := rel.clean
          on := fun x => by
            dsimp only
            rw [on_set, testBit_put, Bool.or_eq_true, decide_eq_true_eq]
            by_cases ex : x = m
            · subst ex; simp
            · rw [if_neg ex, rel.on]
              have ex' : ¬ m = x := fun z => ex z.symm
              simp only [ex', or_false]
          same := fun x q => by
            rw [mac_set, if_neg (fun ex => off (by rw [← ex]; exact (rel.on x).mpr (.inl q)))]
            exact rel.same x q
          decl := rel.decl
          defn := rel.defn
          used := rel.used
          config := rel.config
          keep := rel.keep
          body := fun z => {
            macros := (rel.body z).macros
            names := (rel.body z).names
            started := (rel.body z).started.set
            pend := fun x d q ho => by
              rw [mac_set, if_neg (fun ex => by rw [ex] at ho; rw [owner_not_helper ho] at hm; cases hm)] at q
              exact (rel.body z).pend x d q ho } }
        exact ⟨s2, by rw [exec, if_neg (show ¬ (s.mac m).isSome = true from off)]; exact e1, e2⟩
    · rename_i hm
      split at h
      · rename_i hc
        have hc0 := hc
        rw [Bool.and_eq_true, Bool.and_eq_true] at hc
        have ho : md.macroOwner m = some me := of_decide_eq_true hc.1.2
        have body := rel.body hc.1.1
        rw [Abs.force_eq] at h
        have off : ¬ On s m := fun z => by
          rcases (rel.on m).mp z with q | q | q
          · exact body.macros m ho q
          · rw [q] at hc; cases hc.2
          · exact hm (st.helpers m q)
        obtain ⟨s2, e1, e2⟩ := ih _ _ (s.set m (some ⟨v, ms, ns⟩)) h hd ⟨fun x q => by
            dsimp only at q
            rw [testBit_put, Bool.or_eq_true] at q
            rcases q with q | q
            · exact st.owner x q
            · rw [← of_decide_eq_true q]; exact .inr ⟨me, Nat.le_refl _, ho⟩,
          fun x q => by
            dsimp only at q
            rw [testBit_put, Bool.or_eq_true] at q
            rcases q with q | q
            · exact st.helper x q
            · rw [← of_decide_eq_true q]; exact hm,
          st.helpers⟩ {
          core := rel.core.setOwn ho body.started.set
          clean := rel.clean
          on := fun x => by
            dsimp only
            rw [on_set, testBit_put, Bool.or_eq_true, decide_eq_true_eq]
            by_cases ex : x = m
            · subst ex; simp
            · rw [if_neg ex, rel.on]
              have ex' : ¬ m = x := fun z => ex z.symm
              simp only [ex', or_false]
          same := fun x q => by
            rw [mac_set, if_neg (fun ex => off (by rw [← ex]; exact (rel.on x).mpr (.inl q)))]
            exact rel.same x q
          decl := rel.decl
          defn := rel.defn
          used := rel.used
          config := rel.config
          keep := rel.keep
          body := fun z => {
            macros := (rel.body z).macros
            names := (rel.body z).names
            started := (rel.body z).started.set
            pend := fun x d q ho => by
              rw [mac_set] at q
              by_cases ex : x = m
              · rw [if_pos ex] at q
                cases q
                rw [ex]
                exact .inr (List.mem_cons_self ..)
              · rw [if_neg ex] at q
                rcases (rel.body z).pend x d q ho with y | y
                · exact .inl y
                · exact .inr (List.mem_cons_of_mem _ y) } }
        exact ⟨s2, by rw [exec, if_neg (show ¬ (s.mac m).isSome = true from off)]; exact e1, e2⟩
      · cases h
  | undef m k ih =>
    intro a a' s h hd st rel
    rw [check] at h
    split at h
    · rename_i hc
      rw [Bool.and_eq_true] at hc
      rw [Abs.force_eq] at h
      have hm : isHelper m = true := hc.1
      obtain ⟨s2, e1, e2⟩ := ih _ _ (s.set m none) h hd ⟨st.owner, st.helper, fun x q => by
          dsimp only at q
          rw [testBit_take_out hc.2, Bool.and_eq_true] at q
          exact st.helpers x q.1⟩ {
        core := rel.core.unsetHelper hm
        clean := rel.clean
        on := fun x => by
          dsimp only
          rw [on_set, testBit_take_out hc.2, Bool.and_eq_true]
          by_cases ex : x = m
          · subst ex
            rw [if_pos rfl]
            constructor
            · intro z; cases z
            · rintro (z | z | ⟨_, z⟩)
              · exact (rel.clean x hm z).elim
              · exact (st.helper x z hm).elim
              · simp at z
          · rw [if_neg ex, rel.on]
            have ex' : ¬ m = x := fun z => ex z.symm
            simp [ex']
        same := fun x q => by
          rw [mac_set, if_neg (fun ex => rel.clean m hm (by rw [← ex]; exact q))]
          exact rel.same x q
        decl := rel.decl
        defn := rel.defn
        used := rel.used
        config := rel.config
        keep := rel.keep
        body := fun z => {
          macros := (rel.body z).macros
          names := (rel.body z).names
          started := (rel.body z).started.mono fun x p q => by
            rw [on_set, if_neg (fun ex => p (by rw [ex]; exact hm))]
            exact q
          pend := fun x d q ho => by
            rw [mac_set, if_neg (fun ex => by rw [ex] at ho; rw [owner_not_helper ho] at hm; cases hm)] at q
            exact (rel.body z).pend x d q ho } }
      exact ⟨s2, by rw [exec]; exact e1, e2⟩
    · cases h
  | error t =>
    intro a a' s h hd st rel
    cases h
  | text evs k ih =>
    intro a a' s h hd st rel
    rw [check] at h
    cases ht : checkText md me ib evs a with
    | none => rw [ht] at h; cases h
    | some a1 =>
      rw [ht] at h
      obtain ⟨h1, h2, h3, h4, h5⟩ := checkText_le _ _ _ ht
      obtain ⟨s1, e1, e2⟩ := checkText_sound _ _ _ s ht rel
      obtain ⟨s2, e3, e4⟩ := ih _ _ s1 h hd
        ⟨by rw [h2]; exact st.owner, by rw [h2]; exact st.helper, by rw [h3]; exact st.helpers⟩ e2
      exact ⟨s2, by rw [exec, e1]; exact e3, e4⟩

end run

end Metaparse.Inclusion
