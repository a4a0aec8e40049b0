/-
What stays true while headers are included, and what a header does to it.
-/
import Verif.Lemmas.InclusionCheck
import Verif.Spec.Inclusion

namespace Metaparse.Inclusion

/-- The macro is defined. -/
def On (s : State) (m : Nat) : Prop := (s.mac m).isSome = true

/-- The guard of a header. -/
def guardOf (f : Nat) : Option Nat := (headers[f]?).bind (·.guard)

/-- The header has been begun. -/
def Started (md : Mode) (s : State) (f : Nat) : Prop :=
  ∃ g, guardOf f = some g ∧ md.macroOwner g = some f ∧ On s g

structure Holds (w : Know) (s : State) : Prop where
  on : ∀ m, w.on.testBit m → On s m ∧ ¬ isHelper m
  decl : ∀ n, w.decl.testBit n → Declared s.seen n
  defn : ∀ n, w.defn.testBit n → Ev.defn n ∈ s.seen
  used : ∀ n, w.used.testBit n → Ev.use n ∈ s.seen
  config : w.config → s.config

/-- The mode describes the compiler. -/
structure EnvFits (md : Mode) (env : Env) : Prop where
  clang : md.is11 → ∃ v, (match env.compiler 0 with | none => some 0 | some v => v) = some v ∧ decide (v ≠ 0) = md.clang
  literals : md.is11 → md.clang → env.feature 0 = md.literals
  sun : md.is11 → (env.compiler 4).isSome = md.sun

/-- The standard that the library would choose and the standard that it is. -/
structure Choice where
  own : Nat
  final : Nat

/-- The mode describes the standard. -/
def StdFits (md : Mode) (chosen : Choice) (v : Nat) : Prop :=
  decide (2011 ≤ v) = md.is11 ∧ decide (2014 ≤ v) = md.is14 ∧ v = chosen.final

/-- What stays true; nothing is said about the headers from `r` on, which may be half read. -/
structure Core (md : Mode) (chosen : Choice) (r : Nat) (s : State) : Prop where
  own : ∀ m, On s m → isHelper m ∨ isUser m ∨ ∃ f, md.macroOwner m = some f ∧ Started md s f
  names : ∀ n, Ev.defn n ∈ s.seen → ∃ f, md.nameOwner n = some f ∧ Started md s f
  closed : ∀ f g w, f < r → guardOf f = some g → md.macroOwner g = some f → md.look f = some w → On s g → Holds w s
  usable : ∀ m d, s.mac m = some d → isHelper m ∨ m ∈ md.excused ∨ (∃ f, md.macroOwner m = some f ∧ r ≤ f) ∨
    ((∀ x ∈ d.macros, On s x ∧ ¬ isHelper x) ∧ ∀ n ∈ d.names, Declared s.seen n)
  accepted : Accepted s.seen
  std : ∀ d, s.mac 2 = some d → ∃ v, d.value = some v ∧ StdFits md chosen v
  chosen : s.mac 2 = none → StdFits md chosen chosen.own
  limit : ∀ d, s.mac 5 = some d → ∃ v, d.value = some v ∧ v ≤ 2048

def NoHelpers (s : State) : Prop := ∀ m, isHelper m → ¬ On s m

/-- What a header does. -/
structure Post (w : Know) (s s' : State) : Prop where
  on : ∀ m, On s' m ↔ On s m ∨ w.on.testBit m
  same : ∀ m, On s m → s'.mac m = s.mac m
  decl : ∀ n, Declared s'.seen n ↔ Declared s.seen n ∨ w.decl.testBit n
  defn : ∀ n, Ev.defn n ∈ s'.seen ↔ Ev.defn n ∈ s.seen ∨ w.defn.testBit n
  used : ∀ n, Ev.use n ∈ s'.seen ↔ Ev.use n ∈ s.seen ∨ w.used.testBit n
  config : w.config → s'.config
  keep : s.config → s'.config

/-- What a header does can only be done by the header and those before it. -/
structure Low (md : Mode) (h : Nat) (w : Know) : Prop where
  owner : ∀ m, w.on.testBit m → isUser m ∨ ∃ f, f ≤ h ∧ md.macroOwner m = some f
  helper : ∀ m, w.on.testBit m → ¬ isHelper m

structure Spec (md : Mode) (chosen : Choice) (env : Env) (h : Nat) (w : Know) : Prop where
  low : Low md h w
  run : ∀ r s n, h < r → w.depth ≤ n → Core md chosen r s → NoHelpers s → (∀ m ∈ assumed h, On s m) →
    ∃ s', includes headers env n h s = .ok s' ∧ Core md chosen r s' ∧ NoHelpers s' ∧ Post w s s'

section sets

theorem testBit_put (s i j : Nat) : (put s i).testBit j = (s.testBit j || decide (i = j)) := by
  rw [put, Nat.testBit_or, Nat.one_shiftLeft, Nat.testBit_two_pow]

theorem testBit_foldl (l : List Nat) : ∀ (s j : Nat), (l.foldl put s).testBit j = (s.testBit j || l.contains j) := by
  induction l with
  | nil => intro s j; simp
  | cons a l ih =>
    intro s j
    rw [List.foldl_cons, ih, testBit_put, List.contains_cons, Bool.or_assoc]
    congr 1
    congr 1
    by_cases h : a = j
    · simp [h]
    · have h' : ¬ j = a := fun e => h e.symm
      simp [h, h']

theorem testBit_toSet (l : List Nat) (j : Nat) : (toSet l).testBit j = l.contains j := by
  rw [toSet, testBit_foldl, Nat.zero_testBit, Bool.false_or]

theorem testBit_take_out {s i j : Nat} (h : s.testBit i = true) :
    (s ^^^ (1 <<< i)).testBit j = (s.testBit j && !decide (i = j)) := by
  rw [Nat.testBit_xor, Nat.one_shiftLeft, Nat.testBit_two_pow]
  by_cases e : i = j
  · subst e; simp [h]
  · simp [e]

theorem helper_user_disjoint : helperSet &&& userSet = 0 := by decide +kernel

theorem not_user_of_helper {m : Nat} (h : isHelper m = true) : isUser m = false := by
  have e := congrArg (Nat.testBit · m) helper_user_disjoint
  simp only [Nat.testBit_and, Nat.zero_testBit] at e
  rw [isHelper] at h
  rw [h, Bool.true_and] at e
  exact e

theorem owner_not_helper {md : Mode} {m f : Nat} (h : md.macroOwner m = some f) : isHelper m = false := by
  rw [Mode.macroOwner] at h
  cases e : isHelper m with
  | false => rfl
  | true => rw [e] at h; simp at h

theorem owner_not_user {md : Mode} {m f : Nat} (h : md.macroOwner m = some f) : isUser m = false := by
  rw [Mode.macroOwner] at h
  cases e : isUser m with
  | false => rfl
  | true => rw [e] at h; simp at h

theorem user_two : isUser 2 = true := by decide +kernel

theorem user_five : isUser 5 = true := by decide +kernel

end sets

section changes

variable {md : Mode} {chosen : Choice} {r : Nat} {s : State}

theorem on_set (m x : Nat) (d : Option Macro) : On (s.set m d) x ↔ if x = m then d.isSome = true else On s x := by
  unfold On State.set
  by_cases e : x = m
  · simp [e]
  · simp [e]

theorem mac_set (m x : Nat) (d : Option Macro) : (s.set m d).mac x = if x = m then d else s.mac x := rfl

theorem on_set_mono {m x : Nat} {d : Macro} (h : On s x) : On (s.set m (some d)) x := by
  rw [on_set]
  by_cases e : x = m
  · simp [e]
  · simp [e, h]

theorem Started.mono {s' : State} (h : ∀ m, ¬ isHelper m → On s m → On s' m) {f : Nat} (p : Started md s f) :
    Started md s' f := by
  obtain ⟨g, h1, h2, h3⟩ := p
  exact ⟨g, h1, h2, h g (by rw [owner_not_helper h2]; decide) h3⟩

theorem Holds.mono {w : Know} {s' : State} (h : Holds w s) (ho : ∀ m, ¬ isHelper m → On s m → On s' m)
    (hd : ∀ n, Declared s.seen n → Declared s'.seen n) (hf : ∀ n, Ev.defn n ∈ s.seen → Ev.defn n ∈ s'.seen)
    (hu : ∀ n, Ev.use n ∈ s.seen → Ev.use n ∈ s'.seen) (hc : s.config → s'.config) : Holds w s' :=
  ⟨fun m p => ⟨ho m (h.on m p).2 (h.on m p).1, (h.on m p).2⟩, fun n p => hd n (h.decl n p),
    fun n p => hf n (h.defn n p), fun n p => hu n (h.used n p), fun p => hc (h.config p)⟩

theorem Core.weaken {h : Nat} (c : Core md chosen r s) (p : h ≤ r) : Core md chosen h s where
  own := c.own
  names := c.names
  closed := fun f g w q => c.closed f g w (Nat.lt_of_lt_of_le q p)
  usable := fun m d q => by
    rcases c.usable m d q with a | a | ⟨f, a, b⟩ | a
    · exact .inl a
    · exact .inr (.inl a)
    · exact .inr (.inr (.inl ⟨f, a, Nat.le_trans p b⟩))
    · exact .inr (.inr (.inr a))
  accepted := c.accepted
  std := c.std
  chosen := c.chosen
  limit := c.limit

/-- Boost.Config is included. -/
theorem Core.setConfig (c : Core md chosen r s) {b : Bool} (h : s.config = true → b = true) :
    Core md chosen r { s with config := b } where
  own := c.own
  names := c.names
  closed := fun f g w p q t u v =>
    (c.closed f g w p q t u v).mono (fun _ _ a => a) (fun _ a => a) (fun _ a => a) (fun _ a => a) h
  usable := c.usable
  accepted := c.accepted
  std := c.std
  chosen := c.chosen
  limit := c.limit

theorem Started.set {m f : Nat} {d : Macro} (p : Started md s f) : Started md (s.set m (some d)) f :=
  p.mono fun _ _ q => on_set_mono q

theorem usable_set {m : Nat} {e : Macro} {d : Macro}
    (h : (∀ x ∈ d.macros, On s x ∧ ¬ isHelper x) ∧ ∀ n ∈ d.names, Declared s.seen n) :
    (∀ x ∈ d.macros, On (s.set m (some e)) x ∧ ¬ isHelper x) ∧ ∀ n ∈ d.names, Declared (s.set m (some e)).seen n :=
  ⟨fun x p => ⟨on_set_mono (h.1 x p).1, (h.1 x p).2⟩, h.2⟩

/-- A macro that is undefined again later. -/
theorem Core.setHelper (c : Core md chosen r s) {m : Nat} {d : Macro} (hm : isHelper m = true) :
    Core md chosen r (s.set m (some d)) where
  own := fun x p => by
    rw [on_set] at p
    by_cases e : x = m
    · subst e; exact .inl hm
    · rw [if_neg e] at p
      rcases c.own x p with a | a | ⟨f, a, b⟩
      · exact .inl a
      · exact .inr (.inl a)
      · exact .inr (.inr ⟨f, a, b.set⟩)
  names := fun n p => by
    obtain ⟨f, a, b⟩ := c.names n p
    exact ⟨f, a, b.set⟩
  closed := fun f g w p q t u v => by
    rw [on_set] at v
    have e : g ≠ m := fun e => by rw [e] at t; rw [owner_not_helper t] at hm; cases hm
    rw [if_neg e] at v
    exact (c.closed f g w p q t u v).mono (fun _ _ a => on_set_mono a) (fun _ a => a) (fun _ a => a) (fun _ a => a)
        (fun a => a)
  usable := fun x d' p => by
    rw [mac_set] at p
    by_cases e : x = m
    · subst e; exact .inl hm
    · rw [if_neg e] at p
      rcases c.usable x d' p with a | a | a | a
      · exact .inl a
      · exact .inr (.inl a)
      · exact .inr (.inr (.inl a))
      · exact .inr (.inr (.inr (usable_set a)))
  accepted := c.accepted
  std := fun d' p => by
    rw [mac_set] at p
    have e : ¬ 2 = m := fun e => by rw [← e] at hm; have := not_user_of_helper hm; rw [user_two] at this; cases this
    rw [if_neg e] at p
    exact c.std d' p
  chosen := fun p => by
    rw [mac_set] at p
    have e : ¬ 2 = m := fun e => by rw [← e] at hm; have := not_user_of_helper hm; rw [user_two] at this; cases this
    rw [if_neg e] at p
    exact c.chosen p
  limit := fun d' p => by
    rw [mac_set] at p
    have e : ¬ 5 = m := fun e => by rw [← e] at hm; have := not_user_of_helper hm; rw [user_five] at this; cases this
    rw [if_neg e] at p
    exact c.limit d' p

/-- It is undefined. -/
theorem Core.unsetHelper (c : Core md chosen r s) {m : Nat} (hm : isHelper m = true) :
    Core md chosen r (s.set m none) := by
  have keep : ∀ x, ¬ isHelper x → On s x → On (s.set m none) x := by
    intro x p q
    rw [on_set, if_neg (fun e => p (by rw [e]; exact hm))]
    exact q
  have e2 : ¬ 2 = m := fun e => by
    rw [← e] at hm; have := not_user_of_helper hm; rw [user_two] at this; cases this
  have e5 : ¬ 5 = m := fun e => by
    rw [← e] at hm; have := not_user_of_helper hm; rw [user_five] at this; cases this
  exact {
    own := fun x p => by
      rw [on_set] at p
      by_cases e : x = m
      · subst e; exact .inl hm
      · rw [if_neg e] at p
        rcases c.own x p with a | a | ⟨f, a, b⟩
        · exact .inl a
        · exact .inr (.inl a)
        · exact .inr (.inr ⟨f, a, b.mono keep⟩)
    names := fun n p => by
      obtain ⟨f, a, b⟩ := c.names n p
      exact ⟨f, a, b.mono keep⟩
    closed := fun f g w p q t u v => by
      rw [on_set] at v
      have e : g ≠ m := fun e => by rw [e] at t; rw [owner_not_helper t] at hm; cases hm
      rw [if_neg e] at v
      exact (c.closed f g w p q t u v).mono keep (fun _ a => a) (fun _ a => a) (fun _ a => a)
        (fun a => a)
    usable := fun x d' p => by
      rw [mac_set] at p
      by_cases e : x = m
      · subst e; exact .inl hm
      · rw [if_neg e] at p
        rcases c.usable x d' p with a | a | a | a
        · exact .inl a
        · exact .inr (.inl a)
        · exact .inr (.inr (.inl a))
        · exact .inr (.inr (.inr ⟨fun y q => ⟨keep y (a.1 y q).2 (a.1 y q).1, (a.1 y q).2⟩, a.2⟩))
    accepted := c.accepted
    std := fun d' p => by rw [mac_set, if_neg e2] at p; exact c.std d' p
    chosen := fun p => by rw [mac_set, if_neg e2] at p; exact c.chosen p
    limit := fun d' p => by rw [mac_set, if_neg e5] at p; exact c.limit d' p }

/-- A header that is being read defines one of its own macros. -/
theorem Core.setOwn (c : Core md chosen r s) {m : Nat} {d : Macro} (ho : md.macroOwner m = some r)
    (hs : Started md (s.set m (some d)) r) : Core md chosen r (s.set m (some d)) := by
  have e2 : ¬ 2 = m := fun e => by rw [← e] at ho; have := owner_not_user ho; rw [user_two] at this; cases this
  have e5 : ¬ 5 = m := fun e => by rw [← e] at ho; have := owner_not_user ho; rw [user_five] at this; cases this
  exact {
    own := fun x p => by
      rw [on_set] at p
      by_cases e : x = m
      · subst e; exact .inr (.inr ⟨r, ho, hs⟩)
      · rw [if_neg e] at p
        rcases c.own x p with a | a | ⟨f, a, b⟩
        · exact .inl a
        · exact .inr (.inl a)
        · exact .inr (.inr ⟨f, a, b.set⟩)
    names := fun n p => by
      obtain ⟨f, a, b⟩ := c.names n p
      exact ⟨f, a, b.set⟩
    closed := fun f g w p q t u v => by
      rw [on_set] at v
      have e : g ≠ m := fun e => by
        rw [e, ho] at t; cases t; exact Nat.lt_irrefl _ p
      rw [if_neg e] at v
      exact (c.closed f g w p q t u v).mono (fun _ _ a => on_set_mono a) (fun _ a => a) (fun _ a => a) (fun _ a => a)
        (fun a => a)
    usable := fun x d' p => by
      rw [mac_set] at p
      by_cases e : x = m
      · subst e; exact .inr (.inr (.inl ⟨r, ho, Nat.le_refl _⟩))
      · rw [if_neg e] at p
        rcases c.usable x d' p with a | a | a | a
        · exact .inl a
        · exact .inr (.inl a)
        · exact .inr (.inr (.inl a))
        · exact .inr (.inr (.inr (usable_set a)))
    accepted := c.accepted
    std := fun d' p => by rw [mac_set, if_neg e2] at p; exact c.std d' p
    chosen := fun p => by rw [mac_set, if_neg e2] at p; exact c.chosen p
    limit := fun d' p => by rw [mac_set, if_neg e5] at p; exact c.limit d' p }

/-- A macro that the user could have defined gets the value of the library. -/
theorem Core.setUser (c : Core md chosen r s) {m v : Nat} (hu : isUser m = true)
    (h2 : m = 2 → StdFits md chosen v) (h5 : m = 5 → v ≤ 2048) : Core md chosen r (s.set m (some ⟨some v, [], []⟩)) where
  own := fun x p => by
    rw [on_set] at p
    by_cases e : x = m
    · subst e; exact .inr (.inl hu)
    · rw [if_neg e] at p
      rcases c.own x p with a | a | ⟨f, a, b⟩
      · exact .inl a
      · exact .inr (.inl a)
      · exact .inr (.inr ⟨f, a, b.set⟩)
  names := fun n p => by
    obtain ⟨f, a, b⟩ := c.names n p
    exact ⟨f, a, b.set⟩
  closed := fun f g w p q t u v => by
    rw [on_set] at v
    have e : g ≠ m := fun e => by rw [e] at t; rw [owner_not_user t] at hu; cases hu
    rw [if_neg e] at v
    exact (c.closed f g w p q t u v).mono (fun _ _ a => on_set_mono a) (fun _ a => a) (fun _ a => a) (fun _ a => a)
        (fun a => a)
  usable := fun x d' p => by
    rw [mac_set] at p
    by_cases e : x = m
    · rw [if_pos e] at p
      cases p
      exact .inr (.inr (.inr ⟨(fun _ q => nomatch q), (fun _ q => nomatch q)⟩))
    · rw [if_neg e] at p
      rcases c.usable x d' p with a | a | a | a
      · exact .inl a
      · exact .inr (.inl a)
      · exact .inr (.inr (.inl a))
      · exact .inr (.inr (.inr (usable_set a)))
  accepted := c.accepted
  std := fun d' p => by
    rw [mac_set] at p
    by_cases e : 2 = m
    · rw [if_pos e] at p; cases p; exact ⟨v, rfl, h2 e.symm⟩
    · rw [if_neg e] at p; exact c.std d' p
  chosen := fun p => by
    rw [mac_set] at p
    by_cases e : 2 = m
    · rw [if_pos e] at p; cases p
    · rw [if_neg e] at p; exact c.chosen p
  limit := fun d' p => by
    rw [mac_set] at p
    by_cases e : 5 = m
    · rw [if_pos e] at p; cases p; exact ⟨v, rfl, h5 e.symm⟩
    · rw [if_neg e] at p; exact c.limit d' p

theorem declared_cons {l : List Ev} {e : Ev} {n : Nat} :
    Declared (e :: l) n ↔ Declared l n ∨ e = .declare n ∨ e = .defn n := by
  unfold Declared
  rw [List.mem_cons, List.mem_cons]
  constructor
  · rintro ((h | h) | (h | h))
    · exact .inr (.inl h.symm)
    · exact .inl (.inl h)
    · exact .inr (.inr h.symm)
    · exact .inl (.inr h)
  · rintro ((h | h) | (h | h))
    · exact .inl (.inr h)
    · exact .inr (.inr h)
    · exact .inl (.inl h.symm)
    · exact .inr (.inl h.symm)

/-- The compiler reads something. -/
theorem Core.see (c : Core md chosen r s) {e : Ev} (ha : Accepted (e :: s.seen))
    (hn : ∀ n, e = .defn n → ∃ f, md.nameOwner n = some f ∧ Started md s f) :
    Core md chosen r { s with seen := e :: s.seen } where
  own := c.own
  names := fun n p => by
    rcases List.mem_cons.mp p with q | q
    · exact hn n q.symm
    · exact c.names n q
  closed := fun f g w p q t u v =>
    (c.closed f g w p q t u v).mono (fun _ _ a => a) (fun _ a => declared_cons.mpr (.inl a))
      (fun _ a => List.mem_cons_of_mem _ a) (fun _ a => List.mem_cons_of_mem _ a) (fun a => a)
  usable := fun m d p => by
    rcases c.usable m d p with a | a | a | a
    · exact .inl a
    · exact .inr (.inl a)
    · exact .inr (.inr (.inl a))
    · exact .inr (.inr (.inr ⟨a.1, fun n q => declared_cons.mpr (.inl (a.2 n q))⟩))
  accepted := ha
  std := c.std
  chosen := c.chosen
  limit := c.limit

/-- When a header has been read, what was true before it is true again. -/
theorem Core.restore {h : Nat} {s' : State} {w : Know} (c : Core md chosen r s)
    (c' : Core md chosen h s') (p : Post w s s') (low : Low md h w)
    (use : ∀ m d, s'.mac m = some d → md.macroOwner m = some h → m ∈ md.excused ∨
      ((∀ x ∈ d.macros, On s' x ∧ ¬ isHelper x) ∧ ∀ n ∈ d.names, Declared s'.seen n))
    (cl : ∀ g v, guardOf h = some g → md.macroOwner g = some h → md.look h = some v → On s' g → Holds v s') :
    Core md chosen r s' where
  own := c'.own
  names := c'.names
  closed := fun f g v a b t u on => by
    rcases Nat.lt_trichotomy f h with l | l | l
    · exact c'.closed f g v l b t u on
    · subst l; exact cl g v b t u on
    · rcases (p.on g).mp on with q | q
      · exact (c.closed f g v a b t u q).mono (fun m _ z => (p.on m).mpr (.inl z))
          (fun n z => (p.decl n).mpr (.inl z)) (fun n z => (p.defn n).mpr (.inl z))
          (fun n z => (p.used n).mpr (.inl z)) p.keep
      · rcases low.owner g q with z | ⟨f', z1, z2⟩
        · rw [owner_not_user t] at z; cases z
        · rw [t] at z2; cases z2; omega
  usable := fun m d q => by
    rcases c'.usable m d q with a | a | ⟨f, a, b⟩ | a
    · exact .inl a
    · exact .inr (.inl a)
    · rcases Nat.lt_or_eq_of_le b with l | l
      · have on : On s' m := by unfold On; rw [q]; rfl
        rcases (p.on m).mp on with z | z
        · rw [p.same m z] at q
          rcases c.usable m d q with y | y | y | y
          · exact .inl y
          · exact .inr (.inl y)
          · exact .inr (.inr (.inl y))
          · exact .inr (.inr (.inr ⟨fun x o => ⟨(p.on x).mpr (.inl (y.1 x o).1), (y.1 x o).2⟩,
              fun n o => (p.decl n).mpr (.inl (y.2 n o))⟩))
        · rcases low.owner m z with y | ⟨f', y1, y2⟩
          · rw [owner_not_user a] at y; cases y
          · rw [a] at y2; cases y2; omega
      · subst l
        rcases use m d q a with z | z
        · exact .inr (.inl z)
        · exact .inr (.inr (.inr z))
    · exact .inr (.inr (.inr a))
  accepted := c'.accepted
  std := c'.std
  chosen := c'.chosen
  limit := c'.limit

end changes

end Metaparse.Inclusion
