/-
The check of the headers, one header after the other.
-/
import Verif.Lemmas.InclusionSound

namespace Metaparse.Inclusion

section header

variable {md : Mode} {chosen : Choice} {me r : Nat} {b s : State} {a : Abs} {env : Env} {w : Know} {g : Nat}

/-- The two records say the same, but for the number of levels. -/
structure Same (w : Know) (a : Abs) : Prop where
  on : w.on = a.on
  decl : w.decl = a.decl
  defn : w.defn = a.defn
  used : w.used = a.used
  config : w.config = a.config

theorem Static.low (st : Static md me a) (e : Same w a) : Low md me w :=
  ⟨by rw [e.on]; exact st.owner, by rw [e.on]; exact st.helper⟩

theorem Rel.begin (c : Core md chosen me b) (clean : NoHelpers b)
    (ha : ∀ m ∈ assumed me, On b m) : Rel md chosen me false b (nothing me) b where
  core := c
  clean := clean
  on := fun m => by
    have e1 : (nothing me).on = toSet (assumed me) := rfl
    have e2 : (nothing me).helpers = 0 := rfl
    rw [e1, e2, testBit_toSet, Nat.zero_testBit]
    constructor
    · exact .inl
    · rintro (h | h | h)
      · exact h
      · exact ha m (List.contains_iff_mem.mp h)
      · cases h
  same := fun _ _ => rfl
  decl := fun n => by
    have e : (nothing me).decl = 0 := rfl
    rw [e, Nat.zero_testBit]; simp
  defn := fun n => by
    have e : (nothing me).defn = 0 := rfl
    rw [e, Nat.zero_testBit]; simp
  used := fun n => by
    have e : (nothing me).used = 0 := rfl
    rw [e, Nat.zero_testBit]; simp
  config := fun z => by cases z
  keep := fun z => z
  body := fun z => by cases z

/-- The guard is not there yet. -/
theorem Rel.enter (rel : Rel md chosen me false b a s) (hg : guardOf me = some g)
    (ho : md.macroOwner g = some me) (off : ¬ On s g) :
    Rel md chosen me true b { a with on := put a.on g } (s.set g (some ⟨none, [], []⟩)) := by
  have idle : ¬ Started md s me := by
    rintro ⟨g', h1, _, h2⟩
    rw [hg] at h1
    cases h1
    exact off h2
  have started : Started md (s.set g (some ⟨none, [], []⟩)) me :=
    ⟨g, hg, ho, by rw [on_set, if_pos rfl]; rfl⟩
  have unowned : ∀ m, md.macroOwner m = some me → ¬ On s m := by
    intro m hm q
    rcases rel.core.own m q with z | z | ⟨f, z1, z2⟩
    · rw [owner_not_helper hm] at z; cases z
    · rw [owner_not_user hm] at z; cases z
    · rw [hm] at z1; cases z1; exact idle z2
  exact {
    core := rel.core.setOwn ho started
    clean := rel.clean
    on := fun x => by
      dsimp only
      rw [on_set, testBit_put, Bool.or_eq_true, decide_eq_true_eq]
      by_cases ex : x = g
      · subst ex; simp
      · rw [if_neg ex, rel.on]
        have ex' : ¬ g = x := fun z => ex z.symm
        simp only [ex', or_false]
    same := fun x q => by
      rw [mac_set, if_neg (fun ex => off (by rw [← ex]; exact (rel.on x).mpr (.inl q)))]
      exact rel.same x q
    decl := rel.decl
    defn := rel.defn
    used := rel.used
    config := rel.config
    keep := rel.keep
    body := fun _ => {
      macros := fun m hm q => unowned m hm ((rel.on m).mpr (.inl q))
      names := fun n hn q => by
        obtain ⟨f, z1, z2⟩ := rel.core.names n ((rel.defn n).mpr (.inl q))
        rw [hn] at z1
        cases z1
        exact idle z2
      started := started
      pend := fun m d q hm => by
        rw [mac_set] at q
        by_cases ex : m = g
        · rw [if_pos ex] at q
          cases q
          exact .inl ⟨rfl, rfl⟩
        · rw [if_neg ex] at q
          exact (unowned m hm (by unfold On; rw [q]; rfl)).elim } }

theorem Rel.post {ib : Bool} (rel : Rel md chosen me ib b a s) (h0 : a.helpers = 0) (e : Same w a) : Post w b s where
  on := fun m => by
    rw [rel.on, h0, Nat.zero_testBit, e.on]
    simp
  same := rel.same
  decl := fun n => by rw [rel.decl, e.decl]
  defn := fun n => by rw [rel.defn, e.defn]
  used := fun n => by rw [rel.used, e.used]
  config := by rw [e.config]; exact rel.config
  keep := rel.keep

theorem Rel.noHelpers {ib : Bool} (rel : Rel md chosen me ib b a s) (st : Static md me a) (h0 : a.helpers = 0) :
    NoHelpers s := by
  intro m hm z
  rcases (rel.on m).mp z with q | q | q
  · exact rel.clean m hm q
  · exact st.helper m q hm
  · rw [h0, Nat.zero_testBit] at q; cases q

/-- The end of a header. -/
theorem Rel.leave (rel : Rel md chosen me true b a s) (st : Static md me a) (h0 : a.helpers = 0)
    (hs : settled md a = true) (c : Core md chosen r b) (hf : md.look me = some w) (e : Same w a) :
    Core md chosen r s ∧ NoHelpers s ∧ Post w b s := by
  have p := rel.post h0 e
  refine ⟨c.restore rel.core p (st.low e) ?_ ?_, rel.noHelpers st h0, p⟩
  · intro m d hm ho
    rcases (rel.body rfl).pend m d hm ho with ⟨z1, z2⟩ | z
    · exact .inr ⟨(by rw [z1]; intro _ q; cases q), (by rw [z2]; intro _ q; cases q)⟩
    · have k := List.all_eq_true.mp hs _ z
      dsimp only at k
      rw [Bool.or_eq_true] at k
      rcases k with k | k
      · exact .inl (List.contains_iff_mem.mp k)
      · rw [Bool.and_eq_true] at k
        exact .inr ⟨fun x hx => ⟨(rel.on x).mpr (.inr (.inl (List.all_eq_true.mp k.1 x hx))),
            st.helper x (List.all_eq_true.mp k.1 x hx)⟩,
          fun n hn => (rel.decl n).mpr (.inr (List.all_eq_true.mp k.2 n hn))⟩
  · intro g v _ _ hv _
    rw [hf] at hv
    cases hv
    exact ⟨fun m q => by
        rw [e.on] at q
        exact ⟨(rel.on m).mpr (.inr (.inl q)), st.helper m q⟩,
      fun n q => by
        rw [e.decl] at q
        exact (rel.decl n).mpr (.inr q),
      fun n q => by
        rw [e.defn] at q
        exact (rel.defn n).mpr (.inr q),
      fun n q => by
        rw [e.used] at q
        exact (rel.used n).mpr (.inr q),
      fun q => by
        rw [e.config] at q
        exact rel.config q⟩

/-- The guard is there already. -/
theorem Rel.skip (rel : Rel md chosen me false b a s) (st : Static md me a) (h0 : a.helpers = 0)
    (hg : guardOf me = some g) (ho : md.macroOwner g = some me) (hn : ¬ a.on.testBit g) (on : On s g)
    (c : Core md chosen r b) (hr : me < r) (hf : md.look me = some w) (low : Low md me w)
    (l1 : ∀ m, a.on.testBit m → w.on.testBit m) (l2 : ∀ m, a.decl.testBit m → w.decl.testBit m)
    (l3 : ∀ m, a.defn.testBit m → w.defn.testBit m) (l4 : ∀ m, a.used.testBit m → w.used.testBit m) :
    Core md chosen r s ∧ NoHelpers s ∧ Post w b s := by
  have onb : On b g := by
    rcases (rel.on g).mp on with q | q | q
    · exact q
    · exact (hn q).elim
    · rw [h0, Nat.zero_testBit] at q; cases q
  have hb : Holds w b := c.closed me g w hr hg ho hf onb
  have hs : Holds w s := hb.mono (fun m _ q => (rel.on m).mpr (.inl q)) (fun n q => (rel.decl n).mpr (.inl q))
    (fun n q => (rel.defn n).mpr (.inl q)) (fun n q => (rel.used n).mpr (.inl q)) rel.keep
  have p : Post w b s := {
    on := fun m => by
      rw [rel.on, h0, Nat.zero_testBit]
      constructor
      · rintro (q | q | q)
        · exact .inl q
        · exact .inr (l1 m q)
        · cases q
      · rintro (q | q)
        · exact .inl q
        · exact .inl (hb.on m q).1
    same := rel.same
    decl := fun n => by
      rw [rel.decl]
      constructor
      · rintro (q | q)
        · exact .inl q
        · exact .inr (l2 n q)
      · rintro (q | q)
        · exact .inl q
        · exact .inl (hb.decl n q)
    defn := fun n => by
      rw [rel.defn]
      constructor
      · rintro (q | q)
        · exact .inl q
        · exact .inr (l3 n q)
      · rintro (q | q)
        · exact .inl q
        · exact .inl (hb.defn n q)
    used := fun n => by
      rw [rel.used]
      constructor
      · rintro (q | q)
        · exact .inl q
        · exact .inr (l4 n q)
      · rintro (q | q)
        · exact .inl q
        · exact .inl (hb.used n q)
    config := hs.config
    keep := rel.keep }
  refine ⟨c.restore rel.core p low ?_ ?_, rel.noHelpers st h0, p⟩
  · intro m d hm hom
    have z : On s m := by unfold On; rw [hm]; rfl
    have zb : On b m := by
      rcases (rel.on m).mp z with q | q | q
      · exact q
      · exact (hb.on m (l1 m q)).1
      · rw [h0, Nat.zero_testBit] at q; cases q
    rw [rel.same m zb] at hm
    rcases c.usable m d hm with q | q | ⟨f, q1, q2⟩ | q
    · rw [owner_not_helper hom] at q; cases q
    · exact .inl q
    · rw [hom] at q1; cases q1; omega
    · exact .inr ⟨fun x o => ⟨(p.on x).mpr (.inl (q.1 x o).1), (q.1 x o).2⟩,
        fun n o => (p.decl n).mpr (.inl (q.2 n o))⟩
  · intro g' v _ _ hv _
    rw [hf] at hv
    cases hv
    exact hs

theorem run_on {env : Env} {inc : Nat → State → Except Fault State} {body : Prog} (on : On s g) :
    exec env inc (.cond (.not (.defd (.own g))) (.define g none [] [] body) .done .done) s = .ok s := by
  have z : (s.mac g).isSome = true := on
  simp [exec, value, look, z]

theorem run_off {env : Env} {inc : Nat → State → Except Fault State} {body : Prog} (off : ¬ On s g) {s' : State}
    (h : exec env inc body (s.set g (some ⟨none, [], []⟩)) = .ok s') :
    exec env inc (.cond (.not (.defd (.own g))) (.define g none [] [] body) .done .done) s = .ok s' := by
  have z : (s.mac g).isSome = false := by
    unfold On at off
    cases h : (s.mac g).isSome with
    | false => rfl
    | true => exact (off h).elim
  simp [exec, value, look, z, h]

theorem checkHeader_sound {look : Nat → Option Know} {hd : Header} (fit : EnvFits md env)
    (hl : ∀ h w, look h = some w → h < me ∧ Spec md chosen env h w) (hh : headers[me]? = some hd)
    (hc : checkHeader look md me hd = some w) (hf : md.look me = some w) : Spec md chosen env me w := by
  have hl' : ∀ h w, look h = some w → h < me ∧ Low md h w := fun h w e => ⟨(hl h w e).1, (hl h w e).2.low⟩
  have hgd : guardOf me = hd.guard := by unfold guardOf; rw [hh]; rfl
  rw [checkHeader] at hc
  cases hp : check look md me false hd.pre (nothing me) with
  | none => rw [hp] at hc; cases hc
  | some a =>
    rw [hp] at hc
    dsimp only at hc
    split at hc
    case isFalse => cases hc
    rename_i h1
    rw [Bool.and_eq_true] at h1
    have h0 : a.helpers = 0 := of_decide_eq_true h1.1
    have st0 : Static md me (nothing me) := by
      have key : ∀ m, (nothing me).on.testBit m → isUser m = true ∨ (md.macroOwner m).any (· ≤ me) = true := by
        intro m q
        have e1 : (nothing me).on = toSet (assumed me) := rfl
        rw [e1, testBit_toSet] at q
        have z := List.all_eq_true.mp h1.2 m (List.contains_iff_mem.mp q)
        rwa [Bool.or_eq_true] at z
      refine ⟨fun m q => ?_, fun m q z => ?_, fun m q => ?_⟩
      · rcases key m q with z | z
        · exact .inl z
        · cases ho : md.macroOwner m with
          | none => rw [ho] at z; cases z
          | some f => rw [ho] at z; exact .inr ⟨f, of_decide_eq_true z, rfl⟩
      · rcases key m q with y | y
        · rw [not_user_of_helper z] at y; cases y
        · cases ho : md.macroOwner m with
          | none => rw [ho] at y; cases y
          | some f => rw [owner_not_helper ho] at z; cases z
      · have e2 : (nothing me).helpers = 0 := rfl
        rw [e2, Nat.zero_testBit] at q; cases q
    obtain ⟨le, st⟩ := check_le hl' _ _ _ hp st0
    cases hgu : hd.guard with
    | none =>
      rw [hgu] at hc hgd
      cases hc
      have same : Same { a.toKnow with depth := a.depth + 1 } a := ⟨rfl, rfl, rfl, rfl, rfl⟩
      refine ⟨st.low same, fun r s n hr hn c clean ha => ?_⟩
      cases n with
      | zero => cases hn
      | succ n =>
        obtain ⟨s', e1, e2⟩ := check_sound fit (n := n) hl _ _ _ s hp (Nat.le_of_succ_le_succ hn) st0
          (Rel.begin (c.weaken (Nat.le_of_lt hr)) clean ha)
        refine ⟨s', ?_, c.restore e2.core (e2.post h0 same) (st.low same) ?_ ?_, e2.noHelpers st h0, e2.post h0 same⟩
        · rw [includes, hh]
          dsimp only
          rw [Header.run, e1]
          dsimp only
          rw [hgu]
        · intro m d hm ho
          rcases e2.core.own m (by unfold On; rw [hm]; rfl) with z | z | ⟨f, z1, g, z2, _⟩
          · rw [owner_not_helper ho] at z; cases z
          · rw [owner_not_user ho] at z; cases z
          · rw [ho] at z1; cases z1; rw [hgd] at z2; cases z2
        · intro g v z
          rw [hgd] at z; cases z
    | some g =>
      rw [hgu] at hc hgd
      dsimp only at hc
      split at hc
      case isFalse => cases hc
      rename_i h2
      rw [Bool.and_eq_true, Bool.and_eq_true] at h2
      have ho : md.macroOwner g = some me := of_decide_eq_true h2.1.1
      have hng : ¬ a.on.testBit g = true := fun z => by rw [z] at h2; exact nomatch h2.2
      cases hb : check look md me true hd.body { a with on := put a.on g } with
      | none => rw [hb] at hc; cases hc
      | some a' =>
        rw [hb] at hc
        dsimp only at hc
        split at hc
        case isFalse => cases hc
        rename_i h3
        rw [Bool.and_eq_true] at h3
        have h0' : a'.helpers = 0 := of_decide_eq_true h3.1
        have st1 : Static md me { a with on := put a.on g } := ⟨fun x q => by
            dsimp only at q
            rw [testBit_put, Bool.or_eq_true] at q
            rcases q with q | q
            · exact st.owner x q
            · rw [← of_decide_eq_true q]; exact .inr ⟨me, Nat.le_refl _, ho⟩,
          fun x q => by
            dsimp only at q
            rw [testBit_put, Bool.or_eq_true] at q
            rcases q with q | q
            · exact st.helper x q
            · rw [← of_decide_eq_true q, owner_not_helper ho]; decide,
          st.helpers⟩
        obtain ⟨le', st'⟩ := check_le hl' _ _ _ hb st1
        cases hc
        have same : Same { a'.toKnow with depth := a'.depth + 1 } a' := ⟨rfl, rfl, rfl, rfl, rfl⟩
        refine ⟨st'.low same, fun r s n hr hn c clean ha => ?_⟩
        cases n with
        | zero => cases hn
        | succ n =>
          have hn' : a'.depth ≤ n := Nat.le_of_succ_le_succ hn
          obtain ⟨s1, e1, e2⟩ := check_sound fit (n := n) hl _ _ _ s hp (Nat.le_trans le'.depth hn') st0
            (Rel.begin (c.weaken (Nat.le_of_lt hr)) clean ha)
          by_cases on : On s1 g
          · obtain ⟨q1, q2, q3⟩ := e2.skip st h0 hgd ho hng on c hr hf (st'.low same)
              (fun m q => le'.on m (put_mono q)) le'.decl le'.defn le'.used
            refine ⟨s1, ?_, q1, q2, q3⟩
            rw [includes, hh]
            dsimp only
            rw [Header.run, e1]
            dsimp only
            rw [hgu]
            exact run_on on
          · obtain ⟨s2, f1, f2⟩ := check_sound fit (n := n) hl _ _ _ (s1.set g (some ⟨none, [], []⟩)) hb hn' st1
              (e2.enter hgd ho on)
            obtain ⟨q1, q2, q3⟩ := f2.leave st' h0' h3.2 c hf same
            refine ⟨s2, ?_, q1, q2, q3⟩
            rw [includes, hh]
            dsimp only
            rw [Header.run, e1]
            dsimp only
            rw [hgu]
            exact run_off on f1

end header

section first

variable {md : Mode} {chosen : Choice} {me r : Nat} {b s : State} {a : Abs} {env : Env} {w : Know} {g : Nat}

/-- A macro that the user has not set. -/
theorem Rel.setUser {ib : Bool} (rel : Rel md chosen me ib b a s) {m v : Nat} (hu : isUser m = true) (off : ¬ On s m)
    (h2 : m = 2 → StdFits md chosen v) (h5 : m = 5 → v ≤ 2048) :
    Rel md chosen me ib b { a with on := put a.on m } (s.set m (some ⟨some v, [], []⟩)) where
  core := rel.core.setUser hu h2 h5
  clean := rel.clean
  on := fun x => by
    dsimp only
    rw [on_set, testBit_put, Bool.or_eq_true, decide_eq_true_eq]
    by_cases ex : x = m
    · subst ex; simp
    · rw [if_neg ex, rel.on]
      have ex' : ¬ m = x := fun z => ex z.symm
      simp only [ex', or_false]
  same := fun x q => by
    rw [mac_set, if_neg (fun ex => off (by rw [← ex]; exact (rel.on x).mpr (.inl q)))]
    exact rel.same x q
  decl := rel.decl
  defn := rel.defn
  used := rel.used
  config := rel.config
  keep := rel.keep
  body := fun z => {
    macros := (rel.body z).macros
    names := (rel.body z).names
    started := (rel.body z).started.set
    pend := fun x d q ho => by
      rw [mac_set, if_neg (fun ex => by rw [ex] at ho; rw [owner_not_user ho] at hu; cases hu)] at q
      exact (rel.body z).pend x d q ho }

/-- A macro that the user has set. -/
theorem Rel.already {ib : Bool} (rel : Rel md chosen me ib b a s) {m : Nat} (on : On s m) :
    Rel md chosen me ib b { a with on := put a.on m } s where
  core := rel.core
  clean := rel.clean
  on := fun x => by
    dsimp only
    rw [testBit_put, Bool.or_eq_true, decide_eq_true_eq]
    constructor
    · intro z
      rcases (rel.on x).mp z with q | q | q
      · exact .inl q
      · exact .inr (.inl (.inl q))
      · exact .inr (.inr q)
    · rintro (q | (q | q) | q)
      · exact (rel.on x).mpr (.inl q)
      · exact (rel.on x).mpr (.inr (.inl q))
      · rw [← q]; exact on
      · exact (rel.on x).mpr (.inr (.inr q))
  same := rel.same
  decl := rel.decl
  defn := rel.defn
  used := rel.used
  config := rel.config
  keep := rel.keep
  body := fun z => ⟨(rel.body z).macros, (rel.body z).names, (rel.body z).started, (rel.body z).pend⟩

theorem Static.put (st : Static md me a) {m : Nat} (h : isUser m = true ∨ md.macroOwner m = some me) :
    Static md me { a with on := put a.on m } :=
  ⟨fun x q => by
      dsimp only at q
      rw [testBit_put, Bool.or_eq_true] at q
      rcases q with q | q
      · exact st.owner x q
      · rw [← of_decide_eq_true q]
        rcases h with h | h
        · exact .inl h
        · exact .inr ⟨me, Nat.le_refl _, h⟩,
    fun x q => by
      dsimp only at q
      rw [testBit_put, Bool.or_eq_true] at q
      rcases q with q | q
      · exact st.helper x q
      · rw [← of_decide_eq_true q]
        intro z
        rcases h with h | h
        · rw [not_user_of_helper z] at h; exact nomatch h
        · rw [owner_not_helper h] at z; exact (nomatch z),
    st.helpers⟩

theorem Static.zero (h : assumed me = []) : Static md me (nothing me) := by
  refine ⟨fun m q => ?_, fun m q => ?_, fun m q => ?_⟩
  · have e : (nothing me).on = 0 := by rw [nothing, h]; rfl
    rw [e, Nat.zero_testBit] at q; cases q
  · have e : (nothing me).on = 0 := by rw [nothing, h]; rfl
    rw [e, Nat.zero_testBit] at q; cases q
  · have e : (nothing me).helpers = 0 := rfl
    rw [e, Nat.zero_testBit] at q; cases q

/-- A header that only sets a limit. -/
theorem limit_sound {hd : Header} {m v : Nat} (hh : headers[me]? = some hd) (hpre : hd.pre = .done)
    (hgu : hd.guard = some g)
    (hbody : hd.body = .cond (.not (.defd (.own m))) (.define m (some v) [] [] .done) .done .done)
    (has : assumed me = []) (ho : md.macroOwner g = some me) (hu : isUser m = true) (h2 : m ≠ 2)
    (h5 : m = 5 → v ≤ 2048)
    (hw : w = { on := toSet [g, m], decl := 0, defn := 0, used := 0, config := false, depth := 1 })
    (hf : md.look me = some w) : Spec md chosen env me w := by
  have hgd : guardOf me = some g := by unfold guardOf; rw [hh, ← hgu]; rfl
  have st0 : Static md me (nothing me) := Static.zero has
  have st1 := (st0.put (m := g) (.inr ho)).put (m := m) (.inl hu)
  have e0 : (nothing me).on = 0 := by rw [nothing, has]; rfl
  have same : Same w { nothing me with on := put (put (nothing me).on g) m } := by
    rw [hw, e0]; exact ⟨rfl, rfl, rfl, rfl, rfl⟩
  refine ⟨st1.low same, fun r s n hr hn c clean ha => ?_⟩
  cases n with
  | zero => rw [hw] at hn; cases hn
  | succ n =>
    have rel := Rel.begin (c.weaken (Nat.le_of_lt hr)) clean ha
    have run : includes headers env (n + 1) me s = exec env (includes headers env n)
        (.cond (.not (.defd (.own g))) (.define g none [] [] hd.body) .done .done) s := by
      rw [includes, hh]
      dsimp only
      rw [Header.run, hpre, exec]
      dsimp only
      rw [hgu]
    rw [run]
    by_cases on : On s g
    · obtain ⟨q1, q2, q3⟩ := rel.skip st0 rfl hgd ho (by rw [e0, Nat.zero_testBit]; decide) on c hr hf (st1.low same)
        (fun m q => by rw [e0, Nat.zero_testBit] at q; cases q)
        (fun m q => by have e : (nothing me).decl = 0 := rfl; rw [e, Nat.zero_testBit] at q; cases q)
        (fun m q => by have e : (nothing me).defn = 0 := rfl; rw [e, Nat.zero_testBit] at q; cases q)
        (fun m q => by have e : (nothing me).used = 0 := rfl; rw [e, Nat.zero_testBit] at q; cases q)
      exact ⟨s, run_on on, q1, q2, q3⟩
    · have rel1 := rel.enter hgd ho on
      by_cases on1 : On (s.set g (some ⟨none, [], []⟩)) m
      · obtain ⟨q1, q2, q3⟩ := (rel1.already on1).leave st1 rfl rfl c hf same
        refine ⟨_, run_off on ?_, q1, q2, q3⟩
        have z : ((s.set g (some ⟨none, [], []⟩)).mac m).isSome = true := on1
        rw [hbody]
        simp [exec, value, look, z]
      · obtain ⟨q1, q2, q3⟩ := (rel1.setUser (v := v) hu on1 (fun z => (h2 z).elim) h5).leave st1 rfl rfl c hf same
        refine ⟨_, run_off on ?_, q1, q2, q3⟩
        have z : ((s.set g (some ⟨none, [], []⟩)).mac m).isSome = false := by
          unfold On at on1
          cases h : ((s.set g (some ⟨none, [], []⟩)).mac m).isSome with
          | false => rfl
          | true => exact (on1 h).elim
        rw [hbody]
        simp [exec, value, look, z]

/-- What the compiler and Boost.Config say, once Boost.Config is included. -/
def out (env : Env) : Ref → Option (Option Nat)
  | .own _ => none
  | .compiler m => env.compiler m
  | .config m => env.config m

def outer : Expr → Bool
  | .num _ => true
  | .val (.own _) => false
  | .val _ => true
  | .defd (.own _) => false
  | .defd _ => true
  | .feature _ => true
  | .not e => outer e
  | .and a b => outer a && outer b
  | .or a b => outer a && outer b
  | .lt a b => outer a && outer b
  | .ge a b => outer a && outer b
  | .gt a b => outer a && outer b
  | .eq a b => outer a && outer b

theorem value_outer (hc : s.config = true) : ∀ e : Expr, outer e = true →
    value (look env s) env.feature e = value (out env) env.feature e := by
  intro e
  induction e with
  | num _ => intro _; rfl
  | feature _ => intro _; rfl
  | val r =>
    intro h
    cases r with
    | own m => cases h
    | compiler m => rfl
    | config m => simp only [value, look, out, hc, if_pos]
  | defd r =>
    intro h
    cases r with
    | own m => cases h
    | compiler m => rfl
    | config m =>
      have e : look env s (.config m) = out env (.config m) := by simp [look, out, hc]
      rw [value, value, e]
  | not e ih => intro h; simp only [value, ih h]
  | and a b iha ihb =>
    intro h
    rw [outer, Bool.and_eq_true] at h
    simp only [value, iha h.1, ihb h.2]
  | or a b iha ihb =>
    intro h
    rw [outer, Bool.and_eq_true] at h
    simp only [value, iha h.1, ihb h.2]
  | lt a b iha ihb =>
    intro h
    rw [outer, Bool.and_eq_true] at h
    simp only [value, iha h.1, ihb h.2]
  | ge a b iha ihb =>
    intro h
    rw [outer, Bool.and_eq_true] at h
    simp only [value, iha h.1, ihb h.2]
  | gt a b iha ihb =>
    intro h
    rw [outer, Bool.and_eq_true] at h
    simp only [value, iha h.1, ihb h.2]
  | eq a b iha ihb =>
    intro h
    rw [outer, Bool.and_eq_true] at h
    simp only [value, iha h.1, ihb h.2]

/-- The condition for `BOOST_NO_CONSTEXPR_C_STR`. -/
def cstrExpr : Expr :=
  .or (.or (.defd (.config 0)) (.defd (.config 1)))
    (.and (.and (.not (.defd (.compiler 0))) (.defd (.compiler 1)))
      (.or (.lt (.val (.compiler 1)) (.num 4))
        (.and (.eq (.val (.compiler 1)) (.num 4)) (.lt (.val (.compiler 2)) (.num 7)))))

/-- The condition for C++11. -/
def stdExpr : Expr :=
  .and (.and (.and (.not (.defd (.config 2))) (.not (.defd (.config 3))))
    (.or (.and (.not (.defd (.config 1))) (.not (.defd (.config 0))))
      (.and (.defd (.compiler 3)) (.ge (.val (.compiler 3)) (.num 1900)))))
    (.or (.not (.defd (.config 4))) (.ge (.val (.config 4)) (.num 40700)))

/-- The mode and the standard are those that `config.hpp` finds. -/
structure ConfigFits (md : Mode) (chosen : Choice) (env : Env) : Prop where
  cstr : ∃ v, value (out env) env.feature cstrExpr = some v ∧ decide (v ≠ 0) = md.noCStr
  std : ∃ v, value (out env) env.feature stdExpr = some v ∧
    chosen.own = if v ≠ 0 then (if (env.config 5).isSome then 2011 else 2014) else 1998

theorem exec_cond {inc : Nat → State → Except Fault State} {e : Expr} {t f k : Prog} {v : Nat} {s' : State}
    (hv : value (look env s) env.feature e = some v)
    (h : exec env inc (if v ≠ 0 then t else f) s = .ok s') :
    exec env inc (.cond e t f k) s = exec env inc k s' := by
  rw [exec, hv]
  dsimp only
  by_cases z : v ≠ 0
  · rw [if_pos z] at h; rw [if_pos z, h]
  · rw [if_neg z] at h; rw [if_neg z, h]

/-- The lines of `config.hpp` that choose the standard. -/
def stdProg : Prog :=
  .cond stdExpr (.cond (.not (.defd (.config 5))) (.define 2 (some 2014) [] [] .done)
    (.define 2 (some 2011) [] [] .done) .done) (.define 2 (some 1998) [] [] .done) .done

def lastProg : Prog := .cond (.ge (.val (.own 2)) (.num 2011)) (.define 3 none [] [] .done) .done .done

theorem h0_body : h0.body = .external 0 (.cond cstrExpr (.define 1 none [] [] .done) .done
    (.cond (.not (.defd (.own 2))) stdProg .done lastProg)) := rfl

theorem owner_first (md : Mode) : md.macroOwner 0 = some 0 ∧ md.macroOwner 1 = some 0 ∧ md.macroOwner 4 = some 1 ∧
    md.macroOwner 6 = some 2 ∧ md.macroOwner 8 = some 3 ∧ md.macroOwner 10 = some 4 ∧
    (md.is11 = true → md.macroOwner 3 = some 0) := by
  rcases md with ⟨std, a, b, c, d⟩
  revert a b c d
  cases std <;> decide +kernel

theorem stdProg_run (inc : Nat → State → Except Fault State) (cf : ConfigFits md chosen env) (hc : s.config = true)
    (off : ¬ On s 2) : exec env inc stdProg s = .ok (s.set 2 (some ⟨some chosen.own, [], []⟩)) := by
  obtain ⟨v, h1, h2⟩ := cf.std
  rw [← value_outer hc stdExpr rfl] at h1
  have z : (s.mac 2).isSome = false := by
    unfold On at off
    cases h : (s.mac 2).isSome with
    | false => rfl
    | true => exact (off h).elim
  rw [stdProg, exec_cond h1 (s' := s.set 2 (some ⟨some chosen.own, [], []⟩)), exec]
  rw [h2]
  by_cases hv : v ≠ 0
  · rw [if_pos hv, if_pos hv]
    cases h5 : (env.config 5).isSome with
    | true => simp [exec, value, look, hc, h5, z]
    | false => simp [exec, value, look, hc, h5, z]
  · rw [if_neg hv, if_neg hv]
    simp [exec, z]

/-- What is known between the lines of `config.hpp`. -/
def rec1 : Abs := { nothing 0 with on := put (nothing 0).on 0, config := true }

def rec2 (n : Bool) : Abs :=
  { rec1 with on := if n then put rec1.on 1 else rec1.on, pending := if n then [(1, [], [])] else [] }

def rec3 (n : Bool) : Abs := { rec2 n with on := put (rec2 n).on 2 }

def rec4 (n i : Bool) : Abs :=
  { rec3 n with on := if i then put (rec3 n).on 3 else (rec3 n).on,
                pending := if i then (3, [], []) :: (rec3 n).pending else (rec3 n).pending }

theorem config_sound (fit : EnvFits md env) (cf : ConfigFits md chosen env) (hw : base md 0 = some w)
    (hf : md.look 0 = some w) : Spec md chosen env 0 w := by
  have hh : headers[0]? = some h0 := rfl
  have hgd : guardOf 0 = some 0 := rfl
  obtain ⟨o0, o1, _, _, _, _, o3⟩ := owner_first md
  have st0 : Static md 0 (nothing 0) := Static.zero rfl
  have hl : ∀ (h : Nat) (w : Know), (fun _ => none : Nat → Option Know) h = some w → h < 0 ∧ Spec md chosen env h w :=
    fun h w z => by cases z
  have st1 := st0.put (m := 0) (.inr o0)
  have sa1 : Static md 0 rec1 := ⟨st1.owner, st1.helper, st1.helpers⟩
  have sa2 : Static md 0 (rec2 md.noCStr) := by
    cases md.noCStr with
    | false => exact ⟨sa1.owner, sa1.helper, sa1.helpers⟩
    | true => exact ⟨(sa1.put (.inr o1)).owner, (sa1.put (.inr o1)).helper, (sa1.put (.inr o1)).helpers⟩
  have sa3 : Static md 0 (rec3 md.noCStr) := sa2.put (.inl user_two)
  have sa4 : Static md 0 (rec4 md.noCStr md.is11) := by
    cases h : md.is11 with
    | false => exact ⟨sa3.owner, sa3.helper, sa3.helpers⟩
    | true => exact ⟨(sa3.put (.inr (o3 h))).owner, (sa3.put (.inr (o3 h))).helper, (sa3.put (.inr (o3 h))).helpers⟩
  have same : Same w (rec4 md.noCStr md.is11) ∧ w.depth = 1 ∧ settled md (rec4 md.noCStr md.is11) = true := by
    cases hw
    refine ⟨⟨?_, rfl, rfl, rfl, rfl⟩, rfl, ?_⟩
    · dsimp only
      cases md.is11 <;> cases md.noCStr <;> decide
    · unfold settled
      generalize md.excused = ex
      cases md.is11 <;> cases md.noCStr <;> simp [rec4, rec3, rec2]
  obtain ⟨same, hdep, hset⟩ := same
  refine ⟨sa4.low same, fun r s n hr hn c clean ha => ?_⟩
  cases n with
  | zero => rw [hdep] at hn; cases hn
  | succ n =>
    have rel := Rel.begin (c.weaken (Nat.le_of_lt hr)) clean ha
    have run : includes headers env (n + 1) 0 s = exec env (includes headers env n)
        (.cond (.not (.defd (.own 0))) (.define 0 none [] [] h0.body) .done .done) s := by
      rw [includes, hh]
      dsimp only
      rw [Header.run]
      rfl
    rw [run]
    by_cases on : On s 0
    · have e0 : (nothing 0).on = 0 := rfl
      obtain ⟨q1, q2, q3⟩ := rel.skip st0 rfl hgd o0 (by rw [e0, Nat.zero_testBit]; decide) on c hr hf (sa4.low same)
        (fun m q => by rw [e0, Nat.zero_testBit] at q; cases q)
        (fun m q => by have e : (nothing 0).decl = 0 := rfl; rw [e, Nat.zero_testBit] at q; cases q)
        (fun m q => by have e : (nothing 0).defn = 0 := rfl; rw [e, Nat.zero_testBit] at q; cases q)
        (fun m q => by have e : (nothing 0).used = 0 := rfl; rw [e, Nat.zero_testBit] at q; cases q)
      exact ⟨s, run_on on, q1, q2, q3⟩
    · have rel0 := rel.enter hgd o0 on
      generalize hs0 : s.set 0 (some ⟨none, [], []⟩) = s0 at rel0
      obtain ⟨s1, x1, rel1⟩ := check_sound (n := n) fit (look := fun _ => none) hl (.external 0 .done) _ rec1 s0 (by
        rw [check, Abs.force_eq]; rfl) (Nat.zero_le _) st1 rel0
      have hx1 : s1 = { s0 with config := s0.config || true || env.pulls 0 } := by
        rw [exec, exec] at x1; cases x1; rfl
      have hc1 : s1.config = true := rel1.config rfl
      -- the workaround
      have step2 : ∃ s2, (∀ k, exec env (includes headers env n) (.cond cstrExpr (.define 1 none [] [] .done) .done k) s1
            = exec env (includes headers env n) k s2) ∧ Rel md chosen 0 true s (rec2 md.noCStr) s2 := by
        obtain ⟨v, h1, h2⟩ := cf.cstr
        rw [← value_outer hc1 cstrExpr rfl] at h1
        cases hn : md.noCStr with
        | false =>
          rw [hn] at h2
          refine ⟨s1, fun k => exec_cond h1 (by rw [if_neg (of_decide_eq_false h2)]; rfl), ?_⟩
          exact rel1
        | true =>
          rw [hn] at h2
          obtain ⟨s2, x2, rel2⟩ := check_sound (n := n) fit (look := fun _ => none) hl (.define 1 none [] [] .done) rec1
            (rec2 true) s1 (by
              rw [check, if_neg (by rw [owner_not_helper o1]; decide), if_pos (by rw [o1]; rfl), Abs.force_eq]
              rfl) (Nat.zero_le _) sa1 rel1
          refine ⟨s2, fun k => exec_cond h1 (by rw [if_pos (of_decide_eq_true h2)]; exact x2), ?_⟩
          exact rel2
      obtain ⟨s2, x2, rel2⟩ := step2
      have hc2 : s2.config = true := rel2.config rfl
      -- the standard
      have step3 : ∃ s3, (∀ k, exec env (includes headers env n) (.cond (.not (.defd (.own 2))) stdProg .done k) s2
            = exec env (includes headers env n) k s3) ∧ Rel md chosen 0 true s (rec3 md.noCStr) s3 := by
        by_cases on2 : On s2 2
        · have z : (s2.mac 2).isSome = true := on2
          exact ⟨s2, fun k => exec_cond (v := 0) (by simp [value, look, z]) rfl, rel2.already on2⟩
        · have z : (s2.mac 2).isSome = false := by
            unfold On at on2
            cases h : (s2.mac 2).isSome with
            | false => rfl
            | true => exact (on2 h).elim
          have z' : s2.mac 2 = none := by
            cases h : s2.mac 2 with
            | none => rfl
            | some d => rw [h] at z; cases z
          exact ⟨_, fun k => exec_cond (v := 1) (by simp [value, look, z]) (stdProg_run _ cf hc2 on2),
            rel2.setUser user_two on2 (fun _ => rel2.core.chosen z') (fun z => by cases z)⟩
      obtain ⟨s3, x3, rel3⟩ := step3
      -- the macro for variadic strings
      have b2 : (rec3 md.noCStr).on.testBit 2 = true := by
        cases md.noCStr <;> decide
      have b3 : (rec3 md.noCStr).on.testBit 3 = false := by
        cases md.noCStr <;> decide
      obtain ⟨s4, x4, rel4⟩ := check_sound (n := n) fit (look := fun _ => none) hl lastProg (rec3 md.noCStr) (rec4 md.noCStr md.is11) s3 (by
        have hk : known md 0 true (rec3 md.noCStr) (.ge (.val (.own 2)) (.num 2011)) = some md.is11 := by
          rw [known, if_pos (by rw [b2]; rfl), if_pos rfl]
        rw [lastProg, check, hk]
        dsimp only
        cases h : md.is11 with
        | false => rfl
        | true =>
          rw [if_pos rfl, check, if_neg (by rw [owner_not_helper (o3 h)]; decide),
            if_pos (by rw [o3 h, b3]; rfl), Abs.force_eq]
          rfl) (Nat.zero_le _) sa3 rel3
      obtain ⟨q1, q2, q3⟩ := rel4.leave sa4 rfl hset c hf same
      refine ⟨s4, run_off on ?_, q1, q2, q3⟩
      rw [hs0, h0_body, exec, ← x4, ← x3, ← x2, hx1]
      rfl

end first

section tree

theorem get_set_ne : ∀ (n : Nat) (t : Tree) (i j : Nat) (v : Option Know), i ≠ j →
    (t.set n i v).get n j = t.get n j := by
  intro n
  induction n with
  | zero => intro t i j v h; rfl
  | succ n ih =>
    intro t i j v h
    have nil : ∀ k, Tree.nil.get n k = none := fun k => by cases n <;> rfl
    cases t with
    | nil =>
      rw [Tree.set, Tree.get]
      by_cases hi : i = 0
      · rw [if_pos hi, Tree.get, if_neg (by omega), nil, nil, ite_self]
      · rw [if_neg hi]
        by_cases h2 : i % 2 = 1
        · rw [if_pos h2, Tree.get]
          by_cases hj : j = 0
          · rw [if_pos hj]
          · rw [if_neg hj]
            by_cases j2 : j % 2 = 1
            · rw [if_pos j2, ih _ _ _ _ (by omega), nil]
            · rw [if_neg j2, nil]
        · rw [if_neg h2, Tree.get]
          by_cases hj : j = 0
          · rw [if_pos hj]
          · rw [if_neg hj]
            by_cases j2 : j % 2 = 1
            · rw [if_pos j2, nil]
            · rw [if_neg j2, ih _ _ _ _ (by omega), nil]
    | node w l r =>
      rw [Tree.set, Tree.get]
      by_cases hi : i = 0
      · have hj : ¬ j = 0 := by omega
        rw [if_pos hi, Tree.get, if_neg hj, if_neg hj]
      · rw [if_neg hi]
        by_cases h2 : i % 2 = 1
        · rw [if_pos h2, Tree.get]
          by_cases hj : j = 0
          · rw [if_pos hj, if_pos hj]
          · rw [if_neg hj, if_neg hj]
            by_cases j2 : j % 2 = 1
            · rw [if_pos j2, if_pos j2, ih _ _ _ _ (by omega)]
            · rw [if_neg j2, if_neg j2]
        · rw [if_neg h2, Tree.get]
          by_cases hj : j = 0
          · rw [if_pos hj, if_pos hj]
          · rw [if_neg hj, if_neg hj]
            by_cases j2 : j % 2 = 1
            · rw [if_pos j2, if_pos j2]
            · rw [if_neg j2, if_neg j2, ih _ _ _ _ (by omega)]

theorem get_set_self : ∀ (n : Nat) (t : Tree) (i : Nat) (v : Option Know) (k : Know),
    (t.set n i v).get n i = some k → v = some k := by
  intro n
  induction n with
  | zero => intro t i v k h; cases h
  | succ n ih =>
    intro t i v k h
    cases t with
    | nil =>
      rw [Tree.set] at h
      by_cases hi : i = 0
      · rw [if_pos hi, Tree.get, if_pos hi] at h; exact h
      · rw [if_neg hi] at h
        by_cases h2 : i % 2 = 1
        · rw [if_pos h2, Tree.get, if_neg hi, if_pos h2] at h; exact ih _ _ _ _ h
        · rw [if_neg h2, Tree.get, if_neg hi, if_neg h2] at h; exact ih _ _ _ _ h
    | node w l r =>
      rw [Tree.set] at h
      by_cases hi : i = 0
      · rw [if_pos hi, Tree.get, if_pos hi] at h; exact h
      · rw [if_neg hi] at h
        by_cases h2 : i % 2 = 1
        · rw [if_pos h2, Tree.get, if_neg hi, if_pos h2] at h; exact ih _ _ _ _ h
        · rw [if_neg h2, Tree.get, if_neg hi, if_neg h2] at h; exact ih _ _ _ _ h

theorem build_get (md : Mode) : ∀ (hs : List Header) (i : Nat) (t : Tree) (j : Nat), j < i →
    (build md hs i t).get 9 j = t.get 9 j := by
  intro hs
  induction hs with
  | nil => intro i t j _; rfl
  | cons h hs ih =>
    intro i t j hj
    rw [build, keep_eq, ih _ _ _ (by omega), get_set_ne _ _ _ _ _ (by omega)]

theorem base_sound {md : Mode} {chosen : Choice} {env : Env} (fit : EnvFits md env) (cf : ConfigFits md chosen env)
    {i : Nat} {w : Know} (hw : base md i = some w) (hf : md.look i = some w) : Spec md chosen env i w := by
  obtain ⟨_, _, o4, o6, o8, o10, _⟩ := owner_first md
  match i, hw, hf with
  | 0, hw, hf => exact config_sound fit cf hw hf
  | 1, hw, hf =>
    cases hw
    exact limit_sound (hd := h1) (m := 5) (v := 32) rfl rfl rfl rfl rfl o4 user_five (by decide) (by decide) rfl hf
  | 2, hw, hf =>
    cases hw
    exact limit_sound (hd := h2) (m := 7) (v := 5) rfl rfl rfl rfl rfl o6 (by decide +kernel) (by decide) (by decide) rfl hf
  | 3, hw, hf =>
    cases hw
    exact limit_sound (hd := h3) (m := 9) (v := 20) rfl rfl rfl rfl rfl o8 (by decide +kernel) (by decide) (by decide) rfl hf
  | 4, hw, hf =>
    cases hw
    exact limit_sound (hd := h4) (m := 11) (v := 10) rfl rfl rfl rfl rfl o10 (by decide +kernel) (by decide) (by decide) rfl hf
  | _ + 5, hw, _ => cases hw

theorem build_sound {md : Mode} {chosen : Choice} {env : Env} (fit : EnvFits md env) (cf : ConfigFits md chosen env) :
    ∀ (hs : List Header) (i : Nat) (t : Tree), (∀ k, hs[k]? = headers[i + k]?) →
    (∀ h, md.look h = (build md hs i t).get 9 h) → (∀ h w, t.get 9 h = some w → h < i ∧ Spec md chosen env h w) →
    ∀ h w, (build md hs i t).get 9 h = some w → Spec md chosen env h w := by
  intro hs
  induction hs with
  | nil =>
    intro i t _ _ ht h w e
    exact (ht h w e).2
  | cons hd hs ih =>
    intro i t hk hf ht
    have hh : headers[i]? = some hd := by
      have := hk 0
      rw [Nat.add_zero] at this
      rw [← this]
      rfl
    rw [build, keep_eq] at hf ⊢
    refine ih (i + 1) _ (fun k => ?_) hf ?_
    · have := hk (k + 1)
      rw [List.getElem?_cons_succ] at this
      rw [this]
      congr 1
      omega
    · intro h w e
      by_cases hi : i = h
      · subst hi
        have hv := get_set_self _ _ _ _ _ e
        have hf' : md.look i = some w := by rw [hf, build_get _ _ _ _ _ (Nat.lt_succ_self _)]; exact e
        refine ⟨Nat.lt_succ_self _, ?_⟩
        by_cases h5 : i < 5
        · rw [if_pos h5] at hv
          exact base_sound fit cf hv hf'
        · rw [if_neg h5] at hv
          exact checkHeader_sound fit ht hh hv hf'
      · rw [get_set_ne _ _ _ _ _ hi] at e
        obtain ⟨q1, q2⟩ := ht h w e
        exact ⟨by omega, q2⟩

/-- What the check says of a header is what the header does. -/
theorem look_sound {md : Mode} {chosen : Choice} {env : Env} (fit : EnvFits md env) (cf : ConfigFits md chosen env)
    {h : Nat} {w : Know} (e : md.look h = some w) : Spec md chosen env h w :=
  build_sound fit cf headers 0 .nil (fun k => by rw [Nat.zero_add]) (fun _ => rfl)
    (fun h w z => by cases z) h w e

end tree

end Metaparse.Inclusion
