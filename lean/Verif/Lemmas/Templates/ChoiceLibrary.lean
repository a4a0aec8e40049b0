/-
The definitions of every template of the library are in order.
-/
import Verif.Lemmas.Templates.Choice

namespace Metaparse.Tmpl

/-- The definitions of a template are in order, and their members are single. -/
def okay (ds : List Spec) : Bool := seps ds && ds.all Spec.single

theorem okay11 : ∀ n : Id, n ≠ .mpl_equal_to_impl → okay (@library cpp11 n) = true := by
  intro n hn
  cases n <;> first | exact absurd rfl hn | (clear hn; decide +kernel)

/-! ### The definitions that are made by repetition -/

/-- In order for all arguments, with single members. -/
def InOrder (ds : List Spec) : Prop := (∀ args, ds.Pairwise (SepAt args)) ∧ ∀ sp ∈ ds, sp.single = true

theorem okay_sound {ds : List Spec} (h : okay ds = true) : InOrder ds := by
  rw [okay, Bool.and_eq_true] at h
  exact ⟨fun args => seps_sound h.1 args, List.all_eq_true.mp h.2⟩

theorem okay_map {a k : Nat} {f : Nat → Spec}
    (h : ∀ n m, n < m → m < a + k → ∀ args, SepAt args (f n) (f m)) (h' : ∀ n, (f n).single = true) :
    InOrder ((List.range' a k).map f) := by
  refine ⟨fun args => ?_, ?_⟩
  · rw [List.pairwise_map]
    apply List.Pairwise.imp_of_mem _ List.pairwise_lt_range'
    intro n m hn hm hl
    rw [List.mem_range'_1] at hm
    exact h n m hl hm.2 args
  · intro sp hsp
    obtain ⟨n, _, rfl⟩ := List.mem_map.mp hsp
    exact h' n

theorem okay_range {k : Nat} {f : Nat → Spec}
    (h : ∀ n m, n < m → m < k → ∀ args, SepAt args (f n) (f m)) (h' : ∀ n, (f n).single = true) :
    InOrder ((List.range k).map f) := by
  rw [List.range_eq_range']
  exact okay_map (fun n m hl hm => h n m hl (by omega)) h'

theorem sepAt_apart {p q : Spec} (h : Pat.aparts p.pats q.pats = true) (args : List V) : SepAt args p q :=
  sep_sound (by rw [sep, h, Bool.true_or]) args

/-- A pattern that only one type fits. -/
structure Const (c : Pat) (w : V) : Prop where
  single : c.single = true
  fit : ∀ v b, Pat.fit c v b = if v = w then some b else none

theorem const_num (n : Int) : Const (.num n) (.num n) := by
  refine ⟨rfl, fun v b => ?_⟩
  cases v with
  | num m =>
    simp only [Pat.fit, V.num.injEq]
    by_cases h : n = m
    · rw [if_pos h, if_pos h.symm]
    · rw [if_neg h, if_neg (Ne.symm h)]
  | _ => simp [Pat.fit]

theorem const_cls (n : Id) : Const (.cls n []) (.cls .root n []) := by
  refine ⟨rfl, fun v b => ?_⟩
  cases v with
  | cls o m vs =>
    cases o with
    | root =>
      simp only [Pat.fit, V.cls.injEq, true_and]
      by_cases h : n = m
      · rw [if_pos h]
        cases vs with
        | nil => simp [Pat.fits, h]
        | cons v vs => simp [Pat.fits]
      · rw [if_neg h, if_neg (fun e => h e.1.symm)]
    | _ => simp [Pat.fit]
  | _ => simp [Pat.fit]

theorem fits_const {c : Pat} {w : V} (hc : Const c w) (k : Nat) (vs : List V) (b : List (Id × Bind)) :
    Pat.fits (List.replicate k c) vs b ≠ none ↔ vs = List.replicate k w := by
  induction k generalizing vs with
  | zero =>
    cases vs <;> simp [Pat.fits]
  | succ k ih =>
    rw [List.replicate_succ, List.replicate_succ]
    constructor
    · intro h
      obtain ⟨b', e⟩ := Option.ne_none_iff_exists'.mp h
      obtain ⟨v, vs', b1, rfl, e1, e2⟩ := fits_cons_inv hc.single e
      rw [hc.fit] at e1
      split at e1
      · rename_i hv
        cases e1
        rw [hv, (ih vs').mp (by rw [e2]; exact Option.some_ne_none b')]
      · cases e1
    · intro h
      rw [h]
      obtain ⟨b', e⟩ := Option.ne_none_iff_exists'.mp ((ih _).mpr rfl)
      rw [fits_cons_of hc.single (by rw [hc.fit, if_pos rfl]) e]
      exact Option.some_ne_none b'

/-- The arguments from number `n` on are the default, and there are `N`. -/
def From (w : V) (N n : Nat) (vs : List V) : Prop := n ≤ vs.length ∧ vs.drop n = List.replicate (N - n) w

theorem fits_from {c : Pat} {w : V} (hc : Const c w) {x : Id} {b : List (Id × Bind)} (hx : find x b = none) (N n : Nat)
    (vs : List V) : Pat.fits (.params x n :: List.replicate (N - n) c) vs b ≠ none ↔ From w N n vs := by
  rw [Pat.fits, From]
  split
  · rename_i h
    rw [hx]
    dsimp only
    rw [fits_const hc]
    exact ⟨fun e => ⟨h, e⟩, fun e => e.2⟩
  · rename_i h
    exact ⟨fun e => absurd rfl e, fun e => absurd e.1 h⟩

theorem from_mono {w : V} {N n m : Nat} (hl : n < m) (hm : m < N) {vs : List V} (h : From w N n vs) : From w N m vs := by
  obtain ⟨h1, h2⟩ := h
  have e : vs.length = N := by
    have := congrArg List.length h2
    rw [List.length_drop, List.length_replicate] at this
    omega
  refine ⟨by omega, ?_⟩
  have : vs.drop m = (vs.drop n).drop (m - n) := by
    rw [List.drop_drop]
    congr 1
    omega
  rw [this, h2, List.drop_replicate]
  congr 1
  omega

theorem from_strict {w u : V} (hu : u ≠ w) {N n m : Nat} (hl : n < m) (hm : m < N) :
    From w N m (List.replicate m u ++ List.replicate (N - m) w) ∧
      ¬ From w N n (List.replicate m u ++ List.replicate (N - m) w) := by
  refine ⟨⟨by simp, by simp⟩, fun h => ?_⟩
  have e := congrArg (fun l => l[0]?) h.2
  rw [List.getElem?_drop, List.getElem?_append_left (by simp; omega), List.getElem?_replicate,
    List.getElem?_replicate, if_pos (by omega), if_pos (by omega)] at e
  exact hu (Option.some.inj e)

theorem moreSpecialised_of {p q : Spec} (h : ∀ args, Matches p args → Matches q args) {w : List V} (h1 : Matches q w)
    (h2 : ¬ Matches p w) : MoreSpecialised p q := ⟨h, w, h1, h2⟩

theorem exists_other (w : V) : ∃ u, u ≠ w := by
  by_cases h : V.root = w
  · exact ⟨.num 0, fun e => by rw [← h] at e; cases e⟩
  · exact ⟨.root, h⟩

/-- Parameters, and then defaults. -/
theorem special_from {c : Pat} {w : V} (hc : Const c w) {x : Id} {N n m : Nat} (hl : n < m) (hm : m < N) {p q : Spec}
    (hp : p.pats = .params x n :: List.replicate (N - n) c) (hq : q.pats = .params x m :: List.replicate (N - m) c) :
    MoreSpecialised p q := by
  obtain ⟨u, hu⟩ := exists_other w
  have k1 : ∀ as, Matches p as ↔ From w N n as := fun as => by rw [Matches, hp]; exact fits_from hc rfl N n as
  have k2 : ∀ as, Matches q as ↔ From w N m as := fun as => by rw [Matches, hq]; exact fits_from hc rfl N m as
  exact ⟨fun as h => (k2 as).mpr (from_mono hl hm ((k1 as).mp h)),
    _, (k2 _).mpr (from_strict hu hl hm).1, fun h => (from_strict hu hl hm).2 ((k1 _).mp h)⟩

/-- The same after a parameter. -/
theorem special_after {c : Pat} {w : V} (hc : Const c w) {x y : Id} (hxy : x ≠ y) {N n m : Nat} (hl : n < m) (hm : m < N)
    {p q : Spec} (hp : p.pats = .var y :: .params x n :: List.replicate (N - n) c)
    (hq : q.pats = .var y :: .params x m :: List.replicate (N - m) c) : MoreSpecialised p q := by
  obtain ⟨u, hu⟩ := exists_other w
  have key : ∀ (i : Nat) (v : V) (vs : List V),
      Pat.fits (.var y :: .params x i :: List.replicate (N - i) c) (v :: vs) [] ≠ none ↔ From w N i vs := by
    intro i v vs
    rw [← fits_from hc (x := x) (b := [(y, .one v)]) (by rw [find, if_neg hxy]; rfl)]
    constructor
    · intro h
      obtain ⟨b', e⟩ := Option.ne_none_iff_exists'.mp h
      obtain ⟨v', vs', b1, e0, e1, e2⟩ := fits_cons_inv rfl e
      cases e0
      simp [Pat.fit, find] at e1
      rw [e1, e2]
      exact Option.some_ne_none b'
    · intro h
      obtain ⟨b', e⟩ := Option.ne_none_iff_exists'.mp h
      rw [fits_cons_of rfl (by simp [Pat.fit, find]) e]
      exact Option.some_ne_none b'
  refine ⟨fun as h => ?_, u :: (List.replicate m u ++ List.replicate (N - m) w), ?_, fun h => ?_⟩
  · rw [Matches, hp] at h
    rw [Matches, hq]
    cases as with
    | nil =>
      obtain ⟨b', e⟩ := Option.ne_none_iff_exists'.mp h
      obtain ⟨v', vs', b1, e0, e1, e2⟩ := fits_cons_inv rfl e
      cases e0
    | cons v vs => exact (key m v vs).mpr (from_mono hl hm ((key n v vs).mp h))
  · rw [Matches, hq]
    exact (key m _ _).mpr (from_strict hu hl hm).1
  · rw [Matches, hp] at h
    exact (from_strict hu hl hm).2 ((key n _ _).mp h)

/-- The same in a class. -/
theorem special_in {c : Pat} {w : V} (hc : Const c w) {x t : Id} {N n m : Nat} (hl : n < m) (hm : m < N) {p q : Spec}
    (hp : p.pats = [.cls t (.params x n :: List.replicate (N - n) c)])
    (hq : q.pats = [.cls t (.params x m :: List.replicate (N - m) c)]) : MoreSpecialised p q := by
  obtain ⟨u, hu⟩ := exists_other w
  have key : ∀ (i : Nat) (as : List V), Pat.fits [.cls t (.params x i :: List.replicate (N - i) c)] as [] ≠ none ↔
      ∃ vs, as = [.cls .root t vs] ∧ From w N i vs := by
    intro i as
    constructor
    · intro h
      obtain ⟨b', e⟩ := Option.ne_none_iff_exists'.mp h
      obtain ⟨v, vs, b1, rfl, e1, e2⟩ := fits_cons_inv rfl e
      obtain ⟨rfl, _⟩ := fits_nil e2
      cases v with
      | cls o s us =>
        cases o with
        | root =>
          rw [Pat.fit] at e1
          split at e1
          · rename_i hs
            subst hs
            exact ⟨us, rfl, (fits_from hc rfl N i us).mp (by rw [e1]; exact Option.some_ne_none b1)⟩
          · cases e1
        | _ => simp [Pat.fit] at e1
      | _ => simp [Pat.fit] at e1
    · rintro ⟨vs, rfl, h⟩
      obtain ⟨b', e⟩ := Option.ne_none_iff_exists'.mp ((fits_from hc (b := []) (x := x) rfl N i vs).mpr h)
      rw [fits_cons_of rfl (b1 := b') (b' := b') (by rw [Pat.fit, if_pos rfl]; exact e) (by simp [Pat.fits])]
      exact Option.some_ne_none b'
  refine ⟨fun as h => ?_, [.cls .root t (List.replicate m u ++ List.replicate (N - m) w)], ?_, fun h => ?_⟩
  · rw [Matches, hp] at h
    rw [Matches, hq]
    obtain ⟨vs, rfl, h'⟩ := (key n as).mp h
    exact (key m _).mpr ⟨vs, rfl, from_mono hl hm h'⟩
  · rw [Matches, hq]
    exact (key m _).mpr ⟨_, rfl, (from_strict hu hl hm).1⟩
  · rw [Matches, hp] at h
    obtain ⟨vs, e, h⟩ := (key n _).mp h
    cases e
    exact (from_strict hu hl hm).2 h

section
variable (l : Limits)

theorem okay_at_c : InOrder (Hdr98.impl_at_c l) :=
  okay_range (fun n m hl _ => sepAt_apart (by simp [Pat.aparts, Pat.apart, Pat.single, Spec.pats]; omega)) (fun _ => rfl)

theorem okay_update_c : InOrder (Hdr98.impl_update_c l) :=
  okay_range (fun n m hl _ => sepAt_apart (by simp [Pat.aparts, Pat.apart, Pat.single, Spec.pats]; omega)) (fun _ => rfl)

theorem okay_nth_of_c_n : InOrder (Hdr98.impl_nth_of_c_n l) :=
  okay_range (fun n m hl _ => sepAt_apart (by simp [Pat.aparts, Pat.apart, Pat.single, Spec.pats]; omega)) (fun _ => rfl)

theorem okay_sequence_n : InOrder (Hdr98.impl_sequence_n l) :=
  okay_map (fun n m hl _ => sepAt_apart (by simp [Pat.aparts, Pat.apart, Pat.single, Spec.pats]; omega)) (fun _ => rfl)

theorem okay_sequence_apply_transform_n : InOrder (Hdr98.impl_sequence_apply_transform_n l) :=
  okay_map (fun n m hl _ => sepAt_apart (by simp [Pat.aparts, Pat.apart, Pat.single, Spec.pats]; omega)) (fun _ => rfl)

theorem okay_sequence_apply_n : InOrder (Hdr98.sequence_apply_n l) :=
  okay_map (fun n m hl _ => sepAt_apart (by simp [Pat.aparts, Pat.apart, Pat.single, Spec.pats]; omega)) (fun _ => rfl)

theorem okay_is_none_n : InOrder (Hdr98.impl_is_none_n l) := by
  obtain ⟨h1, h2⟩ : InOrder ((List.range' 1 (l.oneCharExcept - 1)).map fun (n : Nat) => (
      ⟨[.num n, .params .T n],
        [],
        [.tmpl .apply [
          ⟨[.var .C],
            [.cls .mpl_eval_if [.cls .mpl_bool_ [.op .eq (.mem (.mem (.var .C) .type) .value) (.mem (.mem (.nth .T (n - 1)) .type) .value)], .cls .mpl_bool_ [.num 0], .memT (.padded .impl_is_none_n ([.num (n - 1)] ++ ((List.range (n - 1)).map fun (i : Nat) => .nth .T i))) .apply [.var .C]]],
            []⟩]]⟩ : Spec)) :=
    okay_map (fun n m hl _ => sepAt_apart (by simp [Pat.aparts, Pat.apart, Pat.single, Spec.pats]; omega)) (fun _ => rfl)
  refine ⟨fun args => List.Pairwise.cons ?_ (h1 args), ?_⟩
  · intro q hq
    obtain ⟨n, hn, rfl⟩ := List.mem_map.mp hq
    rw [List.mem_range'_1] at hn
    exact sepAt_apart (by simp [Pat.aparts, Pat.apart, Pat.single, Spec.pats]; omega) args
  · intro q hq
    rcases List.mem_cons.mp hq with rfl | hq
    · rfl
    · exact h2 q hq

theorem okay_size : InOrder (Hdr98.impl_size l) :=
  okay_range (fun _ _ hl hm _ _ _ => special_in (const_num _) hl hm rfl rfl) (fun _ => rfl)

theorem okay_last_of : InOrder (Hdr98.last_of l) :=
  okay_range (fun _ _ hl hm _ _ _ => special_from (const_cls _) hl hm rfl rfl) (fun _ => rfl)

theorem okay_nth_of_c : InOrder (Hdr98.nth_of_c l) :=
  okay_range (fun _ _ hl hm _ _ _ => special_after (const_cls _) (x := .P) (y := .K) (by decide) hl hm rfl rfl) (fun _ => rfl)

theorem okay_one_of_c : InOrder (Hdr98.one_of_c l) :=
  okay_range (fun _ _ hl hm _ _ _ => special_from (const_num _) hl hm rfl rfl) (fun _ => rfl)

theorem okay_sequence : InOrder (Hdr98.sequence l) :=
  okay_map (fun _ _ hl hm _ _ _ => special_from (const_cls _) (N := l.sequence) hl (by omega) rfl rfl) (fun _ => rfl)

theorem two_parts {N n : Nat} (h : n < N) (x : Id) (c : Pat) :
    [Pat.params x n] ++ List.replicate ((N - 1) - n) c ++ List.replicate (N - (n + ((N - 1) - n))) c =
      Pat.params x n :: List.replicate (N - n) c := by
  rw [List.append_assoc, List.replicate_append_replicate, List.singleton_append]
  congr 2
  omega

theorem okay_one_char_except_c : InOrder (Hdr98.one_char_except_c l) :=
  okay_range (fun _ _ hl hm _ _ _ => special_from (const_num _) hl hm (two_parts (by omega) _ _) (two_parts hm _ _)) (fun _ => rfl)

theorem okay_one_char_except : InOrder (Hdr98.one_char_except l) :=
  okay_range (fun _ _ hl hm _ _ _ => special_from (const_cls _) hl hm (two_parts (by omega) _ _) (two_parts hm _ _)) (fun _ => rfl)

end

theorem okay98 (l : Limits) : ∀ n : Id, n ≠ .mpl_equal_to_impl → InOrder (@library (cpp98 l) n) := by
  intro n hn
  cases n <;> first
    | exact absurd rfl hn
    | exact okay_sound rfl
    | exact okay_at_c l
    | exact okay_update_c l
    | exact okay_nth_of_c_n l
    | exact okay_sequence_n l
    | exact okay_sequence_apply_transform_n l
    | exact okay_sequence_apply_n l
    | exact okay_is_none_n l
    | exact okay_size l
    | exact okay_last_of l
    | exact okay_nth_of_c l
    | exact okay_one_of_c l
    | exact okay_sequence l
    | exact okay_one_char_except_c l
    | exact okay_one_char_except l

/-! ### `mpl::equal_to_impl` -/

/-- Two definitions of `equal_to_impl` of which none is more specialised. -/
def crossed (p q : Spec) : Bool :=
  match p.pats, q.pats with
  | [.cls a [], .var _], [.var _, .cls b []] => a == .impl_string_iterator_tag && b == .string_tag
  | [.var _, .cls a []], [.cls b [], .var _] => a == .impl_string_iterator_tag && b == .string_tag
  | _, _ => false

theorem matches_left {a x : Id} {p : Spec} (hp : p.pats = [.cls a [], .var x]) {args : List V} (h : Matches p args) :
    ∃ v, args = [.cls .root a [], v] := by
  rw [Matches, hp] at h
  obtain ⟨b', e⟩ := Option.ne_none_iff_exists'.mp h
  obtain ⟨v, vs, b1, rfl, e1, e2⟩ := fits_cons_inv rfl e
  obtain ⟨v', vs', b2, rfl, e3, e4⟩ := fits_cons_inv rfl e2
  obtain ⟨rfl, _⟩ := fits_nil e4
  rw [(const_cls a).fit] at e1
  split at e1
  · rename_i hv
    exact ⟨v', by rw [hv]⟩
  · cases e1

theorem matches_right {a x : Id} {p : Spec} (hp : p.pats = [.var x, .cls a []]) {args : List V} (h : Matches p args) :
    ∃ v, args = [v, .cls .root a []] := by
  rw [Matches, hp] at h
  obtain ⟨b', e⟩ := Option.ne_none_iff_exists'.mp h
  obtain ⟨v, vs, b1, rfl, e1, e2⟩ := fits_cons_inv rfl e
  obtain ⟨v', vs', b2, rfl, e3, e4⟩ := fits_cons_inv rfl e2
  obtain ⟨rfl, _⟩ := fits_nil e4
  rw [(const_cls a).fit] at e3
  split at e3
  · rename_i hv
    exact ⟨v, by rw [hv]⟩
  · cases e3

theorem crossed_sound {p q : Spec} (h : crossed p q = true) {args : List V} (hp : Matches p args) (hq : Matches q args) :
    Ambiguous (.cls .root .mpl_equal_to_impl args) := by
  unfold crossed at h
  split at h
  · rename_i a x y b e1 e2
    rw [Bool.and_eq_true] at h
    obtain ⟨v, k1⟩ := matches_left e1 hp
    obtain ⟨w, k2⟩ := matches_right e2 hq
    rw [k1] at k2
    cases k2
    rw [k1, eq_of_beq h.1, eq_of_beq h.2, Ambiguous]
    exact .inr ⟨rfl, rfl⟩
  · rename_i x a b y e1 e2
    rw [Bool.and_eq_true] at h
    obtain ⟨v, k1⟩ := matches_right e1 hp
    obtain ⟨w, k2⟩ := matches_left e2 hq
    rw [k1] at k2
    cases k2
    rw [k1, eq_of_beq h.1, eq_of_beq h.2, Ambiguous]
    exact .inl ⟨rfl, rfl⟩
  · cases h

/-- There is a definition for the arguments that fit both of two definitions. -/
def between (before : List Spec) (p q : Spec) : Bool :=
  match p.pats, q.pats with
  | [.cls a [], .var _], [.var _, .cls b []] => before.any fun r => match r.pats with
    | [.cls a' [], .cls b' []] => a' == a && b' == b
    | _ => false
  | _, _ => false

theorem between_sound {before : List Spec} {p q : Spec} (h : between before p q = true) {args : List V}
    (hp : Matches p args) (hq : Matches q args) : ∃ r ∈ before, Matches r args := by
  unfold between at h
  split at h
  · rename_i a x y b e1 e2
    obtain ⟨v, k1⟩ := matches_left e1 hp
    obtain ⟨w, k2⟩ := matches_right e2 hq
    rw [k1] at k2
    cases k2
    obtain ⟨r, hr, z⟩ := List.any_eq_true.mp h
    split at z
    · rename_i a' b' e3
      rw [Bool.and_eq_true] at z
      refine ⟨r, hr, ?_⟩
      rw [Matches, e3, k1, eq_of_beq z.1, eq_of_beq z.2]
      simp [Pat.fits, Pat.fit]
    · cases z
  · cases h

/-- Every definition of a list and every later one, or they are crossed, or one before is for both. -/
def sepsOr (before : List Spec) : List Spec → Bool
  | [] => true
  | p :: ps => ps.all (fun q => sep p q || crossed p q || between before p q) && sepsOr (p :: before) ps

theorem sepsOr_sound {before ds : List Spec} (h : sepsOr before ds = true) {args : List V}
    (ha : ¬ Ambiguous (.cls .root .mpl_equal_to_impl args)) (hb : ∀ r ∈ before, ¬ Matches r args) : Best args ds := by
  induction ds generalizing before with
  | nil => intro i p hp; simp at hp
  | cons d ds ih =>
    rw [sepsOr, Bool.and_eq_true] at h
    intro i p hp hm hf j q hij hq hmq
    cases i with
    | zero =>
      cases hp
      cases j with
      | zero => exact (Nat.lt_irrefl 0 hij).elim
      | succ j =>
        have := List.all_eq_true.mp h.1 q (List.mem_of_getElem? (i := j) hq)
        rw [Bool.or_eq_true, Bool.or_eq_true] at this
        rcases this with (z | z) | z
        · exact sep_sound z args hm hmq
        · exact (ha (crossed_sound z hm hmq)).elim
        · obtain ⟨r, hr, hmr⟩ := between_sound z hm hmq
          exact (hb r hr hmr).elim
    | succ i =>
      cases j with
      | zero => exact (Nat.not_lt_zero _ hij).elim
      | succ j =>
        refine ih h.2 (fun r hr => ?_) i p hp hm (fun k r hk hr => hf (k + 1) r (Nat.succ_lt_succ hk) hr) j q
          (Nat.lt_of_succ_lt_succ hij) hq hmq
        rcases List.mem_cons.mp hr with rfl | hr
        · exact hf 0 r (Nat.succ_pos i) rfl
        · exact hb r hr

theorem equal_to_ordered [L : Lang] {args : List V} (ha : ¬ Ambiguous (.cls .root .mpl_equal_to_impl args)) :
    Best args (library .mpl_equal_to_impl) := by
  obtain ⟨_ | l⟩ := L
  · exact sepsOr_sound (before := []) (by decide +kernel) ha (fun _ h => by cases h)
  · exact sepsOr_sound (before := []) (show sepsOr [] (@library (cpp98 l) .mpl_equal_to_impl) = true from rfl) ha
      (fun _ h => by cases h)

theorem equal_to_single [L : Lang] : ∀ sp ∈ library .mpl_equal_to_impl, sp.single = true := by
  have : (library .mpl_equal_to_impl).all Spec.single = true := by
    obtain ⟨_ | l⟩ := L
    · decide +kernel
    · exact rfl
  exact List.all_eq_true.mp this

/-! ### All templates -/

theorem library_ordered [L : Lang] {n : Id} {args : List V} (ha : ¬ Ambiguous (.cls .root n args)) :
    Best args (library n) ∧ ∀ sp ∈ library n, sp.single = true := by
  by_cases hn : n = .mpl_equal_to_impl
  · subst hn
    exact ⟨equal_to_ordered ha, equal_to_single⟩
  · obtain ⟨_ | l⟩ := L
    · obtain ⟨h1, h2⟩ := okay_sound (okay11 n hn)
      exact ⟨best_of (h1 args), h2⟩
    · obtain ⟨h1, h2⟩ := okay98 l n hn
      exact ⟨best_of (h1 args), h2⟩

theorem takes_mem {ds : List Spec} {args : List V} {sp : Spec} (h : Takes ds args sp) : sp ∈ ds := by
  obtain ⟨i, h, _⟩ := h
  exact List.mem_of_getElem? h

theorem member_ordered {n : Id} {sp : Spec} (h : sp.single = true) (args : List V) :
    Best args (memberTemplate n sp.decls) ∧ ∀ sp' ∈ memberTemplate n sp.decls, sp'.single = true := by
  obtain ⟨p, b, d⟩ := sp
  rw [Spec.single] at h
  rcases single_member (n := n) d h with e | ⟨s, e, hs⟩
  · rw [Spec.decls, e]
    exact ⟨best_of List.Pairwise.nil, fun _ h => by cases h⟩
  · rw [Spec.decls, e]
    refine ⟨best_of (List.pairwise_singleton _ _), fun x hx => ?_⟩
    rw [List.mem_singleton.mp hx]
    exact hs

theorem ambiguous_outer {o : V} {n' : Id} {args' : List V} {n : Id} {args : List V}
    (h : Ambiguous (.cls o n' args')) : Ambiguous (.cls (.cls o n' args') n args) := by
  rw [Ambiguous]
  · exact h
  · intros; simp_all

/-- The definitions of a class are in order, and their members are single. -/
theorem defs_ordered [L : Lang] {o : V} {n : Id} {args : List V} {ds : List Spec} (hd : Defs (.cls o n args) ds)
    (ha : ¬ Ambiguous (.cls o n args)) : Best args ds ∧ ∀ sp ∈ ds, sp.single = true := by
  generalize e : V.cls o n args = v at hd ha
  induction hd generalizing o n args with
  | top n' args' =>
    cases e
    exact library_ordered ha
  | member n' args' h ht ih =>
    cases e
    exact member_ordered ((ih rfl (fun z => ha (ambiguous_outer z))).2 _ (takes_mem ht)) args'

/-- What the model takes. -/
theorem takes_resolve [L : Lang] {o : V} {n : Id} {args : List V} {ds : List Spec} (hd : Defs (.cls o n args) ds)
    (ha : ¬ Ambiguous (.cls o n args)) (sp : Spec) :
    Takes ds args sp ↔ ∃ c, resolve (.cls o n args) = some (c, sp) := by
  generalize e : V.cls o n args = v at hd ha
  induction hd generalizing o n args sp with
  | top n' args' =>
    cases e
    rw [resolve]
    exact takes_iff (library_ordered ha).1 _ _ _
  | @member o' n'' args'' defs sp' n' args' h ht ih =>
    cases e
    have ha' : ¬ Ambiguous (.cls o' n'' args'') := fun z => ha (ambiguous_outer z)
    obtain ⟨c, hc⟩ := (ih sp' rfl ha').mp ht
    rw [resolve, hc]
    exact takes_iff (member_ordered ((defs_ordered h ha').2 _ (takes_mem ht)) args').1 _ _ _

theorem not_matches {sp : Spec} {args : List V} (h : (Pat.fits sp.pats args []).isNone = true) : ¬ Matches sp args :=
  fun z => z (Option.isNone_iff_eq_none.mp h)

theorem matches_of {sp : Spec} {args : List V} (h : (Pat.fits sp.pats args []).isSome = true) : Matches sp args :=
  Option.isSome_iff_ne_none.mp h

/-- Two definitions that fit, neither of which is more specialised, and nothing else that fits. -/
theorem none_taken {ds : List Spec} {args a b : List V} {i j : Nat} {p q : Spec} (hij : i ≠ j) (hi : ds[i]? = some p)
    (hj : ds[j]? = some q) (hp : Matches p args) (hq : Matches q args)
    (ho : (ds.zipIdx.all fun x => x.2 == i || x.2 == j || (Pat.fits x.1.pats args []).isNone) = true)
    (ha : Matches p a) (ha' : ¬ Matches q a) (hb : Matches q b) (hb' : ¬ Matches p b) (sp : Spec) : ¬ Takes ds args sp := by
  rintro ⟨k, h1, h2, h3⟩
  by_cases e1 : k = i
  · subst e1
    rw [hi] at h1
    cases h1
    exact ha' ((h3 j q (Ne.symm hij) hj hq).1 a ha)
  · by_cases e2 : k = j
    · subst e2
      rw [hj] at h1
      cases h1
      exact hb' ((h3 i p hij hi hp).1 b hb)
    · have := List.all_eq_true.mp ho (sp, k) (by
        rw [List.mem_iff_getElem?]
        exact ⟨k, by rw [List.getElem?_zipIdx, h1]; simp⟩)
      dsimp only at this
      rw [Bool.or_eq_true, Bool.or_eq_true, beq_iff_eq, beq_iff_eq] at this
      rcases this with (z | z) | z
      · exact e1 z
      · exact e2 z
      · exact not_matches z h2

end Metaparse.Tmpl
