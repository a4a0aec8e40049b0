/-
From what the user has to what the check of the headers is about.
-/
import Verif.Lemmas.InclusionModes

namespace Metaparse.Inclusion

/-- The standard that the library chooses. -/
def chosenStd (env : Env) : Nat :=
  if hasCpp11 compilerMacros configMacros env then
    if there configMacros env.config "BOOST_NO_CXX14_CONSTEXPR" then 2011 else 2014
  else 1998

def theStd (env : Env) (s : State) : Nat := standard macroNames compilerMacros configMacros env s

/-- The mode for a compiler and the macros of the user. -/
def modeOf (env : Env) (s : State) : Mode :=
  let std : Std := if 2014 ≤ theStd env s then .cpp14 else if 2011 ≤ theStd env s then .cpp11 else .cpp98
  let late : Bool := decide (2011 ≤ theStd env s)
  let clang : Bool := late && (number compilerMacros env.compiler "__clang__" != 0)
  { std := std
    clang := clang
    literals := clang && env.feature 0
    sun := late && (env.compiler 4).isSome
    noCStr := match value (out env) env.feature cstrExpr with
      | some v => v != 0
      | none => false }

section facts

theorem idx_clang : compilerMacros.idxOf "__clang__" = 0 := by decide +kernel
theorem idx_msc : compilerMacros.idxOf "_MSC_VER" = 3 := by decide +kernel
theorem idx_no11constexpr : configMacros.idxOf "BOOST_NO_CXX11_CONSTEXPR" = 0 := by decide +kernel
theorem idx_noconstexpr : configMacros.idxOf "BOOST_NO_CONSTEXPR" = 1 := by decide +kernel
theorem idx_no11variadic : configMacros.idxOf "BOOST_NO_CXX11_VARIADIC_TEMPLATES" = 2 := by decide +kernel
theorem idx_novariadic : configMacros.idxOf "BOOST_NO_VARIADIC_TEMPLATES" = 3 := by decide +kernel
theorem idx_gcc : configMacros.idxOf "BOOST_GCC" = 4 := by decide +kernel
theorem idx_no14 : configMacros.idxOf "BOOST_NO_CXX14_CONSTEXPR" = 5 := by decide +kernel
theorem idx_std : macroNames.idxOf "BOOST_METAPARSE_STD" = 2 := by decide +kernel

theorem settable_user : ∀ p ∈ macroNames.zipIdx, p.1 ∈ settable → isUser p.2 = true := by decide +kernel

theorem user_of_settable {m : Nat} {x : String} (h : macroNames[m]? = some x) (hx : x ∈ settable) : isUser m = true := by
  have hm : (x, m) ∈ macroNames.zipIdx := by
    rw [List.mem_iff_getElem?]
    exact ⟨m, by rw [List.getElem?_zipIdx, h]; simp⟩
  exact settable_user _ hm hx

end facts

variable {env : Env} {s : State}

theorem modeOf_is11 : (modeOf env s).is11 = decide (2011 ≤ theStd env s) := by
  unfold Mode.is11 modeOf
  dsimp only
  by_cases h1 : 2014 ≤ theStd env s
  · have h2 : 2011 ≤ theStd env s := by omega
    simp [h1, h2]
  · by_cases h2 : 2011 ≤ theStd env s
    · simp [h1, h2]
    · simp [h1, h2]

theorem modeOf_is14 : (modeOf env s).is14 = decide (2014 ≤ theStd env s) := by
  unfold Mode.is14 modeOf
  dsimp only
  by_cases h1 : 2014 ≤ theStd env s
  · simp [h1]
  · by_cases h2 : 2011 ≤ theStd env s
    · simp [h1, h2]
    · simp [h1, h2]

theorem modeOf_proper : (modeOf env s).Proper := by
  refine ⟨fun h => ?_, fun h => ?_⟩
  · rw [modeOf_is11] at h
    constructor
    · show (decide (2011 ≤ theStd env s) && _) = false
      rw [h, Bool.false_and]
    · show (decide (2011 ≤ theStd env s) && _) = false
      rw [h, Bool.false_and]
  · show ((modeOf env s).clang && _) = false
    rw [h, Bool.false_and]

theorem std_of_none (h : s.mac 2 = none) : theStd env s = chosenStd env := by
  unfold theStd standard
  rw [idx_std, h]
  rfl

theorem std_of_some {d : Macro} (h : s.mac 2 = some d) : theStd env s = d.value.getD 0 := by
  unfold theStd standard
  rw [idx_std, h]

/-- The macro counts as a number. -/
theorem counts {v : Option (Option Nat)} : v ≠ some none →
    (match v with | none => some 0 | some v => v) = some ((v.getD (some 0)).getD 0) := by
  intro h
  cases v with
  | none => rfl
  | some v =>
    cases v with
    | none => exact (h rfl).elim
    | some v => rfl

section total

variable {look : Ref → Option (Option Nat)} {f : Nat → Bool} {a b : Expr}

theorem total_not (h : ∃ v, value look f a = some v) : ∃ v, value look f (.not a) = some v := by
  obtain ⟨x, h⟩ := h
  exact ⟨_, by rw [value, h]; rfl⟩

theorem total_and (h : ∃ v, value look f a = some v) (k : ∃ v, value look f b = some v) :
    ∃ v, value look f (.and a b) = some v := by
  obtain ⟨x, h⟩ := h
  obtain ⟨y, k⟩ := k
  exact ⟨_, by rw [value, h, k]; rfl⟩

theorem total_or (h : ∃ v, value look f a = some v) (k : ∃ v, value look f b = some v) :
    ∃ v, value look f (.or a b) = some v := by
  obtain ⟨x, h⟩ := h
  obtain ⟨y, k⟩ := k
  exact ⟨_, by rw [value, h, k]; rfl⟩

theorem total_lt (h : ∃ v, value look f a = some v) (k : ∃ v, value look f b = some v) :
    ∃ v, value look f (.lt a b) = some v := by
  obtain ⟨x, h⟩ := h
  obtain ⟨y, k⟩ := k
  exact ⟨_, by rw [value, h, k]; rfl⟩

theorem total_eq (h : ∃ v, value look f a = some v) (k : ∃ v, value look f b = some v) :
    ∃ v, value look f (.eq a b) = some v := by
  obtain ⟨x, h⟩ := h
  obtain ⟨y, k⟩ := k
  exact ⟨_, by rw [value, h, k]; rfl⟩

theorem total_defd (r : Ref) : ∃ v, value look f (.defd r) = some v := ⟨_, rfl⟩

theorem total_num (n : Nat) : ∃ v, value look f (.num n) = some v := ⟨_, rfl⟩

theorem defd_eq {r : Ref} {x : Bool} (h : (look r).isSome = x) : value look f (.defd r) = some (if x = true then 1 else 0) := by
  subst h
  rfl

end total

section start

variable (rd : Ready macroNames compilerMacros configMacros env s)
include rd

theorem compiler_number {m : Nat} {x : String} (h : compilerMacros[m]? = some x) (hx : x ∈ numeric) :
    value (out env) env.feature (.val (.compiler m)) = some (((env.compiler m).getD (some 0)).getD 0) := by
  rw [value]
  exact counts (rd.compilerNumbers m x h hx)

theorem config_number {m : Nat} {x : String} (h : configMacros[m]? = some x) (hx : x ∈ numeric) :
    value (out env) env.feature (.val (.config m)) = some (((env.config m).getD (some 0)).getD 0) := by
  rw [value]
  exact counts (rd.configNumbers m x h hx)

theorem fits : EnvFits (modeOf env s) env where
  clang := fun h => by
    rw [modeOf_is11] at h
    refine ⟨_, counts (rd.compilerNumbers 0 "__clang__" rfl (by decide +kernel)), ?_⟩
    show _ = (decide (2011 ≤ theStd env s) && (number compilerMacros env.compiler "__clang__" != 0))
    rw [h, Bool.true_and, number, idx_clang]
    generalize ((env.compiler 0).getD (some 0)).getD 0 = v
    by_cases z : v = 0 <;> simp [z]
  literals := fun _ h => by
    show _ = ((modeOf env s).clang && env.feature 0)
    rw [h, Bool.true_and]
  sun := fun h => by
    rw [modeOf_is11] at h
    show _ = (decide (2011 ≤ theStd env s) && (env.compiler 4).isSome)
    rw [h, Bool.true_and]

theorem configFits : ConfigFits (modeOf env s) ⟨chosenStd env, theStd env s⟩ env := by
  have c1 := compiler_number rd (m := 1) (x := "__GNUC__") rfl (by decide +kernel)
  have c2 := compiler_number rd (m := 2) (x := "__GNUC_MINOR__") rfl (by decide +kernel)
  have c3 := compiler_number rd (m := 3) (x := "_MSC_VER") rfl (by decide +kernel)
  have c4 := config_number rd (m := 4) (x := "BOOST_GCC") rfl (by decide +kernel)
  constructor
  · have h : ∃ v, value (out env) env.feature cstrExpr = some v := by
      exact total_or (total_or (total_defd _) (total_defd _)) (total_and (total_and (total_not (total_defd _)) (total_defd _))
        (total_or (total_lt ⟨_, c1⟩ (total_num _)) (total_and (total_eq ⟨_, c1⟩ (total_num _)) (total_lt ⟨_, c2⟩ (total_num _)))))
    obtain ⟨v, hv⟩ := h
    refine ⟨v, hv, ?_⟩
    show _ = match value (out env) env.feature cstrExpr with
      | some v => v != 0
      | none => false
    rw [hv]
    by_cases z : v = 0 <;> simp [z]
  · refine ⟨if hasCpp11 compilerMacros configMacros env then 1 else 0, ?_, ?_⟩
    · unfold hasCpp11 there number
      rw [idx_msc, idx_no11constexpr, idx_noconstexpr, idx_no11variadic, idx_novariadic, idx_gcc, stdExpr]
      have m3 : (env.compiler 3).isSome = false → ((env.compiler 3).getD (some 0)).getD 0 = 0 := by
        intro z
        cases e : env.compiler 3 with
        | none => rfl
        | some v => rw [e] at z; cases z
      generalize ((env.compiler 3).getD (some 0)).getD 0 = v3 at m3 c3
      generalize ((env.config 4).getD (some 0)).getD 0 = v4 at c4
      have d0 := fun x (h : (env.config 0).isSome = x) => defd_eq (look := out env) (f := env.feature) (r := .config 0) (x := x) h
      have d1 := fun x (h : (env.config 1).isSome = x) => defd_eq (look := out env) (f := env.feature) (r := .config 1) (x := x) h
      have d2 := fun x (h : (env.config 2).isSome = x) => defd_eq (look := out env) (f := env.feature) (r := .config 2) (x := x) h
      have d3 := fun x (h : (env.config 3).isSome = x) => defd_eq (look := out env) (f := env.feature) (r := .config 3) (x := x) h
      have d4 := fun x (h : (env.config 4).isSome = x) => defd_eq (look := out env) (f := env.feature) (r := .config 4) (x := x) h
      have dc := fun x (h : (env.compiler 3).isSome = x) => defd_eq (look := out env) (f := env.feature) (r := .compiler 3) (x := x) h
      generalize (env.config 0).isSome = b0 at d0
      generalize (env.config 1).isSome = b1 at d1
      generalize (env.config 2).isSome = b2 at d2
      generalize (env.config 3).isSome = b3 at d3
      generalize (env.config 4).isSome = b4 at d4
      have y : 1900 ≤ v3 → (env.compiler 3).isSome = true := by
        intro z
        cases e : (env.compiler 3).isSome with
        | true => rfl
        | false => rw [m3 e] at z; cases z
      clear m3
      generalize (env.compiler 3).isSome = e3 at y dc
      simp only [value.eq_6, value.eq_7, value.eq_9, value.eq_5, value.eq_1, c3, c4, d0 b0 rfl, d1 b1 rfl, d2 b2 rfl,
        d3 b3 rfl, d4 b4 rfl, dc e3 rfl,
        Option.map_some, Option.bind_eq_bind, Option.bind_some, Option.pure_def]
      clear d0 d1 d2 d3 d4 dc c1 c2 c3 c4
      by_cases y3 : 1900 ≤ v3
      · rw [y y3]
        by_cases y4 : 40700 ≤ v4 <;> cases b0 <;> cases b1 <;> cases b2 <;> cases b3 <;> cases b4 <;> simp [y3, y4]
      · by_cases y4 : 40700 ≤ v4 <;> cases b0 <;> cases b1 <;> cases b2 <;> cases b3 <;> cases b4 <;> simp [y3, y4]
    · unfold chosenStd there
      rw [idx_no14]
      cases hasCpp11 compilerMacros configMacros env <;> simp

theorem start : Core (modeOf env s) ⟨chosenStd env, theStd env s⟩ 1023 s where
  own := fun m h => by
    cases hd : s.mac m with
    | none => unfold On at h; rw [hd] at h; cases h
    | some d =>
      obtain ⟨⟨x, hx, hm⟩, _⟩ := rd.unset m d hd
      exact .inr (.inl (user_of_settable hm hx))
  names := fun n h => by rw [rd.unseen] at h; cases h
  closed := fun f g w _ _ t _ on => by
    cases hd : s.mac g with
    | none => unfold On at on; rw [hd] at on; cases on
    | some d =>
      obtain ⟨⟨x, hx, hm⟩, _⟩ := rd.unset g d hd
      have := owner_not_user t
      rw [user_of_settable hm hx] at this
      cases this
  usable := fun m d h => by
    obtain ⟨_, v, hv⟩ := rd.unset m d h
    rw [hv]
    exact .inr (.inr (.inr ⟨(fun _ q => nomatch q), (fun _ q => nomatch q)⟩))
  accepted := by rw [rd.unseen]; trivial
  std := fun d h => by
    obtain ⟨_, v, hv⟩ := rd.unset 2 d h
    refine ⟨v, by rw [hv], ?_⟩
    have e : theStd env s = v := by rw [std_of_some h, hv]; rfl
    exact ⟨by rw [modeOf_is11, e], by rw [modeOf_is14, e], e.symm⟩
  chosen := fun h => by
    have e := std_of_none (env := env) h
    exact ⟨by rw [modeOf_is11, e], by rw [modeOf_is14, e], e.symm⟩
  limit := fun d h => by
    obtain ⟨_, v, hv⟩ := rd.unset 5 d h
    exact ⟨v, by rw [hv], rd.short 5 v (by decide +kernel) (by rw [h, hv])⟩

theorem startClean : NoHelpers s := fun m hm on => by
  cases hd : s.mac m with
  | none => unfold On at on; rw [hd] at on; cases on
  | some d =>
    obtain ⟨⟨x, hx, hm'⟩, _⟩ := rd.unset m d hd
    have := not_user_of_helper hm
    rw [user_of_settable hm' hx] at this
    cases this

end start

section list

/-- What a list of headers does. -/
structure PostAll (md : Mode) (l : List Nat) (s s' : State) : Prop where
  on : ∀ m, On s' m ↔ On s m ∨ ∃ h ∈ l, ∃ w, md.look h = some w ∧ w.on.testBit m
  same : ∀ m, On s m → s'.mac m = s.mac m
  decl : ∀ n, Declared s'.seen n ↔ Declared s.seen n ∨ ∃ h ∈ l, ∃ w, md.look h = some w ∧ w.decl.testBit n
  defn : ∀ n, Ev.defn n ∈ s'.seen ↔ Ev.defn n ∈ s.seen ∨ ∃ h ∈ l, ∃ w, md.look h = some w ∧ w.defn.testBit n
  used : ∀ n, Ev.use n ∈ s'.seen ↔ Ev.use n ∈ s.seen ∨ ∃ h ∈ l, ∃ w, md.look h = some w ∧ w.used.testBit n

theorem or_cons {h : Nat} {l : List Nat} {md : Mode} {w : Know} (e : md.look h = some w) {P : Prop} (f : Know → Bool) :
    ((P ∨ f w) ∨ ∃ i ∈ l, ∃ v, md.look i = some v ∧ f v) ↔ (P ∨ ∃ i ∈ h :: l, ∃ v, md.look i = some v ∧ f v) := by
  constructor
  · rintro ((q | q) | ⟨i, q1, v, q2, q3⟩)
    · exact .inl q
    · exact .inr ⟨h, List.mem_cons_self .., w, e, q⟩
    · exact .inr ⟨i, List.mem_cons_of_mem _ q1, v, q2, q3⟩
  · rintro (q | ⟨i, q1, v, q2, q3⟩)
    · exact .inl (.inl q)
    · rcases List.mem_cons.mp q1 with z | z
      · subst z
        rw [e] at q2
        cases q2
        exact .inl (.inr q3)
      · exact .inr ⟨i, z, v, q2, q3⟩

theorem includeAll_sound {md : Mode} {chosen : Choice} (fit : EnvFits md env) (cf : ConfigFits md chosen env) :
    ∀ (l : List Nat) (s : State), (∀ h ∈ l, h < 1023 ∧ assumed h = [] ∧ ∃ w, md.look h = some w ∧ w.depth ≤ 256) →
    Core md chosen 1023 s → NoHelpers s →
    ∃ s', includeAll headers env l s = .ok s' ∧ Core md chosen 1023 s' ∧ NoHelpers s' ∧ PostAll md l s s' := by
  intro l
  induction l with
  | nil =>
    intro s _ c cl
    exact ⟨s, rfl, c, cl, fun m => by simp, fun _ _ => rfl, fun n => by simp, fun n => by simp, fun n => by simp⟩
  | cons h l ih =>
    intro s hl c cl
    obtain ⟨h1, h2, w, h3, h4⟩ := hl h (List.mem_cons_self ..)
    obtain ⟨s1, r1, r2, r3, r4⟩ := (look_sound fit cf h3).run 1023 s 256 h1 h4 c cl (by rw [h2]; intro _ q; cases q)
    obtain ⟨s2, e1, e2, e3, e4⟩ := ih s1 (fun i hi => hl i (List.mem_cons_of_mem _ hi)) r2 r3
    refine ⟨s2, by rw [includeAll, r1]; exact e1, e2, e3, ?_, ?_, ?_, ?_, ?_⟩
    · intro m
      rw [e4.on, r4.on]
      exact or_cons h3 (fun w => w.on.testBit m)
    · intro m hm
      rw [e4.same m ((r4.on m).mpr (.inl hm)), r4.same m hm]
    · intro m
      rw [e4.decl, r4.decl]
      exact or_cons h3 (fun w => w.decl.testBit m)
    · intro m
      rw [e4.defn, r4.defn]
      exact or_cons h3 (fun w => w.defn.testBit m)
    · intro m
      rw [e4.used, r4.used]
      exact or_cons h3 (fun w => w.used.testBit m)

end list

section public_

theorem public_listed : (headers.zipIdx.all fun p => !isPublic p.1 || publicList.contains p.2) = true := by
  decide +kernel

theorem mem_public {h : Nat} {hd : Header} (e : headers[h]? = some hd) (hp : isPublic hd = true) : h ∈ publicList := by
  have hm : (hd, h) ∈ headers.zipIdx := by
    rw [List.mem_iff_getElem?]
    exact ⟨h, by rw [List.getElem?_zipIdx, e]; simp⟩
  have := List.all_eq_true.mp public_listed _ hm
  dsimp only at this
  rw [hp] at this
  exact List.contains_iff_mem.mp this

theorem public_small : (publicList.all fun h => decide (h < 1023) && (assumed h).isEmpty) = true := by decide +kernel

theorem good_public {md : Mode} (hp : md.Proper) {h : Nat} (hm : h ∈ publicList) :
    h < 1023 ∧ assumed h = [] ∧ ∃ w, md.look h = some w ∧ w.depth ≤ 256 := by
  have h1 := List.all_eq_true.mp public_small h hm
  rw [Bool.and_eq_true] at h1
  refine ⟨of_decide_eq_true h1.1, List.isEmpty_iff.mp h1.2, ?_⟩
  have g := good_proper hp
  unfold good at g
  rw [Bool.and_eq_true, Bool.and_eq_true, Bool.and_eq_true, Bool.and_eq_true, Bool.and_eq_true] at g
  have k := List.all_eq_true.mp g.1.1.1.1.2 h hm
  split at k
  · rename_i w e
    exact ⟨w, e, of_decide_eq_true k⟩
  · cases k

theorem defined_fold {md : Mode} {n : Nat} (l : List Nat) (a : Nat)
    (h : a.testBit n ∨ ∃ h ∈ l, ∃ w, md.look h = some w ∧ w.defn.testBit n) :
    (l.foldl (fun a h => match md.look h with
      | some w => a ||| w.defn
      | none => a) a).testBit n := by
  induction l generalizing a with
  | nil =>
    rcases h with h | ⟨_, h, _⟩
    · exact h
    · cases h
  | cons x l ih =>
    rw [List.foldl_cons]
    apply ih
    rcases h with h | ⟨y, hy, w, e, h⟩
    · left
      split
      · exact or_mono h
      · exact h
    · rcases List.mem_cons.mp hy with rfl | hy
      · left
        rw [e]
        dsimp only
        rw [Nat.testBit_or, h, Bool.or_true]
      · exact .inr ⟨y, hy, w, e, h⟩

theorem left_fold {h n : Nat} (l : List (Nat × Nat)) (a : Nat)
    (p : (l.foldl (fun a t => if t.1 = h then put a t.2 else a) a).testBit n) : a.testBit n ∨ (h, n) ∈ l := by
  induction l generalizing a with
  | nil => exact .inl p
  | cons x l ih =>
    rw [List.foldl_cons] at p
    rcases ih _ p with q | q
    · split at q
      · rename_i e
        rw [testBit_put, Bool.or_eq_true, decide_eq_true_eq] at q
        rcases q with q | q
        · exact .inl q
        · right
          rw [← e, ← q]
          exact List.mem_cons_self
      · exact .inl q
    · exact .inr (List.mem_cons_of_mem _ q)

/-- What a header mentions it defines, if any does. -/
theorem good_defined {md : Mode} (hp : md.Proper) {h h' n : Nat} (hm : h ∈ publicList) (hm' : h' ∈ publicList)
    {w w' : Know} (e : md.look h = some w) (e' : md.look h' = some w') (hu : w.used.testBit n)
    (hd : w'.defn.testBit n) : w.defn.testBit n ∨ (h, n) ∈ leftList := by
  have g := good_proper hp
  unfold good at g
  rw [Bool.and_eq_true, Bool.and_eq_true, Bool.and_eq_true, Bool.and_eq_true, Bool.and_eq_true, strict_eq] at g
  have k := List.all_eq_true.mp g.1.1.1.1.1 h hm
  rw [e] at k
  have k' := congrArg (fun x => x.testBit n) (eq_of_beq k)
  have a : (definedAll md).testBit n := defined_fold _ _ (.inr ⟨h', hm', w', e', hd⟩)
  rw [Nat.testBit_or, Nat.testBit_and, hu, a, Bool.and_self, Bool.true_or, Nat.testBit_or] at k'
  rcases Bool.or_eq_true_iff.mp k'.symm with q | q
  · exact .inl q
  · rcases left_fold leftList 0 q with z | z
    · rw [Nat.zero_testBit] at z; cases z
    · exact .inr z

end public_

/-- Everything about a list of headers for the user. -/
theorem run_public (rd : Ready macroNames compilerMacros configMacros env s) {l : List Nat}
    (hl : ∀ h ∈ l, ∃ hd, headers[h]? = some hd ∧ isPublic hd = true) :
    ∃ s', includeAll headers env l s = .ok s' ∧ Core (modeOf env s) ⟨chosenStd env, theStd env s⟩ 1023 s' ∧ NoHelpers s' ∧
      PostAll (modeOf env s) l s s' :=
  includeAll_sound (fits rd) (configFits rd) l s (fun h hm => by
    obtain ⟨hd, e, hp⟩ := hl h hm
    exact good_public modeOf_proper (mem_public e hp)) (start rd) (startClean rd)

end Metaparse.Inclusion
