import Verif.Lemmas.MetaHsYields
/-!
# C74: programs of the example `meta_hs` compute what they say
-/

namespace Metaparse

open HsEval

/-! ## A program has at most one result -/

mutual

theorem Evals.unique {P : HsProgram} : ∀ {ρ : Locals} {e : HsExp} {v w : HsVal}, Evals P ρ e v → Evals P ρ e w → v = w
  | _, _, _, _, .num, h => by cases h; rfl
  | _, _, _, _, .param h1 h2, h => by
    cases h with
    | param h3 h4 =>
      rw [h1] at h3
      injection h3 with h3
      subst h3
      exact Force.unique h2 h4
    | constant h3 => rw [h1] at h3; cases h3
    | native h3 => rw [h1] at h3; cases h3
    | definition h3 => rw [h1] at h3; cases h3
    | function h3 => rw [h1] at h3; cases h3
  | _, _, _, _, .constant h1 h2, h => by
    cases h with
    | param h3 h4 => rw [h1] at h3; cases h3
    | constant _ h3 => rw [h2] at h3; injection h3 with h3; injection h3 with h3; rw [h3]
    | native _ h3 => rw [h2] at h3; injection h3 with h3; cases h3
    | definition _ h3 => rw [h2] at h3; injection h3 with h3; cases h3
    | function _ h3 => rw [h2] at h3; injection h3 with h3; cases h3
  | _, _, _, _, .native h1 h2, h => by
    cases h with
    | param h3 h4 => rw [h1] at h3; cases h3
    | native _ h3 => rw [h2] at h3; injection h3 with h3; injection h3 with h3 h4; rw [h3, h4]
    | constant _ h3 => rw [h2] at h3; injection h3 with h3; cases h3
    | definition _ h3 => rw [h2] at h3; injection h3 with h3; cases h3
    | function _ h3 => rw [h2] at h3; injection h3 with h3; cases h3
  | _, _, _, _, .definition h1 h2 h5, h => by
    cases h with
    | param h3 h4 => rw [h1] at h3; cases h3
    | definition _ h3 h4 =>
      rw [h2] at h3; injection h3 with h3; injection h3 with _ h3
      subst h3
      exact Evals.unique h5 h4
    | constant _ h3 => rw [h2] at h3; injection h3 with h3; cases h3
    | native _ h3 => rw [h2] at h3; injection h3 with h3; cases h3
    | function _ h3 => rw [h2] at h3; injection h3 with h3; cases h3
  | _, _, _, _, .function h1 h2, h => by
    cases h with
    | param h3 h4 => rw [h1] at h3; cases h3
    | function _ h3 =>
      rw [h2] at h3; injection h3 with h3; injection h3 with h3 h4
      injection h3 with h3 h5
      rw [h3, h4, h5]
    | constant _ h3 => rw [h2] at h3; injection h3 with h3; cases h3
    | native _ h3 => rw [h2] at h3; injection h3 with h3; cases h3
    | definition _ h3 => rw [h2] at h3; injection h3 with h3; cases h3
  | _, _, _, _, .thenBranch h1 h2 h3 h4, h => by
    cases h with
    | thenBranch _ _ _ h5 => exact Evals.unique h4 h5
    | elseBranch h5 h6 _ =>
      obtain rfl := Evals.unique h1 h5
      rw [h2] at h6; injection h6 with h6
      exact (h3 h6).elim
  | _, _, _, _, .elseBranch h1 h2 h4, h => by
    cases h with
    | thenBranch h5 h6 h7 _ =>
      obtain rfl := Evals.unique h1 h5
      rw [h2] at h6; injection h6 with h6
      exact (h7 h6.symm).elim
    | elseBranch _ _ h5 => exact Evals.unique h4 h5
  | _, _, _, _, .op h1 h2 h3 h4 _ h5, h => by
    cases h with
    | op h6 h7 h8 h9 _ h10 =>
      obtain rfl := Evals.unique h1 h6
      obtain rfl := Evals.unique h2 h7
      rw [h3] at h8; injection h8 with h8
      rw [h4] at h9; injection h9 with h9
      subst h8 h9
      rw [h5] at h10; injection h10
  | _, _, _, _, .last h1 h2, h => by
    cases h with
    | last h3 h4 =>
      injection Evals.unique h1 h3 with e1 e2 e3 e4
      subst e1 e3 e4
      exact Evals.unique h2 h4
    | more h3 => injection Evals.unique h1 h3 with e1 e2; cases e2
    | lastNative h3 => cases Evals.unique h1 h3
    | moreNative h3 => cases Evals.unique h1 h3
  | _, _, _, _, .more h1, h => by
    cases h with
    | last h3 h4 => injection Evals.unique h1 h3 with e1 e2; cases e2
    | more h3 =>
      injection Evals.unique h1 h3 with e1 e2 e3 e4
      injection e2 with e2 e5
      subst e1 e2 e3 e4 e5
      rfl
    | lastNative h3 => cases Evals.unique h1 h3
    | moreNative h3 => cases Evals.unique h1 h3
  | _, _, _, _, .lastNative h1 h2 h3 h4, h => by
    cases h with
    | last h5 => cases Evals.unique h1 h5
    | more h5 => cases Evals.unique h1 h5
    | lastNative h5 h6 h7 h8 =>
      injection Evals.unique h1 h5 with e1 e2 e3
      subst e1 e2 e3
      obtain rfl := ForceAll.unique h3 h7
      rw [h4] at h8; injection h8 with h8; rw [h8]
    | moreNative h5 h6 =>
      injection Evals.unique h1 h5 with e1 e2 e3
      subst e1 e3
      exact (h6 h2).elim
  | _, _, _, _, .moreNative h1 h2, h => by
    cases h with
    | last h5 => cases Evals.unique h1 h5
    | more h5 => cases Evals.unique h1 h5
    | lastNative h5 h6 h7 h8 =>
      injection Evals.unique h1 h5 with e1 e2 e3
      subst e1 e3
      exact (h2 h6).elim
    | moreNative h5 h6 =>
      injection Evals.unique h1 h5 with e1 e2 e3
      subst e1 e2 e3
      rfl

theorem Force.unique {P : HsProgram} : ∀ {t : Thunk} {v w : HsVal}, Force P t v → Force P t w → v = w
  | _, _, _, .given, h => by cases h; rfl
  | _, _, _, .delayed h1, h => by cases h with | delayed h2 => exact Evals.unique h1 h2

theorem ForceAll.unique {P : HsProgram} : ∀ {ts : List Thunk} {ks is : List Int}, ForceAll P ts ks →
    ForceAll P ts is → ks = is
  | _, _, _, .nil, h => by cases h; rfl
  | _, _, _, .cons h1 h2 h3, h => by
    cases h with
    | cons h4 h5 h6 =>
      obtain rfl := Force.unique h1 h4
      rw [h2] at h5; injection h5 with h5
      rw [h5, ForceAll.unique h3 h6]

end

theorem Calls.unique {P : HsProgram} {v w u : HsVal} {ks : List Int} (h : Calls P v ks w) (h' : Calls P v ks u) :
    w = u := by
  induction h with
  | nil => cases h'; rfl
  | last h1 _ ih =>
    cases h' with
    | last h2 h3 =>
      obtain rfl := h1.unique h2
      exact ih h3
  | more _ ih => cases h' with | more h2 => exact ih h2
  | lastNative h1 h2 h3 =>
    cases h' with
    | lastNative h4 h5 h6 =>
      obtain rfl := h2.unique h5
      rw [h3] at h6; injection h6 with h6; rw [h6]
    | moreNative h4 => exact (h4 h1).elim
  | moreNative h1 _ ih =>
    cases h' with
    | lastNative h4 => exact (h1 h4).elim
    | moreNative _ h4 => exact ih h4

/-- The program determines the number. -/
theorem C74_unique {P : HsProgram} {f : List Chr} {ks : List Int} {k i : Int} (h : HasResult P f ks k)
    (h' : HasResult P f ks i) : k = i := by
  obtain ⟨v, w, h1, h2, h3⟩ := h
  obtain ⟨v', w', h4, h5, h6⟩ := h'
  obtain rfl := h1.unique h4
  obtain rfl := h2.unique h5
  rw [h3] at h6
  injection h6

/-! ## Building -/

theorem metaHs_ops (o : List Chr) :
    metaHs.lookup (opName o) = (primOf o).map fun p => .value (.curry p []) := by
  have hne : ∀ {w : List Chr}, o ≠ w → opName o ≠ opName w := fun h h' => h (opName_injective h')
  unfold primOf
  split
  · rename_i h; subst h; rfl
  split
  · rename_i h; subst h; rfl
  split
  · rename_i h; subst h; rfl
  split
  · rename_i h; subst h; rfl
  split
  · rename_i h; subst h; rfl
  split
  · rename_i h; subst h; rfl
  split
  · rename_i h; subst h; rfl
  split
  · rename_i h; subst h; rfl
  split
  · rename_i h; subst h; rfl
  split
  · rename_i h; subst h; rfl
  rename_i h1 h2 h3 h4 h5 h6 h7 h8 h9 h10
  simp only [metaHs, importTemplate, lookup_cons]
  rw [if_neg (show opName o ≠ txt "./=." from hne h10),
    if_neg (show opName o ≠ txt ".==." from hne h9),
    if_neg (show opName o ≠ txt ".>=." from hne h8),
    if_neg (show opName o ≠ txt ".>." from hne h7),
    if_neg (show opName o ≠ txt ".<=." from hne h6),
    if_neg (show opName o ≠ txt ".<." from hne h5),
    if_neg (show opName o ≠ txt "./." from hne h4),
    if_neg (show opName o ≠ txt ".*." from hne h3),
    if_neg (show opName o ≠ txt ".-." from hne h2),
    if_neg (show opName o ≠ txt ".+." from hne h1)]
  rfl

theorem rep_metaHs : Rep [] metaHs := by
  refine ⟨fun w hw => ?_, metaHs_ops, fun w ps b h => by cases h⟩
  have hne : ∀ o, w ≠ opName o := fun o h => opName_not_name o (h ▸ hw)
  simp only [metaHs, importTemplate, lookup_cons]
  rw [if_neg (show w ≠ txt "./=." from hne (txt "/=")),
    if_neg (show w ≠ txt ".==." from hne (txt "==")),
    if_neg (show w ≠ txt ".>=." from hne (txt ">=")),
    if_neg (show w ≠ txt ".>." from hne (txt ">")),
    if_neg (show w ≠ txt ".<=." from hne (txt "<=")),
    if_neg (show w ≠ txt ".<." from hne (txt "<")),
    if_neg (show w ≠ txt "./." from hne (txt "/")),
    if_neg (show w ≠ txt ".*." from hne (txt "*")),
    if_neg (show w ≠ txt ".-." from hne (txt "-")),
    if_neg (show w ≠ txt ".+." from hne (txt "+"))]
  rfl

theorem HsEval.Rep.cons {P : HsProgram} {top : HsEnv} (h : Rep P top) {w : List Chr} (hw : IsName w) {i : HsItem}
    (hi : ∀ ps b, i = .function ps b → b.Named ∧ ∀ p ∈ ps, IsName p) : Rep ((w, i) :: P) ((w, itemAst i) :: top) := by
  refine ⟨fun x hx => ?_, fun o => ?_, fun x ps b hx => ?_⟩
  · rw [lookup_cons, lookup_cons]
    by_cases hxw : x = w
    · simp [hxw]
    · simp only [if_neg hxw]; exact h.items x hx
  · have hne : opName o ≠ w := fun h => opName_not_name o (h ▸ hw)
    rw [lookup_cons, if_neg hne]
    exact h.ops o
  · rw [lookup_cons] at hx
    by_cases hxw : x = w
    · simp only [if_pos hxw, Option.some.injEq] at hx
      exact hi ps b hx
    · simp only [if_neg hxw] at hx
      exact h.bodies x ps b hx

theorem HsRight.params {lax : Bool} {s : List Chr} {ps : List (List Chr)} {e : HsExp} (h : HsRight lax s ps e) :
    ∀ p ∈ ps, IsName p := by
  induction h with
  | body => intro p hp; cases hp
  | param hw _ _ _ ih =>
    intro p hp
    rcases List.mem_cons.1 hp with rfl | hp
    · exact hw
    · exact ih p hp

theorem HsDef.rep {lax : Bool} {s f : List Chr} {ps : List (List Chr)} {b : HsExp} (hd : HsDef lax s f ps b)
    {P : HsProgram} {top : HsEnv} (h : Rep P top) :
    Rep ((f, .function ps b) :: P) ((f, itemAst (.function ps b)) :: top) := by
  obtain ⟨ws, s', -, hf, -, -, hr⟩ := hd
  refine h.cons hf fun ps' b' e => ?_
  injection e with e1 e2
  subst e1 e2
  exact ⟨hr.named, hr.params⟩

variable {E : Env (List Chr)}

theorem define_defTree {env : HsEnv} {s f : List Chr} {ps : List (List Chr)} {b : HsExp}
    (h : MetaHs.defParser E s = .ok (defTree f ps b)) :
    HsEval.define E env s = .ok ((f, itemAst (.function ps b)) :: env) := by
  simp only [HsEval.define, h, Out.bind_ok, defTree, MetaHs.mplPair]
  rw [decode_topBound _ _ (decode_lambdas ps b)]
  rfl

theorem build_rep (h : E.MetaHs) {cs : List HsCommand} : ∀ {P Q : HsProgram} {env : HsEnv}, Rep P env →
    Written false P cs Q → ∃ env', build E env cs = .ok env' ∧ Rep Q env' := by
  induction cs with
  | nil => intro P Q env hr hw; cases hw; exact ⟨env, rfl, hr⟩
  | cons c cs ih =>
    intro P Q env hr hw
    cases hw with
    | constant hn hw => exact ih (hr.cons hn fun ps b e => by cases e) hw
    | native hn hw => exact ih (hr.cons hn fun ps b e => by cases e) hw
    | define hd hw =>
      obtain ⟨env', h1, h2⟩ := ih (hd.rep hr) hw
      refine ⟨env', ?_, h2⟩
      rw [build, define_defTree (C72_complete h hd), Out.bind_ok, h1]

theorem build_written (h : E.MetaHs) {cs : List HsCommand} (hc : NamedImports cs) : ∀ {P : HsProgram} {env env' : HsEnv},
    Rep P env → build E env cs = .ok env' → ∃ Q, Written true P cs Q ∧ Rep Q env' := by
  induction cs with
  | nil => intro P env env' hr hb; injection hb with hb; subst hb; exact ⟨P, .nil, hr⟩
  | cons c cs ih =>
    intro P env env' hr hb
    have hc' : NamedImports cs := fun c h => hc c (List.mem_cons_of_mem _ h)
    have hcc := hc c List.mem_cons_self
    cases c with
    | constant w k =>
      obtain ⟨Q, h1, h2⟩ := ih hc' (hr.cons (i := .constant k) hcc fun ps b e => by cases e) hb
      exact ⟨Q, .constant hcc h1, h2⟩
    | native w n f =>
      obtain ⟨Q, h1, h2⟩ := ih hc' (hr.cons (i := .native n f) hcc fun ps b e => by cases e) hb
      exact ⟨Q, .native hcc h1, h2⟩
    | define s =>
      rw [build, Out.bind_eq_ok] at hb
      obtain ⟨env1, hd, hb⟩ := hb
      cases hp : MetaHs.defParser E s with
      | ok v =>
        obtain ⟨f, ps, b, hdef, rfl⟩ := C72_sound h hp
        rw [define_defTree hp] at hd
        injection hd with hd
        subst hd
        obtain ⟨Q, h1, h2⟩ := ih hc' (hdef.rep hr) hb
        exact ⟨Q, .define hdef h1, h2⟩
      | ill f => simp [HsEval.define, hp] at hd
      | deep => simp [HsEval.define, hp] at hd

/-! ## Calling -/

theorem SoundBelow.all {P : HsProgram} {top : HsEnv} (hr : Rep P top) (n : Nat) : SoundBelow P top n :=
  fun m _ => membersSound hr m

theorem answer_apply_sound {P : HsProgram} {top : HsEnv} (hr : Rep P top) {S : HsVal → Prop} {G R : Cls} {k : Int}
    (hG : Stands P top S G) (hR : answer (.apply G (.intc k)) = .ok R) :
    Stands P top (fun v => ∃ u, S u ∧ ∀ ks w, Calls P v ks w → Calls P u (k :: ks) w) R := by
  obtain ⟨n, hn⟩ := exists_answerIn (.apply G (.intc k))
  rw [hR] at hn
  refine (SoundBelow.all hr n).apply (Nat.le_refl n) hG (ta := .given k) (Core.final .given .int).stands hn ?_ ?_ ?_ ?_
  · exact fun x b ρ h v hv => ⟨_, h, fun ks w hc => .last hv hc⟩
  · exact fun x p ps b ρ h => ⟨_, h, fun ks w hc => .more hc⟩
  · refine fun n g ts ks i h h1 h2 h3 => ⟨_, h, fun ks w hc => ?_⟩
    cases hc
    exact .lastNative h1 h2 h3
  · exact fun n g ts h h1 => ⟨_, h, fun ks w hc => .moreNative h1 hc⟩

theorem applyAll_sound {P : HsProgram} {top : HsEnv} (hr : Rep P top) : ∀ (ks : List Int) {S : HsVal → Prop} {G R : Cls},
    Stands P top S G → applyAll G ks = .ok R → Stands P top (fun w => ∃ u, S u ∧ Calls P u ks w) R
  | [], S, G, R, hG, h => by
    injection h with h
    subst h
    exact hG.better fun v hv => ⟨v, hv, .nil⟩
  | k :: ks, S, G, R, hG, h => by
    rw [applyAll, Out.bind_eq_ok] at h
    obtain ⟨R', h1, h2⟩ := h
    exact (applyAll_sound hr ks (answer_apply_sound hr hG h1) h2).better
      fun w ⟨u, ⟨u', h3, h4⟩, h5⟩ => ⟨u', h3, h4 ks w h5⟩

theorem callNumber_sound {P : HsProgram} {top : HsEnv} (hr : Rep P top) {f : List Chr} (hf : IsName f) {ks : List Int}
    {k : Int} (h : callNumber top f ks = .ok k) : HasResult P f ks k := by
  simp only [callNumber, HsEval.get, Out.bind_eq_ok] at h
  obtain ⟨G, hG, R, hR, M, hM, hk⟩ := h
  cases hl : top.lookup f with
  | none => rw [hl] at hG; cases hG
  | some a =>
    rw [hl] at hG
    simp only [Out.bind_eq_ok] at hG
    obtain ⟨c, hc, hG⟩ := hG
    have hb : answer (.bind (ast (.var f)) top top) = .ok c := by rw [ast, bind_ref hl, hc]
    have hs : Stands P top (Evals P [] (.var f)) c := stands_bound .nil hf hb
    obtain ⟨n, hn⟩ := exists_answerIn (.typeOf c)
    rw [hG] at hn
    have hG' := (SoundBelow.all hr n).typeOf (Nat.le_refl n) hs hn
    have hR' := applyAll_sound hr ks hG' hR
    obtain ⟨m, hm⟩ := exists_answerIn (.members R)
    rw [hM] at hm
    obtain ⟨w, ⟨v, h1, h2⟩, h3, -⟩ := (membersSound hr m _ _ _ hR' hm).number hk
    exact ⟨v, w, h1, h2, h3⟩

/-- Whatever is built and called: a number that comes out is a result of the program that was written. -/
theorem C74_sound (h : E.MetaHs) {cs : List HsCommand} (hc : NamedImports cs) {env : HsEnv}
    (hb : build E metaHs cs = .ok env) {f : List Chr} (hf : IsName f) {ks : List Int} {k : Int}
    (hk : callNumber env f ks = .ok k) : ∃ P, Written true [] cs P ∧ HasResult P f ks k := by
  obtain ⟨P, h1, h2⟩ := build_written h hc rep_metaHs hb
  exact ⟨P, h1, callNumber_sound h2 hf hk⟩

/-- The same for programs in which no name begins with `if`. -/
theorem C74_correct (h : E.MetaHs) {cs : List HsCommand} {P : HsProgram} (hw : Written false [] cs P) {f : List Chr}
    (hf : IsName f) {ks : List Int} {k : Int} {env : HsEnv} (hb : build E metaHs cs = .ok env)
    (hk : callNumber env f ks = .ok k) : HasResult P f ks k := by
  obtain ⟨env', h1, h2⟩ := build_rep h rep_metaHs hw
  rw [hb] at h1
  injection h1 with h1
  subst h1
  exact callNumber_sound h2 hf hk

/-- Programs in which no name begins with `if` can be built. -/
theorem C74_builds (h : E.MetaHs) {cs : List HsCommand} {P : HsProgram} (hw : Written false [] cs P) :
    ∃ env, build E metaHs cs = .ok env := by
  obtain ⟨env, h1, -⟩ := build_rep h rep_metaHs hw
  exact ⟨env, h1⟩

/-! ## Results come out -/

theorem calls_complete {P : HsProgram} {top : HsEnv} (hr : Rep P top) (hP : P.Fine) {v w : HsVal} {ks : List Int}
    (h : Calls P v ks w) : ∀ {G : Cls}, Yields P top G v → ∃ R, applyAll G ks = .ok R ∧ Yields P top R w := by
  induction h with
  | nil => intro G hG; exact ⟨G, rfl, hG⟩
  | last h1 _ ih =>
    rintro G ⟨m, hm, hend⟩
    cases hend with
    | fn hρ hb hx hps hfine =>
      rename_i k _ _ _ _ env
      have hρ' := hρ.cons hx (.given (k := k))
      obtain ⟨d, hd⟩ := bind_ok hr hP hρ' hb hfine
      obtain ⟨R, hR, hy⟩ := apply_last hm hd ((evals_complete hr hP h1 hρ' hb hfine hd).imp id And.right)
      obtain ⟨R', hR', hy'⟩ := ih hy
      exact ⟨R', by rw [applyAll, hR, Out.bind_ok, hR'], hy'⟩
  | more _ ih =>
    rintro G ⟨m, hm, hend⟩
    cases hend with
    | fn hρ hb hx hps hfine =>
      rename_i x p ps b ρ k _ _ _ env
      have hρ' := hρ.cons hx (.given (k := k))
      have hend := Ends.fn (ps := ps) (x := p) hρ' hb (hps p (by simp)) (fun q hq => hps q (by simp [hq]))
        (hfine.congr fun w => by
          simp [Locals.names]
          exact ⟨fun h => by rcases h with h | h | h | h <;> simp [h], fun h => by rcases h with h | h | h | h <;> simp [h]⟩)
      obtain ⟨R', hR', hy'⟩ := ih hend.yields
      exact ⟨R', by rw [applyAll, apply_more hm, Out.bind_ok, hR'], hy'⟩
  | lastNative h1 h2 h3 =>
    rintro G ⟨m, hm, hend⟩
    cases hend with
    | native hts =>
      have hl := hts.length
      have hks := forceAll_complete hr hP h2 (hts.snoc .given)
      exact ⟨_, by rw [applyAll, apply_lastNative hm (by omega) hks h3, Out.bind_ok]; rfl, Ends.int.yields⟩
  | moreNative h1 _ ih =>
    rintro G ⟨m, hm, hend⟩
    cases hend with
    | native hts =>
      rename_i k _ _ _ cs
      have hl := hts.length
      obtain ⟨R', hR', hy'⟩ := ih (Ends.native (hts.snoc (.given (k := k)))).yields
      exact ⟨R', by rw [applyAll, apply_moreNative hm (by omega), Out.bind_ok, hR'], hy'⟩

theorem callNumber_complete {P : HsProgram} {top : HsEnv} (hr : Rep P top) (hP : P.Fine) {f : List Chr} (hf : IsName f)
    {ks : List Int} {k : Int} (h : HasResult P f ks k) : callNumber top f ks = .ok k := by
  obtain ⟨v, w, h1, h2, h3⟩ := h
  have hfine : (HsExp.var f).Fine P (Locals.names []) := by
    refine .inr ?_
    cases h1 with
    | param h => cases h
    | constant _ h => exact ⟨_, h⟩
    | native _ h => exact ⟨_, h⟩
    | definition _ h => exact ⟨_, h⟩
    | function _ h => exact ⟨_, h⟩
  obtain ⟨c, hc⟩ := bind_ok hr hP (e := .var f) .nil hf hfine
  obtain ⟨G, hG, hy⟩ := typeOf_yields ((evals_complete hr hP h1 .nil hf hfine hc).imp id And.right)
  obtain ⟨R, hR, m, hm, hend⟩ := calls_complete hr hP h2 hy
  have hget : HsEval.get top f = .ok G := by
    unfold HsEval.get
    cases hl : top.lookup f with
    | none =>
      rw [ast, answer_layer, layer, hl] at hc
      cases hc
    | some a =>
      rw [ast, bind_ref hl] at hc
      simp only [hc, Out.bind_ok, hG]
  rw [callNumber, hget, Out.bind_ok, hR, Out.bind_ok, hm, Out.bind_ok]
  exact (hend.number h3).2

/-- When all definitions have parameters, and the arguments of definitions are neither numbers nor parameters, the
results come out. -/
theorem C74_complete (h : E.MetaHs) {cs : List HsCommand} {P : HsProgram} (hw : Written false [] cs P) (hP : P.Fine)
    {f : List Chr} (hf : IsName f) {ks : List Int} {k : Int} (hk : HasResult P f ks k) :
    ∃ env, build E metaHs cs = .ok env ∧ callNumber env f ks = .ok k := by
  obtain ⟨env, h1, h2⟩ := build_rep h rep_metaHs hw
  exact ⟨env, h1, callNumber_complete h2 hP hf hk⟩

/-- For such programs exactly the results come out. -/
theorem C74_exact (h : E.MetaHs) {cs : List HsCommand} {P : HsProgram} (hw : Written false [] cs P) (hP : P.Fine)
    {f : List Chr} (hf : IsName f) (ks : List Int) (k : Int) {env : HsEnv} (hb : build E metaHs cs = .ok env) :
    callNumber env f ks = .ok k ↔ HasResult P f ks k := by
  refine ⟨C74_correct h hw hf hb, fun hk => ?_⟩
  obtain ⟨env', h1, h2⟩ := C74_complete h hw hP hf hk
  rw [hb] at h1
  injection h1 with h1
  rw [h1, h2]

end Metaparse
