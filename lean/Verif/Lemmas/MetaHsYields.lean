import Verif.Lemmas.MetaHsSound
/-!
# The results of fine programs of `meta_hs` are what the classes give
-/

namespace Metaparse

/-- The names of the parameters. -/
def Locals.names (ρ : Locals) : List (List Chr) := ρ.map Prod.fst

theorem HsExp.Imported.congr {P : HsProgram} {bs bs' : List (List Chr)} (h : ∀ w, w ∈ bs ↔ w ∈ bs') {e : HsExp}
    (he : e.Imported P bs) : e.Imported P bs' := by
  induction e with
  | var w => exact ⟨fun hw => he.1 ((h w).2 hw), he.2⟩
  | app f a ih1 _ => exact ih1 he
  | num => exact he
  | cond => exact he
  | op => exact he

theorem HsExp.Passable.congr {P : HsProgram} {bs bs' : List (List Chr)} (h : ∀ w, w ∈ bs ↔ w ∈ bs') {e : HsExp}
    (he : e.Passable P bs) : e.Passable P bs' := by
  induction e with
  | var w => exact ⟨fun hw => he.1 ((h w).2 hw), he.2⟩
  | app f a => exact trivial
  | num => exact he
  | cond c t e _ ih1 ih2 => exact ⟨ih1 he.1, ih2 he.2⟩
  | op => exact trivial

theorem HsExp.Fine.congr {P : HsProgram} {bs bs' : List (List Chr)} (h : ∀ w, w ∈ bs ↔ w ∈ bs') {e : HsExp}
    (he : e.Fine P bs) : e.Fine P bs' := by
  induction e with
  | var w => exact he.imp (h w).1 id
  | app f a ih1 ih2 => exact ⟨ih1 he.1, ih2 he.2.1, he.2.2.imp (·.congr h) (·.congr h)⟩
  | num => exact he
  | cond c t e ih ih1 ih2 => exact ⟨ih he.1, ih1 he.2.1, ih2 he.2.2⟩
  | op o a b ih1 ih2 => exact ⟨he.1, ih1 he.2.1, ih2 he.2.2⟩

theorem Locals.mem_names {ρ : Locals} {w : List Chr} : w ∈ ρ.names ↔ ∃ t, ρ.lookup w = some t := by
  induction ρ with
  | nil => simp [Locals.names]
  | cons p ρ ih =>
    obtain ⟨x, t⟩ := p
    rw [HsEval.lookup_cons]
    by_cases h : w = x
    · subst h; simp [Locals.names]
    · simp only [if_neg h]
      rw [← ih]
      simp [Locals.names, h]

theorem Locals.not_mem_names {ρ : Locals} {w : List Chr} (h : ρ.lookup w = none) : w ∉ ρ.names := by
  rw [Locals.mem_names, h]
  simp

/-- What an imported function gives is not a definition. -/
theorem HsExp.Imported.value {P : HsProgram} {ρ : Locals} {f : HsExp} (h : f.Imported P ρ.names) {v : HsVal}
    (hv : Evals P ρ f v) : (∃ n g ts, v = .native n g ts) ∨ ∃ k, v = .int k := by
  induction f generalizing v with
  | num => exact h.elim
  | cond => exact h.elim
  | op => exact h.elim
  | var w =>
    obtain ⟨hw, n, g, hg⟩ := h
    cases hv with
    | param hl => exact (hw (Locals.mem_names.2 ⟨_, hl⟩)).elim
    | constant _ hp => rw [hg] at hp; cases hp
    | native => exact .inl ⟨_, _, _, rfl⟩
    | definition _ hp => rw [hg] at hp; cases hp
    | function _ hp => rw [hg] at hp; cases hp
  | app f a ih _ =>
    cases hv with
    | last h1 _ => rcases ih h h1 with ⟨_, _, _, h⟩ | ⟨_, h⟩ <;> cases h
    | more h1 => rcases ih h h1 with ⟨_, _, _, h⟩ | ⟨_, h⟩ <;> cases h
    | lastNative => exact .inr ⟨_, rfl⟩
    | moreNative => exact .inl ⟨_, _, _, rfl⟩

namespace HsEval

mutual

/-- The class has the result of the parameter. -/
inductive Ready (P : HsProgram) (top : HsEnv) : Thunk → Cls → Prop
  | given {k : Int} : Ready P top (.given k) (.intc k)
  | bound {ρ : Locals} {env : HsEnv} {e : HsExp} {c : Cls} : ReadyEnv P top ρ env → e.Named → e.Fine P ρ.names →
      e.Passable P ρ.names → answer (.bind (ast e) top env) = .ok c → Ready P top (.delayed e ρ) c

/-- The environment has the parameters. -/
inductive ReadyEnv (P : HsProgram) (top : HsEnv) : Locals → HsEnv → Prop
  | nil : ReadyEnv P top [] top
  | cons {x : List Chr} {t : Thunk} {c : Cls} {ρ : Locals} {env : HsEnv} : IsName x → Ready P top t c →
      ReadyEnv P top ρ env → ReadyEnv P top ((x, t) :: ρ) ((x, .value c) :: env)

end

/-- The class is the argument of an imported function. -/
inductive Half (P : HsProgram) (top : HsEnv) : Thunk → Cls → Prop
  | given {k : Int} : Half P top (.given k) (.intc k)
  | bound {ρ : Locals} {env : HsEnv} {e : HsExp} {c : Cls} : ReadyEnv P top ρ env → e.Named → e.Fine P ρ.names →
      answer (.bind (ast e) top env) = .ok c → Half P top (.delayed e ρ) c

/-- The classes are the arguments of an imported function. -/
inductive HalfAll (P : HsProgram) (top : HsEnv) : List Thunk → List Cls → Prop
  | nil : HalfAll P top [] []
  | cons {t : Thunk} {c : Cls} {ts : List Thunk} {cs : List Cls} : Half P top t c → HalfAll P top ts cs →
      HalfAll P top (t :: ts) (c :: cs)

/-- The class is the result. -/
inductive Ends (P : HsProgram) (top : HsEnv) : HsVal → Cls → Prop
  | int {k : Int} : Ends P top (.int k) (.intc k)
  | bool {b : Bool} : Ends P top (.bool b) (.boolc b)
  | fn {x : List Chr} {ps : List (List Chr)} {b : HsExp} {ρ : Locals} {env : HsEnv} : ReadyEnv P top ρ env → b.Named →
      IsName x → (∀ p ∈ ps, IsName p) → b.Fine P (ps ++ x :: ρ.names) →
      Ends P top (.fn x ps b ρ) (.closure (lams ps (ast b)) x top env)
  | native {n : Nat} {f : List Int → Out Int} {ts : List Thunk} {cs : List Cls} : HalfAll P top ts cs →
      Ends P top (.native n f ts) (.curry (.native n f) cs)

variable {P : HsProgram} {top : HsEnv}

theorem ReadyEnv.lookup (hr : Rep P top) {ρ : Locals} {env : HsEnv} (h : ReadyEnv P top ρ env) {w : List Chr}
    (hw : IsName w) : (∃ t c, ρ.lookup w = some t ∧ env.lookup w = some (.value c) ∧ Ready P top t c) ∨
      ρ.lookup w = none ∧ env.lookup w = (P.lookup w).map itemAst := by
  induction ρ generalizing env with
  | nil =>
    cases h
    exact .inr ⟨rfl, hr.items w hw⟩
  | cons p ρ ih =>
    cases h with
    | cons hx hc he =>
      rename_i x t c env
      rw [lookup_cons, lookup_cons]
      by_cases hwx : w = x
      · exact .inl ⟨t, _, by simp [hwx], by simp [hwx], hc⟩
      · simp only [if_neg hwx]
        exact ih he

theorem ReadyEnv.op (hr : Rep P top) {ρ : Locals} {env : HsEnv} (h : ReadyEnv P top ρ env) (o : List Chr) :
    env.lookup (opName o) = (primOf o).map fun p => .value (.curry p []) := by
  induction ρ generalizing env with
  | nil =>
    cases h
    exact hr.ops o
  | cons p ρ ih =>
    cases h with
    | cons hx hc he =>
      rename_i x t c env
      have hne : opName o ≠ x := fun h => opName_not_name o (h ▸ hx)
      rw [lookup_cons, if_neg hne]
      exact ih he

/-! ## Binding -/

theorem bind_value (v : Cls) (top env : HsEnv) : answer (.bind (.value v) top env) = .ok (.lval v) := by
  rw [answer_layer]; rfl

theorem bind_lambda (f : Ast) (x : List Chr) (top env : HsEnv) :
    answer (.bind (.lambda f x) top env) = .ok (.closure f x top env) := by
  rw [answer_layer]; rfl

theorem bind_topBound (a : Ast) (top env : HsEnv) : answer (.bind (.topBound a) top env) = answer (.bind a top top) := by
  rw [answer_layer]; rfl

theorem bind_ref {w : List Chr} {top env : HsEnv} {a : Ast} (h : env.lookup w = some a) :
    answer (.bind (.ref w) top env) = answer (.bind a top env) := by
  rw [answer_layer]
  simp only [layer, h]

theorem bind_application {f a : Ast} {top env : HsEnv} {F A : Cls} (hF : answer (.bind f top env) = .ok F)
    (hA : answer (.bind a top env) = .ok A) : answer (.bind (.application f a) top env) = .ok (.lapp F A) := by
  rw [answer_layer]
  simp only [layer, hF, hA, Out.bind_ok]

theorem primOf_opsAt {o : List Chr} (h : ∃ l, o ∈ opsAt l) : ∃ p, primOf o = some p := by
  obtain ⟨l, h⟩ := h
  match l, h with
  | 0, h =>
    simp only [opsAt, List.mem_cons, List.not_mem_nil, or_false] at h
    rcases h with rfl | rfl | rfl | rfl | rfl <;> exact ⟨_, rfl⟩
  | 1, h =>
    simp only [opsAt, List.mem_cons, List.not_mem_nil, or_false] at h
    rcases h with rfl | rfl <;> exact ⟨_, rfl⟩
  | 2, h =>
    simp only [opsAt, List.mem_cons, List.not_mem_nil, or_false] at h
    rcases h with rfl | rfl <;> exact ⟨_, rfl⟩
  | _ + 3, h => cases h

theorem bind_function {w p : List Chr} {ps : List (List Chr)} {b : HsExp} {env : HsEnv}
    (hl : env.lookup w = some (itemAst (.function (p :: ps) b))) :
    answer (.bind (.ref w) top env) = .ok (.closure (lams ps (ast b)) p top top) := by
  rw [bind_ref hl, itemAst, bind_topBound, lams, List.foldr_cons, bind_lambda]
  rfl

theorem bind_op {ρ : Locals} {env : HsEnv} (hr : Rep P top) (hρ : ReadyEnv P top ρ env) {o : List Chr} {p : Prim}
    (hp : primOf o = some p) {a b : HsExp} {A B : Cls}
    (hA : answer (.bind (ast a) top env) = .ok A) (hB : answer (.bind (ast b) top env) = .ok B) :
    answer (.bind (ast (.op o a b)) top env) = .ok (.lapp (.lapp (.lval (.curry p [])) A) B) := by
  refine bind_application (bind_application ?_ hA) hB
  rw [bind_ref (a := .value (.curry p [])) (by rw [hρ.op hr, hp]; rfl), bind_value]

theorem bind_cond {env : HsEnv} {c a b : HsExp} {C A B : Cls} (hC : answer (.bind (ast c) top env) = .ok C)
    (hA : answer (.bind (ast a) top env) = .ok A) (hB : answer (.bind (ast b) top env) = .ok B) :
    answer (.bind (ast (.cond c a b)) top env) = .ok (.lapp (.lapp (.lapp (.lval (.curry .lazyIf [])) C) A) B) :=
  bind_application (bind_application (bind_application (bind_value ..) hC) hA) hB

theorem bind_ok (hr : Rep P top) (hP : P.Fine) {ρ : Locals} {env : HsEnv} (hρ : ReadyEnv P top ρ env) {e : HsExp}
    (hn : e.Named) (he : e.Fine P ρ.names) : ∃ c, answer (.bind (ast e) top env) = .ok c := by
  induction e with
  | num k => exact ⟨_, bind_value ..⟩
  | var w =>
    rcases hρ.lookup hr hn with ⟨t, c, _, h2, _⟩ | ⟨h1, h2⟩
    · exact ⟨_, by rw [ast, bind_ref h2, bind_value]⟩
    · rcases he with he | ⟨i, hi⟩
      · exact (Locals.not_mem_names h1 he).elim
      · rw [hi] at h2
        cases i with
        | constant k => exact ⟨_, by rw [ast, bind_ref h2]; exact bind_value ..⟩
        | native n f => exact ⟨_, by rw [ast, bind_ref h2]; exact bind_value ..⟩
        | function ps b =>
          cases ps with
          | nil => exact ((hP _ _ _ hi).1 rfl).elim
          | cons p ps => exact ⟨_, bind_function h2⟩
  | app f a ih1 ih2 =>
    obtain ⟨F, hF⟩ := ih1 hn.1 he.1
    obtain ⟨A, hA⟩ := ih2 hn.2 he.2.1
    exact ⟨_, bind_application hF hA⟩
  | cond c a b ih ih1 ih2 =>
    obtain ⟨C, hC⟩ := ih hn.1 he.1
    obtain ⟨A, hA⟩ := ih1 hn.2.1 he.2.1
    obtain ⟨B, hB⟩ := ih2 hn.2.2 he.2.2
    exact ⟨_, bind_cond hC hA hB⟩
  | op o a b ih1 ih2 =>
    obtain ⟨A, hA⟩ := ih1 hn.1 he.2.1
    obtain ⟨B, hB⟩ := ih2 hn.2 he.2.2
    obtain ⟨p, hp⟩ := primOf_opsAt he.1
    exact ⟨_, bind_op hr hρ hp hA hB⟩

/-! ## Members -/

/-- The members of the class are those of the result. -/
def Yields (P : HsProgram) (top : HsEnv) (c : Cls) (v : HsVal) : Prop :=
  ∃ m, answer (.members c) = .ok m ∧ Ends P top v m

/-- The class is a `lazy::value` around such a class. -/
def Wraps (P : HsProgram) (top : HsEnv) (c : Cls) (v : HsVal) : Prop :=
  ∃ Y, answer (.members c) = .ok (.lval Y) ∧ Yields P top Y v

theorem Ends.members {v : HsVal} {m : Cls} (h : Ends P top v m) : answer (.members m) = .ok m := by
  rw [answer_layer]
  cases h <;> rfl

theorem Ends.yields {v : HsVal} {m : Cls} (h : Ends P top v m) : Yields P top m v := ⟨m, h.members, h⟩

theorem Ends.wraps {v : HsVal} {m : Cls} (h : Ends P top v m) : Wraps P top (.lval m) v :=
  ⟨m, members_lval m, h.yields⟩

theorem typeOf_yields {c : Cls} {v : HsVal} (h : Yields P top c v ∨ Wraps P top c v) :
    ∃ T, answer (.typeOf c) = .ok T ∧ Yields P top T v := by
  rcases h with ⟨m, h1, h2⟩ | ⟨Y, h1, h2⟩
  · refine ⟨m, ?_, h2.yields⟩
    rw [answer_layer, layer, h1]
    cases h2 <;> rfl
  · refine ⟨Y, ?_, h2⟩
    rw [answer_layer, layer, h1]
    rfl

theorem Ends.number {v : HsVal} {m : Cls} {k : Int} (h : Ends P top v m) (hk : v.number = some k) :
    m = valCls v ∧ m.number = .ok k := by
  cases h with
  | int => injection hk with hk; subst hk; exact ⟨rfl, rfl⟩
  | bool => injection hk with hk; subst hk; exact ⟨rfl, rfl⟩
  | fn => cases hk
  | native => cases hk

theorem constant_yields {c : Cls} {v : HsVal} {k : Int} (h : Yields P top c v ∨ Wraps P top c v)
    (hk : v.number = some k) : constant answer c = .ok (valCls v) ∧ (valCls v).number = .ok k := by
  obtain ⟨T, hT, m, hm, he⟩ := typeOf_yields h
  obtain ⟨rfl, h2⟩ := he.number hk
  exact ⟨by rw [constant, hT, Out.bind_ok, hm], h2⟩

theorem members_lapp {F A G R : Cls} (hG : answer (.typeOf F) = .ok G) (hR : answer (.apply G A) = .ok R) :
    answer (.members (.lapp F A)) = answer (.members R) := by
  rw [answer_layer]
  simp only [layer, hG, hR, Out.bind_ok]

theorem HalfAll.snoc {ts : List Thunk} {cs : List Cls} (h : HalfAll P top ts cs) {t : Thunk} {c : Cls}
    (hc : Half P top t c) : HalfAll P top (ts ++ [t]) (cs ++ [c]) := by
  induction h with
  | nil => exact .cons hc .nil
  | cons h1 _ ih => exact .cons h1 ih

theorem HalfAll.length {ts : List Thunk} {cs : List Cls} (h : HalfAll P top ts cs) : ts.length = cs.length := by
  induction h with
  | nil => rfl
  | cons h1 _ ih => simp [ih]

theorem ends_operate {o : List Chr} {i j : Int} {u : HsVal} (h : operate o i j = some u) :
    Ends P top u (valCls u) := by
  rcases operate_number h with ⟨k, rfl⟩ | ⟨b, rfl⟩
  · exact .int
  · exact .bool

theorem compatible_bothBool {o : List Chr} {v w : HsVal} (h : Compatible o v w) :
    o ∈ arithOps → bothBool (valCls v) (valCls w) = false := by
  intro ho
  rcases h ho with ⟨i, rfl⟩ | ⟨j, rfl⟩
  · rfl
  · cases v <;> rfl

/-- `lazy_plus` and so on. -/
theorem members_op {o : List Chr} {p : Prim} (hp : primOf o = some p) {A B : Cls} {v w u : HsVal} {i j : Int}
    (hA : Yields P top A v ∨ Wraps P top A v) (hB : Yields P top B w ∨ Wraps P top B w) (hi : v.number = some i)
    (hj : w.number = some j) (hc : Compatible o v w) (hu : operate o i j = some u) :
    Yields P top (.lapp (.lapp (.lval (.curry p [])) A) B) u := by
  have ha2 := primOf_arity hp
  obtain ⟨hA, hi⟩ := constant_yields hA hi
  obtain ⟨hB, hj⟩ := constant_yields hB hj
  have hR : answer (.apply (.curry p [A]) B) = .ok (valCls u) := by
    rw [answer_layer, layer, members_curry]
    simp only [Out.bind_ok, List.length_cons, List.length_nil, ha2, if_pos, List.cons_append, List.nil_append]
    exact (primOf_opCls hp ..).2 ⟨_, _, hA, hB, compatible_bothBool hc, i, j, u, hi, hj, hu, rfl⟩
  have h1 := members_lapp (typeOf_curried (p := p) (args := []) (a := A) (typeOf_lval _) (by rw [ha2]; simp)) hR
  have hu : Ends P top u (valCls u) := ends_operate hu
  exact ⟨_, h1.trans hu.members, hu⟩

/-- `lazy_if` -/
theorem members_cond {C A B : Cls} {v : HsVal} {k : Int} (hC : Yields P top C v ∨ Wraps P top C v)
    (hk : v.number = some k) : answer (.members (.lapp (.lapp (.lapp (.lval (.curry .lazyIf [])) C) A) B)) =
      answer (.members (if k = 0 then B else A)) := by
  obtain ⟨hC, hk⟩ := constant_yields hC hk
  refine members_lapp (typeOf_curried (typeOf_curried (p := .lazyIf) (args := []) (a := C) (typeOf_lval _)
    (by simp [Prim.arity])) (by simp [Prim.arity])) ?_
  rw [answer_layer, layer, members_curry]
  simp only [Out.bind_ok, List.length_cons, List.length_nil, Prim.arity, if_pos, List.cons_append, List.nil_append,
    applyPrim, hC, hk]

theorem apply_closure {G A : Cls} {body : Ast} {x : List Chr} {env : HsEnv}
    (hG : answer (.members G) = .ok (.closure body x top env)) :
    answer (.apply G A) = (answer (.bind body top ((x, .value A) :: env))).bind fun c => answer (.typeOf c) := by
  rw [answer_layer, layer, hG]
  rfl

/-- The last argument of a definition. -/
theorem apply_last {G A c : Cls} {x : List Chr} {b : HsExp} {env : HsEnv} {v : HsVal}
    (hG : answer (.members G) = .ok (.closure (ast b) x top env))
    (hc : answer (.bind (ast b) top ((x, .value A) :: env)) = .ok c) (hv : Yields P top c v ∨ Wraps P top c v) :
    ∃ R, answer (.apply G A) = .ok R ∧ Yields P top R v := by
  rw [apply_closure hG, hc]
  exact typeOf_yields hv

/-- An argument of a definition that has more parameters. -/
theorem apply_more {G A : Cls} {x p : List Chr} {ps : List (List Chr)} {b : HsExp} {env : HsEnv}
    (hG : answer (.members G) = .ok (.closure (lams (p :: ps) (ast b)) x top env)) :
    answer (.apply G A) = .ok (.closure (lams ps (ast b)) p top ((x, .value A) :: env)) := by
  rw [apply_closure hG, lams, List.foldr_cons, bind_lambda, Out.bind_ok, answer_layer, layer, answer_layer (.members _)]
  rfl

/-- The last argument of an imported function. -/
theorem apply_lastNative {G A : Cls} {n : Nat} {g : List Int → Out Int} {cs : List Cls} {ks : List Int} {k : Int}
    (hG : answer (.members G) = .ok (.curry (.native n g) cs)) (hn : cs.length + 1 = n)
    (hks : numbers answer (cs ++ [A]) = .ok ks) (hk : g ks = .ok k) : answer (.apply G A) = .ok (.intc k) := by
  rw [answer_layer, layer, hG]
  simp only [Out.bind_ok]
  rw [if_pos (show cs.length + 1 = (Prim.native n g).arity from hn)]
  have : applyPrim answer (.native n g) (cs ++ [A]) =
      ((numbers answer (cs ++ [A])).bind fun ks => (g ks).bind fun k => .ok (.intc k)) := by
    cases hcs : cs ++ [A] <;> rfl
  rw [this, hks, Out.bind_ok, hk]
  rfl

/-- An argument of an imported function that has more parameters. -/
theorem apply_moreNative {G A : Cls} {n : Nat} {g : List Int → Out Int} {cs : List Cls}
    (hG : answer (.members G) = .ok (.curry (.native n g) cs)) (hn : cs.length + 1 ≠ n) :
    answer (.apply G A) = .ok (.curry (.native n g) (cs ++ [A])) := by
  rw [answer_layer, layer, hG]
  simp only [Out.bind_ok]
  rw [if_neg (show ¬ cs.length + 1 = (Prim.native n g).arity from hn)]

mutual

theorem evals_complete (hr : Rep P top) (hP : P.Fine) : ∀ {ρ : Locals} {e : HsExp} {v : HsVal}, Evals P ρ e v →
    ∀ {env : HsEnv} {c : Cls}, ReadyEnv P top ρ env → e.Named → e.Fine P ρ.names →
    answer (.bind (ast e) top env) = .ok c → Yields P top c v ∨ ¬ e.Passable P ρ.names ∧ Wraps P top c v
  | _, _, _, .num, env, c, hρ, hn, he, hc => by
    rw [ast, bind_value] at hc
    injection hc with hc
    subst hc
    exact .inr ⟨fun h => h, Ends.int.wraps⟩
  | _, _, _, .param (x := x) hl hf, env, c, hρ, hn, he, hc => by
    rcases hρ.lookup hr hn with ⟨t', d, h1, h2, h3⟩ | ⟨h1, _⟩
    · rw [hl] at h1
      injection h1 with h1
      subst h1
      rw [ast, bind_ref h2, bind_value] at hc
      injection hc with hc
      subst hc
      exact .inr ⟨fun h => h.1 (Locals.mem_names.2 ⟨_, hl⟩), _, members_lval _, force_complete hr hP hf h3⟩
    · rw [hl] at h1
      cases h1
  | _, _, _, .constant hl hp, env, c, hρ, hn, he, hc => by
    rcases hρ.lookup hr hn with ⟨t', d, h1, h2, h3⟩ | ⟨_, h2⟩
    · rw [hl] at h1; cases h1
    · rw [hp] at h2
      rw [ast, bind_ref h2] at hc
      obtain rfl : _ = c := Out.ok.inj ((bind_value ..).symm.trans hc)
      refine .inr ⟨?_, Ends.int.wraps⟩
      rintro ⟨_, _, _, _, h⟩
      rw [hp] at h
      cases h
  | _, _, _, .native hl hp, env, c, hρ, hn, he, hc => by
    rcases hρ.lookup hr hn with ⟨t', d, h1, h2, h3⟩ | ⟨_, h2⟩
    · rw [hl] at h1; cases h1
    · rw [hp] at h2
      rw [ast, bind_ref h2] at hc
      obtain rfl : _ = c := Out.ok.inj ((bind_value ..).symm.trans hc)
      refine .inr ⟨?_, (Ends.native .nil).wraps⟩
      rintro ⟨_, _, _, _, h⟩
      rw [hp] at h
      cases h
  | _, _, _, .definition hl hp _, env, c, hρ, hn, he, hc => ((hP _ _ _ hp).1 rfl).elim
  | _, _, _, .function (p := p) (ps := ps) (b := b) hl hp, env, c, hρ, hn, he, hc => by
    rcases hρ.lookup hr hn with ⟨t', d, h1, h2, h3⟩ | ⟨_, h2⟩
    · rw [hl] at h1; cases h1
    · rw [hp] at h2
      obtain rfl : _ = c := Out.ok.inj ((bind_function h2).symm.trans hc)
      obtain ⟨hb, hps⟩ := hr.bodies _ _ _ hp
      refine .inl (Ends.fn .nil hb (hps p (by simp)) (fun q hq => hps q (by simp [hq])) ?_).yields
      exact (hP _ _ _ hp).2.congr fun w => by simp [Locals.names, or_comm]
  | _, _, _, .thenBranch (c := c') (t := t) (e := e) h1 h2 h3 h4, env, c, hρ, hn, he, hc => by
    obtain ⟨C, hC⟩ := bind_ok hr hP hρ hn.1 he.1
    obtain ⟨A, hA⟩ := bind_ok hr hP hρ hn.2.1 he.2.1
    obtain ⟨B, hB⟩ := bind_ok hr hP hρ hn.2.2 he.2.2
    obtain rfl : _ = c := Out.ok.inj ((bind_cond hC hA hB).symm.trans hc)
    have hm := members_cond (A := A) (B := B) ((evals_complete hr hP h1 hρ hn.1 he.1 hC).imp id And.right) h2
    rw [if_neg h3] at hm
    rcases evals_complete hr hP h4 hρ hn.2.1 he.2.1 hA with ⟨m, h5, h6⟩ | ⟨hp, Y, h5, h6⟩
    · exact .inl ⟨m, hm.trans h5, h6⟩
    · exact .inr ⟨fun h => hp h.1, Y, hm.trans h5, h6⟩
  | _, _, _, .elseBranch (c := c') (t := t) (e := e) h1 h2 h4, env, c, hρ, hn, he, hc => by
    obtain ⟨C, hC⟩ := bind_ok hr hP hρ hn.1 he.1
    obtain ⟨A, hA⟩ := bind_ok hr hP hρ hn.2.1 he.2.1
    obtain ⟨B, hB⟩ := bind_ok hr hP hρ hn.2.2 he.2.2
    obtain rfl : _ = c := Out.ok.inj ((bind_cond hC hA hB).symm.trans hc)
    have hm := members_cond (A := A) (B := B) ((evals_complete hr hP h1 hρ hn.1 he.1 hC).imp id And.right) h2
    rw [if_pos rfl] at hm
    rcases evals_complete hr hP h4 hρ hn.2.2 he.2.2 hB with ⟨m, h5, h6⟩ | ⟨hp, Y, h5, h6⟩
    · exact .inl ⟨m, hm.trans h5, h6⟩
    · exact .inr ⟨fun h => hp h.2, Y, hm.trans h5, h6⟩
  | _, _, _, .op h1 h2 h3 h4 h5 h6, env, c, hρ, hn, he, hc => by
    obtain ⟨A, hA⟩ := bind_ok hr hP hρ hn.1 he.2.1
    obtain ⟨B, hB⟩ := bind_ok hr hP hρ hn.2 he.2.2
    obtain ⟨p, hp⟩ := primOf_opsAt he.1
    obtain rfl : _ = c := Out.ok.inj ((bind_op hr hρ hp hA hB).symm.trans hc)
    exact .inl (members_op hp ((evals_complete hr hP h1 hρ hn.1 he.2.1 hA).imp id And.right)
      ((evals_complete hr hP h2 hρ hn.2 he.2.2 hB).imp id And.right) h3 h4 h5 h6)
  | ρ, _, v, .last (f := f) (a := a) (b := b) (x := x) h1 h2, env, c, hρ, hn, he, hc => by
    obtain ⟨F, hF⟩ := bind_ok hr hP hρ hn.1 he.1
    obtain ⟨A, hA⟩ := bind_ok hr hP hρ hn.2 he.2.1
    obtain rfl : _ = c := Out.ok.inj ((bind_application hF hA).symm.trans hc)
    obtain ⟨G, hG, m, hm, hend⟩ := typeOf_yields ((evals_complete hr hP h1 hρ hn.1 he.1 hF).imp id And.right)
    have hpass : a.Passable P ρ.names := by
      rcases he.2.2 with h | h
      · rcases h.value h1 with ⟨_, _, _, h⟩ | ⟨_, h⟩ <;> cases h
      · exact h
    cases hend with
    | fn hρ' hb hx hps hfine =>
      have hρ'' := hρ'.cons hx (.bound hρ hn.2 he.2.1 hpass hA)
      obtain ⟨d, hd⟩ := bind_ok hr hP hρ'' hb hfine
      obtain ⟨R, hR, m, hm', hend⟩ := apply_last hm hd
        ((evals_complete hr hP h2 hρ'' hb hfine hd).imp id And.right)
      exact .inl ⟨m, (members_lapp hG hR).trans hm', hend⟩
  | ρ, _, _, .more (f := f) (a := a) (b := b) (x := x) (p := p) (ps := ps) h1, env, c, hρ, hn, he, hc => by
    obtain ⟨F, hF⟩ := bind_ok hr hP hρ hn.1 he.1
    obtain ⟨A, hA⟩ := bind_ok hr hP hρ hn.2 he.2.1
    obtain rfl : _ = c := Out.ok.inj ((bind_application hF hA).symm.trans hc)
    obtain ⟨G, hG, m, hm, hend⟩ := typeOf_yields ((evals_complete hr hP h1 hρ hn.1 he.1 hF).imp id And.right)
    have hpass : a.Passable P ρ.names := by
      rcases he.2.2 with h | h
      · rcases h.value h1 with ⟨_, _, _, h⟩ | ⟨_, h⟩ <;> cases h
      · exact h
    cases hend with
    | fn hρ' hb hx hps hfine =>
      have hρ'' := hρ'.cons hx (.bound hρ hn.2 he.2.1 hpass hA)
      have hend := Ends.fn (ps := ps) (x := p) hρ'' hb (hps p (by simp)) (fun q hq => hps q (by simp [hq]))
        (hfine.congr fun w => by simp [Locals.names]; exact ⟨fun h => by rcases h with h | h | h | h <;> simp [h], fun h => by rcases h with h | h | h | h <;> simp [h]⟩)
      exact .inl ⟨_, (members_lapp hG (apply_more hm)).trans hend.members, hend⟩
  | ρ, _, _, .lastNative (f := f) (a := a) h1 h2 h3 h4, env, c, hρ, hn, he, hc => by
    obtain ⟨F, hF⟩ := bind_ok hr hP hρ hn.1 he.1
    obtain ⟨A, hA⟩ := bind_ok hr hP hρ hn.2 he.2.1
    obtain rfl : _ = c := Out.ok.inj ((bind_application hF hA).symm.trans hc)
    obtain ⟨G, hG, m, hm, hend⟩ := typeOf_yields ((evals_complete hr hP h1 hρ hn.1 he.1 hF).imp id And.right)
    cases hend with
    | native hts =>
      have hl := hts.length
      have hks := forceAll_complete hr hP h3 (hts.snoc (.bound hρ hn.2 he.2.1 hA))
      exact .inl ⟨_, (members_lapp hG (apply_lastNative hm (by omega) hks h4)).trans (Ends.members (P := P) (top := top) .int), .int⟩
  | ρ, _, _, .moreNative (f := f) (a := a) h1 h2, env, c, hρ, hn, he, hc => by
    obtain ⟨F, hF⟩ := bind_ok hr hP hρ hn.1 he.1
    obtain ⟨A, hA⟩ := bind_ok hr hP hρ hn.2 he.2.1
    obtain rfl : _ = c := Out.ok.inj ((bind_application hF hA).symm.trans hc)
    obtain ⟨G, hG, m, hm, hend⟩ := typeOf_yields ((evals_complete hr hP h1 hρ hn.1 he.1 hF).imp id And.right)
    cases hend with
    | native hts =>
      have hl := hts.length
      have hend := Ends.native (P := P) (top := top) (f := by assumption) (n := by assumption) (hts.snoc (.bound hρ hn.2 he.2.1 hA))
      exact .inl ⟨_, (members_lapp hG (apply_moreNative hm (by omega))).trans hend.members, hend⟩

theorem force_complete (hr : Rep P top) (hP : P.Fine) : ∀ {t : Thunk} {v : HsVal}, Force P t v →
    ∀ {c : Cls}, Ready P top t c → Yields P top c v
  | _, _, .given, c, h => by
    cases h
    exact Ends.int.yields
  | _, _, .delayed h1, c, h => by
    cases h with
    | bound hρ hn he hp hc =>
      rcases evals_complete hr hP h1 hρ hn he hc with h | h
      · exact h
      · exact (h.1 hp).elim

theorem half_complete (hr : Rep P top) (hP : P.Fine) : ∀ {t : Thunk} {v : HsVal}, Force P t v →
    ∀ {c : Cls}, Half P top t c → Yields P top c v ∨ Wraps P top c v
  | _, _, .given, c, h => by
    cases h
    exact .inl Ends.int.yields
  | _, _, .delayed h1, c, h => by
    cases h with
    | bound hρ hn he hc => exact (evals_complete hr hP h1 hρ hn he hc).imp id And.right

theorem forceAll_complete (hr : Rep P top) (hP : P.Fine) : ∀ {ts : List Thunk} {ks : List Int}, ForceAll P ts ks →
    ∀ {cs : List Cls}, HalfAll P top ts cs → numbers answer cs = .ok ks
  | _, _, .nil, cs, h => by cases h; rfl
  | _, _, .cons h1 h2 h3, cs, h => by
    cases h with
    | cons hc hcs =>
      obtain ⟨h4, h5⟩ := constant_yields (half_complete hr hP h1 hc) h2
      rw [numbers, h4, Out.bind_ok, h5, Out.bind_ok, forceAll_complete hr hP h3 hcs]
      rfl

end

end HsEval

end Metaparse
