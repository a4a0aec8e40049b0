import Verif.Spec.MetaHsEval
import Verif.Lemmas.MetaHsLimit
import Verif.Props.MetaHs
/-!
# What the classes of `meta_hs` give is the result of the program
-/

namespace Metaparse

namespace HsEval

/-- The syntax tree of an expression. -/
def ast : HsExp → Ast
  | .num n => .value (.intc n)
  | .var w => .ref w
  | .app f a => .application (ast f) (ast a)
  | .cond c t e => .application (.application (.application (.value (.curry .lazyIf [])) (ast c)) (ast t)) (ast e)
  | .op o a b => .application (.application (.ref (opName o)) (ast a)) (ast b)

/-- A function of the parameters. -/
def lams (ps : List (List Chr)) (a : Ast) : Ast := ps.foldr (fun p a => .lambda a p) a

theorem decode_tree (e : HsExp) : decode e.tree = .ok (ast e) := by
  induction e with
  | num n => simp [HsExp.tree, MetaHs.value, decode, ast]
  | var w => simp [HsExp.tree, MetaHs.ref, decode, ast]
  | app f a ih1 ih2 => simp [HsExp.tree, MetaHs.application, decode, ast, ih1, ih2]
  | cond c t e ih1 ih2 ih3 =>
    simp [HsExp.tree, MetaHs.application, MetaHs.value, MetaHs.curryLazyIf, decode, ast, ih1, ih2, ih3]
  | op o a b ih1 ih2 => simp [HsExp.tree, MetaHs.application, MetaHs.ref, decode, ast, ih1, ih2]

theorem decode_lambdas (ps : List (List Chr)) (e : HsExp) : decode (lambdas ps e.tree) = .ok (lams ps (ast e)) := by
  induction ps with
  | nil => exact decode_tree e
  | cons p ps ih =>
    have h : decode (lambdas (p :: ps) e.tree) = (decode (lambdas ps e.tree)).bind fun f => .ok (.lambda f p) := by
      simp only [lambdas, List.foldr_cons, MetaHs.lambda, decode]
    rw [h, ih]
    rfl

theorem decode_topBound (v : Val) (a : Ast) (h : decode v = .ok a) : decode (MetaHs.topBound v) = .ok (.topBound a) := by
  simp [MetaHs.topBound, decode, h]

/-- The template of an operator. -/
def primOf (o : List Chr) : Option Prim :=
  if o = txt "+" then some .plus
  else if o = txt "-" then some .minus
  else if o = txt "*" then some .times
  else if o = txt "/" then some .divides
  else if o = txt "<" then some .less
  else if o = txt "<=" then some .lessEqual
  else if o = txt ">" then some .greater
  else if o = txt ">=" then some .greaterEqual
  else if o = txt "==" then some .equalTo
  else if o = txt "/=" then some .notEqualTo
  else none

/-- The syntax tree of an item. -/
def itemAst : HsItem → Ast
  | .constant k => .value (.intc k)
  | .native n f => .value (.curry (.native n f) [])
  | .function ps b => .topBound (lams ps (ast b))

/-- The environment has the items of the program. -/
structure Rep (P : HsProgram) (top : HsEnv) : Prop where
  items : ∀ w, IsName w → top.lookup w = (P.lookup w).map itemAst
  ops : ∀ o, top.lookup (opName o) = (primOf o).map fun p => .value (.curry p [])
  bodies : ∀ w ps b, P.lookup w = some (.function ps b) → b.Named ∧ ∀ p ∈ ps, IsName p

/-- `lazy::value` around a class, `k` times. -/
def wrap : Nat → Cls → Cls
  | 0, c => c
  | k + 1, c => .lval (wrap k c)

mutual

/-- If the class has a result, it is one of these. -/
inductive Core (P : HsProgram) (top : HsEnv) : (HsVal → Prop) → Cls → Prop
  | bound {S : HsVal → Prop} {ρ : Locals} {env : HsEnv} {e : HsExp} {c : Cls} : EnvRel P top ρ env → e.Named →
      answer (.bind (ast e) top env) = .ok c → (∀ v, Evals P ρ e v → S v) → Core P top S c
  | final {S : HsVal → Prop} {v : HsVal} {m : Cls} : S v → Final P top v m → Core P top S m

/-- The environment has the parameters. -/
inductive EnvRel (P : HsProgram) (top : HsEnv) : Locals → HsEnv → Prop
  | nil : EnvRel P top [] top
  | cons {x : List Chr} {t : Thunk} {c : Cls} {ρ : Locals} {env : HsEnv} (k : Nat) : IsName x →
      Core P top (Force P t) c → EnvRel P top ρ env → EnvRel P top ((x, t) :: ρ) ((x, .value (wrap k c)) :: env)

/-- The class is the result. -/
inductive Final (P : HsProgram) (top : HsEnv) : HsVal → Cls → Prop
  | int {k : Int} : Final P top (.int k) (.intc k)
  | bool {b : Bool} : Final P top (.bool b) (.boolc b)
  | fn {x : List Chr} {ps : List (List Chr)} {b : HsExp} {ρ : Locals} {env : HsEnv} : EnvRel P top ρ env → b.Named →
      IsName x → (∀ p ∈ ps, IsName p) → Final P top (.fn x ps b ρ) (.closure (lams ps (ast b)) x top env)
  | native {n : Nat} {f : List Int → Out Int} {ts : List Thunk} {cs : List Cls} : CoreAll P top ts cs →
      Final P top (.native n f ts) (.curry (.native n f) cs)

/-- The classes are the arguments. -/
inductive CoreAll (P : HsProgram) (top : HsEnv) : List Thunk → List Cls → Prop
  | nil : CoreAll P top [] []
  | cons {t : Thunk} {c : Cls} {ts : List Thunk} {cs : List Cls} (k : Nat) : Core P top (Force P t) c → CoreAll P top ts cs →
      CoreAll P top (t :: ts) (wrap k c :: cs)

end

/-- The class, perhaps with some `lazy::value` around it. -/
def Stands (P : HsProgram) (top : HsEnv) (S : HsVal → Prop) (X : Cls) : Prop := ∃ k c, X = wrap k c ∧ Core P top S c

variable {P : HsProgram} {top : HsEnv}

theorem Core.stands {S : HsVal → Prop} {c : Cls} (h : Core P top S c) : Stands P top S c := ⟨0, c, rfl, h⟩

theorem Stands.wrap {S : HsVal → Prop} {c : Cls} (h : Stands P top S c) : Stands P top S (.lval c) := by
  obtain ⟨k, c, rfl, h⟩ := h
  exact ⟨k + 1, c, rfl, h⟩

theorem Core.better {S S' : HsVal → Prop} {c : Cls} (h : Core P top S c) (ht : ∀ v, S v → S' v) :
    Core P top S' c := by
  cases h with
  | bound h1 h2 h3 h4 => exact .bound h1 h2 h3 fun v hv => ht v (h4 v hv)
  | final h1 h2 => exact .final (ht _ h1) h2

theorem Stands.better {S S' : HsVal → Prop} {c : Cls} (h : Stands P top S c) (ht : ∀ v, S v → S' v) :
    Stands P top S' c := by
  obtain ⟨k, c, rfl, h⟩ := h
  exact ⟨k, c, rfl, h.better ht⟩

theorem Stands.cons {x : List Chr} {t : Thunk} {c : Cls} {ρ : Locals} {env : HsEnv} (hx : IsName x)
    (h : Stands P top (Force P t) c) (he : EnvRel P top ρ env) : EnvRel P top ((x, t) :: ρ) ((x, .value c) :: env) := by
  obtain ⟨k, c, rfl, h⟩ := h
  exact .cons k hx h he

theorem CoreAll.snoc {ts : List Thunk} {cs : List Cls} (h : CoreAll P top ts cs) {t : Thunk} {c : Cls}
    (hc : Stands P top (Force P t) c) : CoreAll P top (ts ++ [t]) (cs ++ [c]) := by
  obtain ⟨k, c, rfl, hc⟩ := hc
  induction cs generalizing ts with
  | nil => cases h; exact .cons k hc .nil
  | cons d cs ih =>
    cases h with
    | cons k' h1 h2 => exact .cons k' h1 (ih h2)

theorem CoreAll.length {ts : List Thunk} {cs : List Cls} (h : CoreAll P top ts cs) : ts.length = cs.length := by
  induction cs generalizing ts with
  | nil => cases h; rfl
  | cons d cs ih => cases h with | cons _ _ h2 => simp [ih h2]

theorem _root_.Metaparse.Force.inv {ρ : Locals} {e : HsExp} {v : HsVal} (h : Force P (.delayed e ρ) v) : Evals P ρ e v := by
  cases h; assumption

theorem lookup_cons {α : Type} (x y : List Chr) (a : α) (l : List (List Chr × α)) :
    List.lookup x ((y, a) :: l) = if x = y then some a else l.lookup x := by
  by_cases h : x = y
  · subst h; simp [List.lookup]
  · simp [List.lookup, h, beq_eq_false_iff_ne.2 h]

/-- What a name stands for in the environment. -/
theorem EnvRel.lookup (hr : Rep P top) {ρ : Locals} {env : HsEnv} (h : EnvRel P top ρ env) {w : List Chr}
    (hw : IsName w) : (∃ t c, ρ.lookup w = some t ∧ env.lookup w = some (.value c) ∧ Stands P top (Force P t) c) ∨
      ρ.lookup w = none ∧ env.lookup w = (P.lookup w).map itemAst := by
  induction ρ generalizing env with
  | nil =>
    cases h
    exact .inr ⟨rfl, hr.items w hw⟩
  | cons p ρ ih =>
    cases h with
    | cons k hx hc he =>
      rename_i x t c env
      rw [lookup_cons, lookup_cons]
      by_cases hwx : w = x
      · exact .inl ⟨t, _, by simp [hwx], by simp [hwx], k, _, rfl, hc⟩
      · simp only [if_neg hwx]
        exact ih he

theorem EnvRel.op (hr : Rep P top) {ρ : Locals} {env : HsEnv} (h : EnvRel P top ρ env) (o : List Chr) :
    env.lookup (opName o) = (primOf o).map fun p => .value (.curry p []) := by
  induction ρ generalizing env with
  | nil =>
    cases h
    exact hr.ops o
  | cons p ρ ih =>
    cases h with
    | cons k hx hc he =>
      rename_i x t c env
      have hne : opName o ≠ x := fun h => opName_not_name o (h ▸ hx)
      rw [lookup_cons, if_neg hne]
      exact ih he

/-! ## Binding -/

/-- What binding an expression gives. -/
inductive Shape (P : HsProgram) (top : HsEnv) (ρ : Locals) (e : HsExp) : Cls → Prop
  | value {Y : Cls} : (∀ S : HsVal → Prop, (∀ v, Evals P ρ e v → S v) → Stands P top S Y) → Shape P top ρ e (.lval Y)
  | final {v : HsVal} {m : Cls} : Evals P ρ e v → Final P top v m → Shape P top ρ e m
  | app {ρ' : Locals} {env' : HsEnv} {f a : HsExp} {F A : Cls} : EnvRel P top ρ' env' → f.Named → a.Named →
      answer (.bind (ast f) top env') = .ok F → answer (.bind (ast a) top env') = .ok A →
      (∀ v, Evals P ρ' (.app f a) v → Evals P ρ e v) → Shape P top ρ e (.lapp F A)
  | op {ρ' : Locals} {env' : HsEnv} {o : List Chr} {p : Prim} {a b : HsExp} {A B : Cls} : EnvRel P top ρ' env' →
      a.Named → b.Named → primOf o = some p →
      answer (.bind (ast a) top env') = .ok A → answer (.bind (ast b) top env') = .ok B →
      (∀ v, Evals P ρ' (.op o a b) v → Evals P ρ e v) → Shape P top ρ e (.lapp (.lapp (.lval (.curry p [])) A) B)
  | cond {ρ' : Locals} {env' : HsEnv} {c a b : HsExp} {C A B : Cls} : EnvRel P top ρ' env' →
      c.Named → a.Named → b.Named → answer (.bind (ast c) top env') = .ok C →
      answer (.bind (ast a) top env') = .ok A → answer (.bind (ast b) top env') = .ok B →
      (∀ v, Evals P ρ' (.cond c a b) v → Evals P ρ e v) →
      Shape P top ρ e (.lapp (.lapp (.lapp (.lval (.curry .lazyIf [])) C) A) B)

theorem Shape.better {ρ ρ' : Locals} {e e' : HsExp} {c : Cls} (h : Shape P top ρ e c)
    (he : ∀ v, Evals P ρ e v → Evals P ρ' e' v) : Shape P top ρ' e' c := by
  cases h with
  | value h => exact .value fun t ht => h t fun v hv => ht v (he v hv)
  | final h1 h2 => exact .final (he _ h1) h2
  | app h1 h2 h3 h4 h5 h6 => exact .app h1 h2 h3 h4 h5 fun v hv => he v (h6 v hv)
  | op h1 h2 h3 h4 h5 h6 h7 => exact .op h1 h2 h3 h4 h5 h6 fun v hv => he v (h7 v hv)
  | cond h1 h2 h3 h4 h5 h6 h7 h8 => exact .cond h1 h2 h3 h4 h5 h6 h7 fun v hv => he v (h8 v hv)

theorem bindIn_application {n : Nat} {f a : Ast} {top env : HsEnv} {c : Cls}
    (h : answerIn (n + 1) (.bind (.application f a) top env) = .ok c) :
    ∃ F A, answerIn n (.bind f top env) = .ok F ∧ answerIn n (.bind a top env) = .ok A ∧ c = .lapp F A := by
  simp only [answerIn, layer, Out.bind_eq_ok] at h
  obtain ⟨F, h1, A, h2, h3⟩ := h
  injection h3 with h3
  exact ⟨F, A, h1, h2, h3.symm⟩

theorem bindIn_value {n : Nat} {v : Cls} {top env : HsEnv} {c : Cls}
    (h : answerIn n (.bind (.value v) top env) = .ok c) : c = .lval v := by
  cases n with
  | zero => cases h
  | succ n => simp only [answerIn, layer] at h; injection h with h; exact h.symm

theorem bindIn_ref {n : Nat} {w : List Chr} {top env : HsEnv} {c : Cls}
    (h : answerIn (n + 1) (.bind (.ref w) top env) = .ok c) :
    ∃ a, env.lookup w = some a ∧ answerIn n (.bind a top env) = .ok c := by
  simp only [answerIn, layer] at h
  cases hl : env.lookup w with
  | none => rw [hl] at h; cases h
  | some a => rw [hl] at h; exact ⟨a, rfl, h⟩

theorem bind_shape (hr : Rep P top) : ∀ (n : Nat) {ρ : Locals} {env : HsEnv} {e : HsExp} {c : Cls},
    EnvRel P top ρ env → e.Named → answerIn n (.bind (ast e) top env) = .ok c → Shape P top ρ e c
  | 0, _, _, _, _, _, _, h => by cases h
  | n + 1, ρ, env, e, c, hρ, he, h => by
    cases e with
    | num k =>
      obtain rfl := bindIn_value h
      exact .value fun t ht => (Core.final (ht _ .num) .int).stands
    | var w =>
      obtain ⟨a, ha, h⟩ := bindIn_ref h
      rcases hρ.lookup hr he with ⟨t, c', h1, h2, h3⟩ | ⟨h1, h2⟩
      · rw [ha] at h2
        injection h2 with h2
        subst h2
        obtain rfl := bindIn_value h
        exact .value fun t' ht => h3.better fun v hv => ht v (.param h1 hv)
      · rw [ha] at h2
        cases hp : P.lookup w with
        | none => rw [hp] at h2; cases h2
        | some i =>
          rw [hp] at h2
          simp only [Option.map_some, Option.some.injEq] at h2
          subst h2
          cases i with
          | constant k =>
            obtain rfl := bindIn_value h
            exact .value fun t ht => (Core.final (ht _ (.constant h1 hp)) .int).stands
          | native m f =>
            obtain rfl := bindIn_value h
            exact .value fun t ht => (Core.final (ht _ (.native h1 hp)) (.native .nil)).stands
          | function ps b =>
            obtain ⟨hb, hps⟩ := hr.bodies w ps b hp
            cases n with
            | zero => cases h
            | succ n =>
              have h : answerIn n (.bind (lams ps (ast b)) top top) = .ok c := h
              cases ps with
              | nil => exact (bind_shape hr n .nil hb h).better fun v hv => .definition h1 hp hv
              | cons p ps =>
                cases n with
                | zero => cases h
                | succ n =>
                  simp only [answerIn, layer, lams, List.foldr_cons] at h
                  injection h with h
                  subst h
                  exact .final (.function h1 hp) (.fn .nil hb (hps p (by simp)) fun q hq => hps q (by simp [hq]))
    | app f a =>
      obtain ⟨F, A, h1, h2, rfl⟩ := bindIn_application h
      exact .app hρ he.1 he.2 (answer_of_in h1) (answer_of_in h2) fun v hv => hv
    | cond x a b =>
      obtain ⟨F, A, h1, h2, rfl⟩ := bindIn_application h
      cases n with
      | zero => cases h1
      | succ n =>
        obtain ⟨F', A', h3, h4, rfl⟩ := bindIn_application h1
        cases n with
        | zero => cases h3
        | succ n =>
          obtain ⟨F'', A'', h5, h6, rfl⟩ := bindIn_application h3
          obtain rfl := bindIn_value h5
          exact .cond hρ he.1 he.2.1 he.2.2 (answer_of_in h6) (answer_of_in h4) (answer_of_in h2) fun v hv => hv
    | op o a b =>
      obtain ⟨F, A, h1, h2, rfl⟩ := bindIn_application h
      cases n with
      | zero => cases h1
      | succ n =>
        obtain ⟨F', A', h3, h4, rfl⟩ := bindIn_application h1
        cases n with
        | zero => cases h3
        | succ n =>
          obtain ⟨x, hx, h5⟩ := bindIn_ref h3
          rw [hρ.op hr] at hx
          cases hp : primOf o with
          | none => rw [hp] at hx; cases hx
          | some p =>
            rw [hp] at hx
            simp only [Option.map_some, Option.some.injEq] at hx
            subst hx
            obtain rfl := bindIn_value h5
            exact .op hρ he.1 he.2 hp (answer_of_in h4) (answer_of_in h2) fun v hv => hv
termination_by n => n

/-! ## Operators -/

/-- The class of a result that is a number. -/
def valCls : HsVal → Cls
  | .int k => .intc k
  | .bool b => .boolc b
  | _ => .intc 0

/-- Both are of type `bool`. -/
def bothBool : Cls → Cls → Bool
  | .boolc _, .boolc _ => true
  | _, _ => false

/-- The operators `+`, `-`, `*` and `/`. -/
def arithOps : List (List Chr) := [txt "+", txt "-", txt "*", txt "/"]

theorem arith_ok {g : Int → Int → Out Int} {x y R : Cls} : arith g x y = .ok R ↔
    bothBool x y = false ∧ ∃ i j k, x.number = .ok i ∧ y.number = .ok j ∧ g i j = .ok k ∧ R = .intc k := by
  cases x <;> cases y <;> simp [arith, bothBool, Cls.number, Out.bind_eq_ok] <;>
    (constructor <;> rintro ⟨k, h1, h2⟩ <;> exact ⟨k, h1, h2.symm⟩)

theorem compare_ok {g : Int → Int → Bool} {x y R : Cls} : compare g x y = .ok R ↔
    ∃ i j, x.number = .ok i ∧ y.number = .ok j ∧ R = .boolc (g i j) := by
  simp only [compare, Out.bind_eq_ok]
  constructor
  · rintro ⟨i, hi, j, hj, h⟩
    injection h with h
    exact ⟨i, j, hi, hj, h.symm⟩
  · rintro ⟨i, j, hi, hj, rfl⟩
    exact ⟨i, hi, j, hj, rfl⟩

theorem intC_ok {n k : Int} : intC n = .ok k ↔ fitting n = some (.int k) := by
  unfold intC fitting intMin intMax
  split <;> simp

/-- What an operator does with classes. -/
def opCls (o : List Chr) (x y R : Cls) : Prop :=
  (o ∈ arithOps → bothBool x y = false) ∧
    ∃ i j u, x.number = .ok i ∧ y.number = .ok j ∧ operate o i j = some u ∧ R = valCls u

theorem fitting_some {n : Int} {u : HsVal} (h : fitting n = some u) : ∃ k, u = .int k := by
  unfold fitting at h
  split at h
  · injection h with h; exact ⟨_, h.symm⟩
  · cases h

theorem arith_opCls {o : List Chr} {g : Int → Int → Out Int} (ho : o ∈ arithOps)
    (hg : ∀ i j k, g i j = .ok k ↔ operate o i j = some (.int k)) (hu : ∀ i j u, operate o i j = some u → ∃ k, u = .int k)
    {x y R : Cls} : arith g x y = .ok R ↔ opCls o x y R := by
  rw [arith_ok]
  constructor
  · rintro ⟨hb, i, j, k, hi, hj, hk, rfl⟩
    exact ⟨fun _ => hb, i, j, .int k, hi, hj, (hg i j k).1 hk, rfl⟩
  · rintro ⟨hb, i, j, u, hi, hj, hk, rfl⟩
    obtain ⟨k, rfl⟩ := hu i j u hk
    exact ⟨hb ho, i, j, k, hi, hj, (hg i j k).2 hk, rfl⟩

theorem compare_opCls {o : List Chr} {g : Int → Int → Bool} (ho : o ∉ arithOps)
    (hg : ∀ i j, operate o i j = some (.bool (g i j))) {x y R : Cls} : compare g x y = .ok R ↔ opCls o x y R := by
  rw [compare_ok]
  constructor
  · rintro ⟨i, j, hi, hj, rfl⟩
    exact ⟨fun h => (ho h).elim, i, j, _, hi, hj, hg i j, rfl⟩
  · rintro ⟨-, i, j, u, hi, hj, hk, rfl⟩
    rw [hg] at hk
    injection hk with hk
    subst hk
    exact ⟨i, j, hi, hj, rfl⟩

theorem operate_div (i j : Int) : operate (txt "/") i j = if j = 0 then none else fitting (i.tdiv j) := by
  rw [operate, if_neg (by decide), if_neg (by decide), if_neg (by decide), if_pos rfl]

theorem division_ok {i j k : Int} : division i j = .ok k ↔ operate (txt "/") i j = some (.int k) := by
  rw [operate_div]
  unfold division
  split
  · simp
  · exact intC_ok

theorem primOf_opCls {o : List Chr} {p : Prim} (hp : primOf o = some p) (ask : Query → Out Cls) (a b R : Cls) :
    applyPrim ask p [a, b] = .ok R ↔ ∃ x y, constant ask a = .ok x ∧ constant ask b = .ok y ∧ opCls o x y R := by
  have key : ∀ {g : Cls → Cls → Out Cls}, (∀ x y, g x y = .ok R ↔ opCls o x y R) →
      (((constant ask a).bind fun x => (constant ask b).bind fun y => g x y) = .ok R ↔
        ∃ x y, constant ask a = .ok x ∧ constant ask b = .ok y ∧ opCls o x y R) := by
    intro g hg
    simp only [Out.bind_eq_ok, hg]
    exact ⟨fun ⟨x, h1, y, h2, h3⟩ => ⟨x, y, h1, h2, h3⟩, fun ⟨x, y, h1, h2, h3⟩ => ⟨x, h1, y, h2, h3⟩⟩
  unfold primOf at hp
  split at hp
  · rename_i ho; subst ho; injection hp with hp; subst hp
    exact key fun x y => arith_opCls (o := txt "+") (by decide) (fun i j k => intC_ok) (fun i j u h => fitting_some (n := i + j) h)
  split at hp
  · rename_i ho; subst ho; injection hp with hp; subst hp
    exact key fun x y => arith_opCls (o := txt "-") (by decide) (fun i j k => intC_ok) (fun i j u h => fitting_some (n := i - j) h)
  split at hp
  · rename_i ho; subst ho; injection hp with hp; subst hp
    exact key fun x y => arith_opCls (o := txt "*") (by decide) (fun i j k => intC_ok) (fun i j u h => fitting_some (n := i * j) h)
  split at hp
  · rename_i ho; subst ho; injection hp with hp; subst hp
    refine key fun x y => arith_opCls (by decide) (fun i j k => division_ok) (fun i j u h => ?_)
    rw [operate_div] at h
    split at h
    · cases h
    · exact fitting_some h
  split at hp
  · rename_i ho; subst ho; injection hp with hp; subst hp
    exact key fun x y => compare_opCls (by decide) (fun i j => rfl)
  split at hp
  · rename_i ho; subst ho; injection hp with hp; subst hp
    exact key fun x y => compare_opCls (by decide) (fun i j => rfl)
  split at hp
  · rename_i ho; subst ho; injection hp with hp; subst hp
    exact key fun x y => compare_opCls (by decide) (fun i j => rfl)
  split at hp
  · rename_i ho; subst ho; injection hp with hp; subst hp
    exact key fun x y => compare_opCls (by decide) (fun i j => rfl)
  split at hp
  · rename_i ho; subst ho; injection hp with hp; subst hp
    exact key fun x y => compare_opCls (by decide) (fun i j => rfl)
  split at hp
  · rename_i ho; subst ho; injection hp with hp; subst hp
    exact key fun x y => compare_opCls (by decide) (fun i j => rfl)
  · cases hp

theorem primOf_arity {o : List Chr} {p : Prim} (hp : primOf o = some p) : p.arity = 2 := by
  unfold primOf at hp
  repeat' split at hp
  all_goals first
    | (injection hp with hp; subst hp; rfl)
    | cases hp

/-! ## Members -/

/-- A result, or a `lazy::value`. -/
def Outcome (P : HsProgram) (top : HsEnv) (S : HsVal → Prop) (M : Cls) : Prop :=
  (∃ v, S v ∧ Final P top v M) ∨ ∃ Y, M = .lval Y ∧ Stands P top S Y

theorem Outcome.better {S S' : HsVal → Prop} {M : Cls} (h : Outcome P top S M) (ht : ∀ v, S v → S' v) :
    Outcome P top S' M := by
  rcases h with ⟨v, h1, h2⟩ | ⟨Y, h1, h2⟩
  · exact .inl ⟨v, ht v h1, h2⟩
  · exact .inr ⟨Y, h1, h2.better ht⟩

theorem Final.number {v : HsVal} {M : Cls} {k : Int} (h : Final P top v M) (hk : M.number = .ok k) :
    v.number = some k ∧ M = valCls v := by
  cases h with
  | int => injection hk with hk; exact ⟨by rw [← hk]; rfl, rfl⟩
  | bool => injection hk with hk; exact ⟨by rw [← hk]; rfl, rfl⟩
  | fn => cases hk
  | native => cases hk

theorem operate_number {o : List Chr} {i j : Int} {u : HsVal} (h : operate o i j = some u) :
    (∃ k, u = .int k) ∨ ∃ b, u = .bool b := by
  unfold operate at h
  repeat' split at h
  all_goals first
    | exact .inl (fitting_some h)
    | (injection h with h; exact .inr ⟨_, h.symm⟩)
    | cases h

theorem final_operate {o : List Chr} {i j : Int} {u : HsVal} (h : operate o i j = some u) :
    Final P top u (valCls u) := by
  rcases operate_number h with ⟨k, rfl⟩ | ⟨b, rfl⟩
  · exact .int
  · exact .bool

/-- A class with a number has it as its result. -/
theorem Outcome.number {S : HsVal → Prop} {M : Cls} {k : Int} (h : Outcome P top S M) (hk : M.number = .ok k) :
    ∃ v, S v ∧ v.number = some k ∧ M = valCls v := by
  rcases h with ⟨v, h1, h2⟩ | ⟨Y, rfl, h2⟩
  · exact ⟨v, h1, h2.number hk⟩
  · cases hk

theorem membersIn_final {n : Nat} {v : HsVal} {m M : Cls} (h : Final P top v m)
    (hn : answerIn n (.members m) = .ok M) : M = m := by
  cases n with
  | zero => cases hn
  | succ n => cases h <;> (injection hn with hn; exact hn.symm)

theorem members_curry (p : Prim) (args : List Cls) : answer (.members (.curry p args)) = .ok (.curry p args) := by
  rw [answer_layer]; rfl

theorem members_lval (c : Cls) : answer (.members (.lval c)) = .ok (.lval c) := by rw [answer_layer]; rfl

theorem typeOf_lval (c : Cls) : answer (.typeOf (.lval c)) = .ok c := by
  rw [answer_layer, layer, members_lval]; rfl

theorem typeOf_curry (p : Prim) (args : List Cls) : answer (.typeOf (.curry p args)) = .ok (.curry p args) := by
  rw [answer_layer, layer, members_curry]; rfl

theorem apply_curry {p : Prim} {args : List Cls} {a : Cls} (h : args.length + 1 ≠ p.arity) :
    answer (.apply (.curry p args) a) = .ok (.curry p (args ++ [a])) := by
  rw [answer_layer, layer, members_curry]
  simp only [Out.bind_ok, if_neg h]

/-- The first argument of an operator. -/
theorem typeOf_curried {p : Prim} {args : List Cls} {c a : Cls} (hc : answer (.typeOf c) = .ok (.curry p args))
    (h : args.length + 1 ≠ p.arity) : answer (.typeOf (.lapp c a)) = .ok (.curry p (args ++ [a])) := by
  rw [answer_layer, layer, answer_layer (.members _), layer, hc]
  simp only [Out.bind_ok, apply_curry h, members_curry]

theorem answerIn_eq {n : Nat} {q : Query} {c d : Cls} (h : answerIn n q = .ok c) (h' : answer q = .ok d) : c = d := by
  rw [answer_of_in h] at h'
  injection h'

/-- The claim for classes at one depth. -/
def MembersSound (P : HsProgram) (top : HsEnv) (n : Nat) : Prop :=
  ∀ S X M, Stands P top S X → answerIn n (.members X) = .ok M → Outcome P top S M

theorem MembersSound.typeOf {n : Nat} (hn : MembersSound P top n) {S : HsVal → Prop} {X T : Cls}
    (h : Stands P top S X) (hT : answerIn (n + 1) (.typeOf X) = .ok T) : Stands P top S T := by
  simp only [answerIn, layer, Out.bind_eq_ok] at hT
  obtain ⟨M, hM, hT⟩ := hT
  rcases hn S X M h hM with ⟨v, h1, h2⟩ | ⟨Y, rfl, h2⟩
  · have : T = M := by cases h2 <;> (injection hT with hT; exact hT.symm)
    subst this
    exact (Core.final h1 h2).stands
  · injection hT with hT
    subst hT
    exact h2

/-- The claim at all smaller depths. -/
def SoundBelow (P : HsProgram) (top : HsEnv) (n : Nat) : Prop := ∀ m, m < n → MembersSound P top m

theorem SoundBelow.typeOf {n m : Nat} (hn : SoundBelow P top n) (hm : m ≤ n) {S : HsVal → Prop}
    {X T : Cls} (h : Stands P top S X) (hT : answerIn m (.typeOf X) = .ok T) : Stands P top S T := by
  cases m with
  | zero => cases hT
  | succ m => exact (hn m (by omega)).typeOf h hT

theorem SoundBelow.constant {n m : Nat} (hn : SoundBelow P top n) (hm : m < n) {S : HsVal → Prop}
    {X M : Cls} (h : Stands P top S X) (hT : constant (answerIn m) X = .ok M) : Outcome P top S M := by
  simp only [HsEval.constant, Out.bind_eq_ok] at hT
  obtain ⟨T, hT, hM⟩ := hT
  exact hn m hm S T M (hn.typeOf (by omega) h hT) hM

theorem SoundBelow.numbers {n m : Nat} (hn : SoundBelow P top n) (hm : m < n) {ts : List Thunk} {cs : List Cls}
    (h : CoreAll P top ts cs) {ks : List Int} (hk : numbers (answerIn m) cs = .ok ks) : ForceAll P ts ks := by
  induction cs generalizing ts ks with
  | nil =>
    cases h
    injection hk with hk
    subst hk
    exact .nil
  | cons c cs ih =>
    cases h with
    | cons k h1 h2 =>
      simp only [HsEval.numbers, Out.bind_eq_ok] at hk
      obtain ⟨M, hM, i, hi, is, his, hk⟩ := hk
      injection hk with hk
      subst hk
      obtain ⟨v, hv, hvk, -⟩ := (hn.constant hm ⟨_, _, rfl, h1⟩ hM).number hi
      exact .cons hv hvk (ih h2 his)

/-- What applying a function gives. -/
theorem SoundBelow.apply {n m : Nat} (hn : SoundBelow P top n) (hm : m ≤ n) {S S' : HsVal → Prop} {ta : Thunk} {G A R : Cls}
    (hG : Stands P top S G) (hA : Stands P top (Force P ta) A) (hR : answerIn m (.apply G A) = .ok R)
    (hlast : ∀ x b ρ, S (.fn x [] b ρ) → ∀ v, Evals P ((x, ta) :: ρ) b v → S' v)
    (hmore : ∀ x p ps b ρ, S (.fn x (p :: ps) b ρ) → S' (.fn p ps b ((x, ta) :: ρ)))
    (hnlast : ∀ k g ts ks i, S (.native k g ts) → ts.length + 1 = k → ForceAll P (ts ++ [ta]) ks → g ks = .ok i →
      S' (.int i))
    (hnmore : ∀ k g ts, S (.native k g ts) → ts.length + 1 ≠ k → S' (.native k g (ts ++ [ta]))) :
    Stands P top S' R := by
  cases m with
  | zero => cases hR
  | succ m =>
    simp only [answerIn, layer, Out.bind_eq_ok] at hR
    obtain ⟨M, hM, hR⟩ := hR
    rcases hn m (by omega) S G M hG hM with ⟨v, h1, h2⟩ | ⟨Y, rfl, -⟩
    · cases h2 with
      | int => cases hR
      | bool => cases hR
      | fn he hb hx hps =>
        rename_i x ps b ρ env
        simp only [Out.bind_eq_ok] at hR
        obtain ⟨c, hc, hR⟩ := hR
        have he' := hA.cons hx he
        cases ps with
        | nil =>
          have hs : Stands P top S' c := (Core.bound he' hb (answer_of_in hc) (hlast _ _ _ h1)).stands
          exact hn.typeOf (by omega) hs hR
        | cons p ps =>
          have hc' : c = .closure (lams ps (ast b)) p top ((x, .value A) :: env) := by
            cases m with
            | zero => cases hc
            | succ m => injection hc with hc; exact hc.symm
          subst hc'
          exact hn.typeOf (by omega) (Core.final (hmore _ _ _ _ _ h1)
            (.fn he' hb (hps p (by simp)) fun q hq => hps q (by simp [hq]))).stands hR
      | native hts =>
        rename_i k g ts cs
        have hl := hts.length
        dsimp only at hR
        by_cases hk : cs.length + 1 = k
        · rw [if_pos (show cs.length + 1 = (Prim.native k g).arity from hk)] at hR
          have hR : ((HsEval.numbers (answerIn m) (cs ++ [A])).bind fun ks => (g ks).bind fun k => .ok (.intc k)) = .ok R := by
            rw [← hR]
            cases hcs : cs ++ [A] <;> rfl
          simp only [Out.bind_eq_ok] at hR
          obtain ⟨ks, hks, i, hi, hR⟩ := hR
          injection hR with hR
          subst hR
          exact (Core.final (hnlast _ _ _ _ _ h1 (by omega) (hn.numbers (by omega) (hts.snoc hA) hks) hi) .int).stands
        · rw [if_neg (show ¬ cs.length + 1 = (Prim.native k g).arity from hk)] at hR
          injection hR with hR
          subst hR
          exact (Core.final (hnmore _ _ _ h1 (by omega)) (.native (hts.snoc hA))).stands
    · cases hR

theorem stands_bound {ρ : Locals} {env : HsEnv} {e : HsExp} {c : Cls} (h1 : EnvRel P top ρ env) (h2 : e.Named)
    (h3 : answer (.bind (ast e) top env) = .ok c) : Stands P top (Evals P ρ e) c :=
  (Core.bound h1 h2 h3 fun _ hv => hv).stands

theorem bothBool_compatible {o : List Chr} {v w : HsVal} {i j : Int} (hv : v.number = some i) (hw : w.number = some j)
    (h : o ∈ arithOps → bothBool (valCls v) (valCls w) = false) : Compatible o v w := by
  intro ho
  have h := h ho
  cases v with
  | int k => exact .inl ⟨k, rfl⟩
  | bool b =>
    cases w with
    | int k => exact .inr ⟨k, rfl⟩
    | bool b' => cases h
    | fn => cases hw
    | native => cases hw
  | fn => cases hv
  | native => cases hv

theorem membersSound (hr : Rep P top) (n : Nat) : MembersSound P top n := by
  induction n using Nat.strongRecOn with
  | _ n ih =>
    cases n with
    | zero => intro S X M _ h; cases h
    | succ n =>
      have hb : SoundBelow P top (n + 1) := fun m hm => ih m hm
      rintro S X M ⟨k, c, rfl, hc⟩ hM
      cases k with
      | succ k =>
        injection hM with hM
        subst hM
        exact .inr ⟨_, rfl, k, c, rfl, hc⟩
      | zero =>
        simp only [wrap] at hM
        cases hc with
        | final h1 h2 =>
          obtain rfl := membersIn_final h2 hM
          exact .inl ⟨_, h1, h2⟩
        | bound hρ he hbind ht =>
          obtain ⟨m, hm⟩ := exists_answerIn (.bind (ast _) top _)
          rw [hbind] at hm
          cases bind_shape hr m hρ he hm with
          | value h =>
            injection hM with hM
            subst hM
            exact .inr ⟨_, rfl, h S ht⟩
          | final h1 h2 =>
            obtain rfl := membersIn_final h2 hM
            exact .inl ⟨_, ht _ h1, h2⟩
          | app hρ' hf ha hF hA hev =>
            simp only [answerIn, layer, Out.bind_eq_ok] at hM
            obtain ⟨G, hG, R, hR, hM⟩ := hM
            refine ih n (by omega) S R M ?_ hM
            refine hb.apply (by omega) (hb.typeOf (by omega) (stands_bound hρ' hf hF) hG) ((stands_bound hρ' ha hA).better fun _ hv => .delayed hv)
              hR ?_ ?_ ?_ ?_
            · exact fun x b ρ h v hv => ht v (hev v (.last h hv))
            · exact fun x p ps b ρ h => ht _ (hev _ (.more h))
            · exact fun k g ts ks i h1 h2 h3 h4 => ht _ (hev _ (.lastNative h1 h2 h3 h4))
            · exact fun k g ts h1 h2 => ht _ (hev _ (.moreNative h1 h2))
          | op hρ' ha hb' hp hA hB hev =>
            simp only [answerIn, layer, Out.bind_eq_ok] at hM
            obtain ⟨G, hG, R, hR, hM⟩ := hM
            have ha2 := primOf_arity hp
            obtain rfl := answerIn_eq hG (typeOf_curried (typeOf_lval _) (by rw [ha2]; simp))
            cases n with
            | zero => cases hR
            | succ n =>
              simp only [answerIn, layer, Out.bind_eq_ok] at hR
              obtain ⟨C, hC, hR⟩ := hR
              obtain rfl := answerIn_eq hC (members_curry ..)
              simp only [List.nil_append, List.length_cons, List.length_nil, ha2, if_pos, List.cons_append] at hR
              obtain ⟨x, y, hx, hy, hop, i, j, u, hi, hj, hu, rfl⟩ := (primOf_opCls hp ..).1 hR
              obtain ⟨v, hv, hvi, rfl⟩ := (hb.constant (by omega) (stands_bound hρ' ha hA) hx).number hi
              obtain ⟨w, hw, hwj, rfl⟩ := (hb.constant (by omega) (stands_bound hρ' hb' hB) hy).number hj
              have hE := ht _ (hev _ (.op hv hw hvi hwj (bothBool_compatible hvi hwj hop) hu))
              have hF : Final P top u (valCls u) := final_operate hu
              exact ih (n + 1) (by omega) S _ M (Core.final hE hF).stands hM
          | cond hρ' hc ha hb' hC hA hB hev =>
            simp only [answerIn, layer, Out.bind_eq_ok] at hM
            obtain ⟨G, hG, R, hR, hM⟩ := hM
            obtain rfl := answerIn_eq hG (typeOf_curried (typeOf_curried (typeOf_lval _) (by simp [Prim.arity])) (by simp [Prim.arity]))
            cases n with
            | zero => cases hR
            | succ n =>
              simp only [answerIn, layer, Out.bind_eq_ok] at hR
              obtain ⟨D, hD, hR⟩ := hR
              obtain rfl := answerIn_eq hD (members_curry ..)
              simp only [List.nil_append, List.length_cons, List.length_nil, Prim.arity, if_pos, List.cons_append, applyPrim,
                Out.bind_eq_ok] at hR
              obtain ⟨x, hx, i, hi, hR⟩ := hR
              obtain ⟨v, hv, hvi, rfl⟩ := (hb.constant (by omega) (stands_bound hρ' hc hC) hx).number hi
              by_cases h0 : i = 0
              · subst h0
                simp only [if_pos] at hR
                injection hR with hR
                subst hR
                exact (ih (n + 1) (by omega) _ _ M (stands_bound hρ' hb' hB) hM).better fun u hu =>
                  ht _ (hev _ (.elseBranch hv hvi hu))
              · simp only [if_neg h0] at hR
                injection hR with hR
                subst hR
                exact (ih (n + 1) (by omega) _ _ M (stands_bound hρ' ha hA) hM).better fun u hu =>
                  ht _ (hev _ (.thenBranch hv hvi h0 hu))

end HsEval

end Metaparse
