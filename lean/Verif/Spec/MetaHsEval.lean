import Verif.Spec.MetaHs
import Verif.Model.MetaHsEval
/-!
# The meaning of programs of the example `meta_hs`

Call by name evaluation of the language of `Verif.Spec.MetaHs`, independent of the classes of the example.
-/

namespace Metaparse

/-- What a name of a program stands for. -/
inductive HsItem where
  /-- an imported number -/
  | constant (k : Int)
  /-- an imported function of `arity` numbers -/
  | native (arity : Nat) (f : List Int → Out Int)
  /-- a definition -/
  | function (ps : List (List Chr)) (body : HsExp)

/-- A program; when there are several items with the same name the first one counts. -/
abbrev HsProgram := List (List Chr × HsItem)

/-- What a parameter stands for: a number given from outside, or an argument that is evaluated when it is
needed, with the parameters it may mention. -/
inductive Thunk where
  | given (k : Int)
  | delayed (e : HsExp) (locals : List (List Chr × Thunk))

/-- Parameters; when there are several with the same name the first one counts. -/
abbrev Locals := List (List Chr × Thunk)

/-- Results. -/
inductive HsVal where
  | int (k : Int)
  | bool (b : Bool)
  /-- a function of the parameter `x` and the parameters `ps` -/
  | fn (x : List Chr) (ps : List (List Chr)) (body : HsExp) (locals : Locals)
  /-- an imported function with the arguments so far -/
  | native (arity : Nat) (f : List Int → Out Int) (args : List Thunk)

/-- The number a result is: `true` is 1, `false` is 0, functions are not numbers. -/
def HsVal.number : HsVal → Option Int
  | .int k => some k
  | .bool b => some (if b then 1 else 0)
  | _ => none

/-- The result of an operation is a number if `int` can hold it. -/
def fitting (k : Int) : Option HsVal := if -2147483648 ≤ k ∧ k ≤ 2147483647 then some (.int k) else none

/-- The results of the operators on numbers. Division truncates. -/
def operate (o : List Chr) (i j : Int) : Option HsVal :=
  if o = txt "+" then fitting (i + j)
  else if o = txt "-" then fitting (i - j)
  else if o = txt "*" then fitting (i * j)
  else if o = txt "/" then if j = 0 then none else fitting (i.tdiv j)
  else if o = txt "<" then some (.bool (decide (i < j)))
  else if o = txt "<=" then some (.bool (decide (i ≤ j)))
  else if o = txt ">" then some (.bool (decide (i > j)))
  else if o = txt ">=" then some (.bool (decide (i ≥ j)))
  else if o = txt "==" then some (.bool (decide (i = j)))
  else if o = txt "/=" then some (.bool (decide (i ≠ j)))
  else none

/-- The arithmetic operators do not work on two truth values. -/
def Compatible (o : List Chr) (v w : HsVal) : Prop :=
  o ∈ [txt "+", txt "-", txt "*", txt "/"] → (∃ i, v = .int i) ∨ ∃ j, w = .int j

mutual

/-- `Evals P ρ e v`: in the program `P`, the expression `e` has the result `v` when its parameters are `ρ`. -/
inductive Evals (P : HsProgram) : Locals → HsExp → HsVal → Prop
  | num {ρ : Locals} {n : Int} : Evals P ρ (.num n) (.int n)
  | param {ρ : Locals} {x : List Chr} {t : Thunk} {v : HsVal} : ρ.lookup x = some t → Force P t v →
      Evals P ρ (.var x) v
  | constant {ρ : Locals} {x : List Chr} {k : Int} : ρ.lookup x = none → P.lookup x = some (.constant k) →
      Evals P ρ (.var x) (.int k)
  | native {ρ : Locals} {x : List Chr} {n : Nat} {f : List Int → Out Int} : ρ.lookup x = none →
      P.lookup x = some (.native n f) → Evals P ρ (.var x) (.native n f [])
  | definition {ρ : Locals} {x : List Chr} {b : HsExp} {v : HsVal} : ρ.lookup x = none →
      P.lookup x = some (.function [] b) → Evals P [] b v → Evals P ρ (.var x) v
  | function {ρ : Locals} {x p : List Chr} {ps : List (List Chr)} {b : HsExp} : ρ.lookup x = none →
      P.lookup x = some (.function (p :: ps) b) → Evals P ρ (.var x) (.fn p ps b [])
  | thenBranch {ρ : Locals} {c t e : HsExp} {w : HsVal} {k : Int} {v : HsVal} : Evals P ρ c w →
      w.number = some k → k ≠ 0 → Evals P ρ t v → Evals P ρ (.cond c t e) v
  | elseBranch {ρ : Locals} {c t e : HsExp} {w v : HsVal} : Evals P ρ c w → w.number = some 0 →
      Evals P ρ e v → Evals P ρ (.cond c t e) v
  | op {ρ : Locals} {o : List Chr} {a b : HsExp} {v w u : HsVal} {i j : Int} : Evals P ρ a v → Evals P ρ b w →
      v.number = some i → w.number = some j → Compatible o v w → operate o i j = some u →
      Evals P ρ (.op o a b) u
  | last {ρ ρ' : Locals} {f a b : HsExp} {x : List Chr} {v : HsVal} : Evals P ρ f (.fn x [] b ρ') →
      Evals P ((x, .delayed a ρ) :: ρ') b v → Evals P ρ (.app f a) v
  | more {ρ ρ' : Locals} {f a b : HsExp} {x p : List Chr} {ps : List (List Chr)} :
      Evals P ρ f (.fn x (p :: ps) b ρ') → Evals P ρ (.app f a) (.fn p ps b ((x, .delayed a ρ) :: ρ'))
  | lastNative {ρ : Locals} {f a : HsExp} {n : Nat} {g : List Int → Out Int} {ts : List Thunk} {ks : List Int}
      {k : Int} : Evals P ρ f (.native n g ts) → ts.length + 1 = n → ForceAll P (ts ++ [.delayed a ρ]) ks →
      g ks = .ok k → Evals P ρ (.app f a) (.int k)
  | moreNative {ρ : Locals} {f a : HsExp} {n : Nat} {g : List Int → Out Int} {ts : List Thunk} :
      Evals P ρ f (.native n g ts) → ts.length + 1 ≠ n → Evals P ρ (.app f a) (.native n g (ts ++ [.delayed a ρ]))

/-- The result of what a parameter stands for. -/
inductive Force (P : HsProgram) : Thunk → HsVal → Prop
  | given {k : Int} : Force P (.given k) (.int k)
  | delayed {ρ : Locals} {e : HsExp} {v : HsVal} : Evals P ρ e v → Force P (.delayed e ρ) v

/-- The numbers that several parameters stand for. -/
inductive ForceAll (P : HsProgram) : List Thunk → List Int → Prop
  | nil : ForceAll P [] []
  | cons {t : Thunk} {ts : List Thunk} {v : HsVal} {k : Int} {ks : List Int} : Force P t v → v.number = some k →
      ForceAll P ts ks → ForceAll P (t :: ts) (k :: ks)

end

/-- `Calls P v ks w`: the function `v` called with the numbers `ks` one after the other gives `w`. -/
inductive Calls (P : HsProgram) : HsVal → List Int → HsVal → Prop
  | nil {v : HsVal} : Calls P v [] v
  | last {x : List Chr} {b : HsExp} {ρ : Locals} {k : Int} {ks : List Int} {v w : HsVal} :
      Evals P ((x, .given k) :: ρ) b v → Calls P v ks w → Calls P (.fn x [] b ρ) (k :: ks) w
  | more {x p : List Chr} {ps : List (List Chr)} {b : HsExp} {ρ : Locals} {k : Int} {ks : List Int} {w : HsVal} :
      Calls P (.fn p ps b ((x, .given k) :: ρ)) ks w → Calls P (.fn x (p :: ps) b ρ) (k :: ks) w
  | lastNative {n : Nat} {g : List Int → Out Int} {ts : List Thunk} {k i : Int} {is : List Int} :
      ts.length + 1 = n → ForceAll P (ts ++ [.given k]) is → g is = .ok i →
      Calls P (.native n g ts) [k] (.int i)
  | moreNative {n : Nat} {g : List Int → Out Int} {ts : List Thunk} {k : Int} {ks : List Int} {w : HsVal} :
      ts.length + 1 ≠ n → Calls P (.native n g (ts ++ [.given k])) ks w → Calls P (.native n g ts) (k :: ks) w

/-- `Written lax P cs Q`: the program `Q` is the program `P` and the items that the commands `cs` add to it. -/
inductive Written (lax : Bool) : HsProgram → List HsEval.HsCommand → HsProgram → Prop
  | nil {P : HsProgram} : Written lax P [] P
  | constant {P Q : HsProgram} {w : List Chr} {k : Int} {cs : List HsEval.HsCommand} : IsName w →
      Written lax ((w, .constant k) :: P) cs Q → Written lax P (.constant w k :: cs) Q
  | native {P Q : HsProgram} {w : List Chr} {n : Nat} {f : List Int → Out Int} {cs : List HsEval.HsCommand} :
      IsName w → Written lax ((w, .native n f) :: P) cs Q → Written lax P (.native w n f :: cs) Q
  | define {P Q : HsProgram} {s f : List Chr} {ps : List (List Chr)} {b : HsExp} {cs : List HsEval.HsCommand} :
      HsDef lax s f ps b → Written lax ((f, .function ps b) :: P) cs Q → Written lax P (.define s :: cs) Q

/-- Imports are made under names. -/
def NamedImports (cs : List HsEval.HsCommand) : Prop :=
  ∀ c ∈ cs, match c with
    | .constant w _ => IsName w
    | .native w _ _ => IsName w
    | .define _ => True

/-- `HasResult P f ks k`: in the program `P` the function `f` gives the number `k` for the numbers `ks`. -/
def HasResult (P : HsProgram) (f : List Chr) (ks : List Int) (k : Int) : Prop :=
  ∃ v w, Evals P [] (.var f) v ∧ Calls P v ks w ∧ w.number = some k

/-! ## The programs that compile -/

/-- The function is imported, perhaps with some arguments already. -/
def HsExp.Imported (P : HsProgram) (bound : List (List Chr)) : HsExp → Prop
  | .var w => w ∉ bound ∧ ∃ n f, P.lookup w = some (.native n f)
  | .app f _ => f.Imported P bound
  | _ => False

/-- The expressions that may be arguments of definitions: neither numbers nor parameters. -/
def HsExp.Passable (P : HsProgram) (bound : List (List Chr)) : HsExp → Prop
  | .num _ => False
  | .var w => w ∉ bound ∧ ∃ p ps b, P.lookup w = some (.function (p :: ps) b)
  | .app _ _ => True
  | .cond _ t e => t.Passable P bound ∧ e.Passable P bound
  | .op _ _ _ => True

/-- All names are defined, and arguments of anything that is not imported may be arguments of definitions. -/
def HsExp.Fine (P : HsProgram) (bound : List (List Chr)) : HsExp → Prop
  | .num _ => True
  | .var w => w ∈ bound ∨ ∃ i, P.lookup w = some i
  | .app f a => f.Fine P bound ∧ a.Fine P bound ∧ (f.Imported P bound ∨ a.Passable P bound)
  | .cond c t e => c.Fine P bound ∧ t.Fine P bound ∧ e.Fine P bound
  | .op o a b => (∃ l, o ∈ opsAt l) ∧ a.Fine P bound ∧ b.Fine P bound

/-- All definitions have parameters, and their bodies are fine. -/
def HsProgram.Fine (P : HsProgram) : Prop :=
  ∀ f ps b, P.lookup f = some (.function ps b) → ps ≠ [] ∧ b.Fine P ps

end Metaparse
