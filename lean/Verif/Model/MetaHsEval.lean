import Verif.Model.MetaHs
/-!
# The evaluation of the functions of the example `meta_hs`

`/repo/example/meta_hs/` turns syntax trees into metafunction classes. Files without a directory are in
`/repo/example/meta_hs/`.
-/

namespace Metaparse

namespace HsEval

/-- The templates that are made into functions: `lazy_plus`, ..., `lazy_not_equal_to`
(`meta_hs.hpp:28-46`), `semantic::if_::lazy_if` (`semantic.hpp:56-57`), and templates with `arity` parameters
that compute an `int` from the integral constants that are the members `type` of their arguments, like
`double_number` (`double_number.hpp:12-15`). -/
inductive Prim where
  | plus | minus | times | divides
  | less | lessEqual | greater | greaterEqual | equalTo | notEqualTo
  | lazyIf
  | native (arity : Nat) (f : List Int → Out Int)

/-- The number of parameters of the templates (`meta_hs.hpp:30`, `semantic.hpp:56`, `double_number.hpp:12`) -/
def Prim.arity : Prim → Nat
  | .lazyIf => 3
  | .native n _ => n
  | _ => 2

mutual

/-- The classes that take part in the evaluation (`lazy.hpp:13-20`, `bind.hpp:41-57`, `curry.hpp:40-61`). -/
inductive Cls where
  /-- `mpl::int_<k>`, `mpl::integral_c<int, k>` (Boost.MPL) -/
  | intc (k : Int)
  /-- `mpl::bool_<b>` (Boost.MPL) -/
  | boolc (b : Bool)
  /-- `lazy::value<V>` (`lazy.hpp:13-17`): it has a member `type`, and no member `value`, `tag` or `apply` -/
  | lval (v : Cls)
  /-- `lazy::application<F, Arg>` (`lazy.hpp:19-20`): its members are those of its base class -/
  | lapp (f arg : Cls)
  /-- `bind<ast::lambda<F, ArgName>, TopEnv, Env>` (`bind.hpp:41-57`) -/
  | closure (f : Ast) (argName : List Chr) (top env : List (List Chr × Ast))
  /-- `impl::next_currying_step` (`curry.hpp:40-61`) with the template, and the arguments so far. The classes
  `curry1` to `curry4` (`curry.hpp:88-102`), which derive from the first step, are not distinguished from it. -/
  | curry (p : Prim) (args : List Cls)

/-- The classes of `ast.hpp:11-39` -/
inductive Ast where
  /-- `ast::value` (`ast.hpp:11-15`) -/
  | value (v : Cls)
  /-- `ast::ref` (`ast.hpp:17-21`) -/
  | ref (name : List Chr)
  /-- `ast::application` (`ast.hpp:23-27`) -/
  | application (f arg : Ast)
  /-- `ast::lambda` (`ast.hpp:29-33`) -/
  | lambda (f : Ast) (argName : List Chr)
  /-- `ast::top_bound` (`ast.hpp:35-39`) -/
  | topBound (e : Ast)

end

/-- An `mpl::map` from names to syntax trees (Boost.MPL): `mpl::insert` puts a pair in front of the others,
`mpl::at` finds the first one, and gives `void_` if there is none. (`bind.hpp:16-60` looks names up in it.) -/
abbrev HsEnv := List (List Chr × Ast)

/-- What can be asked about classes (`bind.hpp:16-60`, `lazy.hpp:13-20`, `curry.hpp:31-81`). -/
inductive Query where
  /-- `bind<AST, TopEnv, Env>::type` -/
  | bind (ast : Ast) (top env : HsEnv)
  /-- the class from which `c` has its members: `c` or one of its bases -/
  | members (c : Cls)
  /-- `c::type` -/
  | typeOf (c : Cls)
  /-- `f::apply<arg>::type` -/
  | apply (f arg : Cls)

/-- The value of an integral constant. (`meta_hs.hpp:28-46` computes with them.) -/
def Cls.number : Cls → Out Int
  | .intc k => .ok k
  | .boolc b => .ok (if b then 1 else 0)
  | _ => .ill .noValue

/-- `mpl::plus`, `mpl::minus`, `mpl::times` and `mpl::divides` of two integral constants (Boost.MPL). The type
of the result is `int` if one of the arguments is an `int`; two `bool`s are not modelled, they are treated as an
error (`meta_hs.hpp:28-46`). -/
def arith (f : Int → Int → Out Int) (a b : Cls) : Out Cls :=
  match a, b with
  | .boolc _, .boolc _ => .ill .noSpecialisation
  | a, b => a.number.bind fun x => b.number.bind fun y => (f x y).bind fun z => .ok (.intc z)

/-- `mpl::less` and the like, of two integral constants (Boost.MPL) (`meta_hs.hpp:28-46`) -/
def compare (f : Int → Int → Bool) (a b : Cls) : Out Cls :=
  a.number.bind fun x => b.number.bind fun y => .ok (.boolc (f x y))

/-- The division of two constants of type `int` in C++ (`meta_hs.hpp:28-46`) -/
def division (x y : Int) : Out Int := if y = 0 then .ill .divByZero else intC (x.tdiv y)

/-- The integral constant that is the member `type` of a class: its members `tag` and `value` may be
inherited (`meta_hs.hpp:28-46`). -/
def constant (ask : Query → Out Cls) (a : Cls) : Out Cls :=
  (ask (.typeOf a)).bind fun t => ask (.members t)

/-- The numbers that are the members `type` of classes (`double_number.hpp:12-15`). -/
def numbers (ask : Query → Out Cls) : List Cls → Out (List Int)
  | [] => .ok []
  | a :: as => (constant ask a).bind fun c => c.number.bind fun k => (numbers ask as).bind fun ks => .ok (k :: ks)

/-- `T<args...>::type` for the templates (`meta_hs.hpp:28-46`, `semantic.hpp:56-57`) -/
def applyPrim (ask : Query → Out Cls) : Prim → List Cls → Out Cls
  | .plus, [a, b] => (constant ask a).bind fun x => (constant ask b).bind fun y => arith (fun i j => intC (i + j)) x y
  | .minus, [a, b] => (constant ask a).bind fun x => (constant ask b).bind fun y => arith (fun i j => intC (i - j)) x y
  | .times, [a, b] => (constant ask a).bind fun x => (constant ask b).bind fun y => arith (fun i j => intC (i * j)) x y
  | .divides, [a, b] => (constant ask a).bind fun x => (constant ask b).bind fun y => arith division x y
  | .less, [a, b] => (constant ask a).bind fun x => (constant ask b).bind fun y => compare (fun i j => decide (i < j)) x y
  | .lessEqual, [a, b] =>
      (constant ask a).bind fun x => (constant ask b).bind fun y => compare (fun i j => decide (i ≤ j)) x y
  | .greater, [a, b] =>
      (constant ask a).bind fun x => (constant ask b).bind fun y => compare (fun i j => decide (j < i)) x y
  | .greaterEqual, [a, b] =>
      (constant ask a).bind fun x => (constant ask b).bind fun y => compare (fun i j => decide (j ≤ i)) x y
  | .equalTo, [a, b] =>
      (constant ask a).bind fun x => (constant ask b).bind fun y => compare (fun i j => decide (i = j)) x y
  | .notEqualTo, [a, b] =>
      (constant ask a).bind fun x => (constant ask b).bind fun y => compare (fun i j => decide (i ≠ j)) x y
  | .lazyIf, [c, t, f] => (constant ask c).bind fun x => x.number.bind fun k => .ok (if k = 0 then f else t)
  | .native _ f, as => (numbers ask as).bind fun ks => (f ks).bind fun k => .ok (.intc k)
  | _, _ => .ill .noSpecialisation

/-- One layer of instantiation: `bind` (`bind.hpp:16-60`), `lazy::value` and `lazy::application`
(`lazy.hpp:13-20`), `curry_impl` and `next_currying_step` (`curry.hpp:31-81`). That a class is needed for its own
definition is not distinguished from unlimited recursion. -/
def layer (ask : Query → Out Cls) : Query → Out Cls
  | .bind (.value v) _ _ => .ok (.lval v)
  | .bind (.ref name) top env =>
      match env.lookup name with
      | some a => ask (.bind a top env)
      | none => .ill .noSpecialisation
  | .bind (.application f arg) top env =>
      (ask (.bind f top env)).bind fun g => (ask (.bind arg top env)).bind fun a => .ok (.lapp g a)
  | .bind (.lambda f argName) top env => .ok (.closure f argName top env)
  | .bind (.topBound e) top _ => ask (.bind e top top)
  | .members (.lapp f arg) =>
      (ask (.typeOf f)).bind fun g => (ask (.apply g arg)).bind fun r => ask (.members r)
  | .members c => .ok c
  | .typeOf c => (ask (.members c)).bind fun
      | .lval v => .ok v
      | m => .ok m
  | .apply f arg => (ask (.members f)).bind fun
      | .closure body argName top env =>
          (ask (.bind body top ((argName, .value arg) :: env))).bind fun c => ask (.typeOf c)
      | .curry p args =>
          if args.length + 1 = p.arity then applyPrim ask p (args ++ [arg]) else .ok (.curry p (args ++ [arg]))
      | _ => .ill .noSpecialisation

/-- The answer when instantiations are nested at most `n` deep (`bind.hpp:16-60`, `lazy.hpp:13-20`, `curry.hpp:31-81`). -/
def answerIn : Nat → Query → Out Cls
  | 0, _ => .deep
  | n + 1, q => layer (answerIn n) q

open Classical in
/-- The limit of answers with growing depth: `deep` means that no depth suffices (`bind.hpp:16-60`). -/
noncomputable def limitOf {α : Type} (f : Nat → Out α) : Out α :=
  if h : ∃ n, f n ≠ .deep then f (Classical.choose h) else .deep

/-- The answer without a limit on the depth (`bind.hpp:16-60`, `lazy.hpp:13-20`, `curry.hpp:31-81`). -/
noncomputable def answer (q : Query) : Out Cls := limitOf fun n => answerIn n q

/-! ## The builder (`builder.hpp`) -/

/-- The syntax trees that the parser makes, as classes of `ast.hpp:11-39` -/
def decode : Val → Out Ast
  | .user 40 [.int n] => .ok (.value (.intc n))
  | .user 40 [.user 46 []] => .ok (.value (.curry .lazyIf []))
  | .user 41 [.str w] => .ok (.ref w)
  | .user 42 [f, a] => (decode f).bind fun f => (decode a).bind fun a => .ok (.application f a)
  | .user 43 [f, .str w] => (decode f).bind fun f => .ok (.lambda f w)
  | .user 44 [e] => (decode e).bind fun e => .ok (.topBound e)
  | _ => .ill .noSpecialisation

/-- `builder::import` (`builder.hpp:32-40`) -/
def importValue (env : HsEnv) (name : List Chr) (v : Cls) : HsEnv := (name, .value v) :: env

/-- `builder::import1` to `builder::import4` (`builder.hpp:42-61`) -/
def importTemplate (env : HsEnv) (name : List Chr) (p : Prim) : HsEnv := (name, .value (.curry p [])) :: env

/-- `builder::define` (`builder.hpp:63-71`) -/
noncomputable def define (E : Env (List Chr)) (env : HsEnv) (s : List Chr) : Out HsEnv :=
  (MetaHs.defParser E s).bind fun
    | .user 45 [.str f, e] => (decode e).bind fun a => .ok ((f, a) :: env)
    | _ => .ill .noSpecialisation

/-- `builder::get` (`builder.hpp:73-76`) -/
noncomputable def get (env : HsEnv) (s : List Chr) : Out Cls :=
  match env.lookup s with
  | some a => (answer (.bind a env env)).bind fun c => answer (.typeOf c)
  | none => .ill .noSpecialisation

/-- `meta_hs` (`meta_hs.hpp:49-61`) -/
def metaHs : HsEnv :=
  let e := importTemplate [] (txt ".+.") .plus
  let e := importTemplate e (txt ".-.") .minus
  let e := importTemplate e (txt ".*.") .times
  let e := importTemplate e (txt "./.") .divides
  let e := importTemplate e (txt ".<.") .less
  let e := importTemplate e (txt ".<=.") .lessEqual
  let e := importTemplate e (txt ".>.") .greater
  let e := importTemplate e (txt ".>=.") .greaterEqual
  let e := importTemplate e (txt ".==.") .equalTo
  importTemplate e (txt "./=.") .notEqualTo

/-- What programs do with a builder (`builder.hpp:32-71`, as in `example_in_haskell.hpp:33-42`): import a number or
a template that computes numbers under a name, or define a function -/
inductive HsCommand where
  | constant (name : List Chr) (k : Int)
  | native (name : List Chr) (arity : Nat) (f : List Int → Out Int)
  | define (s : List Chr)

/-- A chain `builder<...>::import<...>::type::define<...>::type ...` (`builder.hpp:32-71`) -/
noncomputable def build (E : Env (List Chr)) : HsEnv → List HsCommand → Out HsEnv
  | env, [] => .ok env
  | env, .constant w k :: cs => build E (importValue env w (.intc k)) cs
  | env, .native w n f :: cs => build E (importTemplate env w (.native n f)) cs
  | env, .define s :: cs => (define E env s).bind fun env => build E env cs

/-- `F::apply<int_<k1>>::type::apply<int_<k2>>::type ...` (`main_in_haskell.cpp:15-18`) -/
noncomputable def applyAll : Cls → List Int → Out Cls
  | c, [] => .ok c
  | c, k :: ks => (answer (.apply c (.intc k))).bind fun c => applyAll c ks

/-- `get<F>::apply<int_<k1>>::type ... ::value` (`builder.hpp:73-76`, `main_in_haskell.cpp:15-18`) -/
noncomputable def callNumber (env : HsEnv) (f : List Chr) (ks : List Int) : Out Int :=
  (get env f).bind fun c => (applyAll c ks).bind fun r => (answer (.members r)).bind Cls.number

/-! ## The example (`example_in_haskell.hpp`, `example_handcrafted.hpp`) -/

/-- `double_number` (`double_number.hpp:12-15`) -/
def doubleNumber : List Int → Out Int
  | [n] => intC (n * 2)
  | _ => .ill .noSpecialisation

/-- `metafunctions` (`example_in_haskell.hpp:33-42`) -/
noncomputable def metafunctions (E : Env (List Chr)) : Out HsEnv :=
  build E metaHs [.native (txt "f") 1 doubleNumber, .constant (txt "val") 11,
    .define (txt "fib n = if n<2 then 1 else fib(n-2) + fib(n-1)"),
    .define (txt "fact n = if n<1 then 1 else n * fact(n-1)"),
    .define (txt "times4 n = f (f n)"),
    .define (txt "times11 n = n * val")]

/-- `F::apply<int_<k>>::type::value` for one of the functions (`example_in_haskell.hpp:44-47`,
`main_in_haskell.cpp:15-18`) -/
noncomputable def callExample (E : Env (List Chr)) (name : List Chr) (k : Int) : Out Int :=
  (metafunctions E).bind fun e => callNumber e name [k]

namespace Handcrafted

/-- `fib::apply<int_<k>>::type` with at most so many nested calls (`example_handcrafted.hpp:20-47`) -/
def fibIn : Nat → Int → Out Int
  | 0, _ => .deep
  | n + 1, k =>
      if k < 2 then .ok 1
      else (intC (k - 1)).bind fun a => (fibIn n a).bind fun x => (intC (k - 2)).bind fun b =>
        (fibIn n b).bind fun y => intC (x + y)

/-- `fib::apply<int_<k>>::type` (`example_handcrafted.hpp:20-47`) -/
noncomputable def fib (k : Int) : Out Int := limitOf fun n => fibIn n k

/-- `fact::apply<int_<k>>::type` with at most so many nested calls (`example_handcrafted.hpp:49-74`) -/
def factIn : Nat → Int → Out Int
  | 0, _ => .deep
  | n + 1, k =>
      if k < 1 then .ok 1
      else (intC (k - 1)).bind fun a => (factIn n a).bind fun x => intC (k * x)

/-- `fact::apply<int_<k>>::type` (`example_handcrafted.hpp:49-74`) -/
noncomputable def fact (k : Int) : Out Int := limitOf fun n => factIn n k

/-- `times4::apply<int_<k>>::type` (`example_handcrafted.hpp:76-82`) -/
def times4 (k : Int) : Out Int := (intC (k * 2)).bind fun x => intC (x * 2)

/-- `times11::apply<int_<k>>::type` (`example_handcrafted.hpp:18,84-90`) -/
def times11 (k : Int) : Out Int := intC (k * 11)

end Handcrafted

end HsEval

end Metaparse
