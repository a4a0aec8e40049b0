import Verif.Model.Preprocessor
/-!
# The part of C++ that `cpp11/impl/string.hpp` and `BOOST_METAPARSE_STRING` are written in

A parser of the tokens, and what they mean: one constexpr function, the specialisations of one class template, and the
expression that the macro expands to. `string`, `concat` and `string_at` are what the headers that are included define:
`cpp11/string.hpp:31-36`, `cpp11/impl/concat.hpp:18-23` and `cpp11/impl/string_at.hpp:19-26`.

Simplifications: constants are integers without bounds, `sizeof` included. `typename` is not checked. A class is what its
`::type` is.
-/

namespace Metaparse.StrHdr

open Gen (Str lit number)

/-- Expressions, types and arguments of templates. `abs` is a name that begins with `::`.
The header has them at `/repo/tools/string_headers.py:148-151`, `171-197` and `235-238`. -/
inductive Ex where
  | num (n : Nat)
  | str (s : List Chr)
  | var (abs : Bool) (path : List Str)
  | pack (x : Str)
  | sizeof (e : Ex)
  | call (abs : Bool) (path : List Str) (targs args : List Ex)
  | tmpl (abs : Bool) (path : List Str) (args : List Ex)
  | type (e : Ex)
  | sub (a b : Ex)
  | ge (a b : Ex)
  | cond (c a b : Ex)

/-- A number begins with a digit (`/repo/tools/string_headers.py:154`, `175` and `186`). -/
def isNumber : Str → Bool
  | c :: _ => '0' ≤ c && c ≤ '9'
  | [] => false

/-- The rest of a name: `::x::y` (`/repo/tools/string_headers.py:235-240`) -/
def pathRest : List Tok → List Str × List Tok
  | .p ':' :: .p ':' :: .id x :: ts => (x :: (pathRest ts).1, (pathRest ts).2)
  | ts => ([], ts)

mutual
/-- A number, a literal, a name with its arguments, or an expression in brackets.
The header has them at `/repo/tools/string_headers.py:148-151`, `171-197` and `235-238`. -/
def prim : Nat → List Tok → Option (Ex × List Tok)
  | 0, _ => none
  | n + 1, .p '(' :: ts => (expr n ts).bind fun r =>
      match r.2 with
      | .p ')' :: ts => some (r.1, ts)
      | _ => none
  | _ + 1, .str s :: ts => some (.str s, ts)
  | n + 1, .p ':' :: .p ':' :: .id x :: ts => named n true (x :: (pathRest ts).1) (pathRest ts).2
  | n + 1, .id x :: ts =>
      if isNumber x then some (.num (decimal x), ts)
      else if x = lit "typename" then prim n ts
      else if x = lit "sizeof" then (prim n ts).map fun r => (.sizeof r.1, r.2)
      else named n false (x :: (pathRest ts).1) (pathRest ts).2
  | _, _ => none
/-- What comes after a name. The header has them at `/repo/tools/string_headers.py:148-151`, `171-197` and `235-238`. -/
def named : Nat → Bool → List Str → List Tok → Option (Ex × List Tok)
  | 0, _, _, _ => none
  | n + 1, abs, path, .p '<' :: ts => (args n '>' ts).bind fun r =>
      match r.2 with
      | .p '(' :: ts => (args n ')' ts).map fun q => (.call abs path r.1 q.1, q.2)
      | .p ':' :: .p ':' :: .id x :: ts => if x = lit "type" then some (.type (.tmpl abs path r.1), ts) else none
      | ts => some (.tmpl abs path r.1, ts)
  | n + 1, abs, path, .p '(' :: ts => (args n ')' ts).map fun q => (.call abs path [] q.1, q.2)
  | _ + 1, _, path, .p '.' :: .p '.' :: .p '.' :: ts => path.head?.map fun x => (.pack x, ts)
  | _ + 1, abs, path, ts => some (.var abs path, ts)
/-- Arguments up to the closing bracket.
The header has them at `/repo/tools/string_headers.py:148-151`, `171-197` and `235-238`. -/
def args : Nat → Char → List Tok → Option (List Ex × List Tok)
  | 0, _, _ => none
  | n + 1, close, ts =>
      if ts.head? = some (.p close) then some ([], ts.tail)
      else (expr n ts).bind fun r =>
        match r.2 with
        | .p c :: ts =>
            if c = close then some ([r.1], ts)
            else if c = ',' then (args n close ts).map fun q => (r.1 :: q.1, q.2) else none
        | _ => none
/-- Differences, from the left: `e` is what has been read (`/repo/tools/string_headers.py:189` and `236`). -/
def diff : Nat → Ex → List Tok → Option (Ex × List Tok)
  | 0, _, _ => none
  | n + 1, e, .p '-' :: ts => (prim n ts).bind fun r => diff n (.sub e r.1) r.2
  | _ + 1, e, ts => some (e, ts)
/-- Comparisons (`/repo/tools/string_headers.py:150-155`). -/
def cmp : Nat → List Tok → Option (Ex × List Tok)
  | 0, _ => none
  | n + 1, ts => (prim n ts).bind fun r => (diff n r.1 r.2).bind fun r =>
      match r.2 with
      | .p '>' :: .p '=' :: ts => (prim n ts).bind fun q => (diff n q.1 q.2).bind fun q => some (Ex.ge r.1 q.1, q.2)
      | _ => some r
/-- Expressions: comparisons and `?:` (`/repo/tools/string_headers.py:150-155`). -/
def expr : Nat → List Tok → Option (Ex × List Tok)
  | 0, _ => none
  | n + 1, ts => (cmp n ts).bind fun r =>
      match r.2 with
      | .p '?' :: ts => (expr n ts).bind fun a =>
          match a.2 with
          | .p ':' :: ts => (expr n ts).bind fun b => some (Ex.cond r.1 a.1 b.1, b.2)
          | _ => none
      | _ => some r
end

/-- The parameters of a template after the `<`: whether they are packs, and their names
(`/repo/tools/string_headers.py:171-185`). -/
def tparams : List Tok → Option (List (Bool × Str) × List Tok)
  | .id _ :: .id x :: .p '>' :: ts => some ([(false, x)], ts)
  | .id _ :: .id x :: .p ',' :: ts => (tparams ts).map fun r => ((false, x) :: r.1, r.2)
  | .id _ :: .p '.' :: .p '.' :: .p '.' :: .id x :: .p '>' :: ts => some ([(true, x)], ts)
  | _ => none

/-- A declaration, with the namespace it is in: a constexpr function with one parameter, or a specialisation of a class
template with its base class (`/repo/tools/string_headers.py:148-151` and `171-197`). -/
inductive Decl where
  | fn (path : List Str) (param : Str) (body : Ex)
  | spec (path : List Str) (params : List (Bool × Str)) (args : List Ex) (base : Ex)

/-- The declarations of a program; `ns` is the namespace, outermost first. A class template that is only declared is
nothing (`/repo/tools/string_headers.py:148-151` and `171-197`). -/
def decls : Nat → List Str → List Tok → Option (List Decl)
  | 0, _, _ => none
  | _ + 1, ns, [] => if ns = [] then some [] else none
  | n + 1, ns, .p '}' :: ts => if ns = [] then none else decls n ns.dropLast ts
  | n + 1, ns, .id k :: ts =>
      if k = lit "namespace" then
        match ts with
        | .id x :: .p '{' :: ts => decls n (ns ++ [x]) ts
        | _ => none
      else if k = lit "constexpr" then
        match ts with
        | .id a :: .id b :: .id f :: .p '(' :: .id c :: .id x :: .p ')' :: .p '{' :: .id r :: ts =>
            if a = lit "inline" ∧ b = lit "int" ∧ c = lit "int" ∧ r = lit "return" then
              (expr n ts).bind fun e =>
                match e.2 with
                | .p ';' :: .p '}' :: ts => (decls n ns ts).map (.fn (ns ++ [f]) x e.1 :: ·)
                | _ => none
            else none
        | _ => none
      else if k = lit "template" then
        match ts with
        | .p '<' :: ts => (tparams ts).bind fun ps =>
            match ps.2 with
            | .id s :: .id _ :: .p ';' :: ts => if s = lit "struct" then decls n ns ts else none
            | .id s :: .id x :: .p '<' :: ts =>
                if s = lit "struct" then
                  (args n '>' ts).bind fun as =>
                    match as.2 with
                    | .p ':' :: ts => (expr n ts).bind fun b =>
                        match b.2 with
                        | .p '{' :: .p '}' :: .p ';' :: ts => (decls n ns ts).map (.spec (ns ++ [x]) ps.1 as.1 b.1 :: ·)
                        | _ => none
                    | _ => none
                else none
            | _ => none
        | _ => none
      else none
  | _ + 1, _, _ => none

/-! ### Meaning -/

/-- What expressions are: constants, and classes `string<…>` (`/repo/tools/string_headers.py:185-195`). -/
inductive Vl where
  | int (n : Int)
  | chars (s : List Chr)
  | string (s : List Chr)
deriving DecidableEq

/-- What a parameter is (`/repo/tools/string_headers.py:185-195`). -/
inductive Bd where
  | one (v : Vl)
  | many (vs : List Vl)

/-- The parameters (`/repo/tools/string_headers.py:185-195`). -/
abbrev Scope := List (Str × Bd)

/-- The value of a parameter (`/repo/tools/string_headers.py:185-195`). -/
def Scope.find (σ : Scope) (x : Str) : Option Bd :=
  match σ with
  | [] => none
  | (y, b) :: σ => if x = y then some b else Scope.find σ x

/-- The entities a name may stand for (`/repo/tools/string_headers.py:164-167` and `240`). -/
inductive Ent where
  | stringAt | concat | string | header
deriving DecidableEq

/-- Where the classes and functions are (`/repo/tools/string_headers.py:164-167` and `240`). -/
def v1 : List Str := [lit "boost", lit "metaparse", lit "v1"]

/-- The entity with a full name; `own` are those the header declares (`/repo/tools/string_headers.py:164-167` and `240`). -/
def entity (own : List (List Str)) (path : List Str) : Option (Ent × List Str) :=
  if path = v1 ++ [lit "string"] then some (.string, path)
  else if path = v1 ++ [lit "impl", lit "concat"] then some (.concat, path)
  else if path = v1 ++ [lit "impl", lit "string_at"] then some (.stringAt, path)
  else if path ∈ own then some (.header, path) else none

/-- Name lookup: a name that begins with `::` is looked up as it is, others from the namespace outwards; `k` namespaces are
left (`/repo/tools/string_headers.py:164-167` and `240`). -/
def resolve (own : List (List Str)) (ns : List Str) (abs : Bool) (path : List Str) : Nat → Option (Ent × List Str)
  | 0 => entity own path
  | k + 1 =>
      if abs then entity own path
      else match entity own (ns.take (k + 1) ++ path) with
        | some e => some e
        | none => resolve own ns abs path k

/-- The full name of a declaration (`/repo/tools/string_headers.py:164-167` and `240`). -/
def Decl.path : Decl → List Str
  | .fn p _ _ => p
  | .spec p _ _ _ => p

/-- The constants of a list (`/repo/tools/string_headers.py:186-187`). -/
def intsOf : List Vl → Option (List Int)
  | [] => some []
  | .int n :: vs => (intsOf vs).map (n :: ·)
  | _ => none

/-- The arguments of a specialisation. A parameter of the template matches everything, a pack all that is left
(`/repo/tools/string_headers.py:175` and `186`). -/
def matchArgs (ps : List (Bool × Str)) : List Ex → List Vl → Option Scope
  | [], [] => some []
  | [.pack x], vs => if (true, x) ∈ ps then some [(x, .many vs)] else none
  | .num k :: as, v :: vs => if v = .int k then matchArgs ps as vs else none
  | .var false [x] :: as, v :: vs => if (false, x) ∈ ps then (matchArgs ps as vs).map ((x, .one v) :: ·) else none
  | _, _ => none

/-- The specialisations that match (`/repo/tools/string_headers.py:175` and `186`). -/
def matching (path : List Str) (vs : List Vl) : List Decl → List (Scope × Ex)
  | [] => []
  | .spec p ps as b :: ds =>
      if p = path then
        match matchArgs ps as vs with
        | some σ => (σ, b) :: matching path vs ds
        | none => matching path vs ds
      else matching path vs ds
  | _ :: ds => matching path vs ds

/-- The function with a name (`/repo/tools/string_headers.py:148-151`). -/
def function (path : List Str) : List Decl → Option (Str × Ex)
  | [] => none
  | .fn p x b :: ds => if p = path then some (x, b) else function path ds
  | _ :: ds => function path ds

mutual
/-- The value of an expression or type in a namespace and a scope, in at most `n` steps (`Out.deep` otherwise).
The header has them at `/repo/tools/string_headers.py:148-151`, `171-197` and `235-238`. -/
def ev (ds : List Decl) : Nat → List Str → Scope → Ex → Out Vl
  | 0, _, _, _ => .deep
  | n + 1, ns, σ, e =>
      match e with
      | .num k => .ok (.int k)
      | .str s => .ok (.chars s)
      | .var false [x] => match σ.find x with
          | some (.one v) => .ok v
          | _ => .ill .noValue
      | .var _ _ => .ill .noValue
      | .pack _ => .ill .noValue
      | .sizeof e => (ev ds n ns σ e).bind fun
          | .chars s => .ok (.int (s.length + 1))
          | _ => .ill .noValue
      | .sub a b => (ev ds n ns σ a).bind fun x => (ev ds n ns σ b).bind fun y =>
          match x, y with
          | .int x, .int y => .ok (.int (x - y))
          | _, _ => .ill .noValue
      | .ge a b => (ev ds n ns σ a).bind fun x => (ev ds n ns σ b).bind fun y =>
          match x, y with
          | .int x, .int y => .ok (.int (if x ≥ y then 1 else 0))
          | _, _ => .ill .noValue
      | .cond c a b => (ev ds n ns σ c).bind fun
          | .int x => if x = 0 then ev ds n ns σ b else ev ds n ns σ a
          | _ => .ill .noValue
      | .call abs path targs as =>
          (evs ds n ns σ targs).bind fun ts => (evs ds n ns σ as).bind fun vs =>
            match resolve (ds.map Decl.path) ns abs path ns.length, ts, vs with
            | some (.stringAt, _), [.int l], [.chars s, .int i] =>
                (StrLit.stringAt l.toNat s i.toNat).bind fun c => .ok (.int c)
            | some (.header, p), [], [v] =>
                match function p ds with
                | some (x, b) => ev ds n p.dropLast [(x, .one v)] b
                | none => .ill .noValue
            | _, _, _ => .ill .noValue
      | .tmpl abs path as => (evs ds n ns σ as).bind fun vs => cls ds n ns abs path vs
      | .type (.tmpl abs path as) => (evs ds n ns σ as).bind fun vs => cls ds n ns abs path vs
      | .type _ => .ill .noType
/-- The values of a list, with packs expanded.
The header has them at `/repo/tools/string_headers.py:148-151`, `171-197` and `235-238`. -/
def evs (ds : List Decl) : Nat → List Str → Scope → List Ex → Out (List Vl)
  | 0, _, _, _ => .deep
  | _ + 1, _, _, [] => .ok []
  | n + 1, ns, σ, .pack x :: as => match σ.find x with
      | some (.many vs) => (evs ds n ns σ as).bind fun ws => .ok (vs ++ ws)
      | _ => .ill .noType
  | n + 1, ns, σ, a :: as => (ev ds n ns σ a).bind fun v => (evs ds n ns σ as).bind fun vs => .ok (v :: vs)
/-- The class a template gives (`/repo/tools/string_headers.py:171-197`). -/
def cls (ds : List Decl) : Nat → List Str → Bool → List Str → List Vl → Out Vl
  | 0, _, _, _, _ => .deep
  | n + 1, ns, abs, path, vs =>
      match resolve (ds.map Decl.path) ns abs path ns.length with
      | some (.string, _) => match intsOf vs with
          | some cs => .ok (.string cs)
          | none => .ill .noType
      | some (.concat, _) => match vs with
          | [.string a, .string b] => .ok (.string (Str11.concat a b))
          | _ => .ill .noSpecialisation
      | some (.header, p) => match matching p vs ds with
          | [(σ, b)] => ev ds n p.dropLast σ b
          | _ => .ill .noSpecialisation
      | _ => .ill .noType
end

/-! ### `BOOST_METAPARSE_STRING` -/

/-- The tokens of a text without spaces. (`/repo/tools/string_headers.py:202-275` writes the text.) -/
def toks (s : String) : List Tok := noSp (lex [] (lit s))

/-- The macros of the headers before `cpp11/impl/string.hpp`: `limit_string_size.hpp`, `cpp11/impl/string_at.hpp:36-37` and,
after it, `include/boost/metaparse/string.hpp`. On Sun's compiler `__SUNPRO_CC` is defined, too. -/
def before (sun : Bool) (limit : Nat) : Macros :=
  [(lit "BOOST_METAPARSE_LIMIT_STRING_SIZE", ⟨none, [.id (number limit)]⟩),
    (lit "BOOST_METAPARSE_V1_STRING_AT",
      ⟨none, toks "::boost::metaparse::v1::impl::string_at<BOOST_METAPARSE_LIMIT_STRING_SIZE>"⟩),
    (lit "BOOST_METAPARSE_STRING", ⟨none, [.id (lit "BOOST_METAPARSE_V1_STRING")]⟩)] ++
    if sun then [(lit "__SUNPRO_CC", ⟨none, []⟩)] else []

/-- `BOOST_METAPARSE_STRING("…")` with the text of a header, in at most `n` steps. The outcome is nothing if the header or the
tokens are no program of this kind (`/repo/tools/string_headers.py:232-243`). -/
def textString (n : Nat) (sun : Bool) (text : Str) (limit : Nat) (s : List Chr) : Option (Out Vl) :=
  (preprocess (before sun limit) text).bind fun pp =>
    if pp.conds ≠ [] then none
    else (decls n [] pp.out).bind fun ds =>
      (expand pp.macros n [.id (lit "BOOST_METAPARSE_STRING"), .p '(', .str s, .p ')']).bind fun ts =>
        (expr n ts).bind fun e => if e.2 = [] then some (ev ds n [] [] e.1) else none

end Metaparse.StrHdr
