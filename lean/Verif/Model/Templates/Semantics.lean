import Verif.Model.Templates.Library
import Verif.Model.Basic
/-!
# Class templates: instantiation

The rules of C++ by which the class templates of `Library.lean` are instantiated.

* Naming a class `name<args>` evaluates the arguments, and nothing else.
* `T::member` instantiates `T` (`Out.ok` with its members) and looks the name up in the class, and then in its base classes.
* Instantiating a class chooses the specialisation, instantiates its base classes and evaluates all its typedefs and constants.
  Its member templates are not instantiated.

Simplifications: access control, redeclarations and the difference between types and constants are not checked; constants
are integers without bounds, `bool` is 0 and 1; the most specialised of the matching definitions is the first one, as
ordered by the translation (C101 proves that it is).
-/

namespace Metaparse.Tmpl

mutual
/-- Whether two types are the same (for example the specialisations at `cpp11/impl/is_none_c_impl.hpp:19-29`). -/
def V.beq : V → V → Bool
  | .root, .root => true
  | .num a, .num b => a == b
  | .cls o n as, .cls o' n' bs => V.beq o o' && (n == n' && V.beqs as bs)
  | .fn k, .fn k' => k == k'
  | .rule i, .rule i' => i == i'
  | _, _ => false
/-- Whether two lists of arguments are the same (for example the specialisations at `cpp11/impl/is_none_c_impl.hpp:19-29`). -/
def V.beqs : List V → List V → Bool
  | [], [] => true
  | a :: as, b :: bs => V.beq a b && V.beqs as bs
  | _, _ => false
end

mutual
theorem V.beq_iff : (a b : V) → (V.beq a b = true ↔ a = b)
  | .root, b => by cases b <;> simp [V.beq]
  | .num n, b => by cases b <;> simp [V.beq]
  | .cls o n as, b => by
      cases b with
      | cls o' n' bs => simp [V.beq, V.beq_iff o o', V.beqs_iff as bs]
      | _ => simp [V.beq]
  | .fn k, b => by cases b <;> simp [V.beq]
  | .rule i, b => by cases b <;> simp [V.beq]
theorem V.beqs_iff : (as bs : List V) → (V.beqs as bs = true ↔ as = bs)
  | [], bs => by cases bs <;> simp [V.beqs]
  | a :: as, bs => by
      cases bs with
      | nil => simp [V.beqs]
      | cons b bs => simp [V.beqs, V.beq_iff a b, V.beqs_iff as bs]
end

/-- An instance for the definition above. (for example the specialisations at `cpp11/impl/is_none_c_impl.hpp:19-29`) -/
instance : DecidableEq V := fun a b => decidable_of_iff _ (V.beq_iff a b)

/-- What a template parameter is (for example `cpp11/impl/nth_of_c.hpp:29-39`). -/
inductive Bind where
  | one (v : V)
  | many (vs : List V)

/-- The first entry for a name (for example `cpp11/impl/nth_of_c.hpp:29-39`). -/
def find {β : Type} (x : Id) : List (Id × β) → Option β
  | [] => none
  | (y, b) :: l => if x = y then some b else find x l

/-- A member of a class that is instantiated: a typedef or constant, or a template with the class it is a member of
(for example `accept_when.hpp:39-52`, used at line 31). -/
inductive Member where
  | ty (v : V)
  | tmpl (owner : V)

/-- The members of a class; the ones of base classes come later (for example `accept_when.hpp:39-52`, used at line 31). -/
abbrev Members := List (Id × Member)

/-- `T::x` in the members of `T` (for example `accept_when.hpp:39-52`, used at line 31). -/
def Members.ty (m : Members) (x : Id) : Out V :=
  match find x m with
  | some (.ty v) => .ok v
  | _ => .ill .noType

/-- `T::template x` in the members of `T`: the class it is a member of
(for example `accept_when.hpp:39-52`, used at line 31). -/
def Members.tmpl (m : Members) (x : Id) : Out V :=
  match find x m with
  | some (.tmpl o) => .ok o
  | _ => .ill .noType

/-- The names that can be used in a class: the template parameters and earlier typedefs, and the class itself with those
that enclose it (for example `accept_when.hpp:22-40`). -/
structure Ctx where
  vars : List (Id × Bind)
  selves : List V

/-- A parameter that is no pack (for example `cpp11/impl/nth_of_c.hpp:29-39`). -/
def Ctx.one (c : Ctx) (x : Id) : Out V :=
  match find x c.vars with
  | some (.one v) => .ok v
  | _ => .ill .noType

/-- A parameter pack (for example `cpp11/impl/nth_of_c.hpp:29-39`). -/
def Ctx.many (c : Ctx) (x : Id) : Out (List V) :=
  match find x c.vars with
  | some (.many vs) => .ok vs
  | _ => .ill .noType

/-- The `k`-th enclosing class (for example `accept_when.hpp:22-40`). -/
def Ctx.self (c : Ctx) (k : Nat) : Out V :=
  match c.selves[k]? with
  | some v => .ok v
  | none => .ill .noType

/-- A name in front of the others (for example `accept_when.hpp:22-40`). -/
def Ctx.push (c : Ctx) (x : Id) (v : V) : Ctx := ⟨(x, .one v) :: c.vars, c.selves⟩

/-- A truth value as a constant (for example `one_char.hpp:35-39`). -/
def ofBool (b : Bool) : V := .num (if b then 1 else 0)

/-- Constant expressions; all operands are evaluated (for example `one_char.hpp:35-39`). -/
def Op.ev : Op → V → V → Out V
  | .or, .num a, .num b => .ok (ofBool (a != 0 || b != 0))
  | .and, .num a, .num b => .ok (ofBool (a != 0 && b != 0))
  | .eq, .num a, .num b => .ok (ofBool (a == b))
  | .ne, .num a, .num b => .ok (ofBool (a != b))
  | .lt, .num a, .num b => .ok (ofBool (decide (a < b)))
  | .le, .num a, .num b => .ok (ofBool (decide (a ≤ b)))
  | .add, .num a, .num b => .ok (.num (a + b))
  | .sub, .num a, .num b => .ok (.num (a - b))
  | .mul, .num a, .num b => .ok (.num (a * b))
  | _, _, _ => .ill .noValue

/-- `!a` (for example `one_char.hpp:35-39`) -/
def evNot : V → Out V
  | .num a => .ok (ofBool (a == 0))
  | _ => .ill .noValue

/-- All elements of a pack, one after the other (for example `cpp11/impl/nth_of_c.hpp:39`). -/
def mapOut {α β : Type} (f : α → Out β) : List α → Out (List β)
  | [] => .ok []
  | a :: as => (f a).bind fun b => (mapOut f as).bind fun bs => .ok (b :: bs)

/-- The arguments of a class template with those that are left out: in C++98 a number of parameters of some templates have
defaults (`defaults`), in C++11 these templates have parameter packs instead (for example `cpp98/first_of.hpp:17-20` and
`cpp11/first_of.hpp:20`). -/
def fill [L : Lang] (n : Id) (vs : List V) : List V :=
  L.headers.pick vs fun l => match defaults l n with
    | some (k, d) => vs ++ List.replicate (k - vs.length) d
    | none => vs

section
variable [Lang]

mutual
/-- The type or constant a term is, where `h` instantiates classes (for example `accept_when.hpp:43-51`). -/
def Tm.ev (h : V → Out Members) (c : Ctx) : Tm → Out V
  | .var x => c.one x
  | .spread _ => .ill .noType
  | .each _ _ => .ill .noType
  | .cls n ts => (Tm.evs h c ts).bind fun vs => .ok (.cls .root n vs)
  | .padded n ts => (Tm.evs h c ts).bind fun vs => .ok (.cls .root n (fill n vs))
  | .inner k n ts => (c.self k).bind fun o => (Tm.evs h c ts).bind fun vs => .ok (.cls o n vs)
  | .self k => c.self k
  | .mem t x => (Tm.ev h c t).bind fun v => (h v).bind fun m => m.ty x
  | .memT t x ts => (Tm.ev h c t).bind fun v => (h v).bind fun m => (m.tmpl x).bind fun o =>
      (Tm.evs h c ts).bind fun vs => .ok (.cls o x vs)
  | .num n => .ok (.num n)
  | .op o a b => (Tm.ev h c a).bind fun x => (Tm.ev h c b).bind fun y => o.ev x y
  | .not a => (Tm.ev h c a).bind fun x => evNot x
  | .size x => (c.many x).bind fun vs => .ok (.num vs.length)
  | .nth x i => (c.many x).bind fun vs => match vs[i]? with
      | some v => .ok v
      | none => .ill .noType
/-- The arguments a list of terms is (for example `accept_when.hpp:43-51`). -/
def Tm.evs (h : V → Out Members) (c : Ctx) : List Tm → Out (List V)
  | [] => .ok []
  | t :: ts =>
      (match t with
        | .spread x => c.many x
        | .each x t' => (c.many x).bind fun vs => mapOut (fun v => Tm.ev h (c.push x v) t') vs
        | t => (Tm.ev h c t).bind fun v => .ok [v]).bind fun vs =>
      (Tm.evs h c ts).bind fun ws => .ok (vs ++ ws)
end

end

mutual
/-- Match an argument with the one of a specialisation; a parameter that occurs twice has to be the same
(for example the specialisations at `cpp11/impl/is_none_c_impl.hpp:19-29`). -/
def Pat.fit : Pat → V → List (Id × Bind) → Option (List (Id × Bind))
  | .var x, v, b => match find x b with
      | none => some ((x, .one v) :: b)
      | some (.one w) => if w = v then some b else none
      | some (.many _) => none
  | .pack _, _, _ => none
  | .params _ _, _, _ => none
  | .num n, .num m, b => if n = m then some b else none
  | .cls n ps, .cls .root m vs, b => if n = m then Pat.fits ps vs b else none
  | _, _, _ => none
/-- Match all arguments (for example the specialisations at `cpp11/impl/is_none_c_impl.hpp:19-29`). -/
def Pat.fits : List Pat → List V → List (Id × Bind) → Option (List (Id × Bind))
  | [], [], b => some b
  | [.pack x], vs, b => some ((x, .many vs) :: b)
  | .params x n :: ps, vs, b =>
      if n ≤ vs.length then
        match find x b with
        | none => Pat.fits ps (vs.drop n) ((x, .many (vs.take n)) :: b)
        | some _ => none
      else none
  | p :: ps, v :: vs, b => (Pat.fit p v b).bind fun b' => Pat.fits ps vs b'
  | _, _, _ => none
end

/-- The definition of `self` among the specialisations of its template, with the names that can be used in it
(for example the specialisations at `cpp11/impl/is_none_c_impl.hpp:19-29`). -/
def choose (c : Ctx) (self : V) (args : List V) : List Spec → Option (Ctx × Spec)
  | [] => none
  | sp :: rest => match Pat.fits sp.pats args [] with
      | some b => some (⟨b ++ c.vars, self :: c.selves⟩, sp)
      | none => choose c self args rest

/-- The member template of a name (for example `accept_when.hpp:42-43`). -/
def memberTemplate (x : Id) : List Decl → List Spec
  | [] => []
  | .tmpl y specs :: ds => if x = y then specs else memberTemplate x ds
  | _ :: ds => memberTemplate x ds

/-- The classes of the user: what the metafunction classes give, and what the rules are derived from
(for example the predicate at `accept_when.hpp:31-33`). -/
structure User where
  fn : Nat → List V → Out V
  rules : Nat → V

section
variable [Lang]

/-- The definition of a class, with the names that can be used in it (for example `accept_when.hpp:28-37`). -/
def resolve : V → Option (Ctx × Spec)
  | .cls o n args => match o with
      | .root => choose ⟨[], []⟩ (.cls .root n args) args (library n)
      | .cls o' n' args' =>
          match resolve (.cls o' n' args') with
          | none => none
          | some (c, sp) => choose c (.cls (.cls o' n' args') n args) args (memberTemplate n sp.decls)
      | _ => none
  | _ => none

/-- Instantiate base classes (for example `foldl.hpp:23-59`). -/
def evBases (h : V → Out Members) (c : Ctx) : List Tm → Out Members
  | [] => .ok []
  | t :: ts => (t.ev h c).bind fun v => (h v).bind fun m => (evBases h c ts).bind fun ms => .ok (m ++ ms)

/-- Evaluate members (for example `foldl.hpp:23-59`). -/
def evDecls (h : V → Out Members) (self : V) : Ctx → List Decl → Out Members
  | _, [] => .ok []
  | c, .type x t :: ds => (t.ev h c).bind fun v => (evDecls h self (c.push x v) ds).bind fun m => .ok ((x, .ty v) :: m)
  | c, .assert t :: ds => (t.ev h c).bind fun v =>
      if v = .num 0 then .ill .noType else evDecls h self c ds
  | c, .tmpl x _ :: ds => (evDecls h self c ds).bind fun m => .ok ((x, .tmpl self) :: m)

/-- One layer of instantiation, with `h` for the classes that are used in it (for example `foldl.hpp:23-59`). -/
def instantiate (U : User) (h : V → Out Members) : V → Out Members
  | .cls o n args =>
      match o with
      | .fn k => if n = .apply then (U.fn k args).bind fun v => .ok [(.type, .ty v)] else .ill .noType
      | _ =>
        match resolve (.cls o n args) with
        | none => .ill .noSpecialisation
        | some (c, sp) => (evBases h c sp.bases).bind fun bs =>
            (evDecls h (.cls o n args) c sp.decls).bind fun ds => .ok (ds ++ bs)
  | .fn k => .ok [(.type, .ty (.fn k)), (.apply, .tmpl (.fn k))]
  | .rule i => h (U.rules i)
  | _ => .ill .noType

/-- Instantiation with at most `n` nested layers (for example `foldl.hpp:23-59`). -/
def instN (U : User) : Nat → V → Out Members
  | 0 => fun _ => .deep
  | n + 1 => instantiate U (instN U n)

open Classical in
/-- Instantiation without a limit; `deep` means that no number of layers suffices (for example `foldl.hpp:23-59`). -/
noncomputable def inst (U : User) (v : V) : Out Members :=
  if h : ∃ n, instN U n v ≠ .deep then instN U (Classical.choose h) v else .deep

end

end Metaparse.Tmpl
