/-
A check of the headers that is independent of what has been included before: what each header leaves behind, when
it can be included at all.
-/
import Verif.Model.InclusionData
import Verif.Lemmas.InclusionOwners

namespace Metaparse.Inclusion

/-- The standard the library is used for. -/
inductive Std where
  | cpp98
  | cpp11
  | cpp14
  deriving DecidableEq

/-- All that the lines taken depend on. -/
structure Mode where
  std : Std
  clang : Bool
  literals : Bool
  sun : Bool
  noCStr : Bool

def Mode.is11 (m : Mode) : Bool := m.std ≠ .cpp98

def Mode.is14 (m : Mode) : Bool := m.std = .cpp14

/-- What is there after a header: macros, names that are declared, defined and mentioned; and how many levels of
inclusion it takes. -/
structure Know where
  on : Nat
  decl : Nat
  defn : Nat
  used : Nat
  config : Bool
  depth : Nat

/-- The sets as numbers. -/
def put (s i : Nat) : Nat := s ||| 1 <<< i

def toSet (l : List Nat) : Nat := l.foldl put 0

def isHelper (m : Nat) : Bool := helperSet.testBit m

def isUser (m : Nat) : Bool := userSet.testBit m

/-- The entry of a list whose entries are packed into one number, ten bits each; 1023 stands for none. -/
def entry (l i : Nat) : Option Nat :=
  let f := l >>> (10 * i) % 1024
  if f = 1023 then none else some f

/-- The header that defines a macro. -/
def Mode.macroOwner (md : Mode) (m : Nat) : Option Nat :=
  if isHelper m || isUser m then none
  else if m = 12 && md.is11 && md.clang && md.literals then some 214
  else entry (match md.std with
    | .cpp98 => macroOwner98
    | .cpp11 => macroOwner11
    | .cpp14 => macroOwner14) m

/-- The header that defines a name. -/
def Mode.nameOwner (md : Mode) (n : Nat) : Option Nat :=
  entry (match md.std with
    | .cpp98 => nameOwner98
    | .cpp11 => nameOwner11
    | .cpp14 => nameOwner14) n

structure Abs extends Know where
  helpers : Nat
  pending : List (Nat × List Nat × List Nat)

/-- Evaluate a number before going on. -/
def strict {α : Sort _} (n : Nat) (k : Nat → α) : α := Nat.casesOn n (k 0) (fun n => k n.succ)

def strictBool {α : Sort _} (b : Bool) (k : Bool → α) : α := Bool.casesOn b (k false) (k true)

def Abs.force {α : Sort _} (a : Abs) (k : Abs → α) : α :=
  strict a.on fun on => strict a.decl fun decl => strict a.defn fun defn => strict a.used fun used => strictBool a.config fun config =>
    strict a.depth fun depth => strict a.helpers fun helpers =>
      k ⟨⟨on, decl, defn, used, config, depth⟩, helpers, a.pending⟩

theorem strict_eq {α : Sort _} (n : Nat) (k : Nat → α) : strict n k = k n := by
  cases n <;> rfl

theorem strictBool_eq {α : Sort _} (b : Bool) (k : Bool → α) : strictBool b k = k b := by
  cases b <;> rfl

@[simp] theorem Abs.force_eq {α : Sort _} (a : Abs) (k : Abs → α) : a.force k = k a := by
  simp only [Abs.force, strict_eq, strictBool_eq]

/-- What a condition comes to. -/
def known (md : Mode) (self : Nat) (inBody : Bool) (a : Abs) : Expr → Option Bool
  | .not e => (known md self inBody a e).map (!·)
  | .defd (.own m) =>
    if a.on.testBit m || a.helpers.testBit m then some true
    else if isHelper m then some false
    else if isUser m then none
    else match md.macroOwner m with
      | none => some false
      | some f => if f = self && inBody then some false else none
  | .ge (.val (.own m)) (.num c) =>
    if m = 2 && a.on.testBit 2 then
      if c = 2011 then some md.is11 else if c = 2014 then some md.is14 else none
    else none
  | .gt (.val (.own m)) (.num c) => if m = 5 && c = 2048 && a.on.testBit 5 then some false else none
  | .val (.compiler 0) => if md.is11 then some md.clang else none
  | .feature 0 => if md.is11 && md.clang then some md.literals else none
  | .defd (.compiler 4) => if md.is11 then some md.sun else none
  | _ => none

def checkText (md : Mode) (self : Nat) (inBody : Bool) : List Ev → Abs → Option Abs
  | [], a => some a
  | .declare n :: es, a => Abs.force { a with decl := put a.decl n } (checkText md self inBody es)
  | .defn n :: es, a =>
    if inBody && md.nameOwner n = some self && !a.defn.testBit n then
      Abs.force { a with decl := put a.decl n, defn := put a.defn n } (checkText md self inBody es)
    else none
  | .use n :: es, a => 
    if a.decl.testBit n then Abs.force { a with used := put a.used n } (checkText md self inBody es) else none
  | .expand m :: es, a =>
    if a.on.testBit m || a.helpers.testBit m then checkText md self inBody es a else none

/-- What has to be there before a header: `v1/cpp11/impl/string.hpp` needs the limit of the strings and `BOOST_METAPARSE_V1_STRING_AT` and does not
include the headers that define them. -/
def assumed (h : Nat) : List Nat := if h = 213 then [5, 232] else []

def check (look : Nat → Option Know) (md : Mode) (self : Nat) (inBody : Bool) : Prog → Abs → Option Abs
  | .done, a => some a
  | .incl h k, a =>
    if a.helpers = 0 && (assumed h).all (a.on.testBit ·) then
      match look h with
      | none => none
      | some w => Abs.force { a with
          on := a.on ||| w.on, decl := a.decl ||| w.decl, defn := a.defn ||| w.defn, used := a.used ||| w.used
          config := a.config || w.config, depth := max a.depth w.depth } (check look md self inBody k)
    else none
  | .external x k, a => 
    Abs.force { a with config := a.config || x = 0 } (check look md self inBody k)
  | .cond e t f k, a => match known md self inBody a e with
    | none => none
    | some b => match if b then check look md self inBody t a else check look md self inBody f a with
      | none => none
      | some a => check look md self inBody k a
  | .define m _ ms ns k, a =>
    if isHelper m then
      if a.helpers.testBit m then none
      else Abs.force { a with helpers := put a.helpers m } (check look md self inBody k)
    else if inBody && md.macroOwner m = some self && !a.on.testBit m then
      Abs.force { a with on := put a.on m, pending := (m, ms, ns) :: a.pending }
        (check look md self inBody k)
    else none
  | .undef m k, a =>
    if isHelper m && a.helpers.testBit m then
      Abs.force { a with helpers := a.helpers ^^^ (1 <<< m) } (check look md self inBody k)
    else none
  | .error _, _ => none
  | .text evs k, a => match checkText md self inBody evs a with
    | none => none
    | some a => check look md self inBody k a

/-- The macros whose replacement need not be complete. -/
def Mode.excused (md : Mode) : List Nat :=
  if md.is11 then if md.clang && md.literals then [12] else [] else
    [macroNames.idxOf "BOOST_METAPARSE_STRING", macroNames.idxOf "BOOST_METAPARSE_STRING_VALUE"]

def settled (md : Mode) (a : Abs) : Bool :=
  a.pending.all fun (m, ms, ns) =>
    md.excused.contains m || (ms.all (a.on.testBit ·) && ns.all (a.decl.testBit ·))

def nothing (self : Nat) : Abs :=
  { on := toSet (assumed self), decl := 0, defn := 0, used := 0, config := false, depth := 0, helpers := 0, pending := [] }

def checkHeader (look : Nat → Option Know) (md : Mode) (self : Nat) (h : Header) : Option Know :=
  match check look md self false h.pre (nothing self) with
  | none => none
  | some a =>
    if a.helpers = 0 && (assumed self).all (fun m => isUser m || (md.macroOwner m).any (· ≤ self)) then
      match h.guard with
      | none => some { a.toKnow with depth := a.depth + 1 }
      | some g =>
        if md.macroOwner g = some self && !isHelper g && !a.on.testBit g then
          match check look md self true h.body { a with on := put a.on g } with
          | none => none
          | some b => if b.helpers = 0 && settled md b then some { b.toKnow with depth := b.depth + 1 } else none
        else none
    else none

/-- What is known of the headers, by number. -/
inductive Tree where
  | nil
  | node (w : Option Know) (l r : Tree)

def Tree.get : Nat → Tree → Nat → Option Know
  | 0, _, _ => none
  | _ + 1, .nil, _ => none
  | n + 1, .node w l r, i =>
    if i = 0 then w else if i % 2 = 1 then l.get n (i / 2) else r.get n (i / 2 - 1)

def Tree.set : Nat → Tree → Nat → Option Know → Tree
  | 0, t, _, _ => t
  | n + 1, .nil, i, v =>
    if i = 0 then .node v .nil .nil
    else if i % 2 = 1 then .node none (Tree.nil.set n (i / 2) v) .nil
    else .node none .nil (Tree.nil.set n (i / 2 - 1) v)
  | n + 1, .node w l r, i, v =>
    if i = 0 then .node v l r
    else if i % 2 = 1 then .node w (l.set n (i / 2) v) r
    else .node w l (r.set n (i / 2 - 1) v)

def keep {α : Sort _} (w : Option Know) (k : Option Know → α) : α :=
  match w with
  | none => k none
  | some w =>
    strict w.on fun on => strict w.decl fun decl => strict w.defn fun defn => strict w.used fun used => strictBool w.config fun config =>
      strict w.depth fun depth => k (some ⟨on, decl, defn, used, config, depth⟩)

@[simp] theorem keep_eq {α : Sort _} (w : Option Know) (k : Option Know → α) : keep w k = k w := by
  cases w <;> simp only [keep, strict_eq, strictBool_eq]

/-- The first five headers: the choice of the standard and the limits that the user may set. -/
def base (md : Mode) : Nat → Option Know
  | 0 => some { on := toSet ([0, 2] ++ (if md.noCStr then [1] else []) ++ if md.is11 then [3] else []),
                decl := 0, defn := 0, used := 0, config := true, depth := 1 }
  | 1 => some { on := toSet [4, 5], decl := 0, defn := 0, used := 0, config := false, depth := 1 }
  | 2 => some { on := toSet [6, 7], decl := 0, defn := 0, used := 0, config := false, depth := 1 }
  | 3 => some { on := toSet [8, 9], decl := 0, defn := 0, used := 0, config := false, depth := 1 }
  | 4 => some { on := toSet [10, 11], decl := 0, defn := 0, used := 0, config := false, depth := 1 }
  | _ => none

def build (md : Mode) : List Header → Nat → Tree → Tree
  | [], _, t => t
  | h :: hs, i, t =>
    keep (if i < 5 then base md i else checkHeader (t.get 9) md i h) fun w => build md hs (i + 1) (t.set 9 i w)

def table (md : Mode) : Tree := build md headers 0 .nil

def Mode.look (md : Mode) (h : Nat) : Option Know := (table md).get 9 h

end Metaparse.Inclusion
