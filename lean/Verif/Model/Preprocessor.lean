import Verif.Model.StringHeaders
/-!
# The part of the preprocessor that `cpp11/impl/string.hpp` needs

The rules of C++ for preprocessing tokens, directives and macros, as far as the generated header uses them. Other directives
are an error (`none`).

Simplifications: every punctuator is one character (`::` is two tokens). String literals are tokens with the characters they
stand for. Includes are ignored: the macros of the headers that are included are given. There are no hide sets: a macro that
expands to itself would need endless time. `BOOST_PP_CAT` of Boost.Preprocessor is built in: it expands its two arguments and
makes one identifier of them.
-/

namespace Metaparse.StrHdr

open Gen (Str lit number)

/-- A preprocessing token; spaces and ends of lines are kept. The text is that of `/repo/tools/string_headers.py:202-275`. -/
inductive Tok where
  | id (s : Str)
  | str (s : List Chr)
  | p (c : Char)
  | sp
  | nl
deriving DecidableEq

/-- The characters of identifiers and numbers. The text is that of `/repo/tools/string_headers.py:202-275`. -/
def identChar (c : Char) : Bool :=
  ('a' ≤ c && c ≤ 'z') || ('A' ≤ c && c ≤ 'Z') || ('0' ≤ c && c ≤ '9') || c = '_'

/-- The token of a character that belongs to no identifier. The text is that of `/repo/tools/string_headers.py:202-275`. -/
def symbol (c : Char) : Tok := if c = '\n' then .nl else if c = ' ' then .sp else .p c

/-- The identifier that ends. The text is that of `/repo/tools/string_headers.py:202-275`. -/
def flush (cur : Str) : List Tok := if cur.isEmpty then [] else [.id cur]

/-- The tokens of a text; `cur` is the beginning of an identifier.
The text is that of `/repo/tools/string_headers.py:202-275`. -/
def lex : Str → Str → List Tok
  | cur, [] => flush cur
  | cur, c :: s => if identChar c then lex (cur ++ [c]) s else flush cur ++ symbol c :: lex [] s

/-- The lines of a text; `cur` is the beginning of the first one.
The text is that of `/repo/tools/string_headers.py:202-275`. -/
def lines : List Tok → List Tok → List (List Tok)
  | [], [] => []
  | cur, [] => [cur]
  | cur, .nl :: ts => cur :: lines [] ts
  | cur, t :: ts => lines (cur ++ [t]) ts

/-- A line without its comment (`/repo/tools/string_headers.py:55-60`). -/
def stripComment : List Tok → List Tok
  | .p '/' :: .p '/' :: _ => []
  | t :: ts => t :: stripComment ts
  | [] => []

/-- A line without the spaces at its beginning. The text is that of `/repo/tools/string_headers.py:202-275`. -/
def dropSp : List Tok → List Tok
  | .sp :: ts => dropSp ts
  | ts => ts

/-- The tokens without spaces. The text is that of `/repo/tools/string_headers.py:202-275`. -/
def noSp : List Tok → List Tok := List.filter fun t => t ≠ .sp

/-- A macro: the parameters, if it is one with parameters, and what it stands for (`/repo/tools/string_headers.py:92-115`). -/
structure Macro where
  params : Option (List Str)
  body : List Tok

/-- The macros that are defined; the last definition is the first one (`/repo/tools/string_headers.py:92-115`). -/
abbrev Macros := List (Str × Macro)

/-- `macros[x]` (`/repo/tools/string_headers.py:92-115`) -/
def Macros.find (T : Macros) (x : Str) : Option Macro :=
  match T with
  | [] => none
  | (y, m) :: T => if x = y then some m else Macros.find T x

/-- The value of a number (`/repo/tools/string_headers.py:223`). -/
def decimal (s : Str) : Nat := s.foldl (fun n c => 10 * n + (c.toNat - 48)) 0

/-- The names of the parameters in `#define NAME(params)`, after the `(` (`/repo/tools/string_headers.py:92-115`). -/
def paramNames : List Tok → Option (List Str × List Tok)
  | .id x :: .p ')' :: ts => some ([x], ts)
  | .id x :: .p ',' :: ts => (paramNames ts).map fun r => (x :: r.1, r.2)
  | _ => none

/-- Where the preprocessor is: the macros, the tokens of the program so far and the conditions that are open (innermost
first) (`/repo/tools/string_headers.py:72-77`, `95-115`, `182`, `199` and `219-227`). -/
structure PP where
  macros : Macros
  out : List Tok
  conds : List Bool

/-- Whether the line is in a part that is used (`/repo/tools/string_headers.py:72-77`, `95-115`, `182`, `199` and `219-227`). -/
def PP.active (s : PP) : Bool := s.conds.all id

/-- A `#define` after the name of the macro (`/repo/tools/string_headers.py:92-115`). -/
def PP.define (s : PP) (x : Str) (ts : List Tok) : Option PP :=
  match ts with
  | .p '(' :: ts => (paramNames (noSp ts)).map fun r => { s with macros := (x, ⟨some r.1, r.2⟩) :: s.macros }
  | ts => some { s with macros := (x, ⟨none, noSp ts⟩) :: s.macros }

/-- The number a macro stands for, in `#if` (`/repo/tools/string_headers.py:223`). -/
def PP.number (s : PP) (x : Str) : Option Nat :=
  match s.macros.find x with
  | some ⟨none, [.id v]⟩ => some (decimal v)
  | _ => none

/-- A directive without its `#` and the spaces after it
(`/repo/tools/string_headers.py:72-77`, `95-115`, `182`, `199` and `219-227`). -/
def PP.directive (s : PP) (ts : List Tok) : Option PP :=
  match ts with
  | .id d :: ts =>
      if d = lit "ifndef" then
        match noSp ts with
        | [.id x] => some { s with conds := (s.macros.find x).isNone :: s.conds }
        | _ => none
      else if d = lit "ifdef" then
        match noSp ts with
        | [.id x] => some { s with conds := (s.macros.find x).isSome :: s.conds }
        | _ => none
      else if d = lit "if" then
        match noSp ts with
        | [.id x, .p '>', .id n] =>
            if s.active then (s.number x).map fun v => { s with conds := decide (v > decimal n) :: s.conds }
            else some { s with conds := false :: s.conds }
        | _ => none
      else if d = lit "endif" then
        match s.conds with
        | _ :: cs => some { s with conds := cs }
        | [] => none
      else if s.active = false then some s
      else if d = lit "include" then some s
      else if d = lit "define" then
        match dropSp ts with
        | .id x :: ts => s.define x ts
        | _ => none
      else none
  | _ => none

/-- A line: a directive, or a part of the program. The header has no macros in the program itself: that would be an error
here. (`/repo/tools/string_headers.py:202-275` writes the text.) -/
def PP.line (s : PP) (l : List Tok) : Option PP :=
  match dropSp (stripComment l) with
  | .p '#' :: ts => s.directive (dropSp ts)
  | ts =>
      if s.active = false then some s
      else if ts.any (fun | .id x => (s.macros.find x).isSome | _ => false) then none
      else some { s with out := s.out ++ noSp ts }

/-- All lines. (`/repo/tools/string_headers.py:202-275` writes the text.) -/
def PP.run (s : PP) : List (List Tok) → Option PP
  | [] => some s
  | l :: ls => (s.line l).bind fun s => PP.run s ls

/-- Preprocessing a text with the macros that are defined before. `#error` and everything unknown is an error.
(`/repo/tools/string_headers.py:202-275` writes the text.) -/
def preprocess (T : Macros) (text : Str) : Option PP := PP.run ⟨T, [], []⟩ (lines [] (lex [] text))

/-! ### Expanding macros -/

/-- The arguments of a macro after its `(`: `depth` is the number of brackets that are open, `cur` the beginning of the
argument. (`/repo/tools/string_headers.py:232-273` writes the macros.) -/
def macroArgs : Nat → List Tok → List Tok → Option (List (List Tok) × List Tok)
  | _, _, [] => none
  | depth, cur, .p ')' :: ts =>
      match depth with
      | 0 => some ([cur], ts)
      | d + 1 => macroArgs d (cur ++ [.p ')']) ts
  | depth, cur, .p '(' :: ts => macroArgs (depth + 1) (cur ++ [.p '(']) ts
  | 0, cur, .p ',' :: ts => (macroArgs 0 [] ts).map fun r => (cur :: r.1, r.2)
  | depth, cur, t :: ts => macroArgs depth (cur ++ [t]) ts

/-- The argument of a parameter. (`/repo/tools/string_headers.py:232-273` writes the macros.) -/
def argOf (x : Str) : List Str → List (List Tok) → Option (List Tok)
  | p :: ps, a :: as => if x = p then some a else argOf x ps as
  | _, _ => none

/-- The body of a macro with the arguments for the parameters. (`/repo/tools/string_headers.py:232-273` writes the macros.) -/
def substitute (ps : List Str) (as : List (List Tok)) : List Tok → List Tok
  | [] => []
  | .id x :: ts => (match argOf x ps as with | some a => a | none => [.id x]) ++ substitute ps as ts
  | t :: ts => t :: substitute ps as ts

/-- All elements. (`/repo/tools/string_headers.py:232-273` writes the macros.) -/
def allOf {α β : Type} (f : α → Option β) : List α → Option (List β)
  | [] => some []
  | a :: as => (f a).bind fun b => (allOf f as).bind fun bs => some (b :: bs)

/-- The expansion of tokens, in at most `n` steps; what a macro stands for is scanned again, with the tokens after it.
(`/repo/tools/string_headers.py:232-273` writes the macros.) -/
def expand (T : Macros) : Nat → List Tok → Option (List Tok)
  | 0, _ => none
  | _ + 1, [] => some []
  | n + 1, .id x :: ts =>
      if x = lit "BOOST_PP_CAT" then
        match ts with
        | .p '(' :: ts =>
            (macroArgs 0 [] ts).bind fun r =>
              (allOf (expand T n) r.1).bind fun
                | [[.id a], [.id b]] => expand T n (.id (a ++ b) :: r.2)
                | _ => none
        | _ => none
      else match T.find x with
        | none => (expand T n ts).map (.id x :: ·)
        | some ⟨none, body⟩ => expand T n (body ++ ts)
        | some ⟨some ps, body⟩ =>
            match ts with
            | .p '(' :: ts =>
                (macroArgs 0 [] ts).bind fun r =>
                  if r.1.length = ps.length then
                    (allOf (expand T n) r.1).bind fun as => expand T n (substitute ps as body ++ r.2)
                  else none
            | ts => (expand T n ts).map (.id x :: ·)
  | n + 1, t :: ts => (expand T n ts).map (t :: ·)

end Metaparse.StrHdr
