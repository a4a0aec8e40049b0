import Verif.Model.Basic
/-!
# Parsers: syntax and instantiation

`P` is the syntax of parser classes, `step` is one layer of template instantiation, `eval n` is
instantiation with depth limit `n`, `run` is the outcome without a limit.

Paths in comments are relative to `/repo/include/boost/metaparse/v1/`.
-/

namespace Metaparse

/-- Parser classes.  Metafunction classes given by the user are arbitrary functions: predicates
return what `Pred::apply<x>::type::value` evaluates to, operations return the class
`Op::apply<x, y>` *unevaluated* (the library evaluates it with `::type` later).
Cited are the lines of every class at its constructor. -/
inductive P where
  /-- `one_char.hpp:28-65` -/
  | oneChar
  /-- `empty.hpp:23-36` -/
  | empty (result : Val)
  /-- `fail.hpp:17-24` -/
  | fail (msg : Msg)
  /-- `return_.hpp:21-28` -/
  | ret (v : Val)
  /-- `accept_when.hpp:22-53` -/
  | acceptWhen (p : P) (pred : Val → Out Bool) (msg : Msg)
  /-- `change_error_message.hpp:20-33` -/
  | changeErrorMessage (p : P) (msg : Msg)
  /-- `transform_error_message.hpp:22-43` -/
  | transformErrorMessage (p : P) (f : Msg → Out Msg)
  /-- `transform_error.hpp:19-34`; the function is number `k` of the environment -/
  | transformError (p : P) (k : Nat)
  /-- `transform.hpp:23-44` -/
  | transform (p : P) (f : Val → Val)
  /-- `always.hpp:22-45` -/
  | always (p : P) (result : Val)
  /-- `look_ahead.hpp:21-44` -/
  | lookAhead (p : P)
  /-- `except.hpp:21-34` -/
  | except (p : P) (result : Val) (msg : Msg)
  /-- `optional.hpp:20-34` -/
  | optional (p : P) (default : Val)
  /-- `if_.hpp:20-37` -/
  | if_ (p : P) (t f : Val)
  /-- `fail_at_first_char_expected.hpp:26-52` -/
  | failAtFirstCharExpected (p : P)
  /-- `foldl.hpp:23-59` -/
  | foldl (p : P) (state : Val) (op : Val → Val → Val)
  /-- `foldl_reject_incomplete.hpp:24-71` -/
  | foldlRejectIncomplete (p : P) (state : Val) (op : Val → Val → Val)
  /-- `foldl_start_with_parser.hpp:17-39` -/
  | foldlStartWithParser (p stateP : P) (op : Val → Val → Val)
  /-- `foldl_reject_incomplete_start_with_parser.hpp:23-49` -/
  | foldlRejectIncompleteStartWithParser (p stateP : P) (op : Val → Val → Val)
  /-- `foldr_start_with_parser.hpp:23-72` -/
  | foldrStartWithParser (p stateP : P) (op : Val → Val → Val)
  /-- The body shared by `foldl1.hpp:24-31`, `foldr1.hpp:24-31`,
  `foldl_reject_incomplete1.hpp:24-31` and `foldr_reject_incomplete1.hpp:24-31`: apply `q` where
  `p` accepts, `p` otherwise. -/
  | ifAccepts (p q : P)
  /-- `cpp11/sequence.hpp:26-57`, `cpp98/sequence.hpp:26-58` -/
  | sequence (ps : List P)
  /-- `cpp11/one_of.hpp:22-50`, `cpp98/one_of.hpp:23-36` -/
  | oneOf (ps : List P)
  /-- `cpp11/nth_of_c.hpp:22-39`, `cpp98/nth_of_c.hpp:27-62` -/
  | nthOfC (n : Int) (ps : List P)
  /-- `cpp11/last_of.hpp:20-30`, `cpp98/last_of.hpp:26-58` -/
  | lastOf (ps : List P)
  /-- `middle_of.hpp:22-42` -/
  | middleOf (p1 p2 p3 : P)
  /-- `impl/iterate_impl.hpp:23-39` -/
  | iterate (n : Int) (p : P) (accum : List Val)
  /-- `keyword.hpp:29-76` -/
  | keyword (kw : List Chr) (result : Val)
  /-- `cpp11/one_of_c.hpp:22-29`, `cpp14/one_of_c.hpp:22-29`, `cpp98/one_of_c.hpp:35-71` -/
  | oneOfC (cs : List Chr)
  /-- `cpp11/one_char_except_c.hpp:20-27`, `cpp98/one_char_except_c.hpp:34-87` -/
  | oneCharExceptC (cs : List Chr)
  /-- A parser class of the user defined by a parser expression, number `i` of the environment;
  as the class can be declared before it is defined, such parsers can be recursive. -/
  | ref (i : Nat)
  /-- An arbitrary parser class written by the user, number `i` of the environment. -/
  | native (i : Nat)

/-- Which implementation of the variadic parsers is used: `BOOST_METAPARSE_STD`
(`/repo/include/boost/metaparse/config.hpp`), see `one_of.hpp`, `sequence.hpp`, `nth_of_c.hpp`,
`one_of_c.hpp`, .. (`config.hpp:30-60`). -/
inductive Std where
  | cpp98 | cpp11 | cpp14
  deriving DecidableEq, Repr

/-- Everything a parser can refer to: the input representation, the implementation in use, the
size limits (`/repo/include/boost/metaparse/limit_sequence_size.hpp`, `limit_one_of_size.hpp`,
`limit_one_char_except_size.hpp`), the user's parser classes and error functions.
(`/repo/include/boost/metaparse/limit_sequence_size.hpp`, `one_of.hpp:11-17` and the like.) -/
structure Env (I : Type) where
  input : Input I
  std : Std := .cpp11
  limSequence : Nat := 5
  limOneOf : Nat := 20
  limOneCharExcept : Nat := 10
  rules : Nat → P := fun _ => .fail (.user 0)
  native : Nat → I → Pos → Out (Res I) := fun _ _ pos => .ok (.rej (.user 0) pos)
  onError : Nat → Msg → Pos → Out (Res I) := fun _ m pos => .ok (.rej m pos)

/-- The meaning of a parser class: what `apply<S, Pos>::type` evaluates to (as in `one_char.hpp:57-64`). -/
abbrev Sem (I : Type) := I → Pos → Out (Res I)

namespace Comb

variable {I : Type}

/-- `return_.hpp:26-27` -/
def ret (v : Val) : Sem I := fun s pos => .ok (.acc v s pos)

/-- `fail.hpp:22-23` -/
def fail (m : Msg) : Sem I := fun _ pos => .ok (.rej m pos)

/-- `empty.hpp:28-35` -/
def empty (inp : Input I) (v : Val) : Sem I := fun s pos =>
  (inp.isEmpty s).bind fun b =>
    if b then .ok (.acc v s pos) else .ok (.rej .endOfInputExpected pos)

/-- `one_char.hpp:57-64` with `unchecked` (46-53) -/
def oneChar (inp : Input I) : Sem I := fun s pos =>
  (inp.isEmpty s).bind fun b =>
    if b then .ok (.rej .unexpectedEndOfInput pos)
    else (inp.front s).bind fun c => (inp.popFront s).bind fun s' =>
      .ok (.acc (.chr c) s' (nextPos c pos))

/-- `accept_when.hpp:42-52` with `unchecked` (26-38) -/
def acceptWhen (p : Sem I) (pred : Val → Out Bool) (m : Msg) : Sem I := fun s pos =>
  (p s pos).bind fun
    | .rej m' pos' => .ok (.rej m' pos')
    | .acc v s' pos' => (pred v).bind fun b =>
        if b then .ok (.acc v s' pos') else .ok (.rej m pos)

/-- `change_error_message.hpp:23-30` -/
def changeErrorMessage (p : Sem I) (m : Msg) : Sem I := fun s pos =>
  (p s pos).bind fun
    | .rej _ _ => .ok (.rej m pos)
    | .acc v s' pos' => .ok (.acc v s' pos')

/-- `transform_error_message.hpp:25-40` -/
def transformErrorMessage (p : Sem I) (f : Msg → Out Msg) : Sem I := fun s pos =>
  (p s pos).bind fun
    | .rej m pos' => (f m).bind fun m' => .ok (.rej m' pos')
    | .acc v s' pos' => .ok (.acc v s' pos')

/-- `transform_error.hpp:22-31` -/
def transformError (p : Sem I) (f : Msg → Pos → Out (Res I)) : Sem I := fun s pos =>
  (p s pos).bind fun
    | .rej m pos' => f m pos'
    | .acc v s' pos' => .ok (.acc v s' pos')

/-- `transform.hpp:40-43` with `no_error` (27-36) -/
def transform (p : Sem I) (f : Val → Val) : Sem I := fun s pos =>
  (p s pos).bind fun
    | .rej m pos' => .ok (.rej m pos')
    | .acc v s' pos' => (f v).force.bind fun w => .ok (.acc w s' pos')

/-- `always.hpp:37-44` with `apply_unchecked` (26-33) -/
def always (p : Sem I) (w : Val) : Sem I := fun s pos =>
  (p s pos).bind fun
    | .rej m pos' => .ok (.rej m pos')
    | .acc _ s' pos' => .ok (.acc w s' pos')

/-- `look_ahead.hpp:36-43` with `no_error` (25-32) -/
def lookAhead (p : Sem I) : Sem I := fun s pos =>
  (p s pos).bind fun
    | .rej m pos' => .ok (.rej m pos')
    | .acc v _ _ => .ok (.acc v s pos)

/-- `except.hpp:26-33` -/
def except (p : Sem I) (w : Val) (m : Msg) : Sem I := fun s pos =>
  (p s pos).bind fun
    | .rej _ _ => .ok (.acc w s pos)
    | .acc _ _ _ => .ok (.rej m pos)

/-- `optional.hpp:25-33` -/
def optional (p : Sem I) (d : Val) : Sem I := fun s pos =>
  (p s pos).bind fun
    | .rej _ _ => .ok (.acc d s pos)
    | .acc v s' pos' => .ok (.acc v s' pos')

/-- `if_.hpp:25-36` -/
def if_ (p : Sem I) (t f : Val) : Sem I := fun s pos =>
  (p s pos).bind fun
    | .rej _ _ => .ok (.acc f s pos)
    | .acc _ _ _ => .ok (.acc t s pos)

/-- `fail_at_first_char_expected.hpp:44-51` with `apply_err` (30-40) -/
def failAtFirstCharExpected (p : Sem I) : Sem I := fun s pos =>
  (p s pos).bind fun
    | .rej m pos' =>
        if pos.equalTo pos' then .ok (.acc .void_ s pos) else .ok (.rej m pos')
    | .acc _ _ _ => .ok (.rej .expectedToFail pos)

/-- `foldl.hpp:51-58` with `apply_unchecked` (27-44) and `next_iteration` (46-47); `again st` is
`foldl<P, st, ForwardOp>`. -/
def foldl (p : Sem I) (again : Val → Sem I) (st : Val) (op : Val → Val → Val) : Sem I :=
  fun s pos =>
    (p s pos).bind fun
      | .rej _ _ => st.force.bind fun v => .ok (.acc v s pos)
      | .acc r s' pos' => st.force.bind fun x => again (op x r) s' pos'

/-- `foldl_reject_incomplete.hpp:63-70` with `apply_unchecked` (28-44), `accept_state` (46-47) and
`end_of_folding` (49-59) -/
def foldlRejectIncomplete (p : Sem I) (again : Val → Sem I) (st : Val)
    (op : Val → Val → Val) : Sem I :=
  fun s pos =>
    (p s pos).bind fun
      | .rej m pos' =>
          if pos.equalTo pos' then st.force.bind fun v => .ok (.acc v s pos)
          else .ok (.rej m pos')
      | .acc r s' pos' => st.force.bind fun x => again (op x r) s' pos'

/-- `foldl_start_with_parser.hpp:31-38` with `apply_unchecked` (21-27), and
`foldl_reject_incomplete_start_with_parser.hpp:41-48` with `apply_unchecked` (27-37): `again st` is
the fold started with `st`. -/
def foldlStartWithParser (stateP : Sem I) (again : Val → Sem I) : Sem I := fun s pos =>
  (stateP s pos).bind fun
    | .rej m pos' => .ok (.rej m pos')
    | .acc v s' pos' => again v s' pos'

/-- `foldr_start_with_parser.hpp:44-51` with `apply_unchecked1` (27-37) and `apply_unchecked`
(53-71); `self` is the same class again. -/
def foldrStartWithParser (p stateP self : Sem I) (op : Val → Val → Val) : Sem I := fun s pos =>
  (p s pos).bind fun
    | .rej _ _ => stateP s pos
    | .acc r s' pos' => (self s' pos').bind fun
        | .rej m pos'' => .ok (.rej m pos'')
        | .acc st s'' pos'' => (op st r).force.bind fun w => .ok (.acc w s'' pos'')

/-- `foldl1.hpp:24-31` and the other `...1` folds -/
def ifAccepts (p q : Sem I) : Sem I := fun s pos =>
  (p s pos).bind fun
    | .rej m pos' => .ok (.rej m pos')
    | .acc _ _ _ => q s pos

/-- `mpl::push_front` on a sequence as a nullary metafunction (used by
`cpp11/impl/push_front_result.hpp:26-29` and `impl/front_inserter.hpp:23-24`). -/
def pushFront : Val → Val → Val
  | .seq l, x => .seq (x :: l)
  | .str l, x => match x.value with
      | .ok c => .str (c :: l)
      | .ill f => .bad f
      | .deep => .bad .noValue
  | _, _ => .bad .noSpecialisation

/-- `mpl::push_back` on a sequence as a nullary metafunction (used by
`impl/apply_parser.hpp:31-32` and `impl/back_inserter.hpp:23-24`). -/
def pushBack : Val → Val → Val
  | .seq l, x => .seq (l ++ [x])
  | .str l, x => match x.value with
      | .ok c => .str (l ++ [c])
      | .ill f => .bad f
      | .deep => .bad .noValue
  | _, _ => .bad .noSpecialisation

/-- `cpp11/sequence.hpp:29-57` -/
def sequence11 : List (Sem I) → Sem I
  | [] => ret (.seq [])
  | p :: ps => fun s pos =>
      (p s pos).bind fun
        | .rej m pos' => .ok (.rej m pos')
        | .acc v s' pos' => transform (sequence11 ps) (fun l => pushFront l v) s' pos'

/-- The `mpl::fold` of `cpp98/impl/sequence_impl.hpp:23-30` with `impl/apply_parser.hpp:25-56`. -/
def sequence98Loop : List (Sem I) → Res I → Out (Res I)
  | [], st => .ok st
  | _ :: ps, .rej m pos => sequence98Loop ps (.rej m pos)
  | p :: ps, .acc accum s pos =>
      accum.force.bind fun l =>
        (transform p (fun x => pushBack l x) s pos).bind fun st' => sequence98Loop ps st'

/-- `cpp98/sequence.hpp:26-58` with `cpp98/impl/sequence.hpp:26-52`: specialisations for 1 to
`limit - 1` parsers.  `sequence<>` is `sequence<na, …, na>`, for which the specialisation for one
parser is the most specialised match with `P0 = na`, and `mpl::vector<na>` is the empty vector; so
no parsers at all are fine when there is a specialisation for one. -/
def sequence98 (limit : Nat) (ps : List (Sem I)) : Sem I := fun s pos =>
  if 1 < limit ∧ ps.length < limit then sequence98Loop ps (.acc (.seq []) s pos)
  else .ill .noSpecialisation

/-- `cpp11/one_of.hpp:25-50` with `cpp11/impl/eval_later_result.hpp:22-32`.  The condition of the
inner `eval_if` is a template argument of the outer one: the remaining alternatives are
instantiated even when the first one accepts. -/
def oneOf11 : List (Sem I) → Sem I
  | [] => fail .noneOfTheExpectedCasesFound
  | p :: ps => fun s pos =>
      (p s pos).bind fun r1 => (oneOf11 ps s pos).bind fun r2 =>
        match r1, r2 with
        | .acc v s' pos', _ => .ok (.acc v s' pos')
        | .rej _ _, .acc v s' pos' => .ok (.acc v s' pos')
        | .rej m1 pos1, .rej m2 pos2 =>
            if pos2.less pos1 then .ok (.rej m1 pos1) else .ok (.rej m2 pos2)

/-- `cpp98/impl/one_of_fwd_op.hpp:27-38` with `cpp98/impl/later_result.hpp:22-32`: combine the
outcome so far with the outcome of the next alternative. -/
def oneOf98Op : Res I → Res I → Res I
  | .acc v s pos, _ => .acc v s pos
  | .rej _ _, .acc v s pos => .acc v s pos
  | .rej m1 pos1, .rej m2 pos2 => if pos2.less pos1 then .rej m1 pos1 else .rej m2 pos2

/-- The `mpl::fold` of `cpp98/impl/one_of.hpp:29-36`; every alternative is instantiated
(`cpp98/impl/one_of_fwd_op.hpp:29-37`: the condition of the inner `eval_if` is a template argument). -/
def oneOf98Loop (s : I) (pos : Pos) : List (Sem I) → Res I → Out (Res I)
  | [], st => .ok st
  | p :: ps, st => (p s pos).bind fun r => oneOf98Loop s pos ps (oneOf98Op st r)

/-- `cpp98/one_of.hpp:23-36`: up to `limit` parsers. -/
def oneOf98 (limit : Nat) (ps : List (Sem I)) : Sem I := fun s pos =>
  if ps.length ≤ limit then oneOf98Loop s pos ps (.rej .noneOfTheExpectedCasesFound pos)
  else .ill .noSpecialisation

/-- `cpp11/impl/nth_of_c_skip_remaining.hpp:24-53` -/
def skipRemaining (v : Val) : List (Sem I) → Sem I
  | [] => ret v
  | p :: ps => fun s pos =>
      (p s pos).bind fun
        | .rej m pos' => .ok (.rej m pos')
        | .acc _ s' pos' => skipRemaining v ps s' pos'

/-- `cpp11/impl/nth_of_c.hpp:26-75` -/
def nthGo11 : Int → List (Sem I) → Sem I
  | _, [] => fun _ _ => .ill .noSpecialisation
  | n, p :: ps => fun s pos =>
      (p s pos).bind fun
        | .rej m pos' => .ok (.rej m pos')
        | .acc v s' pos' =>
            if n = 0 then skipRemaining v ps s' pos' else nthGo11 (n - 1) ps s' pos'

/-- `cpp11/nth_of_c.hpp:22-39` -/
def nthOf11 (n : Int) (ps : List (Sem I)) : Sem I :=
  match ps with
  | [] => fail (.indexOutOfRange 0 (-1) n)
  | p :: ps =>
      if 0 ≤ n ∧ n < ((p :: ps).length : Int) then nthGo11 n (p :: ps)
      else fail (.indexOutOfRange 0 (((p :: ps).length : Int) - 1) n)

/-- `cpp11/last_of.hpp:20-30` -/
def lastOf11 (ps : List (Sem I)) : Sem I :=
  match ps with
  | [] => fail (.indexOutOfRange 0 (-1) 0)
  | p :: ps => nthGo11 (((p :: ps).length : Int) - 1) (p :: ps)

/-- The `mpl::fold` with `cpp98/impl/skip_seq.hpp:23-67` in `cpp98/impl/nth_of_c_impl.hpp:60-68`. -/
def skipSeq98 : List (Sem I) → Res I → Out (Res I)
  | [], st => .ok st
  | _ :: ps, .rej m pos => skipSeq98 ps (.rej m pos)
  | p :: ps, .acc v s pos =>
      (p s pos).bind fun
        | .rej m pos' => skipSeq98 ps (.rej m pos')
        | .acc _ s' pos' => skipSeq98 ps (.acc v s' pos')

/-- `cpp98/impl/nth_of_c_impl.hpp:23-70` -/
def nthGo98 : Int → List (Sem I) → Sem I
  | _, [] => fun _ _ => .ill .noSpecialisation
  | n, p :: ps => fun s pos =>
      if n = 0 then (p s pos).bind fun r => skipSeq98 ps r
      else (p s pos).bind fun
        | .rej m pos' => .ok (.rej m pos')
        | .acc _ s' pos' => nthGo98 (n - 1) ps s' pos'

/-- `cpp98/nth_of_c.hpp:27-62` (at most `limit - 1` parsers) with
`cpp98/impl/nth_of_c.hpp:32-46` -/
def nthOf98 (limit : Nat) (n : Int) (ps : List (Sem I)) : Sem I :=
  if ps.length < limit then
    if 0 ≤ n ∧ n < (ps.length : Int) then nthGo98 n ps
    else fail (.indexOutOfRange 0 ((ps.length : Int) - 1) n)
  else fun _ _ => .ill .noSpecialisation

/-- `cpp98/last_of.hpp:26-58` -/
def lastOf98 (limit : Nat) (ps : List (Sem I)) : Sem I :=
  nthOf98 limit ((ps.length : Int) - 1) ps

/-- `impl/iterate_impl.hpp:23-39` with `impl/iterate_impl_unchecked.hpp:24-37`; `again` is the
iteration with one less to go. -/
def iterate (n : Int) (p : Sem I) (accum : List Val) (again : List Val → Sem I) : Sem I :=
  fun s pos =>
    if n = 0 then .ok (.acc (.seq accum) s pos)
    else (p s pos).bind fun
      | .rej m pos' => .ok (.rej m pos')
      | .acc v s' pos' => again (accum ++ [v]) s' pos'

/-- `keyword.hpp:68-75` with `nonempty` (33-64), for a non-empty keyword: `c` is
`lit<front<Kw>>`, `rest` is `keyword<pop_front<Kw>, ResultType>`. -/
def keywordCons (c rest : Sem I) : Sem I := fun s pos =>
  (c s pos).bind fun
    | .rej m pos' => .ok (.rej m pos')
    | .acc _ s' pos' => rest s' pos'

end Comb

/-- `impl/is_char_c.hpp:19-26` -/
def isCharC (c : Chr) (v : Val) : Out Bool := v.value.bind fun x => .ok (x == c)

/-- `lit_c.hpp:21-28` -/
def P.litC (c : Chr) : P :=
  .acceptWhen (.changeErrorMessage .oneChar (.literalExpected c)) (isCharC c) (.literalExpected c)

/-- `cpp11/impl/or_c.hpp:19-29` -/
def orC : List Bool → Bool
  | [] => false
  | true :: _ => true
  | false :: bs => orC bs

/-- `cpp11/impl/any_of_c.hpp:19-26`; with no characters at all the argument is not looked at -/
def anyOfC11 (cs : List Chr) (v : Val) : Out Bool :=
  match cs with
  | [] => .ok false
  | c :: cs => v.value.bind fun x => .ok (orC ((c :: cs).map fun c => x == c))

/-- The loop of `cpp14/impl/any_of_c.hpp:24-35` over the array `values`. -/
def anyOfRun14 (values : Array Bool) (i : Nat) : Bool :=
  if h : i < values.size then
    if values[i] then true else anyOfRun14 values (i + 1)
  else false
termination_by values.size - i

/-- `cpp14/impl/any_of_c.hpp:19-48` -/
def anyOfC14 (cs : List Chr) (v : Val) : Out Bool :=
  match cs with
  | [] => .ok false
  | c :: cs => v.value.bind fun x => .ok (anyOfRun14 ((c :: cs).map fun c => x == c).toArray 0)

/-- `cpp11/impl/is_none_c_impl.hpp:19-29` -/
def isNoneCImpl (d : Chr) : List Chr → Bool
  | [] => true
  | c :: cs => if d = c then false else isNoneCImpl d cs

/-- `cpp11/impl/is_none_c.hpp:19-26` -/
def isNoneC11 (cs : List Chr) (v : Val) : Out Bool :=
  v.value.bind fun x => .ok (isNoneCImpl x cs)

/-- `cpp98/impl/is_none.hpp:27-61`: `is_none<n>` compares with the last character first; the list
is given reversed. -/
def isNone98Rev (v : Val) : List Chr → Out Bool
  | [] => .ok true
  | c :: cs => v.value.bind fun x => if x = c then .ok false else isNone98Rev v cs

/-- `cpp98/impl/is_none.hpp:27-61` -/
def isNone98 (cs : List Chr) (v : Val) : Out Bool := isNone98Rev v cs.reverse

/-- `nth_of_c.hpp`: the implementation of `nth_of_c` for the standard in use (`nth_of_c.hpp:11-17`). -/
def Comb.nthOf {I : Type} (E : Env I) (n : Int) (ps : List (Sem I)) : Sem I :=
  match E.std with
  | .cpp98 => nthOf98 E.limSequence n ps
  | _ => nthOf11 n ps

/-- `middle_of.hpp:27-41`; `unpaired<Line, Col>::apply<Msg>` is `error/unpaired.hpp:36-43`. -/
def Comb.middleOf {I : Type} (E : Env I) (p1 p2 p3 : Sem I) : Sem I := fun s pos =>
  Comb.nthOf E 1 [p1, p2,
    transformErrorMessage p3 fun m => .ok (.unpaired pos.line pos.col m)] s pos

/-- One layer of instantiation of `p::apply<S, Pos>::type`, with `rec` for the parsers mentioned
in it.  Each case is the cited header of the constructor of `P` (for example `transform.hpp:40-43`). -/
def step {I : Type} (E : Env I) (rec : P → Sem I) : P → Sem I
  | .oneChar => Comb.oneChar E.input
  | .empty v => Comb.empty E.input v
  | .fail m => Comb.fail m
  | .ret v => Comb.ret v
  | .acceptWhen p pred m => Comb.acceptWhen (rec p) pred m
  | .changeErrorMessage p m => Comb.changeErrorMessage (rec p) m
  | .transformErrorMessage p f => Comb.transformErrorMessage (rec p) f
  | .transformError p k => Comb.transformError (rec p) (E.onError k)
  | .transform p f => Comb.transform (rec p) f
  | .always p v => Comb.always (rec p) v
  | .lookAhead p => Comb.lookAhead (rec p)
  | .except p v m => Comb.except (rec p) v m
  | .optional p d => Comb.optional (rec p) d
  | .if_ p t f => Comb.if_ (rec p) t f
  | .failAtFirstCharExpected p => Comb.failAtFirstCharExpected (rec p)
  | .foldl p st op => Comb.foldl (rec p) (fun st' => rec (.foldl p st' op)) st op
  | .foldlRejectIncomplete p st op =>
      Comb.foldlRejectIncomplete (rec p) (fun st' => rec (.foldlRejectIncomplete p st' op)) st op
  | .foldlStartWithParser p sp op =>
      Comb.foldlStartWithParser (rec sp) (fun st => rec (.foldl p st op))
  | .foldlRejectIncompleteStartWithParser p sp op =>
      Comb.foldlStartWithParser (rec sp) (fun st => rec (.foldlRejectIncomplete p st op))
  | .foldrStartWithParser p sp op =>
      Comb.foldrStartWithParser (rec p) (rec sp) (rec (.foldrStartWithParser p sp op)) op
  | .ifAccepts p q => Comb.ifAccepts (rec p) (rec q)
  | .sequence ps => match E.std with
      | .cpp98 => Comb.sequence98 E.limSequence (ps.map rec)
      | _ => Comb.sequence11 (ps.map rec)
  | .oneOf ps => match E.std with
      | .cpp98 => Comb.oneOf98 E.limOneOf (ps.map rec)
      | _ => Comb.oneOf11 (ps.map rec)
  | .nthOfC n ps => Comb.nthOf E n (ps.map rec)
  | .lastOf ps => match E.std with
      | .cpp98 => Comb.lastOf98 E.limSequence (ps.map rec)
      | _ => Comb.lastOf11 (ps.map rec)
  | .middleOf p1 p2 p3 => Comb.middleOf E (rec p1) (rec p2) (rec p3)
  | .iterate n p accum =>
      Comb.iterate n (rec p) accum (fun accum' => rec (.iterate (n - 1) p accum'))
  | .keyword kw v => match kw with
      | [] => Comb.ret v
      | c :: cs => Comb.keywordCons (rec (P.litC c)) (rec (.keyword cs v))
  | .oneOfC cs => match E.std with
      | .cpp98 =>
          if cs.length < E.limOneOf then rec (.oneOf (cs.map P.litC))
          else fun _ _ => .ill .noSpecialisation
      | .cpp11 => rec (.acceptWhen .oneChar (anyOfC11 cs) .noneOfTheExpectedCasesFound)
      | .cpp14 => rec (.acceptWhen .oneChar (anyOfC14 cs) .noneOfTheExpectedCasesFound)
  | .oneCharExceptC cs => match E.std with
      | .cpp98 =>
          if cs.length < E.limOneCharExcept then
            rec (.acceptWhen .oneChar (isNone98 cs) .unexpectedCharacter)
          else fun _ _ => .ill .noSpecialisation
      | _ => rec (.acceptWhen .oneChar (isNoneC11 cs) .unexpectedCharacter)
  | .ref i => rec (E.rules i)
  | .native i => E.native i

/-- Instantiation of `p::apply<S, Pos>::type` with at most `n` nested layers (the template
instantiation depth of the compiler; library-internal helper templates are not counted)
(for example `foldl.hpp:51-58`, which instantiates itself through lines 27-44). -/
def eval {I : Type} (E : Env I) : Nat → P → Sem I
  | 0 => fun _ _ _ => .deep
  | n + 1 => step E (eval E n)

open Classical in
/-- The outcome of `p::apply<S, Pos>::type` without a depth limit; `deep` means that no depth
suffices (for example `foldl.hpp:51-58`). -/
noncomputable def run {I : Type} (E : Env I) (p : P) (s : I) (pos : Pos) : Out (Res I) :=
  if h : ∃ n, eval E n p s pos ≠ .deep then eval E (Classical.choose h) p s pos else .deep

end Metaparse
