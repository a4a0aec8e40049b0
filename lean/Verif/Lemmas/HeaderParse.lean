import Verif.Lemmas.HeaderMacros
/-! # Parsing the program of the generated header -/

namespace Metaparse.StrHdr

open Gen

/-- `n_ >= k ? k : (e)` -/
def takeStep (k : Nat) (e : Ex) : Ex := .cond (.ge (.var false [lit "n_"]) (.num k)) (.num k) e

/-- The body of `take`. -/
def takeEx : List Nat → Ex
  | [] => .num 0
  | k :: ks => takeStep k (takeEx ks)

/-- The tokens of the body of `take`. -/
def takeToks : List Nat → List Tok
  | [] => [.id (lit "0")]
  | k :: ks => .id (lit "n_") :: .p '>' :: .p '=' :: .id (number k) :: .p '?' :: .id (number k) :: .p ':' :: .p '(' ::
      (takeToks ks ++ [.p ')'])

/-- The tokens of the program before the specialisations. -/
theorem front_toks : noSp (frontLines.flatMap (lex [])) =
    toks "namespace boost { namespace metaparse { namespace v1 { namespace impl { constexpr inline int take(int n_) { return " ++
    (takeToks (powers 9) ++
    (.p ';' :: .p '}' :: toks "template <int LenNow, int LenRemaining, char... Cs> struct make_string;" ++
      toks "template <char... Cs> struct make_string<0, 0, Cs...> : string<> {};")) := by
  decide +kernel

theorem decls_namespace (n : Nat) (ns : List Str) (x : Str) (ts : List Tok) :
    decls (n + 1) ns (.id (lit "namespace") :: .id x :: .p '{' :: ts) = decls n (ns ++ [x]) ts := rfl

theorem decls_fn (n : Nat) (ns : List Str) (f x : Str) (ts : List Tok) :
    decls (n + 1) ns (.id (lit "constexpr") :: .id (lit "inline") :: .id (lit "int") :: .id f :: .p '(' :: .id (lit "int") ::
      .id x :: .p ')' :: .p '{' :: .id (lit "return") :: ts) =
    (expr n ts).bind fun e =>
      match e.2 with
      | .p ';' :: .p '}' :: ts => (decls n ns ts).map (.fn (ns ++ [f]) x e.1 :: ·)
      | _ => none := rfl

theorem isNumber_number (k : Nat) : isNumber (number k) = true := by
  cases e : number k with
  | nil => exact absurd e (number_ne k)
  | cons c x =>
      have := isDigit_number (n := k) (c := c) (by rw [e]; simp)
      exact this

theorem prim_number (n k : Nat) (ts : List Tok) : prim (n + 1) (.id (number k) :: ts) = some (.num k, ts) := by
  have h : prim (n + 1) (.id (number k) :: ts) = if isNumber (number k) then some (.num (decimal (number k)), ts)
      else if number k = lit "typename" then prim n ts
      else if number k = lit "sizeof" then (prim n ts).map fun r => (.sizeof r.1, r.2)
      else named n false (number k :: (pathRest ts).1) (pathRest ts).2 := by rfl
  rw [h, isNumber_number, if_pos rfl, decimal_number]

/-- A name that is no number and no keyword. -/
def ordinary (x : Str) : Bool := !isNumber x && x != lit "typename" && x != lit "sizeof"

theorem prim_name {x : Str} (h : ordinary x = true) (n : Nat) (ts : List Tok) :
    prim (n + 1) (.id x :: ts) = named n false (x :: (pathRest ts).1) (pathRest ts).2 := by
  simp only [ordinary, Bool.and_eq_true, Bool.not_eq_true', bne_iff_ne] at h
  have e : prim (n + 1) (.id x :: ts) = if isNumber x then some (.num (decimal x), ts)
      else if x = lit "typename" then prim n ts
      else if x = lit "sizeof" then (prim n ts).map fun r => (.sizeof r.1, r.2)
      else named n false (x :: (pathRest ts).1) (pathRest ts).2 := by rfl
  rw [e, h.1.1, if_neg (by decide), if_neg h.1.2, if_neg h.2]

/-! ## Expressions -/

/-- Enough steps parse a primary expression. -/
def Prim (ts : List Tok) (e : Ex) (rest : List Tok) : Prop := Evt fun n => prim n ts = some (e, rest)

/-- Enough steps parse what follows a name. -/
def Named (abs : Bool) (path : List Str) (ts : List Tok) (e : Ex) (rest : List Tok) : Prop :=
  Evt fun n => named n abs path ts = some (e, rest)

/-- Enough steps parse a difference. -/
def Diff (e : Ex) (ts : List Tok) (e' : Ex) (rest : List Tok) : Prop := Evt fun n => diff n e ts = some (e', rest)

/-- Enough steps parse an expression. -/
def Expr (ts : List Tok) (e : Ex) (rest : List Tok) : Prop := Evt fun n => expr n ts = some (e, rest)

/-- Enough steps parse arguments. -/
def Args (c : Char) (ts : List Tok) (es : List Ex) (rest : List Tok) : Prop := Evt fun n => args n c ts = some (es, rest)

theorem prim_num (k : Nat) (ts : List Tok) : Prim (.id (number k) :: ts) (.num k) ts := Evt.mk 1 fun n => prim_number n k ts

theorem prim_str (s : List Chr) (ts : List Tok) : Prim (.str s :: ts) (.str s) ts := Evt.mk 1 fun _ => rfl

theorem prim_paren {ts rest : List Tok} {e : Ex} (h : Expr ts e (.p ')' :: rest)) : Prim (.p '(' :: ts) e rest :=
  h.succ fun n hn => by
    have : prim (n + 1) (.p '(' :: ts) = (expr n ts).bind fun r =>
      match r.2 with
      | .p ')' :: ts => some (r.1, ts)
      | _ => none := by rfl
    rw [this, hn]; rfl

theorem prim_typename {ts rest : List Tok} {e : Ex} (h : Prim ts e rest) : Prim (.id (lit "typename") :: ts) e rest :=
  h.succ fun n hn => by
    have : prim (n + 1) (.id (lit "typename") :: ts) = prim n ts := by rfl
    rw [this, hn]

theorem prim_sizeof {ts rest : List Tok} {e : Ex} (h : Prim ts e rest) : Prim (.id (lit "sizeof") :: ts) (.sizeof e) rest :=
  h.succ fun n hn => by
    have : prim (n + 1) (.id (lit "sizeof") :: ts) = (prim n ts).map fun r => (.sizeof r.1, r.2) := by rfl
    rw [this, hn]; rfl

theorem prim_named {x : Str} (hx : ordinary x = true) {ts us rest : List Tok} {path : List Str} {e : Ex}
    (hp : pathRest ts = (path, us)) (h : Named false (x :: path) us e rest) : Prim (.id x :: ts) e rest :=
  h.succ fun n hn => by rw [prim_name hx, hp]; exact hn

theorem prim_abs {x : Str} {ts us rest : List Tok} {path : List Str} {e : Ex}
    (hp : pathRest ts = (path, us)) (h : Named true (x :: path) us e rest) : Prim (.p ':' :: .p ':' :: .id x :: ts) e rest :=
  h.succ fun n hn => by
    have : prim (n + 1) (.p ':' :: .p ':' :: .id x :: ts) = named n true (x :: (pathRest ts).1) (pathRest ts).2 := by rfl
    rw [this, hp]; exact hn

/-- Tokens after which a name is complete. -/
def nameEnds : List Tok → Bool
  | .p c :: _ => c != ':' && c != '<' && c != '(' && c != '.'
  | _ => false

theorem named_var {ts : List Tok} (h : nameEnds ts = true) (abs : Bool) (path : List Str) :
    Named abs path ts (.var abs path) ts := Evt.mk 1 fun n => by
  unfold named
  split
  · exact absurd ‹_› (by omega)
  · exact absurd h (by simp [nameEnds])
  · exact absurd h (by simp [nameEnds])
  · exact absurd h (by simp [nameEnds])
  · rfl

theorem pathRest_end {ts : List Tok} (h : nameEnds ts = true) : pathRest ts = ([], ts) := by
  unfold pathRest
  split
  · exact absurd h (by simp [nameEnds])
  · rfl

theorem prim_var {x : Str} (hx : ordinary x = true) {ts : List Tok} (h : nameEnds ts = true) :
    Prim (.id x :: ts) (.var false [x]) ts := prim_named hx (pathRest_end h) (named_var h _ _)

theorem prim_pack {x : Str} (hx : ordinary x = true) (ts : List Tok) :
    Prim (.id x :: .p '.' :: .p '.' :: .p '.' :: ts) (.pack x) ts :=
  prim_named hx rfl (Evt.mk 1 fun _ => rfl)

theorem named_call {abs : Bool} {path : List Str} {ts rest : List Tok} {es : List Ex} (h : Args ')' ts es rest) :
    Named abs path (.p '(' :: ts) (.call abs path [] es) rest := h.succ fun n hn => by
  have : named (n + 1) abs path (.p '(' :: ts) = (args n ')' ts).map fun q => (.call abs path [] q.1, q.2) := by rfl
  rw [this, hn]; rfl

theorem named_open (n : Nat) (abs : Bool) (path : List Str) (ts : List Tok) :
    named (n + 1) abs path (.p '<' :: ts) = (args n '>' ts).bind fun r =>
      match r.2 with
      | .p '(' :: ts => (args n ')' ts).map fun q => (.call abs path r.1 q.1, q.2)
      | .p ':' :: .p ':' :: .id x :: ts => if x = lit "type" then some (.type (.tmpl abs path r.1), ts) else none
      | ts => some (.tmpl abs path r.1, ts) := by rfl

theorem named_tcall {abs : Bool} {path : List Str} {ts us rest : List Tok} {es as : List Ex}
    (h : Args '>' ts es (.p '(' :: us)) (h' : Args ')' us as rest) :
    Named abs path (.p '<' :: ts) (.call abs path es as) rest := (h.and h').succ fun n hn => by
  rw [named_open, hn.1]
  show (args n ')' us).map _ = _
  rw [hn.2]; rfl

theorem named_type {abs : Bool} {path : List Str} {ts rest : List Tok} {es : List Ex}
    (h : Args '>' ts es (.p ':' :: .p ':' :: .id (lit "type") :: rest)) :
    Named abs path (.p '<' :: ts) (.type (.tmpl abs path es)) rest := h.succ fun n hn => by
  rw [named_open, hn]; rfl

theorem named_tmpl {abs : Bool} {path : List Str} {ts rest : List Tok} {es : List Ex}
    (h : Args '>' ts es rest) (hr : nameEnds rest = true) :
    Named abs path (.p '<' :: ts) (.tmpl abs path es) rest := h.succ fun n hn => by
  rw [named_open, hn]
  show (match rest with
      | .p '(' :: ts => (args n ')' ts).map fun q => (Ex.call abs path es q.1, q.2)
      | .p ':' :: .p ':' :: .id x :: ts => if x = lit "type" then some (.type (.tmpl abs path es), ts) else none
      | ts => some (.tmpl abs path es, ts)) = some (.tmpl abs path es, rest)
  split
  · exact absurd hr (by simp [nameEnds])
  · exact absurd hr (by simp [nameEnds])
  · rfl

/-- Tokens after which a difference is complete. -/
def diffEnds : List Tok → Bool
  | .p c :: _ => c != '-'
  | _ => true

/-- Tokens after which an expression is complete. -/
def exprEnds (ts : List Tok) : Bool := ts.head? != some (.p '?') && !([.p '>', .p '='].isPrefixOf ts)

theorem diff_end {ts : List Tok} (h : diffEnds ts = true) (e : Ex) : Diff e ts e ts := Evt.mk 1 fun n => by
  unfold diff
  split
  · exact absurd ‹_› (by omega)
  · exact absurd h (by simp [diffEnds])
  · rfl

theorem diff_sub {a b e : Ex} {ts us rest : List Tok} (h : Prim ts b us) (h' : Diff (.sub a b) us e rest) :
    Diff a (.p '-' :: ts) e rest := (h.and h').succ fun n hn => by
  have : diff (n + 1) a (.p '-' :: ts) = (prim n ts).bind fun r => diff n (.sub a r.1) r.2 := by rfl
  rw [this, hn.1]
  exact hn.2

theorem cmp_eq (n : Nat) (ts : List Tok) : cmp (n + 1) ts = (prim n ts).bind fun r => (diff n r.1 r.2).bind fun r =>
      match r.2 with
      | .p '>' :: .p '=' :: ts => (prim n ts).bind fun q => (diff n q.1 q.2).bind fun q => some (Ex.ge r.1 q.1, q.2)
      | _ => some r := by rfl

theorem expr_eq (n : Nat) (ts : List Tok) : expr (n + 1) ts = (cmp n ts).bind fun r =>
      match r.2 with
      | .p '?' :: ts => (expr n ts).bind fun a =>
          match a.2 with
          | .p ':' :: ts => (expr n ts).bind fun b => some (Ex.cond r.1 a.1 b.1, b.2)
          | _ => none
      | _ => some r := by rfl

theorem expr_diff {a e : Ex} {ts us rest : List Tok} (h : Prim ts a us) (h' : Diff a us e rest)
    (hr : exprEnds rest = true) : Expr ts e rest := by
  have hc : Evt fun n => cmp n ts = some (e, rest) := (h.and h').succ fun n hn => by
    rw [cmp_eq, hn.1]
    show (diff n a us).bind _ = _
    rw [hn.2]
    rw [Option.bind_some]
    dsimp only
    split
    · exact absurd hr (by simp [exprEnds])
    · rfl
  refine hc.succ fun n hn => ?_
  rw [expr_eq, hn]
  rw [Option.bind_some]
  dsimp only
  split
  · exact absurd hr (by simp [exprEnds])
  · rfl

theorem expr_prim {e : Ex} {ts rest : List Tok} (h : Prim ts e rest) (hd : diffEnds rest = true)
    (hr : exprEnds rest = true) : Expr ts e rest := expr_diff h (diff_end hd e) hr

theorem expr_cond {a b x y : Ex} {ts us vs ws rest : List Tok} (ha : Prim ts a (.p '>' :: .p '=' :: us))
    (hb : Prim us b (.p '?' :: vs)) (hx : Expr vs x (.p ':' :: ws)) (hy : Expr ws y rest) :
    Expr ts (.cond (.ge a b) x y) rest := by
  have hc : Evt fun n => cmp n ts = some (.ge a b, .p '?' :: vs) :=
    ((ha.and hb).and ((diff_end (ts := .p '>' :: .p '=' :: us) rfl a).and (diff_end (ts := .p '?' :: vs) rfl b))).succ
      fun n hn => by
        rw [cmp_eq, hn.1.1]
        show (diff n a (.p '>' :: .p '=' :: us)).bind _ = _
        rw [hn.2.1]
        show (prim n us).bind _ = _
        rw [hn.1.2]
        show (diff n b (.p '?' :: vs)).bind _ = _
        rw [hn.2.2]
        rfl
  refine (hc.and (hx.and hy)).succ fun n hn => ?_
  rw [expr_eq, hn.1]
  show (expr n vs).bind _ = _
  rw [hn.2.1]
  show (expr n ws).bind _ = _
  rw [hn.2.2]
  rfl

theorem args_eq (n : Nat) (c : Char) (ts : List Tok) : args (n + 1) c ts =
      if ts.head? = some (.p c) then some ([], ts.tail)
      else (expr n ts).bind fun r =>
        match r.2 with
        | .p d :: ts =>
            if d = c then some ([r.1], ts)
            else if d = ',' then (args n c ts).map fun q => (r.1 :: q.1, q.2) else none
        | _ => none := by rfl

theorem args_nil (c : Char) (ts : List Tok) : Args c (.p c :: ts) [] ts := Evt.mk 1 fun n => by
  rw [args_eq, if_pos (by rfl)]; rfl

theorem args_last {c : Char} {ts rest : List Tok} {e : Ex} (hh : ts.head? ≠ some (.p c)) (h : Expr ts e (.p c :: rest)) :
    Args c ts [e] rest := h.succ fun n hn => by
  rw [args_eq, if_neg hh, hn]
  show (if c = c then _ else _) = _
  rw [if_pos rfl]

theorem args_cons {c : Char} (hc : c ≠ ',') {ts us rest : List Tok} {e : Ex} {es : List Ex} (hh : ts.head? ≠ some (.p c))
    (h : Expr ts e (.p ',' :: us)) (h' : Args c us es rest) : Args c ts (e :: es) rest := (h.and h').succ fun n hn => by
  rw [args_eq, if_neg hh, hn.1]
  show (if ',' = c then _ else _) = _
  rw [if_neg (fun e => hc e.symm)]
  show (args n c us).map _ = _
  rw [hn.2]
  rfl

/-! ## `take` -/

theorem number_zero : number 0 = lit "0" := by decide +kernel

theorem expr_take {c : Char} (hc : c = ')' ∨ c = ';') {ts : List Tok} (ks : List Nat) :
    Expr (takeToks ks ++ .p c :: ts) (takeEx ks) (.p c :: ts) := by
  have hd : diffEnds (.p c :: ts) = true := by rcases hc with rfl | rfl <;> rfl
  have he : exprEnds (.p c :: ts) = true := by
    rcases hc with rfl | rfl <;> rfl
  induction ks generalizing c ts with
  | nil => rw [takeToks, ← number_zero]; exact expr_prim (prim_num 0 _) hd he
  | cons k ks ih =>
      have ih' := ih (c := ')') (Or.inl rfl) (ts := .p c :: ts) rfl (by rcases hc with rfl | rfl <;> rfl)
      have e : takeToks (k :: ks) ++ .p c :: ts = .id (lit "n_") :: .p '>' :: .p '=' :: .id (number k) :: .p '?' ::
          .id (number k) :: .p ':' :: .p '(' :: (takeToks ks ++ .p ')' :: .p c :: ts) := by simp [takeToks]
      rw [e]
      exact expr_cond (prim_var (by decide +kernel) rfl) (prim_num k _) (expr_prim (prim_num k _) rfl rfl)
        (expr_prim (prim_paren ih') hd he)

/-! ## Declarations -/

/-- Enough steps parse declarations. -/
def Decls (ns : List Str) (ts : List Tok) (ds : List Decl) : Prop := Evt fun n => decls n ns ts = some ds

theorem decls_nil : Decls [] [] [] := Evt.mk 1 fun _ => rfl

theorem decls_ns {ns : List Str} {x : Str} {ts : List Tok} {ds : List Decl} (h : Decls (ns ++ [x]) ts ds) :
    Decls ns (.id (lit "namespace") :: .id x :: .p '{' :: ts) ds := h.succ fun n hn => by
  rw [decls_namespace]; exact hn

theorem decls_close {ns : List Str} (hne : ns ≠ []) {ts : List Tok} {ds : List Decl} (h : Decls ns.dropLast ts ds) :
    Decls ns (.p '}' :: ts) ds := h.succ fun n hn => by
  have : decls (n + 1) ns (.p '}' :: ts) = if ns = [] then none else decls n ns.dropLast ts := by rfl
  rw [this, if_neg hne, hn]

theorem decls_function {ns : List Str} {f x : Str} {ts us : List Tok} {e : Ex} {ds : List Decl}
    (h : Expr ts e (.p ';' :: .p '}' :: us)) (h' : Decls ns us ds) :
    Decls ns (.id (lit "constexpr") :: .id (lit "inline") :: .id (lit "int") :: .id f :: .p '(' :: .id (lit "int") ::
      .id x :: .p ')' :: .p '{' :: .id (lit "return") :: ts) (.fn (ns ++ [f]) x e :: ds) := (h.and h').succ fun n hn => by
  rw [decls_fn, hn.1]
  show (decls n ns us).map _ = _
  rw [hn.2]; rfl

theorem decls_template (n : Nat) (ns : List Str) (ts : List Tok) :
    decls (n + 1) ns (.id (lit "template") :: .p '<' :: ts) = (tparams ts).bind fun ps =>
            match ps.2 with
            | .id s :: .id _ :: .p ';' :: ts => if s = lit "struct" then decls n ns ts else none
            | .id s :: .id x :: .p '<' :: ts =>
                if s = lit "struct" then
                  (args n '>' ts).bind fun as =>
                    match as.2 with
                    | .p ':' :: ts => (expr n ts).bind fun b =>
                        match b.2 with
                        | .p '{' :: .p '}' :: .p ';' :: ts => (decls n ns ts).map (.spec (ns ++ [x]) ps.1 as.1 b.1 :: ·)
                        | _ => none
                    | _ => none
                else none
            | _ => none := by rfl

theorem decls_declared {ns : List Str} {x : Str} {ts us : List Tok} {ps : List (Bool × Str)} {ds : List Decl}
    (hp : tparams ts = some (ps, .id (lit "struct") :: .id x :: .p ';' :: us)) (h : Decls ns us ds) :
    Decls ns (.id (lit "template") :: .p '<' :: ts) ds := h.succ fun n hn => by
  rw [decls_template, hp]
  show (if lit "struct" = lit "struct" then decls n ns us else none) = _
  rw [if_pos rfl, hn]

theorem decls_spec {ns : List Str} {x : Str} {ts us vs ws : List Tok} {ps : List (Bool × Str)} {as : List Ex} {b : Ex}
    {ds : List Decl} (hp : tparams ts = some (ps, .id (lit "struct") :: .id x :: .p '<' :: us))
    (ha : Args '>' us as (.p ':' :: vs)) (hb : Expr vs b (.p '{' :: .p '}' :: .p ';' :: ws)) (h : Decls ns ws ds) :
    Decls ns (.id (lit "template") :: .p '<' :: ts) (.spec (ns ++ [x]) ps as b :: ds) := ((ha.and hb).and h).succ fun n hn => by
  rw [decls_template, hp]
  show (if lit "struct" = lit "struct" then (args n '>' us).bind _ else none) = _
  rw [if_pos rfl, hn.1.1]
  show (expr n vs).bind _ = _
  rw [hn.1.2]
  show (decls n ns ws).map _ = _
  rw [hn.2]
  rfl

/-! ## The specialisations -/

/-- Names of characters and the like. -/
def CNames (xs : List Str) : Prop := ∀ x ∈ xs, ordinary x = true

theorem ordinary_C (k : Nat) : ordinary (lit "C" ++ number k) = true := by rfl

theorem cnames (i : Nat) : CNames (uniqueNames i) := fun x hx => by
  obtain ⟨k, rfl⟩ := mem_uniqueNames hx
  exact ordinary_C k

theorem tparams_names (xs : List Str) (ts : List Tok) :
    tparams ((xs.map fun x => [.id (lit "char"), .id x, .p ',']).flatten ++
      (.id (lit "char") :: .p '.' :: .p '.' :: .p '.' :: .id (lit "Cs") :: .p '>' :: ts)) =
    some (xs.map (fun x => (false, x)) ++ [(true, lit "Cs")], ts) := by
  induction xs with
  | nil => rfl
  | cons x xs ih =>
      simp only [List.map_cons, List.flatten_cons, List.cons_append, List.nil_append]
      show (tparams _).map _ = _
      rw [ih]
      rfl

theorem tparams_int {x : Str} {ts us : List Tok} {ps : List (Bool × Str)} (h : tparams ts = some (ps, us)) :
    tparams (.id (lit "int") :: .id x :: .p ',' :: ts) = some ((false, x) :: ps, us) := by
  show (tparams ts).map _ = _
  rw [h]; rfl

theorem tparams_pack (ts : List Tok) :
    tparams (.id (lit "char") :: .p '.' :: .p '.' :: .p '.' :: .id (lit "Cs") :: .p '>' :: ts) = some ([(true, lit "Cs")], ts) := rfl

/-- Variables. -/
def vars (xs : List Str) : List Ex := xs.map fun x => .var false [x]

theorem args_names {xs : List Str} (hx : CNames xs) (ts : List Tok) :
    Args '>' ((xs.map fun x => [.id x, .p ',']).flatten ++ (.id (lit "Cs") :: .p '.' :: .p '.' :: .p '.' :: .p '>' :: .p ':' :: ts))
      (vars xs ++ [.pack (lit "Cs")]) (.p ':' :: ts) := by
  induction xs with
  | nil => exact args_last (by simp) (expr_prim (prim_pack (by rfl) _) rfl rfl)
  | cons x xs ih =>
      rw [List.map_cons, List.flatten_cons, List.append_assoc]
      exact args_cons (by decide) (by simp) (expr_prim (prim_var (hx x (by simp)) rfl) rfl rfl) (ih fun y hy => hx y (by simp [hy]))

theorem args_commas {xs : List Str} (hx : CNames xs) (ts : List Tok) :
    Args '>' (commas (xs.map fun x => [.id x]) ++ .p '>' :: .p ',' :: ts) (vars xs) (.p ',' :: ts) := by
  match xs with
  | [] => exact args_nil _ _
  | [x] => exact args_last (by simp [commas]) (expr_prim (prim_var (hx x (by simp)) rfl) rfl rfl)
  | x :: y :: l =>
      have ih := args_commas (xs := y :: l) (fun z hz => hx z (by simp [hz])) ts
      exact args_cons (by decide) (by simp [commas]) (expr_prim (prim_var (hx x (by simp)) rfl) rfl rfl) ih

/-- `take(LenRemaining)` -/
def takeCall : Ex := .call false [lit "take"] [] [.var false [lit "LenRemaining"]]

/-- `make_string<take(LenRemaining), LenRemaining - take(LenRemaining), Cs...>::type` -/
def nextEx : Ex := .type (.tmpl false [lit "make_string"]
  [takeCall, .sub (.var false [lit "LenRemaining"]) takeCall, .pack (lit "Cs")])

/-- The base of a specialisation. -/
def baseEx (i : Nat) : Ex := .tmpl false [lit "concat"] [.tmpl false [lit "string"] (vars (uniqueNames i)), nextEx]

/-- Where `make_string` is. -/
def implNs : List Str := [lit "boost", lit "metaparse", lit "v1", lit "impl"]

/-- A specialisation. -/
def specDecl (i : Nat) : Decl :=
  .spec (implNs ++ [lit "make_string"])
    ((false, lit "LenRemaining") :: ((uniqueNames i).map (fun x => (false, x)) ++ [(true, lit "Cs")]))
    (.num i :: .var false [lit "LenRemaining"] :: (vars (uniqueNames i) ++ [.pack (lit "Cs")])) (baseEx i)

theorem prim_takeCall {ts : List Tok} :
    Prim (.id (lit "take") :: .p '(' :: .id (lit "LenRemaining") :: .p ')' :: ts) takeCall ts :=
  prim_named (by decide +kernel) rfl
    (named_call (args_last (by simp) (expr_prim (prim_var (by decide +kernel) rfl) rfl rfl)))

theorem next_toks : toks ">, typename make_string<take(LenRemaining),LenRemaining-take(LenRemaining),Cs...>::type> {};" =
    [.p '>', .p ',', .id (lit "typename"), .id (lit "make_string"), .p '<', .id (lit "take"), .p '(', .id (lit "LenRemaining"),
      .p ')', .p ',', .id (lit "LenRemaining"), .p '-', .id (lit "take"), .p '(', .id (lit "LenRemaining"), .p ')', .p ',',
      .id (lit "Cs"), .p '.', .p '.', .p '.', .p '>', .p ':', .p ':', .id (lit "type"), .p '>', .p '{', .p '}', .p ';'] := by
  decide +kernel

theorem expr_next {c : Char} (hc : c = '>') (ts : List Tok) :
    Expr (.id (lit "typename") :: .id (lit "make_string") :: .p '<' :: .id (lit "take") :: .p '(' :: .id (lit "LenRemaining") ::
      .p ')' :: .p ',' :: .id (lit "LenRemaining") :: .p '-' :: .id (lit "take") :: .p '(' :: .id (lit "LenRemaining") :: .p ')' ::
      .p ',' :: .id (lit "Cs") :: .p '.' :: .p '.' :: .p '.' :: .p '>' :: .p ':' :: .p ':' :: .id (lit "type") :: .p c ::
      .p '{' :: ts) nextEx (.p c :: .p '{' :: ts) := by
  subst hc
  refine expr_prim (prim_typename (prim_named (by decide +kernel) rfl (named_type ?_))) rfl rfl
  refine args_cons (by decide) (by simp) (expr_prim prim_takeCall rfl rfl) ?_
  refine args_cons (by decide) (by simp) (expr_diff (prim_var (by decide +kernel) rfl) (diff_sub prim_takeCall (diff_end rfl _)) rfl) ?_
  exact args_last (by simp) (expr_prim (prim_pack (by decide +kernel) _) rfl rfl)

theorem specToks_append (i : Nat) (ts : List Tok) : specToks i ++ ts =
    .id (lit "template") :: .p '<' :: (.id (lit "int") :: .id (lit "LenRemaining") :: .p ',' ::
      (((uniqueNames i).map fun x => [.id (lit "char"), .id x, .p ',']).flatten ++
        (.id (lit "char") :: .p '.' :: .p '.' :: .p '.' :: .id (lit "Cs") :: .p '>' ::
          (.id (lit "struct") :: .id (lit "make_string") :: .p '<' :: (.id (number i) :: .p ',' :: .id (lit "LenRemaining") :: .p ',' ::
            (((uniqueNames i).map fun x => [.id x, .p ',']).flatten ++
              (.id (lit "Cs") :: .p '.' :: .p '.' :: .p '.' :: .p '>' :: .p ':' ::
                (.id (lit "concat") :: .p '<' :: .id (lit "string") :: .p '<' ::
                  (commas ((uniqueNames i).map fun x => [.id x]) ++ .p '>' :: .p ',' ::
                    (.id (lit "typename") :: .id (lit "make_string") :: .p '<' :: .id (lit "take") :: .p '(' ::
                      .id (lit "LenRemaining") :: .p ')' :: .p ',' :: .id (lit "LenRemaining") :: .p '-' :: .id (lit "take") ::
                      .p '(' :: .id (lit "LenRemaining") :: .p ')' :: .p ',' :: .id (lit "Cs") :: .p '.' :: .p '.' :: .p '.' ::
                      .p '>' :: .p ':' :: .p ':' :: .id (lit "type") :: .p '>' :: .p '{' :: (.p '}' :: .p ';' :: ts))))))))))) := by
  have h1 : toks "template <int LenRemaining," = [.id (lit "template"), .p '<', .id (lit "int"), .id (lit "LenRemaining"), .p ','] := by
    decide +kernel
  have h2 : toks "char... Cs> struct make_string<" = [.id (lit "char"), .p '.', .p '.', .p '.', .id (lit "Cs"), .p '>',
      .id (lit "struct"), .id (lit "make_string"), .p '<'] := by decide +kernel
  have h3 : toks ",LenRemaining," = [.p ',', .id (lit "LenRemaining"), .p ','] := by decide +kernel
  have h4 : toks "Cs...> : concat<string<" = [.id (lit "Cs"), .p '.', .p '.', .p '.', .p '>', .p ':', .id (lit "concat"), .p '<',
      .id (lit "string"), .p '<'] := by decide +kernel
  rw [specToks, next_toks, h1, h2, h3, h4]
  simp only [List.append_assoc, List.cons_append, List.nil_append]

theorem decls_specToks (i : Nat) {ts : List Tok} {ds : List Decl} (h : Decls implNs ts ds) :
    Decls implNs (specToks i ++ ts) (specDecl i :: ds) := by
  rw [specToks_append]
  refine decls_spec (tparams_int (tparams_names (uniqueNames i) _)) (args_cons (by decide) (by simp) (expr_prim (prim_num i _) rfl rfl)
    (args_cons (by decide) (by simp) (expr_prim (prim_var (by decide +kernel) rfl) rfl rfl) (args_names (cnames i) _))) ?_ h
  exact expr_prim (prim_named (by decide +kernel) rfl (named_tmpl
    (args_cons (by decide) (by simp)
      (expr_prim (prim_named (by decide +kernel) rfl (named_tmpl (args_commas (cnames i) _) rfl)) rfl rfl)
      (args_last (by simp) (expr_next rfl _))) rfl)) rfl rfl

theorem decls_specs (l : List Nat) {ts : List Tok} {ds : List Decl} (h : Decls implNs ts ds) :
    Decls implNs (l.flatMap specToks ++ ts) (l.map specDecl ++ ds) := by
  induction l with
  | nil => exact h
  | cons i l ih => rw [List.flatMap_cons, List.append_assoc]; exact decls_specToks i ih

/-- The specialisation for the end. -/
def lastDecl : Decl :=
  .spec (implNs ++ [lit "make_string"]) [(true, lit "Cs")] [.num 0, .num 0, .pack (lit "Cs")] (.tmpl false [lit "string"] [])

/-- The declarations of the header. -/
def headerDecls (sun : Bool) : List Decl :=
  .fn (implNs ++ [lit "take"]) (lit "n_") (takeEx (powers 9)) :: lastDecl :: (lengths sun).map specDecl

theorem parse_program (sun : Bool) : Decls [] (program sun) (headerDecls sun) := by
  have hf : toks "namespace boost { namespace metaparse { namespace v1 { namespace impl { constexpr inline int take(int n_) { return " =
      [.id (lit "namespace"), .id (lit "boost"), .p '{', .id (lit "namespace"), .id (lit "metaparse"), .p '{',
        .id (lit "namespace"), .id (lit "v1"), .p '{', .id (lit "namespace"), .id (lit "impl"), .p '{',
        .id (lit "constexpr"), .id (lit "inline"), .id (lit "int"), .id (lit "take"), .p '(', .id (lit "int"), .id (lit "n_"),
        .p ')', .p '{', .id (lit "return")] := by decide +kernel
  have hg : toks "template <int LenNow, int LenRemaining, char... Cs> struct make_string;" =
      [.id (lit "template"), .p '<', .id (lit "int"), .id (lit "LenNow"), .p ',', .id (lit "int"), .id (lit "LenRemaining"),
        .p ',', .id (lit "char"), .p '.', .p '.', .p '.', .id (lit "Cs"), .p '>', .id (lit "struct"), .id (lit "make_string"),
        .p ';'] := by decide +kernel
  have hh : toks "template <char... Cs> struct make_string<0, 0, Cs...> : string<> {};" =
      [.id (lit "template"), .p '<', .id (lit "char"), .p '.', .p '.', .p '.', .id (lit "Cs"), .p '>', .id (lit "struct"),
        .id (lit "make_string"), .p '<', .id (number 0), .p ',', .id (number 0), .p ',', .id (lit "Cs"), .p '.', .p '.', .p '.',
        .p '>', .p ':', .id (lit "string"), .p '<', .p '>', .p '{', .p '}', .p ';'] := by decide +kernel
  rw [program, front_toks, hf, hg, hh]
  simp only [List.append_assoc, List.cons_append, List.nil_append]
  refine decls_ns (decls_ns (decls_ns (decls_ns ?_)))
  refine decls_function (expr_take (Or.inr rfl) _) ?_
  refine decls_declared (tparams_int (tparams_int (tparams_pack _))) ?_
  refine decls_spec (tparams_pack _)
    (args_cons (by decide) (by simp) (expr_prim (prim_num 0 _) rfl rfl)
      (args_cons (by decide) (by simp) (expr_prim (prim_num 0 _) rfl rfl)
        (args_last (by simp) (expr_prim (prim_pack (by decide +kernel) _) rfl rfl))))
    (expr_prim (prim_named (by decide +kernel) rfl (named_tmpl (args_nil _ _) rfl)) rfl rfl) ?_
  · have := decls_specs (lengths sun) (ts := [.p '}', .p '}', .p '}', .p '}']) (ds := [])
      (decls_close (by decide) (decls_close (by decide) (decls_close (by decide) (decls_close (by decide) decls_nil))))
    rw [List.append_nil] at this
    exact this

end Metaparse.StrHdr
