import Verif.Lemmas.HeaderParse
/-! # Expanding `BOOST_METAPARSE_STRING` -/

namespace Metaparse.StrHdr

open Gen

/-- Enough steps expand tokens. -/
def Exp (T : Macros) (ts us : List Tok) : Prop := Evt fun n => expand T n ts = some us

theorem exp_nil (T : Macros) : Exp T [] [] := Evt.mk 1 fun _ => rfl

/-- The name of `BOOST_PP_CAT`. -/
def catName : Str := lit "BOOST_PP_CAT"

theorem expand_id (T : Macros) (n : Nat) (x : Str) (ts : List Tok) : expand T (n + 1) (.id x :: ts) =
      if x = catName then
        match ts with
        | .p '(' :: ts =>
            (macroArgs 0 [] ts).bind fun r =>
              (allOf (expand T n) r.1).bind fun
                | [[.id a], [.id b]] => expand T n (.id (a ++ b) :: r.2)
                | _ => none
        | _ => none
      else match T.find x with
        | none => (expand T n ts).map (.id x :: ·)
        | some ⟨none, body⟩ => expand T n (body ++ ts)
        | some ⟨some ps, body⟩ =>
            match ts with
            | .p '(' :: ts =>
                (macroArgs 0 [] ts).bind fun r =>
                  if r.1.length = ps.length then
                    (allOf (expand T n) r.1).bind fun as => expand T n (substitute ps as body ++ r.2)
                  else none
            | ts => (expand T n ts).map (.id x :: ·) := by rfl

theorem exp_id {T : Macros} {x : Str} (hx : x ≠ catName) (hf : T.find x = none) {ts us : List Tok} (h : Exp T ts us) :
    Exp T (.id x :: ts) (.id x :: us) := h.succ fun n hn => by
  rw [expand_id, if_neg hx, hf]
  show (expand T n ts).map _ = _
  rw [hn]; rfl

theorem exp_obj {T : Macros} {x : Str} (hx : x ≠ catName) {body : List Tok} (hf : T.find x = some ⟨none, body⟩)
    {ts us : List Tok} (h : Exp T (body ++ ts) us) : Exp T (.id x :: ts) us := h.succ fun n hn => by
  rw [expand_id, if_neg hx, hf]
  exact hn

theorem exp_fn {T : Macros} {x : Str} (hx : x ≠ catName) {p : Str} {body : List Tok} (hf : T.find x = some ⟨some [p], body⟩)
    {ts rest us a b : List Tok} (ha : macroArgs 0 [] ts = some ([a], rest)) (he : Exp T a b)
    (h : Exp T (substitute [p] [b] body ++ rest) us) : Exp T (.id x :: .p '(' :: ts) us := (he.and h).succ fun n hn => by
  rw [expand_id, if_neg hx, hf]
  show (macroArgs 0 [] ts).bind _ = _
  rw [ha]
  show (allOf (expand T n) [a]).bind _ = _
  have : allOf (expand T n) [a] = some [b] := by
    rw [allOf, hn.1]; rfl
  rw [this]
  exact hn.2

theorem exp_cat {T : Macros} {ts rest us a b : List Tok} {x y : Str} (ha : macroArgs 0 [] ts = some ([a, b], rest))
    (h1 : Exp T a [.id x]) (h2 : Exp T b [.id y]) (h : Exp T (.id (x ++ y) :: rest) us) :
    Exp T (.id catName :: .p '(' :: ts) us := ((h1.and h2).and h).succ fun n hn => by
  rw [expand_id, if_pos rfl]
  show (macroArgs 0 [] ts).bind _ = _
  rw [ha]
  show (allOf (expand T n) [a, b]).bind _ = _
  have : allOf (expand T n) [a, b] = some [[.id x], [.id y]] := by
    rw [allOf, hn.1.1, Option.bind_some, allOf, hn.1.2]; rfl
  rw [this]
  exact hn.2

theorem exp_plain {T : Macros} (hT : T.Usual) {ts : List Tok} (h : ts.all plain = true) {us vs : List Tok} (hr : Exp T us vs) :
    Exp T (ts ++ us) (ts ++ vs) := by
  induction ts with
  | nil => exact hr
  | cons t ts ih =>
      rw [List.all_cons, Bool.and_eq_true] at h
      have ih := ih h.2
      cases t with
      | id x =>
          refine exp_id (fun e => ?_) (find_plain hT h.1) ih
          subst e
          exact absurd h.1 (by decide +kernel)
      | str s =>
          refine ih.succ fun n hn => ?_
          show (expand T n (ts ++ us)).map _ = _
          rw [hn]; rfl
      | p c =>
          refine ih.succ fun n hn => ?_
          show (expand T n (ts ++ us)).map _ = _
          rw [hn]; rfl
      | sp =>
          refine ih.succ fun n hn => ?_
          show (expand T n (ts ++ us)).map _ = _
          rw [hn]; rfl
      | nl =>
          refine ih.succ fun n hn => ?_
          show (expand T n (ts ++ us)).map _ = _
          rw [hn]; rfl

/-! ## The macros -/

theorem find_append (A B : Macros) (x : Str) : Macros.find (A ++ B) x = (A.find x).or (B.find x) := by
  induction A with
  | nil => rfl
  | cons a A ih =>
      obtain ⟨y, m⟩ := a
      rw [List.cons_append, Macros.find, Macros.find]
      split
      · rfl
      · exact ih

theorem mem_iTable {limits : List Nat} {k j : Nat} {x : Str} {m : Macro} (h : (x, m) ∈ iTable limits k j) : ∃ q, x = iName q := by
  induction j generalizing k with
  | zero => exact absurd h (by simp [iTable])
  | succ j ih =>
      rw [iTable, List.mem_append, List.mem_singleton, Prod.mk.injEq] at h
      rcases h with h | ⟨h, _⟩
      · exact ih h
      · exact ⟨k, h⟩

theorem mem_idxTable {prev : Option Nat} {k : Nat} {limits : List Nat} {x : Str} {m : Macro}
    (h : (x, m) ∈ idxTable prev k limits) : ∃ l ∈ limits, x = idxName l := by
  induction limits generalizing prev k with
  | nil => exact absurd h (by simp [idxTable])
  | cons l ls ih =>
      rw [idxTable, List.mem_append, List.mem_singleton, Prod.mk.injEq] at h
      rcases h with h | ⟨h, _⟩
      · obtain ⟨q, hq, e⟩ := ih h
        exact ⟨q, by simp [hq], e⟩
      · exact ⟨l, by simp, h⟩

theorem iName_inj {a b : Nat} (h : iName a = iName b) : a = b := by
  rw [iName, iName, macroName, macroName] at h
  exact Bench.number_inj (List.append_cancel_left (List.append_cancel_left h))

theorem idxName_inj {a b : Nat} (h : idxName a = idxName b) : a = b := by
  rw [idxName, idxName, macroName, macroName] at h
  exact Bench.number_inj (List.append_cancel_left (List.append_cancel_left h))

theorem iName_ne_idxName (a b : Nat) : iName a ≠ idxName b := by
  intro h
  rw [iName, idxName, macroName, macroName] at h
  have h := List.append_cancel_left h
  have e : lit "INDEX_STR" ++ number b = 'I' :: 'N' :: (lit "DEX_STR" ++ number b) := rfl
  have e' : lit "I" ++ number a = 'I' :: number a := rfl
  rw [e, e', List.cons.injEq] at h
  have : 'N' ∈ number a := by rw [h.2]; simp
  exact absurd this (not_mem_number (by decide))

/-- A name that is none of the numbered macros. -/
def unnumbered (x : Str) : Bool := !(lit "BOOST_METAPARSE_V1_I").isPrefixOf x || x == lit "BOOST_METAPARSE_V1_I"

theorem ne_iName {x : Str} (h : unnumbered x = true) (k : Nat) : x ≠ iName k := by
  rintro rfl
  have e : iName k = lit "BOOST_METAPARSE_V1_I" ++ number k := by
    rw [iName, macroName, ← List.append_assoc]
    congr 1
  rw [unnumbered, Bool.or_eq_true, e] at h
  rcases h with h | h
  · rw [Bool.not_eq_true'] at h
    have : (lit "BOOST_METAPARSE_V1_I").isPrefixOf (lit "BOOST_METAPARSE_V1_I" ++ number k) = true := by
      rw [List.isPrefixOf_iff_prefix]; exact ⟨_, rfl⟩
    rw [this] at h
    exact absurd h (by simp)
  · rw [beq_iff_eq] at h
    have := congrArg List.length h
    rw [List.length_append] at this
    have : (number k).length = 0 := by omega
    exact number_ne k (List.length_eq_zero_iff.mp this)

theorem ne_idxName {x : Str} (h : unnumbered x = true) (k : Nat) : x ≠ idxName k := by
  rintro rfl
  have e : idxName k = lit "BOOST_METAPARSE_V1_I" ++ (lit "NDEX_STR" ++ number k) := by
    rw [idxName, macroName, ← List.append_assoc, ← List.append_assoc]
    congr 1
  rw [unnumbered, Bool.or_eq_true, e] at h
  rcases h with h | h
  · rw [Bool.not_eq_true'] at h
    have : (lit "BOOST_METAPARSE_V1_I").isPrefixOf (lit "BOOST_METAPARSE_V1_I" ++ (lit "NDEX_STR" ++ number k)) = true := by
      rw [List.isPrefixOf_iff_prefix]; exact ⟨_, rfl⟩
    rw [this] at h
    exact absurd h (by simp)
  · rw [beq_iff_eq] at h
    have := congrArg List.length h
    have h' : (lit "NDEX_STR").length = 8 := by decide +kernel
    simp only [List.length_append, h'] at this
    omega

theorem find_table {sun : Bool} {limits : List Nat} {m limit : Nat} {x : Str} (h : unnumbered x = true) :
    (table sun limits m limit).find x = Macros.find ((stringName, stringMacro) :: inside sun limit) x := by
  rw [table, find_append, find_append, find_none, find_none]
  · rfl
  · intro y m' hm
    obtain ⟨q, rfl⟩ := mem_iTable hm
    exact ne_iName h q
  · intro y m' hm
    obtain ⟨q, _, rfl⟩ := mem_idxTable hm
    exact ne_idxName h q

theorem usual_table (sun : Bool) (limits : List Nat) (m limit : Nat) : (table sun limits m limit).Usual := by
  rw [Macros.Usual, table, List.all_append, List.all_append, Bool.and_eq_true, Bool.and_eq_true]
  refine ⟨?_, ?_, ?_⟩
  · rw [List.all_eq_true]
    rintro ⟨y, m'⟩ hm
    obtain ⟨q, _, rfl⟩ := mem_idxTable hm
    rfl
  · rw [List.all_eq_true]
    rintro ⟨y, m'⟩ hm
    obtain ⟨q, rfl⟩ := mem_iTable hm
    rfl
  · rw [List.all_cons, Bool.and_eq_true]
    exact ⟨by decide +kernel, usual_inside sun limit⟩

theorem find_iTable {limits : List Nat} {k j q : Nat} (h1 : k ≤ q) (h2 : q < k + j) :
    (iTable limits k j).find (iName q) = some ⟨none, [.id (idxName ((StrLit.indexMacroOf limits q).getD 0))]⟩ := by
  induction j generalizing k with
  | zero => omega
  | succ j ih =>
      rw [iTable, find_append]
      by_cases hq : k = q
      · subst hq
        rw [find_none]
        · show (if iName k = iName k then _ else _) = _
          rw [if_pos rfl]
        · intro y m' hm e
          have : ∀ k' j', (y, m') ∈ iTable limits k' j' → ∃ q, k' ≤ q ∧ y = iName q := by
            intro k' j'
            induction j' generalizing k' with
            | zero => intro h; exact absurd h (by simp [iTable])
            | succ j' ih =>
                intro h
                rw [iTable, List.mem_append, List.mem_singleton, Prod.mk.injEq] at h
                rcases h with h | ⟨h, _⟩
                · obtain ⟨q, hq, e⟩ := ih _ h
                  exact ⟨q, by omega, e⟩
                · exact ⟨k', Nat.le_refl _, h⟩
          obtain ⟨q, hq, e'⟩ := this _ _ hm
          have := iName_inj (e.trans e')
          omega
      · rw [ih (by omega) (by omega)]
        rfl

theorem find_iName {sun : Bool} {limits : List Nat} {m limit q : Nat} (h : q ≤ m) :
    (table sun limits m limit).find (iName q) = some ⟨none, [.id (idxName ((StrLit.indexMacroOf limits q).getD 0))]⟩ := by
  rw [table, find_append, find_none, find_append, find_iTable (by omega) (by omega)]
  · rfl
  · intro y m' hm
    obtain ⟨l, _, rfl⟩ := mem_idxTable hm
    exact iName_ne_idxName q l

/-- What is known of the macros with the characters: the one before is smaller. -/
theorem find_idxTable {prev : Option Nat} {k : Nat} {limits : List Nat} (hp : limits.Pairwise (· < ·))
    (hk : ∀ l ∈ limits, k < l) {l : Nat} (hl : l ∈ limits) :
    ∃ prev' k', (idxTable prev k limits).find (idxName l) =
        some ⟨some [lit "s"], prevToks prev' ++ commas ((StrLit.xrange k' l 1).map atToks)⟩ ∧ k' < l ∧
      ((prev' = prev ∧ k' = k) ∨ (prev' = some k' ∧ k' ∈ limits)) := by
  induction limits generalizing prev k with
  | nil => simp at hl
  | cons a ls ih =>
      rw [List.pairwise_cons] at hp
      rw [idxTable, find_append]
      rcases List.mem_cons.mp hl with rfl | hl'
      · refine ⟨prev, k, ?_, hk l (by simp), Or.inl ⟨rfl, rfl⟩⟩
        rw [find_none]
        · show (if idxName l = idxName l then _ else _) = _
          rw [if_pos rfl]
        · intro y m' hm e
          obtain ⟨q, hq, e'⟩ := mem_idxTable hm
          have := idxName_inj (e.trans e')
          have := hp.1 q hq
          omega
      · obtain ⟨prev', k', h1, h2, h3⟩ := ih (prev := some a) (k := a) hp.2 hp.1 hl'
        refine ⟨prev', k', by rw [h1]; rfl, h2, Or.inr ?_⟩
        rcases h3 with ⟨rfl, rfl⟩ | ⟨h, h'⟩
        · exact ⟨rfl, by simp⟩
        · exact ⟨h, by simp [h']⟩

/-! ## The characters -/

/-- `string_at<limit>(("…"), i)` -/
def outAt (limit : Nat) (s : List Chr) (i : Nat) : List Tok :=
  toks "::boost::metaparse::v1::impl::string_at<" ++
    [.id (number limit), .p '>', .p '(', .p '(', .str s, .p ')', .p ',', .id (number i), .p ')']

/-- With the literal for `s`. -/
def subst (s : List Chr) (ts : List Tok) : List Tok := substitute [lit "s"] [[.str s]] ts

theorem subst_append (s : List Chr) (a b : List Tok) : subst s (a ++ b) = subst s a ++ subst s b := by
  induction a with
  | nil => rfl
  | cons t a ih =>
      cases t with
      | id x =>
          show _ ++ subst s (a ++ b) = _ ++ subst s a ++ subst s b
          rw [ih, List.append_assoc]
      | _ => exact congrArg (_ :: ·) ih

theorem subst_commas (s : List Chr) (l : List (List Tok)) : subst s (commas l) = commas (l.map (subst s)) := by
  match l with
  | [] => rfl
  | [x] => rfl
  | x :: y :: l =>
      have ih := subst_commas s (y :: l)
      rw [commas, subst_append]
      show subst s x ++ .p ',' :: subst s (commas (y :: l)) = _
      rw [ih]
      rfl

theorem subst_atToks (s : List Chr) (i : Nat) : subst s (atToks i) =
    [.id (lit "BOOST_METAPARSE_V1_STRING_AT"), .p '(', .p '(', .str s, .p ')', .p ',', .id (number i), .p ')'] := by
  have h : argOf (number i) [lit "s"] [[Tok.str s]] = none := by
    have : number i ≠ lit "s" := fun e => absurd (isDigit_number (n := i) (c := 's') (by rw [e]; decide +kernel)) (by decide)
    rw [argOf, if_neg this]; rfl
  have e : subst s (atToks i) = .id (lit "BOOST_METAPARSE_V1_STRING_AT") :: .p '(' :: .p '(' :: .str s :: .p ')' :: .p ',' ::
    ((match argOf (number i) [lit "s"] [[Tok.str s]] with | some a => a | none => [.id (number i)]) ++ [.p ')']) := by rfl
  rw [e, h]
  rfl

theorem exp_at {sun : Bool} {limits : List Nat} {m limit : Nat} (s : List Chr) (i : Nat) {ts us : List Tok}
    (h : Exp (table sun limits m limit) ts us) :
    Exp (table sun limits m limit) (subst s (atToks i) ++ ts) (outAt limit s i ++ us) := by
  have hT := usual_table sun limits m limit
  rw [subst_atToks]
  have h1 : (table sun limits m limit).find (lit "BOOST_METAPARSE_V1_STRING_AT") = some ⟨none,
      toks "::boost::metaparse::v1::impl::string_at<" ++ [.id limitName, .p '>']⟩ := by
    rw [find_table (by decide +kernel)]
    have : toks "::boost::metaparse::v1::impl::string_at<BOOST_METAPARSE_LIMIT_STRING_SIZE>" =
      toks "::boost::metaparse::v1::impl::string_at<" ++ [.id limitName, .p '>'] := by decide +kernel
    rw [← this]
    rfl
  have h2 : (table sun limits m limit).find limitName = some ⟨none, [.id (number limit)]⟩ := by
    rw [find_table (by decide +kernel)]
    rfl
  refine exp_obj (by decide +kernel) h1 ?_
  rw [outAt, List.append_assoc, List.append_assoc]
  refine exp_plain hT (by decide +kernel) ?_
  refine exp_obj (by decide +kernel) h2 ?_
  refine exp_plain (ts := [.id (number limit)]) hT (by rw [List.all_cons, plain_number]; rfl) ?_
  refine exp_plain (ts := [.p '>', .p '(', .p '(', .str s, .p ')', .p ',']) hT (by rfl) ?_
  refine exp_plain (ts := [.id (number i)]) hT (by rw [List.all_cons, plain_number]; rfl) ?_
  exact exp_plain (ts := [.p ')']) hT (by rfl) h

theorem exp_ats {sun : Bool} {limits : List Nat} {m limit : Nat} (s : List Chr) (is : List Nat) {ts us : List Tok}
    (h : Exp (table sun limits m limit) ts us) :
    Exp (table sun limits m limit) (subst s (commas (is.map atToks)) ++ ts) (commas (is.map (outAt limit s)) ++ us) := by
  rw [subst_commas]
  match is with
  | [] => exact h
  | [i] => exact exp_at s i h
  | i :: j :: is =>
      have ih := exp_ats s (j :: is) h
      rw [subst_commas] at ih
      have e1 : commas (((i :: j :: is).map atToks).map (subst s)) ++ ts =
        subst s (atToks i) ++ .p ',' :: (commas (((j :: is).map atToks).map (subst s)) ++ ts) := by
          rw [List.map_cons, List.map_cons, List.map_cons, List.map_cons, commas, List.append_assoc]; rfl
      have e2 : commas ((i :: j :: is).map (outAt limit s)) ++ us =
        outAt limit s i ++ .p ',' :: (commas ((j :: is).map (outAt limit s)) ++ us) := by
          rw [List.map_cons, List.map_cons, commas, List.append_assoc]; rfl
      rw [e1, e2]
      exact exp_at s i (exp_plain (ts := [.p ',']) (usual_table _ _ _ _) rfl ih)

theorem commas_append (a : List Tok) (l : List (List Tok)) (b : List Tok) (l' : List (List Tok)) :
    commas ((a :: l) ++ (b :: l')) = commas (a :: l) ++ .p ',' :: commas (b :: l') := by
  induction l generalizing a with
  | nil => rfl
  | cons c l ih =>
      have := ih c
      rw [List.cons_append, List.cons_append, commas, commas, ← List.cons_append, this, List.append_assoc]
      rfl

theorem commas_append' {l l' : List (List Tok)} (h : l ≠ []) (h' : l' ≠ []) :
    commas (l ++ l') = commas l ++ .p ',' :: commas l' := by
  cases l with
  | nil => exact absurd rfl h
  | cons a l => cases l' with
    | nil => exact absurd rfl h'
    | cons b l' => exact commas_append a l b l'

/-- All characters. -/
theorem exp_index {sun : Bool} {limits : List Nat} {m limit : Nat} (hp : limits.Pairwise (· < ·)) (h0 : ∀ l ∈ limits, 0 < l)
    (s : List Chr) {ts us : List Tok} (h : Exp (table sun limits m limit) ts us) (l : Nat) (hl : l ∈ limits) :
    Exp (table sun limits m limit) (.id (idxName l) :: .p '(' :: .str s :: .p ')' :: ts)
      (commas ((List.range l).map (outAt limit s)) ++ us) := by
  induction l using Nat.strongRecOn generalizing ts us with
  | ind l ih =>
      have hT := usual_table sun limits m limit
      obtain ⟨prev, k, hf, hk, hcase⟩ := find_idxTable (prev := none) (k := 0) hp h0 hl
      have hf' : (table sun limits m limit).find (idxName l) =
          some ⟨some [lit "s"], prevToks prev ++ commas ((StrLit.xrange k l 1).map atToks)⟩ := by
        rw [table, find_append, hf]; rfl
      have hc : idxName l ≠ catName := fun e => by
        have h1 : idxName l = 'B' :: 'O' :: 'O' :: 'S' :: 'T' :: '_' :: 'M' :: (lit "ETAPARSE_V1_" ++ (lit "INDEX_STR" ++ number l)) := rfl
        have h2 : catName = 'B' :: 'O' :: 'O' :: 'S' :: 'T' :: '_' :: 'P' :: lit "P_CAT" := by decide +kernel
        rw [h1, h2] at e
        simp at e
      have ha : macroArgs 0 [] (.str s :: .p ')' :: ts) = some ([[.str s]], ts) := rfl
      have hs : Exp (table sun limits m limit) [.str s] [.str s] := exp_plain (ts := [.str s]) hT rfl (exp_nil _)
      refine exp_fn hc hf' ha hs ?_
      show Exp _ (subst s _ ++ ts) _
      rw [subst_append, List.append_assoc, StrLit.xrange_one]
      have hats := exp_ats s (List.range' k (l - k)) h
      rcases hcase with ⟨rfl, rfl⟩ | ⟨rfl, hk'⟩
      · have : List.range l = List.range' 0 (l - 0) := by rw [List.range_eq_range']; rfl
        rw [this]
        exact hats
      · have e1 : subst s (prevToks (some k)) = [.id (idxName k), .p '(', .str s, .p ')', .p ','] := by
          have hn : argOf (idxName k) [lit "s"] [[Tok.str s]] = none := by
            have : idxName k ≠ lit "s" := fun e => by
              have h1 : idxName k = 'B' :: (lit "OOST_METAPARSE_V1_" ++ (lit "INDEX_STR" ++ number k)) := rfl
              have h2 : lit "s" = ['s'] := rfl
              rw [h1, h2] at e
              simp at e
            rw [argOf, if_neg this]; rfl
          have e : subst s (prevToks (some k)) = (match argOf (idxName k) [lit "s"] [[Tok.str s]] with
            | some a => a | none => [.id (idxName k)]) ++ [.p '(', .str s, .p ')', .p ','] := by rfl
          rw [e, hn]
          rfl
        rw [e1]
        have e2 : (List.range l).map (outAt limit s) =
            (List.range k).map (outAt limit s) ++ (List.range' k (l - k)).map (outAt limit s) := by
          rw [← List.map_append]
          congr 1
          rw [List.range_eq_range', List.range_eq_range']
          have := List.range'_append (s := 0) (m := k) (n := l - k) (step := 1)
          simp only [Nat.zero_add, Nat.one_mul] at this
          rw [this]
          congr 1
          omega
        have hk0 := h0 k hk'
        have n1 : (List.range k).map (outAt limit s) ≠ [] := fun e => by
          have := congrArg List.length e
          simp at this
          omega
        have n2 : (List.range' k (l - k)).map (outAt limit s) ≠ [] := fun e => by
          have := congrArg List.length e
          simp at this
          omega
        rw [e2, commas_append' n1 n2, List.append_assoc]
        exact ih k hk (exp_plain (ts := [.p ',']) hT rfl hats) hk'

/-! ## The whole macro -/

/-- `::boost::metaparse::v1::impl::x` -/
def implPath (x : String) : List Tok :=
  [.p ':', .p ':', .id (lit "boost"), .p ':', .p ':', .id (lit "metaparse"), .p ':', .p ':', .id (lit "v1"), .p ':', .p ':',
    .id (lit "impl"), .p ':', .p ':', .id (lit x)]

/-- `sizeof(…)-1` -/
def sizeToks (t : Tok) : List Tok := [.id (lit "sizeof"), .p '(', t, .p ')', .p '-', .id (lit "1")]

/-- `::boost::metaparse::v1::impl::take(sizeof(…)-1)` -/
def takeSizeToks (t : Tok) : List Tok := implPath "take" ++ .p '(' :: (sizeToks t ++ [.p ')'])

/-- The beginning of what the macro stands for. -/
def beginToks (t : Tok) : List Tok :=
  implPath "make_string" ++ .p '<' :: (takeSizeToks t ++ .p ',' :: (sizeToks t ++ .p '-' :: (takeSizeToks t ++ [.p ','])))

/-- Its end. -/
def endToks : List Tok := [.p '>', .p ':', .p ':', .id (lit "type")]

theorem stringBody_toks : noSp (lex [] stringBody) = beginToks (.id (lit "s")) ++
    (.id catName :: .p '(' :: .id (lit "BOOST_METAPARSE_V1_I") :: .p ',' :: .id limitName :: .p ')' :: .p '(' :: .id (lit "s") ::
      .p ')' :: endToks) := by
  decide +kernel

theorem exp_string {sun : Bool} {limits : List Nat} {m limit l : Nat} (hp : limits.Pairwise (· < ·)) (h0 : ∀ l ∈ limits, 0 < l)
    (hm : limit ≤ m) (hl : StrLit.indexMacroOf limits limit = some l) (hl' : l ∈ limits) (s : List Chr) :
    Exp (table sun limits m limit) [.id (lit "BOOST_METAPARSE_STRING"), .p '(', .str s, .p ')']
      (beginToks (.str s) ++ (commas ((List.range l).map (outAt limit s)) ++ endToks)) := by
  have hT := usual_table sun limits m limit
  have hs : Exp (table sun limits m limit) [.str s] [.str s] := exp_plain (ts := [.str s]) hT rfl (exp_nil _)
  have h1 : (table sun limits m limit).find (lit "BOOST_METAPARSE_STRING") = some ⟨none, [.id stringName]⟩ := by
    rw [find_table (by decide +kernel)]; rfl
  have h2 : (table sun limits m limit).find stringName = some stringMacro := by
    rw [find_table (by decide +kernel)]; rfl
  have h3 : (table sun limits m limit).find limitName = some ⟨none, [.id (number limit)]⟩ := by
    rw [find_table (by decide +kernel)]; rfl
  have h4 : (table sun limits m limit).find (lit "BOOST_METAPARSE_V1_I") = none := by
    rw [find_table (by decide +kernel)]
    cases sun <;> rfl
  refine exp_obj (by decide +kernel) h1 ?_
  refine exp_fn (by decide +kernel) h2 (rest := []) (a := [.str s]) rfl hs ?_
  rw [stringBody_toks]
  show Exp _ (subst s _ ++ []) _
  rw [subst_append, List.append_nil]
  have e1 : subst s (beginToks (.id (lit "s"))) = beginToks (.str s) := rfl
  have e2 : subst s (.id catName :: .p '(' :: .id (lit "BOOST_METAPARSE_V1_I") :: .p ',' :: .id limitName :: .p ')' :: .p '(' ::
      .id (lit "s") :: .p ')' :: endToks) = .id catName :: .p '(' :: .id (lit "BOOST_METAPARSE_V1_I") :: .p ',' :: .id limitName ::
      .p ')' :: .p '(' :: .str s :: .p ')' :: endToks := rfl
  rw [e1, e2]
  refine exp_plain hT rfl ?_
  refine exp_cat (a := [.id (lit "BOOST_METAPARSE_V1_I")]) (b := [.id limitName]) rfl
    (exp_id (by decide +kernel) h4 (exp_nil _))
    (exp_obj (by decide +kernel) h3 (exp_plain (ts := [.id (number limit)]) hT (by rw [List.all_cons, plain_number]; rfl) (exp_nil _))) ?_
  have e3 : lit "BOOST_METAPARSE_V1_I" ++ number limit = iName limit := by
    rw [iName, macroName, ← List.append_assoc]
    congr 1
  rw [e3]
  have hc : iName limit ≠ catName := fun e => by
    have h1 : iName limit = 'B' :: 'O' :: 'O' :: 'S' :: 'T' :: '_' :: 'M' :: (lit "ETAPARSE_V1_" ++ (lit "I" ++ number limit)) := rfl
    have h2 : catName = 'B' :: 'O' :: 'O' :: 'S' :: 'T' :: '_' :: 'P' :: lit "P_CAT" := by decide +kernel
    rw [h1, h2] at e
    simp at e
  refine exp_obj hc (find_iName hm) ?_
  rw [hl]
  exact exp_index hp h0 s (exp_plain (ts := endToks) hT (by decide +kernel) (exp_nil _)) l hl'

/-! ## Parsing it -/

/-- `sizeof(…)-1` -/
def sizeEx (s : List Chr) : Ex := .sub (.sizeof (.str s)) (.num 1)

/-- `::boost::metaparse::v1::impl::take(sizeof(…)-1)` -/
def takeSizeEx (s : List Chr) : Ex := .call true (implNs ++ [lit "take"]) [] [sizeEx s]

/-- One character. -/
def atEx (limit : Nat) (s : List Chr) (i : Nat) : Ex := .call true (implNs ++ [lit "string_at"]) [.num limit] [.str s, .num i]

/-- What the macro stands for. -/
def stringEx (limit l : Nat) (s : List Chr) : Ex :=
  .type (.tmpl true (implNs ++ [lit "make_string"])
    (takeSizeEx s :: .sub (sizeEx s) (takeSizeEx s) :: (List.range l).map (atEx limit s)))

theorem prim_one (ts : List Tok) : Prim (.id (lit "1") :: ts) (.num 1) ts := by
  have : lit "1" = number 1 := by decide +kernel
  rw [this]; exact prim_num 1 ts

theorem prim_literal (s : List Chr) (ts : List Tok) : Prim (.p '(' :: .str s :: .p ')' :: ts) (.str s) ts :=
  prim_paren (expr_prim (prim_str s _) rfl rfl)

theorem prim_takeSize (s : List Chr) (ts : List Tok) : Prim (takeSizeToks (.str s) ++ ts) (takeSizeEx s) ts := by
  have e : takeSizeToks (.str s) ++ ts = .p ':' :: .p ':' :: .id (lit "boost") :: .p ':' :: .p ':' :: .id (lit "metaparse") ::
    .p ':' :: .p ':' :: .id (lit "v1") :: .p ':' :: .p ':' :: .id (lit "impl") :: .p ':' :: .p ':' :: .id (lit "take") :: .p '(' ::
      .id (lit "sizeof") :: .p '(' :: .str s :: .p ')' :: .p '-' :: .id (lit "1") :: .p ')' :: ts := rfl
  rw [e]
  exact prim_abs rfl (named_call (args_last (by simp)
    (expr_diff (prim_sizeof (prim_literal s _)) (diff_sub (prim_one _) (diff_end rfl _)) rfl)))

theorem prim_at (limit : Nat) (s : List Chr) (i : Nat) (ts : List Tok) : Prim (outAt limit s i ++ ts) (atEx limit s i) ts := by
  have e : toks "::boost::metaparse::v1::impl::string_at<" = [.p ':', .p ':', .id (lit "boost"), .p ':', .p ':',
    .id (lit "metaparse"), .p ':', .p ':', .id (lit "v1"), .p ':', .p ':', .id (lit "impl"), .p ':', .p ':',
    .id (lit "string_at"), .p '<'] := by decide +kernel
  rw [outAt, e]
  simp only [List.cons_append, List.nil_append]
  exact prim_abs rfl (named_tcall (args_last (by simp) (expr_prim (prim_num limit _) rfl rfl))
    (args_cons (by decide) (by simp) (expr_prim (prim_literal s _) rfl rfl)
      (args_last (by simp) (expr_prim (prim_num i _) rfl rfl))))

theorem head_outAt (limit : Nat) (s : List Chr) (i : Nat) (ts : List Tok) :
    (outAt limit s i ++ ts).head? ≠ some (.p '>') := by
  have e : outAt limit s i ++ ts = .p ':' :: (outAt limit s i ++ ts).tail := rfl
  rw [e]
  simp

theorem args_at (limit : Nat) (s : List Chr) (is : List Nat) (hi : is ≠ []) (ts : List Tok) :
    Args '>' (commas (is.map (outAt limit s)) ++ .p '>' :: .p ':' :: ts) (is.map (atEx limit s)) (.p ':' :: ts) := by
  match is with
  | [] => exact absurd rfl hi
  | [i] => exact args_last (head_outAt limit s i _) (expr_prim (prim_at limit s i _) rfl rfl)
  | i :: j :: l =>
      have ih := args_at limit s (j :: l) (by simp) ts
      have e : commas ((i :: j :: l).map (outAt limit s)) ++ .p '>' :: .p ':' :: ts =
        outAt limit s i ++ .p ',' :: (commas ((j :: l).map (outAt limit s)) ++ .p '>' :: .p ':' :: ts) := by
          rw [List.map_cons, List.map_cons, commas, List.append_assoc]; rfl
      rw [e]
      exact args_cons (by decide) (head_outAt limit s i _) (expr_prim (prim_at limit s i _) rfl rfl) ih

theorem parse_string (limit l : Nat) (hl : 0 < l) (s : List Chr) :
    Expr (beginToks (.str s) ++ (commas ((List.range l).map (outAt limit s)) ++ endToks)) (stringEx limit l s) [] := by
  have e : beginToks (.str s) ++ (commas ((List.range l).map (outAt limit s)) ++ endToks) =
    .p ':' :: .p ':' :: .id (lit "boost") :: .p ':' :: .p ':' :: .id (lit "metaparse") ::
    .p ':' :: .p ':' :: .id (lit "v1") :: .p ':' :: .p ':' :: .id (lit "impl") :: .p ':' :: .p ':' :: .id (lit "make_string") :: .p '<' ::
      (takeSizeToks (.str s) ++ .p ',' :: (.id (lit "sizeof") :: .p '(' :: .str s :: .p ')' :: .p '-' :: .id (lit "1") :: .p '-' ::
        (takeSizeToks (.str s) ++ .p ',' ::
          (commas ((List.range l).map (outAt limit s)) ++ .p '>' :: .p ':' :: .p ':' :: .id (lit "type") :: [])))) := by
    simp only [beginToks, endToks, implPath, sizeToks, List.append_assoc, List.cons_append, List.nil_append]
  rw [e]
  have hne : List.range l ≠ [] := fun h => by
    have := congrArg List.length h
    simp at this
    omega
  have hh : ∀ ts, (takeSizeToks (.str s) ++ ts).head? ≠ some (.p '>') := fun ts => by
    have e : takeSizeToks (.str s) ++ ts = .p ':' :: (takeSizeToks (.str s) ++ ts).tail := rfl
    rw [e]; simp
  exact expr_prim (prim_abs rfl (named_type
    (args_cons (by decide) (hh _) (expr_prim (prim_takeSize s _) rfl rfl)
      (args_cons (by decide) (by simp)
        (expr_diff (prim_sizeof (prim_literal s _))
          (diff_sub (prim_one _) (diff_sub (prim_takeSize s _) (diff_end rfl _))) rfl)
        (args_at limit s _ hne _))))) rfl rfl

end Metaparse.StrHdr
