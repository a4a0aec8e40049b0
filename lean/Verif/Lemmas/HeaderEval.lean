import Verif.Lemmas.HeaderExpand
/-! # What `BOOST_METAPARSE_STRING` is -/

namespace Metaparse.StrHdr

open Gen

/-- Enough steps give the value of an expression. -/
def Ev (ds : List Decl) (ns : List Str) (σ : Scope) (e : Ex) (v : Out Vl) : Prop := Evt fun n => ev ds n ns σ e = v

/-- Enough steps give the values of arguments. -/
def Evs (ds : List Decl) (ns : List Str) (σ : Scope) (es : List Ex) (v : Out (List Vl)) : Prop :=
  Evt fun n => evs ds n ns σ es = v

/-- Enough steps give a class. -/
def Cls (ds : List Decl) (ns : List Str) (abs : Bool) (path : List Str) (vs : List Vl) (v : Out Vl) : Prop :=
  Evt fun n => cls ds n ns abs path vs = v

section
variable {ds : List Decl} {ns : List Str} {σ : Scope}

theorem ev_num (k : Nat) : Ev ds ns σ (.num k) (.ok (.int k)) := Evt.mk 1 fun _ => rfl

theorem ev_var {x : Str} {v : Vl} (h : σ.find x = some (.one v)) : Ev ds ns σ (.var false [x]) (.ok v) := Evt.mk 1 fun n => by
  have : ev ds (n + 1) ns σ (.var false [x]) = match σ.find x with
          | some (.one v) => .ok v
          | _ => .ill .noValue := by rfl
  rw [this, h]

theorem ev_sizeof (s : List Chr) : Ev ds ns σ (.sizeof (.str s)) (.ok (.int (s.length + 1))) := Evt.mk 2 fun _ => rfl

theorem ev_sub {a b : Ex} {x y : Int} (ha : Ev ds ns σ a (.ok (.int x))) (hb : Ev ds ns σ b (.ok (.int y))) :
    Ev ds ns σ (.sub a b) (.ok (.int (x - y))) := (ha.and hb).succ fun n hn => by
  have : ev ds (n + 1) ns σ (.sub a b) = (ev ds n ns σ a).bind fun x => (ev ds n ns σ b).bind fun y =>
          match x, y with
          | .int x, .int y => .ok (.int (x - y))
          | _, _ => .ill .noValue := by rfl
  rw [this, hn.1, hn.2]; rfl

theorem ev_ge {a b : Ex} {x y : Int} (ha : Ev ds ns σ a (.ok (.int x))) (hb : Ev ds ns σ b (.ok (.int y))) :
    Ev ds ns σ (.ge a b) (.ok (.int (if x ≥ y then 1 else 0))) := (ha.and hb).succ fun n hn => by
  have : ev ds (n + 1) ns σ (.ge a b) = (ev ds n ns σ a).bind fun x => (ev ds n ns σ b).bind fun y =>
          match x, y with
          | .int x, .int y => .ok (.int (if x ≥ y then 1 else 0))
          | _, _ => .ill .noValue := by rfl
  rw [this, hn.1, hn.2]; rfl

theorem ev_cond {c a b : Ex} {x : Int} {v : Out Vl} (hc : Ev ds ns σ c (.ok (.int x)))
    (h : Ev ds ns σ (if x = 0 then b else a) v) : Ev ds ns σ (.cond c a b) v := (hc.and h).succ fun n hn => by
  have : ev ds (n + 1) ns σ (.cond c a b) = (ev ds n ns σ c).bind fun
          | .int x => if x = 0 then ev ds n ns σ b else ev ds n ns σ a
          | _ => .ill .noValue := by rfl
  rw [this, hn.1]
  show (if x = 0 then ev ds n ns σ b else ev ds n ns σ a) = v
  rw [← hn.2]
  split <;> rfl

theorem ev_type {abs : Bool} {path : List Str} {as : List Ex} {vs : List Vl} {v : Out Vl} (ha : Evs ds ns σ as (.ok vs))
    (h : Cls ds ns abs path vs v) : Ev ds ns σ (.type (.tmpl abs path as)) v := (ha.and h).succ fun n hn => by
  have : ev ds (n + 1) ns σ (.type (.tmpl abs path as)) = (evs ds n ns σ as).bind fun vs => cls ds n ns abs path vs := by rfl
  rw [this, hn.1]
  exact hn.2

theorem ev_type_ill {abs : Bool} {path : List Str} {as : List Ex} {f : Fault} (ha : Evs ds ns σ as (.ill f)) :
    Ev ds ns σ (.type (.tmpl abs path as)) (.ill f) := ha.succ fun n hn => by
  have : ev ds (n + 1) ns σ (.type (.tmpl abs path as)) = (evs ds n ns σ as).bind fun vs => cls ds n ns abs path vs := by rfl
  rw [this, hn]; rfl

theorem ev_tmpl {abs : Bool} {path : List Str} {as : List Ex} {vs : List Vl} {v : Out Vl} (ha : Evs ds ns σ as (.ok vs))
    (h : Cls ds ns abs path vs v) : Ev ds ns σ (.tmpl abs path as) v := (ha.and h).succ fun n hn => by
  have : ev ds (n + 1) ns σ (.tmpl abs path as) = (evs ds n ns σ as).bind fun vs => cls ds n ns abs path vs := by rfl
  rw [this, hn.1]
  exact hn.2

theorem ev_tmpl_ill {abs : Bool} {path : List Str} {as : List Ex} {f : Fault} (ha : Evs ds ns σ as (.ill f)) :
    Ev ds ns σ (.tmpl abs path as) (.ill f) := ha.succ fun n hn => by
  have : ev ds (n + 1) ns σ (.tmpl abs path as) = (evs ds n ns σ as).bind fun vs => cls ds n ns abs path vs := by rfl
  rw [this, hn]; rfl

theorem evs_nil : Evs ds ns σ [] (.ok []) := Evt.mk 1 fun _ => rfl

/-- An argument that is no pack. -/
def noPack : Ex → Bool
  | .pack _ => false
  | _ => true

theorem evs_eq (n : Nat) {a : Ex} (h : noPack a = true) (as : List Ex) : evs ds (n + 1) ns σ (a :: as) =
    (ev ds n ns σ a).bind fun v => (evs ds n ns σ as).bind fun vs => .ok (v :: vs) := by
  cases a <;> first | rfl | cases h

theorem evs_cons {a : Ex} {as : List Ex} {v : Vl} {vs : List Vl} (h : noPack a = true) (ha : Ev ds ns σ a (.ok v))
    (hs : Evs ds ns σ as (.ok vs)) : Evs ds ns σ (a :: as) (.ok (v :: vs)) := (ha.and hs).succ fun n hn => by
  rw [evs_eq n h, hn.1, hn.2]; rfl

theorem evs_head_ill {a : Ex} {as : List Ex} {f : Fault} (h : noPack a = true) (ha : Ev ds ns σ a (.ill f)) :
    Evs ds ns σ (a :: as) (.ill f) := ha.succ fun n hn => by
  rw [evs_eq n h, hn]; rfl

theorem evs_tail_ill {a : Ex} {as : List Ex} {v : Vl} {f : Fault} (h : noPack a = true) (ha : Ev ds ns σ a (.ok v))
    (hs : Evs ds ns σ as (.ill f)) : Evs ds ns σ (a :: as) (.ill f) := (ha.and hs).succ fun n hn => by
  rw [evs_eq n h, hn.1, hn.2]; rfl

theorem evs_pack {x : Str} {vs : List Vl} (h : σ.find x = some (.many vs)) : Evs ds ns σ [.pack x] (.ok vs) :=
  Evt.mk 2 fun n => by
    have : evs ds (n + 2) ns σ [.pack x] = match σ.find x with
      | some (.many vs) => (evs ds (n + 1) ns σ []).bind fun ws => .ok (vs ++ ws)
      | _ => .ill .noType := by rfl
    rw [this, h]
    show Out.ok (vs ++ []) = _
    rw [List.append_nil]

theorem call_eq (n : Nat) (abs : Bool) (path : List Str) (targs as : List Ex) :
    ev ds (n + 1) ns σ (.call abs path targs as) =
          (evs ds n ns σ targs).bind fun ts => (evs ds n ns σ as).bind fun vs =>
            match resolve (ds.map Decl.path) ns abs path ns.length, ts, vs with
            | some (.stringAt, _), [.int l], [.chars s, .int i] =>
                (StrLit.stringAt l.toNat s i.toNat).bind fun c => .ok (.int c)
            | some (.header, p), [], [v] =>
                match function p ds with
                | some (x, b) => ev ds n p.dropLast [(x, .one v)] b
                | none => .ill .noValue
            | _, _, _ => .ill .noValue := by rfl

theorem cls_eq (n : Nat) (abs : Bool) (path : List Str) (vs : List Vl) : cls ds (n + 1) ns abs path vs =
      match resolve (ds.map Decl.path) ns abs path ns.length with
      | some (.string, _) => match intsOf vs with
          | some cs => .ok (.string cs)
          | none => .ill .noType
      | some (.concat, _) => match vs with
          | [.string a, .string b] => .ok (.string (Str11.concat a b))
          | _ => .ill .noSpecialisation
      | some (.header, p) => match matching p vs ds with
          | [(σ, b)] => ev ds n p.dropLast σ b
          | _ => .ill .noSpecialisation
      | _ => .ill .noType := by rfl

theorem ev_call {abs : Bool} {path p : List Str} {a b : Ex} {x : Str} {v : Vl} {w : Out Vl}
    (hr : resolve (ds.map Decl.path) ns abs path ns.length = some (.header, p)) (hf : function p ds = some (x, b))
    (hn : noPack a = true) (ha : Ev ds ns σ a (.ok v)) (hb : Ev ds p.dropLast [(x, .one v)] b w) :
    Ev ds ns σ (.call abs path [] [a]) w := ((evs_nil (ns := ns) (σ := σ)).and ((evs_cons hn ha evs_nil).and hb)).succ
  fun n hn => by
    rw [call_eq, hn.1, hn.2.1, hr]
    show (match function p ds with
                | some (x, b) => ev ds n p.dropLast [(x, .one v)] b
                | none => .ill .noValue) = w
    rw [hf]
    exact hn.2.2

theorem ev_at {abs : Bool} {path p : List Str} {limit i : Nat} {s : List Chr}
    (hr : resolve (ds.map Decl.path) ns abs path ns.length = some (.stringAt, p)) :
    Ev ds ns σ (.call abs path [.num limit] [.str s, .num i])
      ((StrLit.stringAt limit s i).bind fun c => .ok (.int c)) := Evt.mk 5 fun n => by
  have h1 : evs ds (n + 4) ns σ [.num limit] = .ok [.int limit] := rfl
  have h2 : evs ds (n + 4) ns σ [.str s, .num i] = .ok [.chars s, .int i] := rfl
  rw [call_eq, h1, h2, hr]
  rfl

end

/-! ## Names -/

/-- The declarations have these names. -/
theorem resolve_abs (sun : Bool) : ∀ x ∈ [lit "take", lit "make_string"],
    resolve ((headerDecls sun).map Decl.path) [] true (implNs ++ [x]) 0 = some (.header, implNs ++ [x]) := by
  cases sun <;> decide +kernel

theorem resolve_at (sun : Bool) :
    resolve ((headerDecls sun).map Decl.path) [] true (implNs ++ [lit "string_at"]) 0 =
      some (.stringAt, implNs ++ [lit "string_at"]) := by
  cases sun <;> decide +kernel

theorem resolve_own (sun : Bool) : ∀ x ∈ [lit "take", lit "make_string"],
    resolve ((headerDecls sun).map Decl.path) implNs false [x] implNs.length = some (.header, implNs ++ [x]) := by
  cases sun <;> decide +kernel

theorem resolve_concat (sun : Bool) :
    resolve ((headerDecls sun).map Decl.path) implNs false [lit "concat"] implNs.length =
      some (.concat, implNs ++ [lit "concat"]) := by
  cases sun <;> decide +kernel

theorem resolve_string (sun : Bool) :
    resolve ((headerDecls sun).map Decl.path) implNs false [lit "string"] implNs.length =
      some (.string, v1 ++ [lit "string"]) := by
  cases sun <;> decide +kernel

/-! ## `take` -/

/-- The first step that is not too large. -/
def takeOf (r : Int) : List Nat → Int
  | [] => 0
  | k :: ks => if r ≥ k then k else takeOf r ks

theorem takeOf_powers (r : Int) : takeOf r (powers 9) = StrLit.take r := by
  have : powers 9 = [512, 256, 128, 64, 32, 16, 8, 4, 2, 1] := by decide +kernel
  rw [this]
  rfl

theorem ev_takeEx {ds : List Decl} {ns : List Str} (r : Int) (ks : List Nat) :
    Ev ds ns [(lit "n_", .one (.int r))] (takeEx ks) (.ok (.int (takeOf r ks))) := by
  induction ks with
  | nil => exact ev_num 0
  | cons k ks ih =>
      refine ev_cond (ev_ge (ev_var rfl) (ev_num k)) ?_
      rw [takeOf]
      by_cases h : r ≥ k
      · rw [if_pos h, if_pos h]
        exact ev_num k
      · rw [if_neg h, if_neg h]
        exact ih

theorem ev_takeCall {sun : Bool} {ns : List Str} {σ : Scope} {abs : Bool} {path : List Str} {a : Ex} {r : Int}
    (hr : resolve ((headerDecls sun).map Decl.path) ns abs path ns.length = some (.header, implNs ++ [lit "take"]))
    (hn : noPack a = true) (ha : Ev (headerDecls sun) ns σ a (.ok (.int r))) :
    Ev (headerDecls sun) ns σ (.call abs path [] [a]) (.ok (.int (StrLit.take r))) := by
  rw [← takeOf_powers]
  refine ev_call hr (x := lit "n_") (b := takeEx (powers 9)) ?_ hn ha (ev_takeEx r _)
  rw [headerDecls]
  show (if implNs ++ [lit "take"] = implNs ++ [lit "take"] then _ else _) = _
  rw [if_pos rfl]

/-! ## The specialisations -/

/-- The characters as arguments. -/
def ints (cs : List Chr) : List Vl := cs.map .int

theorem intsOf_ints (cs : List Chr) : intsOf (ints cs) = some cs := by
  induction cs with
  | nil => rfl
  | cons c cs ih =>
      show (intsOf (ints cs)).map _ = _
      rw [ih]; rfl

/-- The names with the characters. -/
def bound (xs : List Str) (cs : List Chr) : Scope := (xs.zip cs).map fun a => (a.1, .one (.int a.2))

theorem matchArgs_names {ps : List (Bool × Str)} (hc : (true, lit "Cs") ∈ ps) (xs : List Str) (hx : ∀ x ∈ xs, (false, x) ∈ ps)
    (cs : List Chr) : matchArgs ps (vars xs ++ [.pack (lit "Cs")]) (ints cs) =
      if xs.length ≤ cs.length then some (bound xs cs ++ [(lit "Cs", .many (ints (cs.drop xs.length)))]) else none := by
  induction xs generalizing cs with
  | nil =>
      have : matchArgs ps [.pack (lit "Cs")] (ints cs) =
        if (true, lit "Cs") ∈ ps then some [(lit "Cs", .many (ints cs))] else none := by
          cases cs <;> rfl
      show matchArgs ps [.pack (lit "Cs")] (ints cs) = _
      rw [this, if_pos hc, if_pos (by simp)]
      rfl
  | cons x xs ih =>
      have hne : vars xs ++ [Ex.pack (lit "Cs")] ≠ [] := by simp
      cases cs with
      | nil =>
          rw [if_neg (by simp)]
          show matchArgs ps (.var false [x] :: (vars xs ++ [.pack (lit "Cs")])) [] = none
          rfl
      | cons c cs =>
          have : matchArgs ps (vars (x :: xs) ++ [.pack (lit "Cs")]) (ints (c :: cs)) =
            if (false, x) ∈ ps then
              (matchArgs ps (vars xs ++ [.pack (lit "Cs")]) (ints cs)).map ((x, .one (.int c)) :: ·) else none := by rfl
          rw [this, if_pos (hx x (by simp)), ih fun y hy => hx y (by simp [hy])]
          by_cases hl : xs.length ≤ cs.length
          · rw [if_pos hl, if_pos (by simpa using hl)]
            rfl
          · rw [if_neg hl, if_neg (by simpa using hl)]
            rfl

/-- The parameters of a specialisation. -/
def specScope (i : Nat) (r : Int) (cs : List Chr) : Scope :=
  (lit "LenRemaining", .one (.int r)) :: (bound (uniqueNames i) cs ++ [(lit "Cs", .many (ints (cs.drop i)))])

theorem length_uniqueNames (i : Nat) : (uniqueNames i).length = i := by simp [uniqueNames]

/-- The path of `make_string`. -/
def makePath : List Str := implNs ++ [lit "make_string"]

theorem matching_spec (now r : Int) (cs : List Chr) (i : Nat) (ds : List Decl) :
    matching makePath (.int now :: .int r :: ints cs) (specDecl i :: ds) =
      if now = i ∧ i ≤ cs.length then (specScope i r cs, baseEx i) :: matching makePath (.int now :: .int r :: ints cs) ds
      else matching makePath (.int now :: .int r :: ints cs) ds := by
  have h : matching makePath (.int now :: .int r :: ints cs) (specDecl i :: ds) =
      if makePath = makePath then
        match (if Vl.int now = .int i then
            if (false, lit "LenRemaining") ∈ ((false, lit "LenRemaining") ::
              ((uniqueNames i).map (fun x => (false, x)) ++ [(true, lit "Cs")])) then
              (matchArgs ((false, lit "LenRemaining") :: ((uniqueNames i).map (fun x => (false, x)) ++ [(true, lit "Cs")]))
                (vars (uniqueNames i) ++ [.pack (lit "Cs")]) (ints cs)).map ((lit "LenRemaining", .one (.int r)) :: ·)
            else none else none) with
        | some σ => (σ, baseEx i) :: matching makePath (.int now :: .int r :: ints cs) ds
        | none => matching makePath (.int now :: .int r :: ints cs) ds
      else matching makePath (.int now :: .int r :: ints cs) ds := by rfl
  rw [h, if_pos rfl, if_pos (by simp : (false, lit "LenRemaining") ∈ _), matchArgs_names (by simp) _ (fun x hx => by simp [hx]), length_uniqueNames]
  by_cases hn : now = i
  · subst hn
    rw [if_pos rfl]
    by_cases hi : i ≤ cs.length
    · rw [if_pos hi, if_pos ⟨rfl, hi⟩]
      rfl
    · rw [if_neg hi, if_neg (by simpa using hi)]
      rfl
  · rw [if_neg (by simpa using hn), if_neg (by simp [hn])]

theorem matching_none {now r : Int} {cs : List Chr} {l : List Nat} (h : ∀ i ∈ l, now ≠ (i : Nat)) :
    matching makePath (.int now :: .int r :: ints cs) (l.map specDecl) = [] := by
  induction l with
  | nil => rfl
  | cons i l ih =>
      rw [List.map_cons, matching_spec, if_neg fun e => h i (by simp) e.1, ih fun j hj => h j (by simp [hj])]

theorem matching_one {r : Int} {cs : List Chr} {l : List Nat} (hn : l.Nodup) {i : Nat} (hi : i ∈ l) (hc : i ≤ cs.length) :
    matching makePath (.int i :: .int r :: ints cs) (l.map specDecl) = [(specScope i r cs, baseEx i)] := by
  induction l with
  | nil => simp at hi
  | cons j l ih =>
      rw [List.nodup_cons] at hn
      rw [List.map_cons, matching_spec]
      rcases List.mem_cons.mp hi with rfl | hi'
      · rw [if_pos ⟨rfl, hc⟩, matching_none]
        intro k hk e
        have : i = k := by omega
        subst this
        exact hn.1 hk
      · rw [if_neg, ih hn.2 hi']
        rintro ⟨e, _⟩
        have : i = j := by omega
        subst this
        exact hn.1 hi'

theorem matching_header (sun : Bool) (now r : Int) (cs : List Chr) :
    matching makePath (.int now :: .int r :: ints cs) (headerDecls sun) =
      if now = 0 ∧ r = 0 then ([(lit "Cs", .many (ints cs))], .tmpl false [lit "string"] []) ::
        matching makePath (.int now :: .int r :: ints cs) ((lengths sun).map specDecl)
      else matching makePath (.int now :: .int r :: ints cs) ((lengths sun).map specDecl) := by
  have h : matching makePath (.int now :: .int r :: ints cs) (headerDecls sun) =
      if makePath = makePath then
        match (if Vl.int now = .int 0 then if Vl.int r = .int 0 then
            matchArgs [(true, lit "Cs")] [.pack (lit "Cs")] (ints cs) else none else none) with
        | some σ => (σ, .tmpl false [lit "string"] []) ::
            matching makePath (.int now :: .int r :: ints cs) ((lengths sun).map specDecl)
        | none => matching makePath (.int now :: .int r :: ints cs) ((lengths sun).map specDecl)
      else matching makePath (.int now :: .int r :: ints cs) ((lengths sun).map specDecl) := by rfl
  have h' : matchArgs [(true, lit "Cs")] [.pack (lit "Cs")] (ints cs) = some [(lit "Cs", .many (ints cs))] := by
    cases cs <;> rfl
  rw [h, if_pos rfl, h']
  by_cases h1 : now = 0
  · subst h1
    rw [if_pos rfl]
    by_cases h2 : r = 0
    · subst h2
      rw [if_pos rfl, if_pos ⟨rfl, rfl⟩]
    · rw [if_neg (by simpa using h2), if_neg (by simp [h2])]
  · rw [if_neg (by simpa using h1), if_neg (by simp [h1])]

/-! ## Evaluating a specialisation -/

theorem find_bound {xs : List Str} (hn : xs.Nodup) {cs : List Chr} {tail : Scope} :
    ∀ a ∈ xs.zip cs, Scope.find (bound xs cs ++ tail) a.1 = some (.one (.int a.2)) := by
  induction xs generalizing cs with
  | nil => intro a ha; simp at ha
  | cons x xs ih =>
      rw [List.nodup_cons] at hn
      cases cs with
      | nil => intro a ha; simp at ha
      | cons c cs =>
          intro a ha
          rw [List.zip_cons_cons, List.mem_cons] at ha
          have e : bound (x :: xs) (c :: cs) ++ tail = (x, .one (.int c)) :: (bound xs cs ++ tail) := rfl
          rw [e, Scope.find]
          rcases ha with rfl | ha
          · rw [if_pos rfl]
          · rw [if_neg, ih hn.2 a ha]
            rintro rfl
            exact hn.1 (List.of_mem_zip (a := a.1) (b := a.2) ha).1

theorem find_bound_tail {xs : List Str} {x : Str} (hx : x ∉ xs) {cs : List Chr} {tail : Scope} :
    Scope.find (bound xs cs ++ tail) x = tail.find x := by
  induction xs generalizing cs with
  | nil => rfl
  | cons y xs ih =>
      rw [List.mem_cons, not_or] at hx
      cases cs with
      | nil => rfl
      | cons c cs =>
          have e : bound (y :: xs) (c :: cs) ++ tail = (y, .one (.int c)) :: (bound xs cs ++ tail) := rfl
          rw [e, Scope.find, if_neg hx.1, ih hx.2]

theorem evs_vars {ds : List Decl} {ns : List Str} {σ : Scope} {xs : List Str} {cs : List Chr} (hl : xs.length ≤ cs.length)
    (h : ∀ a ∈ xs.zip cs, σ.find a.1 = some (.one (.int a.2))) : Evs ds ns σ (vars xs) (.ok (ints (cs.take xs.length))) := by
  induction xs generalizing cs with
  | nil => exact evs_nil
  | cons x xs ih =>
      cases cs with
      | nil => simp at hl
      | cons c cs =>
          exact evs_cons rfl (ev_var (h (x, c) (by simp))) (ih (by simpa using hl) fun a ha => h a (by simp [ha]))

theorem nodup_uniqueNames (i : Nat) : (uniqueNames i).Nodup := by
  rw [uniqueNames]
  refine List.Pairwise.map _ (fun a b hab e => hab ?_) (List.nodup_range (n := i))
  exact Bench.number_inj (List.append_cancel_left e)

theorem len_not_mem (i : Nat) : lit "LenRemaining" ∉ uniqueNames i := fun h => by
  obtain ⟨k, e⟩ := mem_uniqueNames h
  have e' : lit "C" ++ number k = 'C' :: number k := rfl
  have e'' : lit "LenRemaining" = 'L' :: lit "enRemaining" := by decide +kernel
  rw [e', e''] at e
  simp at e

theorem Cs_not_mem (i : Nat) : lit "Cs" ∉ uniqueNames i := fun h => by
  obtain ⟨k, e⟩ := mem_uniqueNames h
  have e' : lit "C" ++ number k = 'C' :: number k := rfl
  have e'' : lit "Cs" = ['C', 's'] := by decide +kernel
  rw [e', e'', List.cons.injEq] at e
  exact absurd (isDigit_number (n := k) (c := 's') (by rw [← e.2]; simp)) (by decide)

/-- What follows the first characters. -/
def NextIs (sun : Bool) (r : Int) (cs : List Chr) (v : Out Vl) : Prop :=
  Cls (headerDecls sun) implNs false [lit "make_string"] (.int (StrLit.take r) :: .int (r - StrLit.take r) :: ints cs) v

theorem ev_len {ds : List Decl} {ns : List Str} (i : Nat) (r : Int) (cs : List Chr) :
    Ev ds ns (specScope i r cs) (.var false [lit "LenRemaining"]) (.ok (.int r)) := by
  refine ev_var ?_
  rw [specScope, Scope.find, if_pos rfl]

theorem ev_next {sun : Bool} {i : Nat} {r : Int} {cs : List Chr} {v : Out Vl} (h : NextIs sun r (cs.drop i) v) :
    Ev (headerDecls sun) implNs (specScope i r cs) nextEx v := by
  have ht : Ev (headerDecls sun) implNs (specScope i r cs) takeCall (.ok (.int (StrLit.take r))) :=
    ev_takeCall (resolve_own sun _ (by simp)) rfl (ev_len i r cs)
  refine ev_type (evs_cons rfl ht (evs_cons rfl (ev_sub (ev_len i r cs) ht) (evs_pack ?_))) h
  rw [specScope, Scope.find, if_neg (by decide +kernel), find_bound_tail (Cs_not_mem i), Scope.find, if_pos rfl]

theorem ev_first {sun : Bool} {i : Nat} {r : Int} {cs : List Chr} (hi : i ≤ cs.length) :
    Ev (headerDecls sun) implNs (specScope i r cs) (.tmpl false [lit "string"] (vars (uniqueNames i)))
      (.ok (.string (cs.take i))) := by
  have hv : Evs (headerDecls sun) implNs (specScope i r cs) (vars (uniqueNames i)) (.ok (ints (cs.take i))) := by
    have := evs_vars (ds := headerDecls sun) (ns := implNs) (σ := specScope i r cs) (xs := uniqueNames i) (cs := cs)
      (by rw [length_uniqueNames]; exact hi) fun a ha => by
        rw [specScope, Scope.find, if_neg, find_bound (nodup_uniqueNames i) a ha]
        intro e
        exact len_not_mem i (e ▸ (List.of_mem_zip (a := a.1) (b := a.2) ha).1)
    rwa [length_uniqueNames] at this
  refine ev_tmpl hv (Evt.mk 1 fun n => ?_)
  rw [cls_eq, resolve_string]
  show (match intsOf (ints (cs.take i)) with
          | some cs => Out.ok (Vl.string cs)
          | none => .ill .noType) = _
  rw [intsOf_ints]

theorem ev_base {sun : Bool} {i : Nat} {r : Int} {cs b : List Chr} (hi : i ≤ cs.length)
    (h : NextIs sun r (cs.drop i) (.ok (.string b))) :
    Ev (headerDecls sun) implNs (specScope i r cs) (baseEx i) (.ok (.string (cs.take i ++ b))) := by
  refine ev_tmpl (evs_cons rfl (ev_first hi) (evs_cons rfl (ev_next h) evs_nil)) (Evt.mk 1 fun n => ?_)
  rw [cls_eq, resolve_concat]
  rfl

theorem ev_base_ill {sun : Bool} {i : Nat} {r : Int} {cs : List Chr} {f : Fault} (hi : i ≤ cs.length)
    (h : NextIs sun r (cs.drop i) (.ill f)) :
    Ev (headerDecls sun) implNs (specScope i r cs) (baseEx i) (.ill f) :=
  ev_tmpl_ill (evs_tail_ill rfl (ev_first hi) (evs_head_ill rfl (ev_next h)))

theorem cls_make {sun : Bool} {ns : List Str} {abs : Bool} {path : List Str} {vs : List Vl} {σ : Scope} {b : Ex} {v : Out Vl}
    (hr : resolve ((headerDecls sun).map Decl.path) ns abs path ns.length = some (.header, makePath))
    (hm : matching makePath vs (headerDecls sun) = [(σ, b)]) (hb : Ev (headerDecls sun) implNs σ b v) :
    Cls (headerDecls sun) ns abs path vs v := hb.succ fun n hn => by
  rw [cls_eq, hr]
  show (match matching makePath vs (headerDecls sun) with
          | [(σ, b)] => ev (headerDecls sun) n implNs σ b
          | _ => .ill .noSpecialisation) = v
  rw [hm]
  exact hn

theorem cls_make_none {sun : Bool} {ns : List Str} {abs : Bool} {path : List Str} {vs : List Vl}
    (hr : resolve ((headerDecls sun).map Decl.path) ns abs path ns.length = some (.header, makePath))
    (hm : matching makePath vs (headerDecls sun) = []) :
    Cls (headerDecls sun) ns abs path vs (.ill .noSpecialisation) := Evt.mk 1 fun n => by
  rw [cls_eq, hr]
  show (match matching makePath vs (headerDecls sun) with
          | [(σ, b)] => ev (headerDecls sun) n implNs σ b
          | _ => .ill .noSpecialisation) = _
  rw [hm]

theorem nodup_lengths (sun : Bool) : (lengths sun).Nodup := by cases sun <;> decide +kernel

theorem lengths_pos (sun : Bool) : ∀ i ∈ lengths sun, 0 < i := by cases sun <;> decide +kernel

theorem take_mem {sun : Bool} {r : Nat} (hr : 0 < r) (hs : sun = false ∨ r < 128) :
    ∃ i ∈ lengths sun, StrLit.take r = (i : Nat) ∧ 0 < i ∧ i ≤ r := by
  rcases StrLit.take_cases r with ⟨h, _⟩ | ⟨h, h0, h1⟩
  · omega
  · refine ⟨(StrLit.take r).toNat, ?_, by omega, by omega, by omega⟩
    rcases hs with rfl | hs
    · have : ∀ x ∈ StrLit.steps, x.toNat ∈ lengths false := by decide +kernel
      exact this _ h
    · have : ∀ x ∈ StrLit.steps, x < 128 → x.toNat ∈ lengths sun := by cases sun <;> decide +kernel
      exact this _ h (by omega)

theorem take_large {r : Nat} (hr : 128 ≤ r) : ∀ i ∈ lengths true, StrLit.take r ≠ (i : Nat) := by
  have h : 128 ≤ StrLit.take r := by
    rw [StrLit.take]
    repeat' split
    all_goals omega
  have : ∀ i ∈ lengths true, i < 128 := by decide +kernel
  intro i hi e
  have := this i hi
  omega

/-- The first `r` characters. -/
theorem cls_make_string {sun : Bool} (r : Nat) (hs : sun = false ∨ r < 128) (cs : List Chr) (hr : r ≤ cs.length) {ns : List Str}
    {abs : Bool} {path : List Str}
    (hp : resolve ((headerDecls sun).map Decl.path) ns abs path ns.length = some (.header, makePath)) :
    Cls (headerDecls sun) ns abs path (.int (StrLit.take r) :: .int (r - StrLit.take r) :: ints cs) (.ok (.string (cs.take r))) := by
  induction r using Nat.strongRecOn generalizing cs ns abs path with
  | ind r ih =>
      rcases Nat.eq_zero_or_pos r with rfl | h0
      · have ht : StrLit.take ((0 : Nat) : Int) = 0 := by decide
        rw [ht]
        refine cls_make hp (b := .tmpl false [lit "string"] []) (σ := [(lit "Cs", .many (ints cs))]) ?_ ?_
        · rw [matching_header, if_pos ⟨rfl, rfl⟩, matching_none]
          intro i hi
          have := lengths_pos sun i hi
          omega
        · refine ev_tmpl evs_nil (Evt.mk 1 fun n => ?_)
          rw [cls_eq, resolve_string]
          rfl
      · obtain ⟨i, hi, ht, hi0, hir⟩ := take_mem h0 hs
        rw [ht]
        refine cls_make hp (σ := specScope i (r - i) cs) (b := baseEx i) ?_ ?_
        · rw [matching_header, if_neg (by omega), matching_one (nodup_lengths sun) hi (by omega)]
        · have e : ((r : Int) - (i : Nat)) = ((r - i : Nat) : Int) := by omega
          have := ev_base (sun := sun) (i := i) (r := ((r - i : Nat) : Int)) (cs := cs) (by omega)
            (ih (r - i) (by omega) (hs.imp id fun h => by omega) (cs.drop i) (by rw [List.length_drop]; omega)
              (resolve_own sun _ (by simp)))
          rw [e]
          have e' : cs.take i ++ (cs.drop i).take (r - i) = cs.take r := by
            rw [← List.take_add, Nat.add_sub_cancel' hir]
          rwa [e'] at this

/-- Sun's compiler has no specialisation for 128 characters. -/
theorem cls_make_large (r : Nat) (h : 128 ≤ r) (cs : List Chr) {ns : List Str} {abs : Bool} {path : List Str}
    (hp : resolve ((headerDecls true).map Decl.path) ns abs path ns.length = some (.header, makePath)) :
    Cls (headerDecls true) ns abs path (.int (StrLit.take r) :: .int (r - StrLit.take r) :: ints cs) (.ill .noSpecialisation) := by
  refine cls_make_none hp ?_
  rw [matching_header, if_neg, matching_none (take_large h)]
  rintro ⟨e, _⟩
  rcases StrLit.take_cases r with ⟨h, _⟩ | ⟨_, h, _⟩ <;> omega

/-! ## The macro -/

theorem evs_at {sun : Bool} {limit : Nat} {s : List Chr} (h : s.length ≤ limit) (is : List Nat) :
    Evs (headerDecls sun) [] [] (is.map (atEx limit s)) (.ok (ints (is.map fun n => if n ≥ s.length then 0 else s.getD n 0))) := by
  induction is with
  | nil => exact evs_nil
  | cons i is ih =>
      refine evs_cons rfl ?_ ih
      have := ev_at (ds := headerDecls sun) (ns := []) (σ := []) (limit := limit) (i := i) (s := s) (resolve_at sun)
      rw [StrLit.stringAt, if_pos (by omega)] at this
      exact this

theorem ev_size {sun : Bool} (s : List Chr) : Ev (headerDecls sun) [] [] (sizeEx s) (.ok (.int s.length)) := by
  have := ev_sub (ev_sizeof (ds := headerDecls sun) (ns := []) (σ := []) s) (ev_num 1)
  have e : ((s.length : Int) + 1 - ((1 : Nat) : Int)) = s.length := by omega
  rwa [e] at this

theorem ev_takeSize {sun : Bool} (s : List Chr) :
    Ev (headerDecls sun) [] [] (takeSizeEx s) (.ok (.int (StrLit.take s.length))) :=
  ev_takeCall (resolve_abs sun _ (by simp)) rfl (ev_size s)

theorem ev_string {sun : Bool} {limit l : Nat} {s : List Chr} (h : s.length ≤ limit) (hl : limit ≤ l)
    (hs : sun = false ∨ s.length < 128) : Ev (headerDecls sun) [] [] (stringEx limit l s) (.ok (.string s)) := by
  refine ev_type (evs_cons rfl (ev_takeSize s) (evs_cons rfl (ev_sub (ev_size s) (ev_takeSize s)) (evs_at h _))) ?_
  have := cls_make_string s.length hs ((List.range l).map fun n => if n ≥ s.length then 0 else s.getD n 0)
    (by rw [List.length_map, List.length_range]; omega) (ns := []) (abs := true) (resolve_abs sun (lit "make_string") (by simp))
  rwa [StrLit.chars_range s l (by omega)] at this

theorem ev_string_sun {limit l : Nat} {s : List Chr} (h : s.length ≤ limit) (hs : 128 ≤ s.length) :
    Ev (headerDecls true) [] [] (stringEx limit l s) (.ill .noSpecialisation) :=
  ev_type (evs_cons rfl (ev_takeSize s) (evs_cons rfl (ev_sub (ev_size s) (ev_takeSize s)) (evs_at h _)))
    (cls_make_large s.length hs _ (ns := []) (abs := true) (resolve_abs true (lit "make_string") (by simp)))

theorem ev_string_long {sun : Bool} {limit l : Nat} {s : List Chr} (h : limit < s.length) (hl : 0 < l) :
    Ev (headerDecls sun) [] [] (stringEx limit l s) (.ill .staticAssert) := by
  refine ev_type_ill (evs_tail_ill rfl (ev_takeSize s) (evs_tail_ill rfl (ev_sub (ev_size s) (ev_takeSize s)) ?_))
  obtain ⟨k, rfl⟩ : ∃ k, l = k + 1 := ⟨l - 1, by omega⟩
  rw [List.range_succ_eq_map, List.map_cons]
  refine evs_head_ill rfl ?_
  have := ev_at (ds := headerDecls sun) (ns := []) (σ := []) (limit := limit) (i := 0) (s := s) (resolve_at sun)
  rw [StrLit.stringAt, if_neg (by omega)] at this
  exact this

/-! ## The header -/

theorem textString_of {sun : Bool} {limits : List Nat} {m limit l : Nat} {t : Str} (hp : limits.Pairwise (· < ·))
    (h0 : ∀ l ∈ limits, 0 < l) (hm : StrLit.maximum limits = some m) (ht : generateString limits = some t) (h : limit ≤ m)
    (hl : StrLit.indexMacroOf limits limit = some l) (hl' : l ∈ limits) {s : List Chr} {v : Out Vl}
    (hv : Ev (headerDecls sun) [] [] (stringEx limit l s) v) : Evt fun n => textString n sun t limit s = some v := by
  refine ((parse_program sun).and ((exp_string (sun := sun) hp h0 h hl hl' s).and
    ((parse_string limit l (h0 l hl') s).and hv))).mono fun n hn => ?_
  rw [textString, preprocess_text hm sun ht h]
  show (decls n [] (program sun)).bind _ = _
  rw [hn.1, Option.bind_some, hn.2.1, Option.bind_some, hn.2.2.1, Option.bind_some, if_pos rfl, hn.2.2.2]

end Metaparse.StrHdr
