import Verif.Lemmas.HeaderLex
/-! # Preprocessing the generated header -/

namespace Metaparse.StrHdr

open Gen

/-! ## Lines of the program -/

/-- A token that is neither a directive or comment nor a macro. -/
def plain : Tok → Bool
  | .p c => c != '/' && c != '#'
  | .id (c :: _) => c != 'B' && c != '_'
  | _ => true

theorem stripComment_plain {ts : List Tok} (h : ts.all plain = true) : stripComment ts = ts := by
  induction ts with
  | nil => rfl
  | cons t ts ih =>
      rw [List.all_cons, Bool.and_eq_true] at h
      rw [stripComment, ih h.2]
      intro us e hus
      subst e
      exact absurd h.1 (by decide)

theorem mem_dropSp {t : Tok} {ts : List Tok} (h : t ∈ dropSp ts) : t ∈ ts := by
  induction ts with
  | nil => exact h
  | cons u ts ih =>
      by_cases hu : u = .sp
      · subst hu; exact List.mem_cons_of_mem _ (ih h)
      · rwa [dropSp] at h
        exact fun _ e => hu (List.cons.inj e).1

theorem noSp_dropSp (ts : List Tok) : noSp (dropSp ts) = noSp ts := by
  induction ts with
  | nil => rfl
  | cons u ts ih =>
      by_cases hu : u = .sp
      · subst hu; rw [dropSp, ih]; rfl
      · rw [dropSp]
        exact fun _ e => hu (List.cons.inj e).1

/-- A name that begins with `B` or `_`. -/
def usualName : Str → Bool
  | c :: _ => c == 'B' || c == '_'
  | [] => false

/-- Macros whose names begin with `B` or `_`. -/
def Macros.Usual (T : Macros) : Prop := T.all (fun a => usualName a.1) = true

theorem find_none {T : Macros} {x : Str} (h : ∀ y m, (y, m) ∈ T → x ≠ y) : T.find x = none := by
  induction T with
  | nil => rfl
  | cons a T ih =>
      obtain ⟨y, m⟩ := a
      rw [Macros.find, if_neg (h y m (by simp)), ih fun y m hm => h y m (by simp [hm])]

theorem find_plain {T : Macros} (hT : T.Usual) {x : Str} (h : plain (.id x) = true) : T.find x = none := by
  refine find_none fun y m hm e => ?_
  have := List.all_eq_true.mp hT _ hm
  subst e
  cases x with
  | nil => exact absurd this (by simp [usualName])
  | cons c x =>
      simp only [usualName, plain, Bool.or_eq_true, beq_iff_eq, Bool.and_eq_true, bne_iff_ne] at this h
      rcases this with rfl | rfl
      · exact h.1 rfl
      · exact h.2 rfl

theorem dropSp_ne {ts us : List Tok} (h : ts.all plain = true) (e : dropSp ts = .p '#' :: us) : False := by
  have : Tok.p '#' ∈ ts := mem_dropSp (by rw [e]; simp)
  exact absurd (List.all_eq_true.mp h _ this) (by decide)

theorem line_prog {s : PP} (hT : s.macros.Usual) (ha : s.active = true) {ts : List Tok} (h : ts.all plain = true) :
    s.line ts = some { s with out := s.out ++ noSp ts } := by
  rw [PP.line, stripComment_plain h]
  split
  · rename_i us e; exact (dropSp_ne h e).elim
  · rw [ha, if_neg (by decide), if_neg, noSp_dropSp]
    rw [List.any_eq_true]
    rintro ⟨t, ht, hx⟩
    have hp := List.all_eq_true.mp h _ (mem_dropSp ht)
    cases t with
    | id x =>
        have hx : (s.macros.find x).isSome = true := hx
        rw [find_plain hT hp] at hx
        exact absurd hx (by simp)
    | _ => exact absurd hx (by simp)

theorem line_inactive {s : PP} (ha : s.active = false) {ts : List Tok} (h : ts.all plain = true) : s.line ts = some s := by
  rw [PP.line, stripComment_plain h]
  split
  · rename_i us e; exact (dropSp_ne h e).elim
  · rw [ha]; rfl

/-- The text of some lines. -/
def text (ls : List Str) : Str := ls.flatMap fun l => l ++ ['\n']

/-- A line of a program. -/
def progLine (l : Str) : Bool := !l.contains '\n' && (lex [] l).all plain

theorem run_prog {s : PP} (hT : s.macros.Usual) (ha : s.active = true) {ls : List Str} (h : ls.all progLine = true)
    (rest : Str) :
    s.run (L (text ls ++ rest)) = PP.run { s with out := s.out ++ noSp (ls.flatMap (lex [])) } (L rest) := by
  induction ls generalizing s with
  | nil => simp [text, noSp]
  | cons l ls ih =>
      rw [List.all_cons, Bool.and_eq_true, progLine, Bool.and_eq_true] at h
      have e : text (l :: ls) ++ rest = l ++ '\n' :: (text ls ++ rest) := by simp [text]
      rw [e, run_line (by simpa using h.1.1) _ (line_prog hT ha h.1.2)]
      rw [ih (by exact hT) (by exact ha) h.2]
      simp [noSp]

theorem run_inactive {s : PP} (ha : s.active = false) {ls : List Str} (h : ls.all progLine = true) (rest : Str) :
    s.run (L (text ls ++ rest)) = s.run (L rest) := by
  induction ls with
  | nil => simp [text]
  | cons l ls ih =>
      rw [List.all_cons, Bool.and_eq_true, progLine, Bool.and_eq_true] at h
      have e : text (l :: ls) ++ rest = l ++ '\n' :: (text ls ++ rest) := by simp [text]
      rw [e, run_line (by simpa using h.1.1) _ (line_inactive ha h.1.2), ih h.2]

/-! ## The specialisations -/

/-- The names of characters. -/
theorem isName_C (i : Nat) : IsName (lit "C" ++ number i) = true :=
  isName_append (by decide) (isName_all (isName_number i))

theorem mem_uniqueNames {x : Str} {n : Nat} (h : x ∈ uniqueNames n) : ∃ i, x = lit "C" ++ number i := by
  simp only [uniqueNames, List.mem_map] at h
  obtain ⟨i, _, e⟩ := h
  exact ⟨i, e.symm⟩

/-- The tokens of the names with something around them. -/
theorem lex_names {a : Str} (ha : Closed a = true) {c : Char} (hc : identChar c = false) {xs : List Str}
    (hx : ∀ x ∈ xs, IsName x = true) (v : Str) :
    lex [] ((xs.map fun x => a ++ (x ++ [c])).flatten ++ v) =
      (xs.map fun x => lex [] a ++ [.id x, symbol c]).flatten ++ lex [] v := by
  induction xs with
  | nil => simp
  | cons x l ih =>
      simp only [List.map_cons, List.flatten_cons, List.append_assoc, List.singleton_append] at ih ⊢
      rw [lex_append ha, List.cons_append, lex_name_cons (hx x (by simp)) hc, ih fun x h => hx x (by simp [h])]
      simp

/-- Tokens with commas between them. -/
def commas : List (List Tok) → List Tok
  | [] => []
  | [x] => x
  | x :: y :: l => x ++ .p ',' :: commas (y :: l)

theorem lex_join (ls : List Str) : lex [] (join (lit ",") ls) = commas (ls.map (lex [])) := by
  match ls with
  | [] => rfl
  | [x] => rfl
  | x :: y :: l =>
      have ih := lex_join (y :: l)
      rw [join, List.append_assoc]
      have : lit "," ++ join (lit ",") (y :: l) = ',' :: join (lit ",") (y :: l) := rfl
      rw [this, lex_cut x (by decide), ih]
      rfl

theorem noSp_append (a b : List Tok) : noSp (a ++ b) = noSp a ++ noSp b := by simp [noSp]

theorem noSp_commas (l : List (List Tok)) : noSp (commas l) = commas (l.map noSp) := by
  match l with
  | [] => rfl
  | [x] => rfl
  | x :: y :: l =>
      have ih := noSp_commas (y :: l)
      rw [commas, noSp_append]
      show noSp x ++ .p ',' :: noSp (commas (y :: l)) = _
      rw [ih]
      rfl

/-- The line of one specialisation. -/
def specLine (pre : Str) (i : Nat) : Str :=
  pre ++ lit "template <int LenRemaining," ++ ((uniqueNames i).map fun n => lit "char " ++ n ++ lit ",").flatten ++
  lit "char... Cs> struct make_string<" ++ number i ++ lit ",LenRemaining," ++
  ((uniqueNames i).map fun n => n ++ lit ",").flatten ++
  lit "Cs...> : concat<string<" ++ join (lit ",") (uniqueNames i) ++
  lit ">, typename make_string<take(LenRemaining),LenRemaining-take(LenRemaining),Cs...>::type> {};"

theorem specialisation_eq (pre : Str) (i : Nat) : specialisation pre i = text [specLine pre i] := by
  have : lit ">, typename make_string<take(LenRemaining),LenRemaining-take(LenRemaining),Cs...>::type> {};\n" =
    lit ">, typename make_string<take(LenRemaining),LenRemaining-take(LenRemaining),Cs...>::type> {};" ++ ['\n'] := by
      decide +kernel
  rw [specialisation, this]
  simp only [text, specLine, List.flatMap_cons, List.flatMap_nil, List.append_assoc, List.append_nil]

/-- The tokens of a text without spaces, for constant texts. -/
def tk (s : String) : List Tok := lex [] (lit s)

theorem lex_specLine {pre : Str} (hp : Closed pre = true) (i : Nat) :
    lex [] (specLine pre i) =
      lex [] pre ++ tk "template <int LenRemaining," ++
      ((uniqueNames i).map fun x => tk "char " ++ [.id x, .p ',']).flatten ++
      tk "char... Cs> struct make_string<" ++ [.id (number i)] ++ tk ",LenRemaining," ++
      ((uniqueNames i).map fun x => [.id x, .p ',']).flatten ++
      tk "Cs...> : concat<string<" ++ commas ((uniqueNames i).map fun x => [.id x]) ++
      tk ">, typename make_string<take(LenRemaining),LenRemaining-take(LenRemaining),Cs...>::type> {};" := by
  have hn : ∀ x ∈ uniqueNames i, IsName x = true := fun x hx => by
    obtain ⟨k, rfl⟩ := mem_uniqueNames hx; exact isName_C k
  have e1 := lex_names (a := lit "char ") (by decide +kernel) (c := ',') (by decide) hn
  have e2 := lex_names (a := []) (by decide) (c := ',') (by decide) hn
  have e3 : ∀ v, lex [] (number i ++ (lit ",LenRemaining," ++ v)) = [.id (number i)] ++ (tk ",LenRemaining," ++ lex [] v) := by
    intro v
    rw [show lit ",LenRemaining," ++ v = ',' :: (lit "LenRemaining," ++ v) from rfl, lex_name_cons (isName_number i) (by decide),
      lex_append (by decide)]
    rfl
  have e4 : ∀ v, lex [] (join (lit ",") (uniqueNames i) ++ (lit ">" ++ v)) =
      commas ((uniqueNames i).map fun x => [.id x]) ++ (tk ">" ++ lex [] v) := by
    intro v
    rw [show lit ">" ++ v = '>' :: v from rfl, lex_cut _ (by decide), lex_join]
    have : (uniqueNames i).map (lex []) = (uniqueNames i).map fun x => [.id x] :=
      List.map_congr_left fun x hx => lex_name (hn x hx)
    rw [this]
    rfl
  simp only [specLine, List.append_assoc]
  rw [lex_append hp, lex_append (by decide), show (lit ",") = [','] from rfl, e1, lex_append (by decide), e3]
  simp only [List.nil_append] at e2
  rw [e2, lex_append (by decide)]
  have e5 := e4 (lit ", typename make_string<take(LenRemaining),LenRemaining-take(LenRemaining),Cs...>::type> {};")
  rw [show (lit ",") = [','] from rfl] at e5
  have e6 : lit ">, typename make_string<take(LenRemaining),LenRemaining-take(LenRemaining),Cs...>::type> {};" =
    lit ">" ++ lit ", typename make_string<take(LenRemaining),LenRemaining-take(LenRemaining),Cs...>::type> {};" := by
    decide +kernel
  rw [e6, e5]
  rfl

theorem map_flatten_all {α β : Type} {f : α → List β} {l : List α} {p : β → Bool} (h : ∀ a ∈ l, (f a).all p = true) :
    (l.map f).flatten.all p = true := by
  rw [List.all_eq_true]
  intro b hb
  rw [List.mem_flatten] at hb
  obtain ⟨l', hl', hb⟩ := hb
  rw [List.mem_map] at hl'
  obtain ⟨a, ha, rfl⟩ := hl'
  exact List.all_eq_true.mp (h a ha) b hb

theorem all_commas {l : List (List Tok)} {p : Tok → Bool} (hp : p (.p ',') = true) (h : ∀ x ∈ l, x.all p = true) :
    (commas l).all p = true := by
  match l with
  | [] => rfl
  | [x] => exact h x (by simp)
  | x :: y :: l =>
      have ih := all_commas (l := y :: l) hp fun z hz => h z (by simp [hz])
      rw [commas, List.all_append, List.all_cons, h x (by simp), hp, ih]
      rfl

theorem plain_digit {c : Char} {x : Str} (h : isDigit c = true) : plain (.id (c :: x)) = true := by
  show (c != 'B' && c != '_') = true
  rw [Bool.and_eq_true]
  constructor <;>
  · rw [bne_iff_ne]
    rintro rfl
    exact absurd h (by decide)

theorem plain_number (n : Nat) : plain (.id (number n)) = true := by
  have h := number_ne n
  cases e : number n with
  | nil => exact absurd e h
  | cons c x => exact plain_digit (isDigit_number (n := n) (by rw [e]; simp))

theorem plain_C {i : Nat} {x : Str} (h : x ∈ uniqueNames i) : plain (.id x) = true := by
  obtain ⟨k, rfl⟩ := mem_uniqueNames h
  rfl

theorem plain_specLine {pre : Str} (hp : Closed pre = true) (hl : (lex [] pre).all plain = true) (i : Nat) :
    (lex [] (specLine pre i)).all plain = true := by
  rw [lex_specLine hp]
  simp only [List.all_append, Bool.and_eq_true]
  refine ⟨⟨⟨⟨⟨⟨⟨⟨⟨hl, by decide +kernel⟩, ?_⟩, by decide +kernel⟩, ?_⟩, by decide +kernel⟩, ?_⟩, by decide +kernel⟩, ?_⟩,
    by decide +kernel⟩
  · refine map_flatten_all fun x hx => ?_
    rw [List.all_append, Bool.and_eq_true]
    refine ⟨by decide +kernel, ?_⟩
    rw [List.all_cons, plain_C hx]; rfl
  · rw [List.all_cons, plain_number]; rfl
  · refine map_flatten_all fun x hx => ?_
    rw [List.all_cons, plain_C hx]; rfl
  · refine all_commas rfl fun y hy => ?_
    rw [List.mem_map] at hy
    obtain ⟨x, hx, rfl⟩ := hy
    rw [List.all_cons, plain_C hx]; rfl

theorem nl_name {x : Str} (h : IsName x = true) : '\n' ∉ x := fun hm => absurd (isName_all h _ hm) (by decide)

theorem nl_flatten {f : Str → Str} {l : List Str} (h : ∀ a ∈ l, '\n' ∉ f a) : '\n' ∉ (l.map f).flatten := by
  rw [List.mem_flatten]
  rintro ⟨l', hl', hb⟩
  rw [List.mem_map] at hl'
  obtain ⟨a, ha, rfl⟩ := hl'
  exact h a ha hb

theorem nl_join {l : List Str} (h : ∀ a ∈ l, '\n' ∉ a) : '\n' ∉ join (lit ",") l := by
  match l with
  | [] => simp [join]
  | [x] => exact h x (by simp)
  | x :: y :: l =>
      have ih := nl_join (l := y :: l) fun z hz => h z (by simp [hz])
      rw [join]
      simp only [List.mem_append, not_or]
      exact ⟨⟨h x (by simp), by decide +kernel⟩, ih⟩

theorem nl_specLine {pre : Str} (hp : '\n' ∉ pre) (i : Nat) : '\n' ∉ specLine pre i := by
  have hn : ∀ x ∈ uniqueNames i, '\n' ∉ x := fun x hx => by
    obtain ⟨k, rfl⟩ := mem_uniqueNames hx; exact nl_name (isName_C k)
  simp only [specLine, List.mem_append, not_or]
  refine ⟨⟨⟨⟨⟨⟨⟨⟨⟨hp, by decide +kernel⟩, ?_⟩, by decide +kernel⟩, nl_name (isName_number i)⟩, by decide +kernel⟩, ?_⟩,
    by decide +kernel⟩, nl_join hn⟩, by decide +kernel⟩
  · refine nl_flatten fun x hx => ?_
    simp only [List.mem_append, not_or]
    exact ⟨⟨by decide +kernel, hn x hx⟩, by decide +kernel⟩
  · refine nl_flatten fun x hx => ?_
    simp only [List.mem_append, not_or]
    exact ⟨hn x hx, by decide +kernel⟩

theorem prog_specLine (i : Nat) : progLine (specLine (nsPrefix 4) i) = true := by
  rw [progLine, Bool.and_eq_true]
  refine ⟨?_, plain_specLine (by decide +kernel) (by decide +kernel) i⟩
  have := nl_specLine (pre := nsPrefix 4) (by decide +kernel) i
  simpa using this

/-- The tokens of a specialisation. -/
def specToks (i : Nat) : List Tok :=
  toks "template <int LenRemaining," ++
  ((uniqueNames i).map fun x => [.id (lit "char"), .id x, .p ',']).flatten ++
  toks "char... Cs> struct make_string<" ++ [.id (number i)] ++ toks ",LenRemaining," ++
  ((uniqueNames i).map fun x => [.id x, .p ',']).flatten ++
  toks "Cs...> : concat<string<" ++ commas ((uniqueNames i).map fun x => [.id x]) ++
  toks ">, typename make_string<take(LenRemaining),LenRemaining-take(LenRemaining),Cs...>::type> {};"

theorem noSp_flatten (l : List (List Tok)) : noSp l.flatten = (l.map noSp).flatten := by
  induction l with
  | nil => rfl
  | cons x l ih => rw [List.flatten_cons, noSp_append, ih]; rfl

theorem noSp_specLine (i : Nat) : noSp (lex [] (specLine (nsPrefix 4) i)) = specToks i := by
  rw [lex_specLine (by decide +kernel)]
  simp only [noSp_append, noSp_flatten, noSp_commas, List.map_map]
  have h : noSp (lex [] (nsPrefix 4)) = [] := by decide +kernel
  rw [h]
  rfl

end Metaparse.StrHdr
