import Verif.Lemmas.HeaderProgram
import Verif.Lemmas.StrLit
/-! # The macros that are in the generated header -/

namespace Metaparse.StrHdr

open Gen

theorem decimal_number (n : Nat) : decimal (number n) = n := by
  rw [number_eq]
  exact Nat.ofDigitChars_toDigits (b := 10) (by decide) (by decide)

theorem stripComment_eq {ts : List Tok} (h : Tok.p '/' ∉ ts) : stripComment ts = ts := by
  induction ts with
  | nil => rfl
  | cons t ts ih =>
      rw [stripComment, ih fun hm => h (by simp [hm])]
      intro us e hus
      exact h (by simp [e])

/-- The tokens of a text have no slash if the text has none. -/
theorem slash_lex {l : Str} (h : '/' ∉ l) (cur : Str) : Tok.p '/' ∉ lex cur l := by
  have hf : ∀ x, Tok.p '/' ∉ flush x := fun x => by rw [flush]; split <;> simp
  induction l generalizing cur with
  | nil => rw [lex]; exact hf _
  | cons c l ih =>
      rw [lex]
      split
      · exact ih (fun hm => h (by simp [hm])) _
      · simp only [List.mem_append, List.mem_cons, not_or]
        refine ⟨hf _, ?_, ih (fun hm => h (by simp [hm])) _⟩
        have : c ≠ '/' := fun e => h (by simp [e])
        rw [symbol]
        split
        · simp
        · split
          · simp
          · simpa using fun e => this e.symm

/-! ## The limit -/

/-- The name of the limit. -/
def limitName : Str := lit "BOOST_METAPARSE_LIMIT_STRING_SIZE"

theorem limitCheck_eq (m : Nat) : limitCheck m =
    lit "" ++ '\n' :: (lit "#ifndef BOOST_METAPARSE_LIMIT_STRING_SIZE" ++ '\n' ::
    (lit "#  error BOOST_METAPARSE_LIMIT_STRING_SIZE not defined" ++ '\n' ::
    (lit "#endif" ++ '\n' :: (lit "" ++ '\n' ::
    ((lit "#if BOOST_METAPARSE_LIMIT_STRING_SIZE > " ++ number m) ++ '\n' ::
    ((lit "#  error BOOST_METAPARSE_LIMIT_STRING_SIZE is greater than " ++ number m ++
      lit ". To increase the limit run tools/string_headers.py of Boost.Metaparse against your Boost headers.") ++ '\n' ::
    (lit "#endif" ++ '\n' :: (lit "" ++ '\n' :: [])))))))) := by
  have h1 : lit "\n#ifndef BOOST_METAPARSE_LIMIT_STRING_SIZE\n" =
    lit "" ++ '\n' :: (lit "#ifndef BOOST_METAPARSE_LIMIT_STRING_SIZE" ++ ['\n']) := by decide +kernel
  have h2 : lit "#  error BOOST_METAPARSE_LIMIT_STRING_SIZE not defined\n" =
    lit "#  error BOOST_METAPARSE_LIMIT_STRING_SIZE not defined" ++ ['\n'] := by decide +kernel
  have h3 : lit "#endif\n\n" = lit "#endif" ++ '\n' :: (lit "" ++ ['\n']) := by decide +kernel
  have h4 : lit ". To increase the limit run tools/string_headers.py of Boost.Metaparse against your Boost headers.\n" =
    lit ". To increase the limit run tools/string_headers.py of Boost.Metaparse against your Boost headers." ++ ['\n'] := by
    decide +kernel
  have h5 : lit "\n" = ['\n'] := by decide +kernel
  rw [limitCheck, h1, h2, h3, h4, h5]
  simp only [List.append_assoc, List.cons_append, List.nil_append]

theorem lex_if (m : Nat) : lex [] (lit "#if BOOST_METAPARSE_LIMIT_STRING_SIZE > " ++ number m) =
    [.p '#', .id (lit "if"), .sp, .id limitName, .sp, .p '>', .sp, .id (number m)] := by
  rw [lex_append (by decide +kernel), lex_name (isName_number m)]
  rfl

theorem lex_error (m : Nat) (v : Str) :
    ∃ ts, lex [] (lit "#  error BOOST_METAPARSE_LIMIT_STRING_SIZE is greater than " ++ number m ++ v) =
      .p '#' :: .sp :: .sp :: .id (lit "error") :: .sp :: .id limitName :: ts := by
  rw [List.append_assoc, lex_append (by decide +kernel)]
  exact ⟨_, rfl⟩

theorem nl_if (m : Nat) : '\n' ∉ lit "#if BOOST_METAPARSE_LIMIT_STRING_SIZE > " ++ number m := by
  simp only [List.mem_append, not_or]
  exact ⟨by decide +kernel, nl_name (isName_number m)⟩

theorem nl_error (m : Nat) : '\n' ∉ lit "#  error BOOST_METAPARSE_LIMIT_STRING_SIZE is greater than " ++ number m ++
      lit ". To increase the limit run tools/string_headers.py of Boost.Metaparse against your Boost headers." := by
  simp only [List.mem_append, not_or]
  exact ⟨⟨by decide +kernel, nl_name (isName_number m)⟩, by decide +kernel⟩

theorem line_if (sun : Bool) (limit m : Nat) (o : List Tok) :
    PP.line ⟨inside sun limit, o, [true]⟩
      [.p '#', .id (lit "if"), .sp, .id limitName, .sp, .p '>', .sp, .id (number m)] =
    some ⟨inside sun limit, o, [decide (limit > m), true]⟩ := by
  have h : PP.line ⟨inside sun limit, o, [true]⟩
      [.p '#', .id (lit "if"), .sp, .id limitName, .sp, .p '>', .sp, .id (number m)] =
    some ⟨inside sun limit, o, [decide (decimal (number limit) > decimal (number m)), true]⟩ := by rfl
  rw [h, decimal_number, decimal_number]

theorem run_limitCheck {sun : Bool} {limit m : Nat} (h : limit ≤ m) (o : List Tok) (rest : Str) :
    PP.run ⟨inside sun limit, o, [true]⟩ (L (limitCheck m ++ rest)) =
      PP.run ⟨inside sun limit, o, [true]⟩ (L rest) := by
  rw [limitCheck_eq]
  simp only [List.append_assoc, List.cons_append, List.nil_append]
  rw [run_line (by decide +kernel) _ (line_comment rfl rfl)]
  rw [run_line (by decide +kernel) _ (s' := ⟨inside sun limit, o, [false, true]⟩) (by rfl)]
  rw [run_line (by decide +kernel) _ (s' := ⟨inside sun limit, o, [false, true]⟩) (by rfl)]
  rw [run_line (by decide +kernel) _ (s' := ⟨inside sun limit, o, [true]⟩) (by rfl)]
  rw [run_line (by decide +kernel) _ (line_comment rfl rfl)]
  simp only [← List.append_assoc]
  rw [run_line (nl_if m) _ (by rw [lex_if]; exact line_if sun limit m o)]
  have hd : decide (limit > m) = false := decide_eq_false (by omega)
  rw [hd]
  obtain ⟨ts, e⟩ := lex_error m (lit ". To increase the limit run tools/string_headers.py of Boost.Metaparse against your Boost headers.")
  rw [run_line (nl_error m) _ (s' := ⟨inside sun limit, o, [false, true]⟩) (by rw [e]; rfl)]
  rw [run_line (by decide +kernel) _ (s' := ⟨inside sun limit, o, [true]⟩) (by rfl)]
  rw [run_line (by decide +kernel) _ (line_comment rfl rfl)]

theorem run_tooLarge {sun : Bool} {limit m : Nat} (h : m < limit) (o : List Tok) (rest : Str) :
    PP.run ⟨inside sun limit, o, [true]⟩ (L (limitCheck m ++ rest)) = none := by
  rw [limitCheck_eq]
  simp only [List.append_assoc, List.cons_append, List.nil_append]
  rw [run_line (by decide +kernel) _ (line_comment rfl rfl)]
  rw [run_line (by decide +kernel) _ (s' := ⟨inside sun limit, o, [false, true]⟩) (by rfl)]
  rw [run_line (by decide +kernel) _ (s' := ⟨inside sun limit, o, [false, true]⟩) (by rfl)]
  rw [run_line (by decide +kernel) _ (s' := ⟨inside sun limit, o, [true]⟩) (by rfl)]
  rw [run_line (by decide +kernel) _ (line_comment rfl rfl)]
  simp only [← List.append_assoc]
  rw [run_line (nl_if m) _ (by rw [lex_if]; exact line_if sun limit m o)]
  have hd : decide (limit > m) = true := decide_eq_true (by omega)
  rw [hd]
  obtain ⟨ts, e⟩ := lex_error m (lit ". To increase the limit run tools/string_headers.py of Boost.Metaparse against your Boost headers.")
  rw [L_line (nl_error m), e, PP.run]
  rfl

/-! ## Definitions -/

/-- The name of `BOOST_METAPARSE_V1_STRING`. -/
def stringName : Str := lit "BOOST_METAPARSE_V1_STRING"

/-- The macro `BOOST_METAPARSE_V1_STRING`. -/
def stringMacro : Macro := ⟨some [lit "s"], noSp (lex [] stringBody)⟩

theorem defineString_eq : defineMacro (lit "STRING") [lit "s"] stringBody =
    lit "#ifdef BOOST_METAPARSE_V1_STRING" ++ '\n' ::
    (lit "#  error BOOST_METAPARSE_V1_STRING already defined." ++ '\n' ::
    (lit "#endif" ++ '\n' :: ((lit "#define BOOST_METAPARSE_V1_STRING(s) " ++ stringBody) ++ '\n' :: []))) := by
  decide +kernel

theorem line_define1 {s : PP} (ha : s.active = true) (x : Str) {ts : List Tok} (h : Tok.p '/' ∉ ts) :
    s.line (.p '#' :: .id (lit "define") :: .sp :: .id x :: .p '(' :: .id (lit "s") :: .p ')' :: .sp :: ts) =
      some { s with macros := (x, ⟨some [lit "s"], noSp ts⟩) :: s.macros } := by
  have e := stripComment_eq h
  have h : s.line (.p '#' :: .id (lit "define") :: .sp :: .id x :: .p '(' :: .id (lit "s") :: .p ')' :: .sp :: ts) =
    if s.active = false then some s
    else some { s with macros := (x, ⟨some [lit "s"], noSp (stripComment ts)⟩) :: s.macros } := by rfl
  rw [h, ha, e]
  rfl

theorem line_define0 {s : PP} (ha : s.active = true) (x y : Str) :
    s.line [.p '#', .id (lit "define"), .sp, .id x, .sp, .id y] =
      some { s with macros := (x, ⟨none, [.id y]⟩) :: s.macros } := by
  have h : s.line [.p '#', .id (lit "define"), .sp, .id x, .sp, .id y] =
    if s.active = false then some s else some { s with macros := (x, ⟨none, [.id y]⟩) :: s.macros } := by rfl
  rw [h, ha]
  rfl

theorem run_defineString (sun : Bool) (limit : Nat) (o : List Tok) (rest : Str) :
    PP.run ⟨inside sun limit, o, [true]⟩ (L (defineMacro (lit "STRING") [lit "s"] stringBody ++ rest)) =
      PP.run ⟨(stringName, stringMacro) :: inside sun limit, o, [true]⟩ (L rest) := by
  rw [defineString_eq]
  simp only [List.append_assoc, List.cons_append, List.nil_append]
  rw [run_line (by decide +kernel) _ (s' := ⟨inside sun limit, o, [false, true]⟩) (by cases sun <;> rfl)]
  rw [run_line (by decide +kernel) _ (s' := ⟨inside sun limit, o, [false, true]⟩) (by rfl)]
  rw [run_line (by decide +kernel) _ (s' := ⟨inside sun limit, o, [true]⟩) (by rfl)]
  rw [← List.append_assoc]
  refine run_line (by decide +kernel) _ ?_
  rw [lex_append (by decide +kernel)]
  exact line_define1 rfl stringName (slash_lex (by decide +kernel) [])

/-- The name of the macro for a limit. -/
def iName (k : Nat) : Str := macroName (lit "I" ++ number k)

/-- The name of the macro with the characters. -/
def idxName (l : Nat) : Str := macroName (lit "INDEX_STR" ++ number l)

theorem isName_iName (k : Nat) : IsName (iName k) = true := by
  rw [iName, macroName, ← List.append_assoc]
  exact isName_append (by decide +kernel) (isName_all (isName_number k))

theorem isName_idxName (k : Nat) : IsName (idxName k) = true := by
  rw [idxName, macroName, ← List.append_assoc]
  exact isName_append (by decide +kernel) (isName_all (isName_number k))

/-- The macros `I0` … -/
def iTable (limits : List Nat) : Nat → Nat → Macros
  | _, 0 => []
  | k, j + 1 => iTable limits (k + 1) j ++ [(iName k, ⟨none, [.id (idxName ((StrLit.indexMacroOf limits k).getD 0))]⟩)]

theorem run_indexNames {T : Macros} (limits : List Nat) (o : List Tok) (k j : Nat) (rest : Str) :
    PP.run ⟨T, o, [true]⟩ (L (indexNames limits k j ++ rest)) =
      PP.run ⟨iTable limits k j ++ T, o, [true]⟩ (L rest) := by
  induction j generalizing k T with
  | zero => rfl
  | succ j ih =>
      rw [indexNames]
      have e : lit "#define " ++ macroName (lit "I" ++ number k) ++ lit " " ++
          macroName (lit "INDEX_STR" ++ number ((StrLit.indexMacroOf limits k).getD 0)) ++ lit "\n" ++
          indexNames limits (k + 1) j ++ rest =
        (lit "#define " ++ (iName k ++ ' ' :: idxName ((StrLit.indexMacroOf limits k).getD 0))) ++ '\n' ::
          (indexNames limits (k + 1) j ++ rest) := by
        rw [show lit "\n" = ['\n'] from rfl, show lit " " = [' '] from rfl]
        simp only [iName, idxName, List.append_assoc, List.cons_append, List.nil_append]
      rw [e]
      have hl : lex [] (lit "#define " ++ (iName k ++ ' ' :: idxName ((StrLit.indexMacroOf limits k).getD 0))) =
          [.p '#', .id (lit "define"), .sp, .id (iName k), .sp, .id (idxName ((StrLit.indexMacroOf limits k).getD 0))] := by
        rw [lex_append (by decide +kernel), lex_name_cons (isName_iName k) (by decide), lex_name (isName_idxName _)]
        rfl
      rw [run_line _ _ (by rw [hl]; exact line_define0 rfl _ _), ih, iTable]
      · simp
      · simp only [List.mem_append, List.mem_cons, not_or]
        exact ⟨by decide +kernel, nl_name (isName_iName k), by decide, nl_name (isName_idxName _)⟩

/-- `BOOST_METAPARSE_V1_STRING_AT((s), i)` -/
def atToks (i : Nat) : List Tok :=
  [.id (lit "BOOST_METAPARSE_V1_STRING_AT"), .p '(', .p '(', .id (lit "s"), .p ')', .p ',', .id (number i), .p ')']

/-- The macro with the characters before. -/
def prevToks : Option Nat → List Tok
  | some l => [.id (idxName l), .p '(', .id (lit "s"), .p ')', .p ',']
  | none => []

/-- The macros `INDEX_STR…` -/
def idxTable : Option Nat → Nat → List Nat → Macros
  | _, _, [] => []
  | prev, k, l :: ls => idxTable (some l) l ls ++
      [(idxName l, ⟨some [lit "s"], prevToks prev ++ commas ((StrLit.xrange k l 1).map atToks)⟩)]

/-- The text of one character. -/
def atText (i : Nat) : Str := macroName (lit "STRING_AT") ++ lit "((s), " ++ number i ++ lit ")"

theorem lex_atText (i : Nat) : noSp (lex [] (atText i)) = atToks i := by
  have h : macroName (lit "STRING_AT") ++ lit "((s), " = lit "BOOST_METAPARSE_V1_STRING_AT((s), " := by decide +kernel
  rw [atText, h, List.append_assoc, lex_append (by decide +kernel), show lit ")" = [')'] from rfl,
    lex_name_cons (isName_number i) (by decide)]
  rfl

theorem lex_indexChars (k l : Nat) : noSp (lex [] (indexChars k l)) = commas ((StrLit.xrange k l 1).map atToks) := by
  have : indexChars k l = join (lit ",") ((StrLit.xrange k l 1).map atText) := rfl
  rw [this, lex_join, noSp_commas, List.map_map, List.map_map]
  congr 1
  exact List.map_congr_left fun i _ => lex_atText i

theorem mem_join {c : Char} {l : List Str} (hc : c ≠ ',') (h : ∀ a ∈ l, c ∉ a) : c ∉ join (lit ",") l := by
  match l with
  | [] => simp [join]
  | [x] => exact h x (by simp)
  | x :: y :: l =>
      have ih := mem_join (l := y :: l) hc fun z hz => h z (by simp [hz])
      rw [join, show lit "," = [','] from rfl]
      simp only [List.mem_append, List.mem_singleton, not_or]
      exact ⟨⟨h x (by simp), hc⟩, ih⟩

theorem mem_indexChars {c : Char} (hc : c ≠ ',') (h : c ∉ lit "BOOST_METAPARSE_V1_STRING_AT((s), )") (hd : Gen.isDigit c = false)
    (k l : Nat) : c ∉ indexChars k l := by
  refine mem_join hc fun a ha => ?_
  rw [List.mem_map] at ha
  obtain ⟨i, _, rfl⟩ := ha
  have e : lit "BOOST_METAPARSE_V1_STRING_AT((s), )" = macroName (lit "STRING_AT") ++ lit "((s), " ++ lit ")" := by
    decide +kernel
  rw [e] at h
  simp only [List.mem_append, not_or] at h ⊢
  exact ⟨⟨h.1, not_mem_number hd⟩, h.2⟩

/-- The text of the macro with the characters before. -/
def prevText : Option Nat → Str
  | some l => idxName l ++ lit "(s),"
  | none => []

theorem lex_prevText (p : Option Nat) (v : Str) : noSp (lex [] (prevText p ++ v)) = prevToks p ++ noSp (lex [] v) := by
  cases p with
  | none => rfl
  | some l =>
      rw [prevText, List.append_assoc, show lit "(s)," ++ v = '(' :: (lit "s)," ++ v) from rfl,
        lex_name_cons (isName_idxName l) (by decide), lex_append (by decide +kernel)]
      rfl

theorem mem_prevText {c : Char} (h : c ∉ lit "(s),") (hi : identChar c = false) (p : Option Nat) : c ∉ prevText p := by
  cases p with
  | none => simp [prevText]
  | some l =>
      rw [prevText]
      simp only [List.mem_append, not_or]
      refine ⟨fun hm => ?_, h⟩
      rw [isName_all (isName_idxName l) c hm] at hi
      exact absurd hi (by simp)

theorem run_indexMacros {T : Macros} (limits : List Nat) (o : List Tok) (prev : Option Nat) (k : Nat) (rest : Str) :
    PP.run ⟨T, o, [true]⟩ (L (indexMacros (prev.map idxName) k limits ++ rest)) =
      PP.run ⟨idxTable prev k limits ++ T, o, [true]⟩ (L rest) := by
  induction limits generalizing prev k T with
  | nil => rfl
  | cons l ls ih =>
      have h0 : indexMacros (prev.map idxName) k (l :: ls) =
          lit "#define " ++ macroName (lit "INDEX_STR" ++ number l) ++ lit "(s) " ++ prevText prev ++ indexChars k l ++
            lit "\n" ++ indexMacros (some (macroName (lit "INDEX_STR" ++ number l))) l ls := by
        cases prev <;> rfl
      rw [h0]
      have e : lit "#define " ++ macroName (lit "INDEX_STR" ++ number l) ++ lit "(s) " ++ prevText prev ++ indexChars k l ++
          lit "\n" ++ indexMacros (some (macroName (lit "INDEX_STR" ++ number l))) l ls ++ rest =
        (lit "#define " ++ (idxName l ++ '(' :: (lit "s) " ++ (prevText prev ++ indexChars k l)))) ++ '\n' ::
          (indexMacros ((some l).map idxName) l ls ++ rest) := by
        rw [show lit "\n" = ['\n'] from rfl, show lit "(s) " = '(' :: lit "s) " from rfl]
        simp only [idxName, Option.map_some, List.append_assoc, List.cons_append, List.nil_append]
      rw [e]
      have hl : lex [] (lit "#define " ++ (idxName l ++ '(' :: (lit "s) " ++ (prevText prev ++ indexChars k l)))) =
          .p '#' :: .id (lit "define") :: .sp :: .id (idxName l) :: .p '(' :: .id (lit "s") :: .p ')' :: .sp ::
            lex [] (prevText prev ++ indexChars k l) := by
        rw [lex_append (by decide +kernel), lex_name_cons (isName_idxName l) (by decide), lex_append (by decide +kernel)]
        rfl
      have hs : '/' ∉ prevText prev ++ indexChars k l := by
        simp only [List.mem_append, not_or]
        exact ⟨mem_prevText (by decide +kernel) (by decide) prev,
          mem_indexChars (by decide) (by decide +kernel) (by decide) k l⟩
      rw [run_line _ _ (by rw [hl]; exact line_define1 rfl _ (slash_lex hs [])), ih, idxTable]
      · rw [lex_prevText, lex_indexChars]
        simp
      · simp only [List.mem_append, List.mem_cons, not_or]
        exact ⟨by decide +kernel, nl_name (isName_idxName l), by decide, by decide +kernel,
          mem_prevText (by decide +kernel) (by decide) prev,
          mem_indexChars (by decide) (by decide +kernel) (by decide) k l⟩

/-! ## The whole header -/

/-- The macros of the header. -/
def table (sun : Bool) (limits : List Nat) (m limit : Nat) : Macros :=
  idxTable none 0 limits ++ (iTable limits 0 (m + 1) ++ (stringName, stringMacro) :: inside sun limit)

theorem generateString_eq {limits : List Nat} {m : Nat} (h : StrLit.maximum limits = some m) :
    generateString limits = some (front ++ (specialisations (nsPrefix 4) false (powers 9).reverse ++ (nsEnd 4 ++ (limitCheck m ++
      (defineMacro (lit "STRING") [lit "s"] stringBody ++ ('\n' :: (indexNames limits 0 (m + 1) ++ ('\n' ::
        (indexMacros none 0 limits ++ ('\n' :: (lit "#endif" ++ '\n' :: []))))))))))) := by
  have h1 : guardEnd = '\n' :: (lit "#endif" ++ '\n' :: []) := by decide +kernel
  have h2 : lit "\n" = ['\n'] := by decide +kernel
  rw [generateString, h, h1]
  simp only [Option.map_some, front, generateMakeString, h2, List.append_assoc, List.cons_append, List.nil_append]

theorem run_blank {s : PP} (ha : s.active = true) (rest : Str) : s.run (L ('\n' :: rest)) = s.run (L rest) :=
  run_line (l := []) (by simp) rest (line_comment ha rfl)

theorem preprocess_text {limits : List Nat} {m limit : Nat} (hm : StrLit.maximum limits = some m) (sun : Bool) {t : Str}
    (ht : generateString limits = some t) (h : limit ≤ m) :
    preprocess (before sun limit) t = some ⟨table sun limits m limit, program sun, []⟩ := by
  rw [generateString_eq hm, Option.some.injEq] at ht
  subst ht
  rw [preprocess]
  have := run_front sun limit
  rw [← L, run_front, run_specialisations, run_nsEnd, run_limitCheck h, run_defineString, run_blank rfl, run_indexNames,
    run_blank rfl]
  have e := run_indexMacros (T := iTable limits 0 (m + 1) ++ (stringName, stringMacro) :: inside sun limit) limits
    (program sun) none 0
  rw [← program]
  rw [Option.map_none] at e
  rw [e, run_blank rfl, run_line (by decide +kernel) _ (s' := ⟨table sun limits m limit, program sun, []⟩) (by rfl)]
  rfl

theorem preprocess_tooLarge {limits : List Nat} {m limit : Nat} (hm : StrLit.maximum limits = some m) (sun : Bool) {t : Str}
    (ht : generateString limits = some t) (h : m < limit) : preprocess (before sun limit) t = none := by
  rw [generateString_eq hm, Option.some.injEq] at ht
  subst ht
  rw [preprocess, ← L, run_front, run_specialisations, run_nsEnd, run_tooLarge h]

end Metaparse.StrHdr
