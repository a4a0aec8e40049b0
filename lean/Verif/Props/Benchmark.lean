import Verif.Lemmas.BenchmarkFiles
/-!
# C88-C91: the benchmarks

`tools/benchmark/generate.py` writes every benchmark twice, with the strings given by `BOOST_METAPARSE_STRING` and as
template instances, and `tools/benchmark/benchmark.py` compares them.
-/

namespace Metaparse

open Gen Bench

/-- **C88.** The manual mode writes the same text with the same strings at the same places, as template instances. -/
theorem C88_manual {base last : Str} {l : List (Str × List Char)} (h : Document MacroString base l last) :
    Document ManualString (Mode.man.convertFrom base) l last :=
  convertLoop_document h _ (Nat.le_refl _)

/-- **C88**, so that the files of the two modes have the same strings at the same places. -/
theorem C88_same {base last : Str} {l : List (Str × List Char)} (h : Document MacroString base l last) :
    Document MacroString (Mode.bmp.convertFrom base) l last ∧ Document ManualString (Mode.man.convertFrom base) l last :=
  ⟨h, C88_manual h⟩

/-- **C88**, a document can not be read in two ways, -/
theorem C88_unambiguous {s last last' : Str} {l l' : List (Str × List Char)} (h : Document MacroString s l last)
    (h' : Document MacroString s l' last') : l = l' ∧ last = last' := document_unique h h' rfl

/-- **C88**, and neither can a list of character literals. -/
theorem C88_literals {s : Str} {cs cs' : List Char} (h : CharLiterals s cs) (h' : CharLiterals s cs') : cs = cs' :=
  literals_unique h h'

theorem randomChars_spec (chars : List (Char × Nat)) (draws : List Nat)
    (h : ∀ i ∈ draws, i < charNum (charMap chars)) :
    ∃ ws cs, randomChars chars draws = some ws ∧ StringBody ['"', '\''] ws.flatten cs ∧
      cs.map some = draws.map fun i => (unrolled (chars.filter fun x => decide (x.1 ∈ writable)))[i]? := by
  induction draws with
  | nil => exact ⟨[], [], rfl, .nil, rfl⟩
  | cons i draws ih =>
      obtain ⟨ws, cs, h1, h2, h3⟩ := ih fun j hj => h j (List.mem_cons_of_mem _ hj)
      have hi := h i List.mem_cons_self
      rw [charNum_eq, charMap_eq] at hi
      have hg := List.getElem?_eq_getElem hi
      generalize (unrolled (chars.filter fun x => decide (x.1 ∈ writable)))[i] = c at hg
      have hw : c ∈ writable := by
        obtain ⟨x, hx, rfl⟩ := mem_unrolled (List.mem_of_getElem? hg)
        simpa using (List.mem_filter.mp hx).2
      have hn : nthChar (charMap chars) i = some c := by rw [nthChar_eq, charMap_eq, hg]
      refine ⟨formatCharacter c :: ws, c :: cs, ?_, ?_, ?_⟩
      · have h1' : List.mapM (fun i => (nthChar (charMap chars) i).map formatCharacter) draws = some ws := h1
        simp [randomChars, List.mapM_cons, hn, h1']
      · exact .cons (element_format hw) h2
      · rw [List.map_cons, List.map_cons, hg, h3]

/-- **C88**, `random_string` never fails, and is the string of the characters that were drawn: the `i`-th one of a text
that has the characters as many times as the statistics say. -/
theorem C88_random (chars : List (Char × Nat)) (draws : List Nat) (h : ∀ i ∈ draws, i < charNum (charMap chars)) :
    ∃ w cs, randomString chars draws = some w ∧ MacroString w cs ∧
      cs.map some = draws.map fun i => (unrolled (chars.filter fun x => decide (x.1 ∈ writable)))[i]? := by
  obtain ⟨ws, cs, h1, h2, h3⟩ := randomChars_spec chars draws h
  exact ⟨_, cs, by rw [randomString, h1]; rfl, ⟨_, rfl, h2⟩, h3⟩

example : ∃ w cs, randomString [('a', 2), (',', 7), ('"', 2)] [0, 3, 1] = some w ∧ MacroString w cs ∧
    cs.map some = [0, 3, 1].map fun i => (unrolled (([('a', 2), (',', 7), ('"', 2)] : List (Char × Nat)).filter
      fun x => decide (x.1 ∈ writable)))[i]? := C88_random _ _ (by decide +kernel)

theorem noMacro_short {s : Str} (h : s.length < 24) : NoMacro s := by
  rintro ⟨a, b, e⟩
  have := macroPrefix_length
  have e' := congrArg List.length e
  simp only [List.length_append] at e'
  have : (lit "BOOST_METAPARSE_STRING(\"").length = 24 := macroPrefix_length
  omega

/-- **C88**, and in the manual mode it is the same characters. -/
theorem C88_random_manual {w : Str} {cs : List Char} (h : MacroString w cs) : ManualString (Mode.man.convertFrom w) cs := by
  have hd : Document MacroString ([] ++ w ++ []) [([], cs)] [] :=
    .cons (noMacro_short (by decide)) h (.last (noMacro_short (by decide)))
  rw [List.nil_append, List.append_nil] at hd
  have := C88_manual hd
  generalize Mode.man.convertFrom w = x at this
  cases this with
  | cons _ h2 h3 => cases h3; simpa using h2

example : ManualString (lit "::boost::metaparse::string<'a'>") ['a'] :=
  (show Mode.man.convertFrom (lit "BOOST_METAPARSE_STRING(\"a\")") = lit "::boost::metaparse::string<'a'>" by decide +kernel) ▸
    C88_random_manual ⟨['a'], by decide +kernel, .cons (a := ['a']) (.plain 'a' (by decide) (by decide) (by decide)) .nil⟩

/-- **C88**, hexadecimal escape sequences are torn apart, so it is good that there are none. -/
theorem C88_hexadecimal :
    Mode.man.convertFrom (lit "BOOST_METAPARSE_STRING(\"\\x41\")") = lit "::boost::metaparse::string<'\\x','4','1'>" ∧
      ¬ ∃ cs, CharLiterals (lit "'\\x','4','1'") cs := by
  refine ⟨by decide +kernel, fun ⟨cs, h⟩ => ?_⟩
  have key : ∀ {s cs}, CharLiterals s cs → s = lit "'\\x','4','1'" → False := by
    intro s cs h e
    have hx : ∀ c, ('x', c) ∉ escapes := fun c hc => by
      have : ∀ y ∈ escapes, y.1 ≠ 'x' := by decide +kernel
      exact this _ hc rfl
    have aux : ∀ {a : Str} {c : Char} {r : Str}, Element ['\''] a c → a ++ r = '\\' :: 'x' :: lit "','4','1'" → False := by
      intro a c r ha e
      cases ha with
      | plain _ _ h2 _ => injection e with e1 _; exact h2 e1
      | escape x _ hm => injection e with _ e2; injection e2 with e3 _; exact hx c (e3 ▸ hm)
    cases h with
    | nil => exact absurd e (by decide)
    | one ha => simp only [List.append_assoc] at e; injection e with _ e; exact aux ha e
    | cons ha _ => simp only [List.append_assoc] at e; injection e with _ e; exact aux ha e
  exact key h rfl

/-- **C88**, and so are apostrophes that are not escaped (in a string literal they need not be). -/
theorem C88_apostrophe :
    StringBody ['"'] (lit "it's") (lit "it's") ∧
    Mode.man.convertFrom (lit "BOOST_METAPARSE_STRING(\"it's\")") =
      lit "::boost::metaparse::string<'i','t',''','s'>" ∧
      ¬ ∃ cs, CharLiterals (lit "'i','t',''','s'") cs := by
  refine ⟨?_, by decide +kernel, fun ⟨cs, h⟩ => ?_⟩
  · exact .cons (.plain 'i' (by decide) (by decide) (by decide)) (.cons (.plain 't' (by decide) (by decide) (by decide))
      (.cons (.plain '\'' (by decide) (by decide) (by decide)) (.cons (.plain 's' (by decide) (by decide) (by decide))
      .nil)))
  · have step : ∀ {c : Char} {r s : Str} {cs}, c ≠ '\'' → c ≠ '\\' → CharLiterals s cs → s = '\'' :: c :: '\'' :: ',' :: r →
        ∃ cs', CharLiterals r cs' := by
      intro c r s cs hc hb h e
      cases h with
      | nil => cases e
      | one ha =>
          simp only [List.append_assoc] at e
          injection e with _ e
          cases ha with
          | plain _ _ _ _ => injection e with _ e; injection e with _ e; cases e
          | escape _ _ _ => injection e with e _; exact absurd e.symm hb
      | cons ha hr =>
          simp only [List.append_assoc] at e
          injection e with _ e
          cases ha with
          | plain _ _ _ _ =>
              injection e with _ e; injection e with _ e; injection e with _ e
              subst e
              exact ⟨_, hr⟩
          | escape _ _ _ => injection e with e _; exact absurd e.symm hb
    obtain ⟨_, h1⟩ := step (c := 'i') (r := lit "'t',''','s'") (by decide) (by decide) h rfl
    obtain ⟨_, h2⟩ := step (c := 't') (r := lit "''','s'") (by decide) (by decide) h1 rfl
    have aux : ∀ {s cs}, CharLiterals s cs → s = '\'' :: '\'' :: lit "','s'" → False := by
      intro s cs h e
      cases h with
      | nil => cases e
      | one ha =>
          simp only [List.append_assoc] at e
          injection e with _ e
          exact element_not_quote ha (x := '\'') (by simp) (by decide) e
      | cons ha _ =>
          simp only [List.append_assoc] at e
          injection e with _ e
          exact element_not_quote ha (x := '\'') (by simp) (by decide) e
    exact aux h2 rfl

/-- **C88**, trigraphs are replaced in the one mode only: the characters `??(` can be drawn, and with `-std=c++11` (as
`benchmark.py` compiles) the string has one character `[` with the macro, and three in the manual mode. -/
theorem C88_trigraphs :
    ∃ w, randomString [('(', 1), ('?', 1)] [1, 1, 0] = some w ∧
      MacroString (replaceTrigraphs w) ['['] ∧ ManualString (replaceTrigraphs (Mode.man.convertFrom w)) ['?', '?', '('] := by
  refine ⟨lit "BOOST_METAPARSE_STRING(\"??(\")", by decide +kernel, ?_, ?_⟩
  · rw [show replaceTrigraphs (lit "BOOST_METAPARSE_STRING(\"??(\")") = lit "BOOST_METAPARSE_STRING(\"[\")" by
      decide +kernel]
    exact ⟨['['], by decide +kernel, .cons (.plain '[' (by decide) (by decide) (by decide)) .nil⟩
  · rw [show replaceTrigraphs (Mode.man.convertFrom (lit "BOOST_METAPARSE_STRING(\"??(\")")) =
      lit "::boost::metaparse::string<'?','?','('>" by decide +kernel]
    exact ⟨lit "'?','?','('", by decide +kernel, .cons (.plain '?' (by decide) (by decide) (by decide))
      (.cons (.plain '?' (by decide) (by decide) (by decide)) (.one (.plain '(' (by decide) (by decide) (by decide))))⟩

theorem replaceTrigraphs_id : ∀ {s : Str}, (¬ ∃ a b, s = a ++ '?' :: '?' :: b) → replaceTrigraphs s = s
  | [], _ => by simp [replaceTrigraphs]
  | [c], _ => by
      unfold replaceTrigraphs
      split
      · rename_i e; injection e with _ e; cases e
      · rename_i e; injection e with e1 e2; subst e1; subst e2; simp [replaceTrigraphs]
      · rename_i e; cases e
  | c :: d :: s, h => by
      unfold replaceTrigraphs
      split
      · rename_i e; injection e with e1 e2; injection e2 with e2 e3; exact absurd ⟨[], s, by rw [e1, e2]; rfl⟩ h
      · rename_i e; injection e with e1 e2; subst e1; subst e2
        rw [replaceTrigraphs_id fun ⟨a, b, e⟩ => h ⟨_ :: a, b, by rw [e]; rfl⟩]
      · rename_i e; cases e

/-- **C88**, without two question marks side by side there are no trigraphs. -/
theorem C88_no_trigraphs {s : Str} (h : ¬ ∃ a b, s = a ++ '?' :: '?' :: b) : replaceTrigraphs s = s :=
  replaceTrigraphs_id h

/-- A document with two strings, one of them with escape sequences. -/
theorem document_example : Document MacroString (lit "f<BOOST_METAPARSE_STRING(\"a\\n\"), BOOST_METAPARSE_STRING(\"\")>")
    [(lit "f<", ['a', '\n']), (lit ", ", [])] (lit ">") :=
  .cons (before := lit "f<") (w := lit "BOOST_METAPARSE_STRING(\"a\\n\")") (noMacro_short (by decide))
    ⟨lit "a\\n", by decide +kernel, .cons (.plain 'a' (by decide) (by decide) (by decide))
      (.cons (.escape 'n' '\n' (by decide)) .nil)⟩
    (.cons (before := lit ", ") (w := lit "BOOST_METAPARSE_STRING(\"\")") (noMacro_short (by decide))
      ⟨[], by decide +kernel, .nil⟩ (.last (s := lit ">") (noMacro_short (by decide))))

/-- The document of the manual mode, and the only strings in the one with macros. -/
example : Document ManualString (lit "f<::boost::metaparse::string<'a','\\n'>, ::boost::metaparse::string<>>")
    [(lit "f<", ['a', '\n']), (lit ", ", [])] (lit ">") :=
  (show Mode.man.convertFrom (lit "f<BOOST_METAPARSE_STRING(\"a\\n\"), BOOST_METAPARSE_STRING(\"\")>") =
    lit "f<::boost::metaparse::string<'a','\\n'>, ::boost::metaparse::string<>>" by decide +kernel) ▸ C88_manual document_example

example {l : List (Str × List Char)} {last : Str}
    (h : Document MacroString (lit "f<BOOST_METAPARSE_STRING(\"a\\n\"), BOOST_METAPARSE_STRING(\"\")>") l last) :
    l = [(lit "f<", ['a', '\n']), (lit ", ", [])] ∧ last = lit ">" := C88_unambiguous h document_example

example {cs : List Char} (h : CharLiterals (lit "'a','\\n'") cs) : cs = ['a', '\n'] :=
  C88_literals h (.cons (a := ['a']) (b := lit "'\\n'") (.plain 'a' (by decide) (by decide) (by decide))
    (.one (a := ['\\', 'n']) (.escape 'n' '\n' (by decide))))

example : Mode.man.convertFrom (lit "f<BOOST_METAPARSE_STRING(\"a\\n\"), BOOST_METAPARSE_STRING(\"\")>") =
    lit "f<::boost::metaparse::string<'a','\\n'>, ::boost::metaparse::string<>>" := by decide +kernel

example : ∀ i ∈ [0, 3, 1], i < charNum (charMap [('a', 2), (',', 7), ('"', 2)]) := by decide +kernel

example : randomString [('a', 2), (',', 7), ('"', 2)] [0, 3, 1] = some (lit "BOOST_METAPARSE_STRING(\"a\\\"a\")") := by
  decide +kernel

/-! ## C89: the characters are drawn as often as the statistics say -/

theorem countP_range (l : List Char) (c : Char) :
    (List.range l.length).countP (fun i => l[i]? == some c) = l.count c := by
  induction l with
  | nil => rfl
  | cons d l ih =>
      rw [List.length_cons, List.range_succ_eq_map, List.countP_cons, List.countP_map, List.count_cons, ← ih]
      congr 1

theorem count_unrolled {m : List (Char × Nat)} (h : (m.map Prod.fst).Nodup) {c : Char} {k : Nat} (hm : (c, k) ∈ m) :
    (unrolled m).count c = k := by
  induction m with
  | nil => cases hm
  | cons x m ih =>
      rw [List.map_cons, List.nodup_cons] at h
      have hu : unrolled (x :: m) = List.replicate x.2 x.1 ++ unrolled m := by simp [unrolled]
      rw [hu, List.count_append, List.count_replicate]
      rcases List.mem_cons.mp hm with rfl | hm
      · have : List.count c (unrolled m) = 0 := List.count_eq_zero.mpr fun hc => by
          obtain ⟨y, hy, e⟩ := mem_unrolled hc
          exact h.1 (List.mem_map.mpr ⟨y, hy, e⟩)
        simp [this]
      · have : x.1 ≠ c := fun e => h.1 (List.mem_map.mpr ⟨_, hm, e.symm⟩)
        rw [ih h.2 hm]
        simp [this]

/-- **C89.** Of the numbers that `random_chars` draws from, exactly as many give a character as the statistics count. -/
theorem C89_frequency {chars : List (Char × Nat)} (hc : (chars.map Prod.fst).Nodup) {c : Char} {k : Nat}
    (h : (c, k) ∈ chars) (hw : c ∈ writable) :
    (List.range (charNum (charMap chars))).countP (fun i => nthChar (charMap chars) i == some c) = k := by
  rw [charNum_eq]
  simp only [nthChar_eq]
  rw [countP_range, charMap_eq]
  refine count_unrolled ?_ (List.mem_filter.mpr ⟨h, by simpa using hw⟩)
  exact hc.sublist (List.filter_sublist.map _)

/-- The quotation mark is drawn for two numbers out of four; the comma is never drawn. -/
example : (List.range (charNum (charMap [('a', 2), (',', 7), ('"', 2)]))).countP
    (fun i => nthChar (charMap [('a', 2), (',', 7), ('"', 2)]) i == some '"') = 2 :=
  C89_frequency (by decide +kernel) (by decide +kernel) (by decide +kernel)

/-- **C89**, every number below the sum gives a character that the statistics have and that can be written, -/
theorem C89_in_range {chars : List (Char × Nat)} {i : Nat} (h : i < charNum (charMap chars)) :
    ∃ c k, nthChar (charMap chars) i = some c ∧ (c, k) ∈ chars ∧ c ∈ writable := by
  rw [charNum_eq] at h
  have hg := List.getElem?_eq_getElem h
  obtain ⟨⟨c, k⟩, hx, he⟩ := mem_unrolled (List.mem_of_getElem? hg)
  rw [← he] at hg
  rw [charMap_eq] at hx
  have hx' := List.mem_filter.mp hx
  exact ⟨c, k, by rw [nthChar_eq, hg], hx'.1, by simpa using hx'.2⟩

example : ∃ c k, nthChar (charMap [('a', 2), (',', 7), ('"', 2)]) 3 = some c ∧ (c, k) ∈ [('a', 2), (',', 7), ('"', 2)] ∧
    c ∈ writable := C89_in_range (by decide +kernel)

/-- **C89**, and no other number does. -/
theorem C89_out_of_range {m : List (Char × Nat)} {i : Nat} (h : charNum m ≤ i) : nthChar m i = none := by
  rw [nthChar_eq, List.getElem?_eq_none_iff, ← charNum_eq]
  exact h

example : nthChar [('a', 2), ('"', 2)] 4 = none := C89_out_of_range (by decide)

/-- **C89**, characters that need a hexadecimal escape sequence, also the comma, are never drawn. -/
theorem C89_never {chars : List (Char × Nat)} {c : Char} (hw : c ∉ writable) (i : Nat) :
    nthChar (charMap chars) i ≠ some c := by
  intro h
  rcases Nat.lt_or_ge i (charNum (charMap chars)) with hi | hi
  · obtain ⟨c', k, h1, _, h2⟩ := C89_in_range hi
    rw [h] at h1
    exact hw (Option.some.inj h1 ▸ h2)
  · rw [C89_out_of_range hi] at h
    cases h

example : ',' ∉ writable ∧ 'é' ∉ writable := by decide +kernel

example : (([('a', 2), (',', 7), ('"', 2)] : List (Char × Nat)).map Prod.fst).Nodup ∧
    (('"', 2) : Char × Nat) ∈ [('a', 2), (',', 7), ('"', 2)] ∧ '"' ∈ writable := by decide +kernel

/-! ## C90: the files -/

/-- **C90.** Files of different templates, values of `n` or modes have different names. -/
theorem C90_names {name name' : Str} {n n' : Nat} {m m' : Mode} (h : outFilename name n m = outFilename name' n' m') :
    name = name' ∧ n = n' ∧ m = m' := outFilename_inj h

example {n : Nat} {m : Mode} (h : outFilename (lit "length128") n m = lit "length128_256_man.cpp") : n = 256 ∧ m = .man :=
  (C90_names (name' := lit "length128") (n' := 256) (m' := .man) (h.trans (by decide +kernel))).2

/-- **C90**, at the end every file has what was written for its template, value and mode: no file is replaced by a
later one. -/
theorem C90_sources {ts : List Template} (hn : (ts.map Template.name).Nodup)
    (h : ∀ t ∈ ts, t.range.Nodup ∧ t.modes.Nodup) {t : Template} (ht : t ∈ ts) {n : Nat} (hr : n ∈ t.range) {m : Mode}
    (hm : m ∈ t.modes) :
    contentOf (allFiles ts) (outFilename t.name n m) = some (.source (m.convertFrom (t.instances n))) := by
  refine contentOf_of_mem (nodup_all hn h) (List.mem_flatMap.mpr ⟨t, ht, List.mem_append_left _ ?_⟩)
  exact List.mem_flatMap.mpr ⟨n, hr, List.mem_map.mpr ⟨m, hm, rfl⟩⟩

/-- The file of one template with `n` = 100, next to those of another one. -/
example : let t : Template := ⟨lit "length128", [128, 256], [.bmp, .man], fun _ => lit "BOOST_METAPARSE_STRING(\"a\")"⟩
    let t' : Template := ⟨lit "number", [0, 100], [.bmp, .man], fun _ => lit "BOOST_METAPARSE_STRING(\"b\")"⟩
    contentOf (allFiles [t, t']) (lit "number_100_man.cpp") = some (.source (lit "::boost::metaparse::string<'b'>")) := by
  intro t t'
  exact (C90_sources (ts := [t, t']) (by decide +kernel) (by decide +kernel) (t := t') (by simp) (n := 100) (by decide)
    (m := .man) (by decide)).trans
    (congrArg (fun x => some (Content.source x)) (by decide +kernel))

/-- **C90**, the descriptions are there as well, and all the files they name are. -/
theorem C90_descriptions {ts : List Template} (hn : (ts.map Template.name).Nodup)
    (h : ∀ t ∈ ts, t.range.Nodup ∧ t.modes.Nodup) {t : Template} (ht : t ∈ ts) :
    ∃ files, contentOf (allFiles ts) (t.name ++ lit ".json") = some (.description t.name files) ∧
      files.map Prod.fst = t.range ∧
      ∀ x ∈ files, x.2.map Prod.fst = t.modes.map Mode.identifier ∧
        ∀ y ∈ x.2, ∃ m ∈ t.modes, m.identifier = y.1 ∧
          contentOf (allFiles ts) y.2 = some (.source (m.convertFrom (t.instances x.1))) := by
  refine ⟨_, contentOf_of_mem (nodup_all hn h) (List.mem_flatMap.mpr ⟨t, ht, List.mem_append_right _
    List.mem_cons_self⟩), by simp [Function.comp_def], ?_⟩
  intro x hx
  obtain ⟨n, hn', rfl⟩ := List.mem_map.mp hx
  refine ⟨by simp [Function.comp_def], ?_⟩
  intro y hy
  obtain ⟨m, hm, rfl⟩ := List.mem_map.mp hy
  exact ⟨m, hm, rfl, C90_sources hn h ht hn' hm⟩

/-- The names alone would not do: without the separators two files would have one name. -/
example : outFilename (lit "length_1") 28 .bmp ≠ outFilename (lit "length") 128 .bmp := by decide +kernel

example : let t : Template := ⟨lit "length128", [128, 256], [.bmp, .man], fun _ => lit "BOOST_METAPARSE_STRING(\"a\")"⟩
    let t' : Template := ⟨lit "number", [0, 100], [.bmp, .man], fun _ => []⟩
    ([t, t'].map Template.name).Nodup ∧ ∀ x ∈ [t, t'], x.range.Nodup ∧ x.modes.Nodup := by decide +kernel

/-! ## C91: durations -/

/-- **C91.** A printed duration is a list of different units, longest first, and it differs from the duration by at most
one second: exactly by what is left of the last minute if that is at most one second, and otherwise by what is
left of the last second. -/
theorem C91_printed {u : Nat} (hu : 0 < u) (t : Nat) :
    ∃ l, PrintedTime l (formatTime u t) ∧
      totalTicks u l + (if t % (60 * u) ≤ u then t % (60 * u) else t % u) = t := by
  obtain ⟨l, h1, h2, _⟩ := printed_loop hu (us := units) (by decide +kernel) (by decide +kernel) t
  exact ⟨l, h1, by rw [← leftOver_units hu]; exact h2⟩

/-- **C91**, whole seconds are printed exactly, but for the first second of a minute. -/
theorem C91_whole_seconds (t : Nat) (h : t % 60 ≠ 1) : ∃ l, PrintedTime l (formatTime 1 t) ∧ totalTicks 1 l = t := by
  obtain ⟨l, h1, h2⟩ := C91_printed (u := 1) (by decide) t
  refine ⟨l, h1, ?_⟩
  split at h2 <;> omega

/-- **C91**, one second of a minute is lost. -/
theorem C91_lost_second (t : Nat) (h : t % 60 = 1) : ∃ l, PrintedTime l (formatTime 1 t) ∧ totalTicks 1 l + 1 = t := by
  obtain ⟨l, h1, h2⟩ := C91_printed (u := 1) (by decide) t
  refine ⟨l, h1, ?_⟩
  split at h2 <;> omega

/-- **C91**, the printed duration is never longer, and shorter by at most one second. -/
theorem C91_at_most_a_second {u : Nat} (hu : 0 < u) (t : Nat) :
    ∃ l, PrintedTime l (formatTime u t) ∧ totalTicks u l ≤ t ∧ t ≤ totalTicks u l + u := by
  obtain ⟨l, h1, h2⟩ := C91_printed hu t
  refine ⟨l, h1, by omega, ?_⟩
  have := Nat.mod_lt t hu
  split at h2 <;> omega

/-- 61 seconds are printed as "1 minute". -/
example : ∃ l, PrintedTime l (lit "1 minute") ∧ totalTicks 1 l + 1 = 61 := C91_lost_second 61 (by decide)

/-- 62 seconds are printed as "1 minute 2 seconds". -/
example : ∃ l, PrintedTime l (lit "1 minute 2 seconds") ∧ totalTicks 1 l = 62 := C91_whole_seconds 62 (by decide)

/-- With ten ticks in a second: 36 759 ticks are an hour, a minute, 15 seconds and 9 ticks. -/
example : ∃ l, PrintedTime l (lit "1 hour 1 minute 15 seconds") ∧ totalTicks 10 l + 9 = 36759 :=
  C91_printed (u := 10) (by decide) 36759

example : ∃ l, PrintedTime l (lit "1 hour 1 minute 15 seconds") ∧ totalTicks 10 l ≤ 36759 ∧ 36759 ≤ totalTicks 10 l + 10 :=
  C91_at_most_a_second (u := 10) (by decide) 36759

/-- **C91**, a duration that is exactly one unit is printed in the next smaller one, and one second is nothing. -/
theorem C91_not_carried :
    formatTime 1 60 = lit "60 seconds" ∧ formatTime 1 3600 = lit "60 minutes" ∧ formatTime 1 86400 = lit "24 hours" ∧
    formatTime 1 7260 = lit "2 hours 60 seconds" ∧ formatTime 1 604800 = lit "7 days" ∧ formatTime 1 61 = lit "1 minute" ∧
    formatTime 1 1 = [] := by decide +kernel

example : formatTime 10 36755 = lit "1 hour 1 minute 15 seconds" := by decide +kernel

end Metaparse
