import Verif.Lemmas.GenerateDefinitions

/-! # The headers of a tutorial -/

namespace Metaparse.Gen

/-! ## Files -/

theorem get_put_same (fs : Files) (n c : Str) : (fs.put n c).get n = some c := by
  rw [Files.get, Files.put, List.lookup_append]
  have : List.lookup n (fs.filter fun f => f.1 ≠ n) = none := by
    rw [List.lookup_eq_none_iff]
    intro p hp
    have := (List.mem_filter.1 hp).2
    simpa using fun h => (by simpa using this : p.1 ≠ n) h.symm
  rw [this]
  simp [List.lookup]

theorem get_put_other (fs : Files) {n m : Str} (c : Str) (h : m ≠ n) : (fs.put n c).get m = fs.get m := by
  rw [Files.get, Files.put, List.lookup_append, Files.get]
  have h1 : List.lookup m (fs.filter fun f => f.1 ≠ n) = List.lookup m fs := by
    induction fs with
    | nil => rfl
    | cons p fs ih =>
      rw [List.filter_cons]
      split
      · rw [List.lookup_cons, List.lookup_cons, ih]
      · rename_i hp
        rw [List.lookup_cons, ih]
        have : p.1 = n := by simpa using hp
        rw [this, beq_eq_false_iff_ne.2 h]
  rw [h1]
  have h2 : List.lookup m [(n, c)] = none := by
    simp [List.lookup, beq_eq_false_iff_ne.2 h]
  rw [h2, Option.or_none]

theorem genHeadersLoop_other (defs : List (Str × Str)) {f : Str} :
    ∀ (ss : List Str) (prev : Str) (files : Files), (∀ s ∈ ss, f ≠ s ++ lit ".hpp") →
      (genHeadersLoop defs prev files ss).get f = files.get f
  | [], _, _, _ => rfl
  | s :: ss, prev, files, h => by
      rw [genHeadersLoop, genHeadersLoop_other defs ss _ _ fun x hx => h x (by simp [hx]),
        get_put_other _ _ (h s (by simp))]

theorem genHeadersLoop_get (defs : List (Str × Str)) (s : Str) (post : List Str) :
    ∀ (pre : List Str) (prev : Str) (files : Files), (pre ++ s :: post).Nodup →
      (genHeadersLoop defs prev files (pre ++ s :: post)).get (s ++ lit ".hpp") =
        some (header (pre.getLast?.getD prev) s defs)
  | [], prev, files, h => by
      rw [List.nil_append, genHeadersLoop, genHeadersLoop_other, get_put_same]
      · rfl
      · intro x hx he
        rw [List.nil_append, List.nodup_cons] at h
        exact h.1 (List.append_cancel_right he ▸ hx)
  | p :: pre, prev, files, h => by
      rw [List.cons_append, genHeadersLoop, genHeadersLoop_get defs s post pre _ _ (List.nodup_cons.1 h).2]
      cases pre with
      | nil => rfl
      | cons q pre =>
        rw [List.getLast?_cons_cons]
        rw [List.getLast?_eq_some_getLast (by simp)]
        rfl

/-! ## The lines of a header -/

theorem linesOf_body (ds : List Str) (t : Str) :
    linesOf (join ['\n'] (ds.map fun d => d ++ ['\n']) ++ '\n' :: t) =
      (if ds = [] then [[]] else ds.flatMap fun d => linesOf d ++ [[]]) ++ linesOf t := by
  rw [linesOf_append]
  congr 1
  induction ds with
  | nil => rfl
  | cons d ds ih =>
    cases ds with
    | nil =>
      show linesOf (d ++ '\n' :: []) = _
      rw [linesOf_append]
      simp [linesOf]
    | cons e ds =>
      have : join ['\n'] ((d :: e :: ds).map fun d => d ++ ['\n']) =
          d ++ '\n' :: ([] ++ '\n' :: join ['\n'] ((e :: ds).map fun d => d ++ ['\n'])) := by
        rw [List.map_cons, List.map_cons, join]
        · simp
        · simp
      rw [this, linesOf_append, linesOf_append, ih]
      simp [linesOf]

/-- The name of the guard of a header. -/
def guardOf (s : Str) : Str := lit "BOOST_METAPARSE_GETTING_STARTED_" ++ s ++ lit "_HPP"

theorem guardOf_injective {s t : Str} (h : guardOf s = guardOf t) : s = t := by
  have := List.append_cancel_right h
  exact List.append_cancel_left this

/-- The lines that include the header before. -/
def includeLines (prev : Str) : List Str :=
  if prev = [] then []
  else [lit "// Definitions before section " ++ replace '_' '.' prev,
    lit "#include \"" ++ prev ++ lit ".hpp\"", []]

theorem mem_replace {a b c : Char} {s : Str} (h : c ∈ replace a b s) : c ∈ s ∨ c = b := by
  obtain ⟨d, hd, hc⟩ := List.mem_map.1 h
  split at hc
  · exact .inr hc.symm
  · exact .inl (hc ▸ hd)

theorem linesOf_header {prev s : Str} (hp : '\n' ∉ prev) (hs : '\n' ∉ s) (defs : List (Str × Str)) :
    linesOf (header prev s defs) =
      [lit "#ifndef " ++ guardOf s, lit "#define " ++ guardOf s, [], lit "// Automatically generated header file", []] ++
      includeLines prev ++ [lit "// Definitions of section " ++ replace '_' '.' prev] ++
      (if (defs.filter fun d => d.1 = prev) = [] then [[]]
        else (defs.filter fun d => d.1 = prev).flatMap fun d => linesOf d.2 ++ [[]]) ++
      [lit "#endif", [], []] := by
  have hg : '\n' ∉ guardOf s := by
    simp only [guardOf, List.mem_append, not_or]
    exact ⟨⟨by decide, hs⟩, by decide⟩
  have hr : '\n' ∉ replace '_' '.' prev := by
    intro h
    rcases mem_replace h with h | h
    · exact hp h
    · exact absurd h (by decide)
  have hl : ∀ {a b : Str}, '\n' ∉ a → '\n' ∉ b → linesOf (a ++ b) = [a ++ b] := by
    intro a b ha hb
    exact linesOf_line (by simp only [List.mem_append, not_or]; exact ⟨ha, hb⟩)
  generalize hb : (defs.filter fun d => d.1 = prev) = ds
  have hmap : join ['\n'] ((defs.filter (fun d => d.1 = prev)).map fun d => d.2 ++ ['\n']) =
      join ['\n'] ((ds.map (·.2)).map fun d => d ++ ['\n']) := by rw [hb, List.map_map]; rfl
  have hbody := linesOf_body (ds.map (·.2)) (lit "#endif" ++ '\n' :: ([] ++ '\n' :: []))
  have hds : (if ds.map (·.2) = [] then [[]] else (ds.map (·.2)).flatMap fun d => linesOf d ++ [[]]) =
      (if ds = [] then [[]] else ds.flatMap fun d => linesOf d.2 ++ [[]]) := by
    simp only [List.map_eq_nil_iff, List.flatMap_map]
  rw [hds] at hbody
  have e1 : lit "\n" = ['\n'] := by decide
  have e2 : lit "// Automatically generated header file\n" = lit "// Automatically generated header file" ++ ['\n'] := by
    decide
  have e3 : lit "#endif\n" = lit "#endif" ++ ['\n'] := by decide
  have e4 : lit ".hpp\"\n" = lit ".hpp\"" ++ ['\n'] := by decide
  by_cases hpe : prev = []
  · have e : header prev s defs = (lit "#ifndef " ++ guardOf s) ++ '\n' :: ((lit "#define " ++ guardOf s) ++ '\n' ::
        ([] ++ '\n' :: (lit "// Automatically generated header file" ++ '\n' :: ([] ++ '\n' ::
        ((lit "// Definitions of section " ++ replace '_' '.' prev) ++ '\n' ::
          (join ['\n'] ((ds.map (·.2)).map fun d => d ++ ['\n']) ++ '\n' ::
            (lit "#endif" ++ '\n' :: ([] ++ '\n' :: [])))))))) := by
      rw [header]
      simp only [hmap, if_pos hpe, guardOf, e1, e2, e3, List.append_assoc, List.cons_append, List.nil_append]
    rw [e, linesOf_append, linesOf_append, linesOf_append, linesOf_append, linesOf_append, linesOf_append,
      hbody, linesOf_append, linesOf_append, hl (by decide) hg, hl (by decide) hg, hl (by decide) hr,
      linesOf_line (l := lit "// Automatically generated header file") (by decide),
      linesOf_line (l := lit "#endif") (by decide), includeLines, if_pos hpe]
    simp [linesOf]
  · have hi : linesOf (lit "#include \"" ++ prev ++ lit ".hpp\"") = [lit "#include \"" ++ prev ++ lit ".hpp\""] := by
      apply linesOf_line
      simp only [List.mem_append, not_or]
      exact ⟨⟨by decide, hp⟩, by decide⟩
    have e : header prev s defs = (lit "#ifndef " ++ guardOf s) ++ '\n' :: ((lit "#define " ++ guardOf s) ++ '\n' ::
        ([] ++ '\n' :: (lit "// Automatically generated header file" ++ '\n' :: ([] ++ '\n' ::
        ((lit "// Definitions before section " ++ replace '_' '.' prev) ++ '\n' ::
          ((lit "#include \"" ++ prev ++ lit ".hpp\"") ++ '\n' :: ([] ++ '\n' ::
        ((lit "// Definitions of section " ++ replace '_' '.' prev) ++ '\n' ::
          (join ['\n'] ((ds.map (·.2)).map fun d => d ++ ['\n']) ++ '\n' ::
            (lit "#endif" ++ '\n' :: ([] ++ '\n' :: []))))))))))) := by
      rw [header]
      simp only [hmap, if_neg hpe, guardOf, e1, e2, e3, e4, List.append_assoc, List.cons_append, List.nil_append]
    rw [e, linesOf_append, linesOf_append, linesOf_append, linesOf_append, linesOf_append, linesOf_append,
      linesOf_append, linesOf_append, linesOf_append,
      hbody, linesOf_append, linesOf_append, hl (by decide) hg, hl (by decide) hg, hl (by decide) hr,
      hl (by decide) hr, hi,
      linesOf_line (l := lit "// Automatically generated header file") (by decide),
      linesOf_line (l := lit "#endif") (by decide), includeLines, if_neg hpe]
    simp [linesOf]

/-! ## What a compiler sees of a header -/

theorem directive_blank : directive [] = .other := by decide

theorem directive_line_comment (r : Str) : directive (lit "// " ++ r) = .other :=
  directive_comment (by simp [lit, List.isPrefixOf])

theorem directive_ifndef (m : Str) : directive (lit "#ifndef " ++ m) = .ifndef m := by
  simp [directive, lit, blank, List.isPrefixOf]

theorem directive_define (m : Str) : directive (lit "#define " ++ m) = .define m := by
  simp [directive, lit, blank, List.isPrefixOf]

theorem takeWhile_quote {p : Str} (h : '"' ∉ p) (t : Str) : (p ++ '"' :: t).takeWhile (· ≠ '"') = p := by
  induction p with
  | nil => simp
  | cons c p ih =>
    simp only [List.mem_cons, not_or] at h
    rw [List.cons_append, List.takeWhile_cons, if_pos (by simpa using fun e => h.1 e.symm), ih h.2]

theorem directive_includeFile (q : Str) :
    directive (lit "#include \"" ++ q) = .includeFile (q.takeWhile (· ≠ '"')) := by
  simp [directive, lit, blank, List.isPrefixOf]

theorem directive_include {p : Str} (h : '"' ∉ p) :
    directive (lit "#include \"" ++ p ++ lit ".hpp\"") = .includeFile (p ++ lit ".hpp") := by
  have e : lit "#include \"" ++ p ++ lit ".hpp\"" = lit "#include \"" ++ ((p ++ lit ".hpp") ++ '"' :: []) := by
    rw [show lit ".hpp\"" = lit ".hpp" ++ ['"'] by decide]
    simp only [List.append_assoc]
  have h' : '"' ∉ p ++ lit ".hpp" := by simp only [List.mem_append, not_or]; exact ⟨h, by decide⟩
  rw [e, directive_includeFile, takeWhile_quote h']

open Classical in
/-- A command as the headers should have it. -/
noncomputable def seenOf (macros : List Str) (ls : List Str) : List Str :=
  if Defines ls ∧ (metashellMacro ∈ macros ∨ ¬ OnlyMetashell ls) then ls.flatMap words else []

theorem words_nil_line : ([[]].filter notComment).flatMap words = ([] : List Str) := by decide

theorem shows_commands {cs : List (List Str)} (h : ∀ ls ∈ cs, WellWrittenCommand ls) (macros : List Str) :
    ∃ out, Shows macros (cs.flatMap fun ls => linesOf (definitionOf (rawCommand ls)) ++ [[]]) out ∧
      (out.filter notComment).flatMap words = cs.flatMap (seenOf macros) := by
  induction cs with
  | nil => exact ⟨[], Shows.nil _, rfl⟩
  | cons ls cs ih =>
    obtain ⟨o, h1, h2⟩ := ih fun x hx => h x (by simp [hx])
    obtain ⟨o', h1', h2'⟩ := shows_command (h ls (by simp)) macros
    have hb : Shows macros [[]] [[]] := Shows.plain (by
      intro l hl; simp at hl; subst hl; exact directive_blank)
    refine ⟨(o' ++ [[]]) ++ o, ?_, ?_⟩
    · rw [List.flatMap_cons]
      exact (h1'.append hb).append h1
    · rw [List.filter_append, List.filter_append, List.flatMap_append, List.flatMap_append, h2, h2', words_nil_line,
        List.append_nil, List.flatMap_cons]
      rfl

theorem preprocess_other {l : Str} (h : directive l = .other) (file : List Str → Str → Option (List Str × List Str))
    (macros ls : List Str) : preprocessLines file macros 0 (l :: ls) =
      (preprocessLines file macros 0 ls).map fun r => (l :: r.1, r.2) := by
  rw [preprocessLines]; simp only [h]

/-- The end of a header. -/
theorem preprocess_end (file : List Str → Str → Option (List Str × List Str)) (macros : List Str) :
    preprocessLines file macros 0 [lit "#endif", [], []] = some ([[], []], macros) := by
  rw [preprocessLines]
  simp only [directive_endif]
  rw [preprocess_other directive_blank, preprocess_other directive_blank, preprocessLines]
  rfl

/-- The definitions of a section. -/
theorem shows_section {cs : List (List Str)} (h : ∀ ls ∈ cs, WellWrittenCommand ls) (macros : List Str) :
    ∃ out, Shows macros (if cs = [] then [[]] else cs.flatMap fun ls => linesOf (definitionOf (rawCommand ls)) ++ [[]])
        out ∧
      (out.filter notComment).flatMap words = cs.flatMap (seenOf macros) := by
  split
  · rename_i hc
    subst hc
    exact ⟨[[]], Shows.plain (by intro l hl; simp at hl; subst hl; exact directive_blank), words_nil_line⟩
  · exact shows_commands h macros

/-- The commands of a section. -/
def ofSection (ts : List (Str × List Str)) (s : Str) : List (List Str) := (ts.filter fun d => d.1 = s).map (·.2)

theorem seenOf_congr {m m' : List Str} (h : metashellMacro ∈ m ↔ metashellMacro ∈ m') : seenOf m = seenOf m' := by
  funext ls
  unfold seenOf
  congr 1
  rw [h]

/-- Lines that are skipped together. -/
def Skips (ls : List Str) : Prop :=
  ∀ file macros k rest, preprocessLines file macros (k + 1) (ls ++ rest) = preprocessLines file macros (k + 1) rest

theorem Skips.nil : Skips [] := fun _ _ _ _ => rfl

theorem Skips.append {ls ls' : List Str} (h : Skips ls) (h' : Skips ls') : Skips (ls ++ ls') := fun file macros k rest => by
  rw [List.append_assoc, h, h']

theorem Skips.plain {ls : List Str} (h : ∀ l ∈ ls, directive l = .other) : Skips ls := by
  intro file macros k rest
  induction ls with
  | nil => rfl
  | cons l ls ih =>
    rw [List.cons_append, preprocessLines]
    simp only [h l (by simp), ih fun x hx => h x (by simp [hx])]

theorem Skips.protected_ {ls : List Str} (h : ∀ l ∈ ls, directive l = .other) :
    Skips (lit "#ifdef __METASHELL" :: ls ++ [lit "#endif"]) := by
  intro file macros k rest
  rw [List.append_assoc, List.cons_append, preprocessLines]
  simp only [directive_ifdef]
  rw [Skips.plain h]
  simp only [List.cons_append, List.nil_append]
  rw [preprocessLines]
  simp only [directive_endif]

theorem skips_command {ls : List Str} (h : WellWrittenCommand ls) : Skips (linesOf (definitionOf (rawCommand ls))) := by
  rcases lines_command h with ⟨ls', hl, ho⟩ | ⟨ls', hl, ho⟩
  · rw [hl]; exact Skips.plain ho
  · rw [hl]; exact Skips.protected_ ho

theorem skips_section {cs : List (List Str)} (h : ∀ ls ∈ cs, WellWrittenCommand ls) :
    Skips (if cs = [] then [[]] else cs.flatMap fun ls => linesOf (definitionOf (rawCommand ls)) ++ [[]]) := by
  have hb : Skips [[]] := Skips.plain (by intro l hl; simp at hl; subst hl; exact directive_blank)
  split
  · exact hb
  · rename_i hne
    clear hne
    induction cs with
    | nil => exact Skips.nil
    | cons ls cs ih =>
      rw [List.flatMap_cons]
      exact ((skips_command (h ls (by simp))).append hb).append (ih fun x hx => h x (by simp [hx]))

theorem directive_define_skip (m : Str) : Skips [lit "#define " ++ m] := by
  intro file macros k rest
  rw [List.cons_append, preprocessLines]
  simp only [directive_define, List.nil_append]

theorem skips_include {p : Str} (h : '"' ∉ p) : Skips [lit "#include \"" ++ p ++ lit ".hpp\""] := by
  intro file macros k rest
  rw [List.cons_append, preprocessLines]
  simp only [directive_include h, List.nil_append]

theorem skips_includeLines {p : Str} (h : '"' ∉ p) : Skips (includeLines p) := by
  rw [includeLines]
  split
  · exact Skips.nil
  · have h1 : Skips [lit "// Definitions before section " ++ replace '_' '.' p] := Skips.plain (by
      intro l hl; simp at hl; subst hl; exact directive_comment (by simp [lit, List.isPrefixOf]))
    have h2 : Skips [[]] := Skips.plain (by intro l hl; simp at hl; subst hl; exact directive_blank)
    exact h1.append ((skips_include h).append h2)

/-- What a compiler sees of the header of a section, when some headers have been included: those of the
sections `done`. -/
theorem preprocess_header {ts : List (Str × List Str)} (hts : ∀ d ∈ ts, WellWrittenCommand d.2) {files : Str → Option Str}
    {secs : List Str} (hnd : secs.Nodup) (hchar : ∀ s ∈ secs, s ≠ [] ∧ '\n' ∉ s ∧ '"' ∉ s)
    (hfiles : ∀ pre s post, secs = pre ++ s :: post → files (s ++ lit ".hpp") =
      some (header (pre.getLast?.getD []) s (ts.map fun d => (d.1, definitionOf (rawCommand d.2)))))
    (m : Nat) (n : Nat) : ∀ (pre : List Str) (s : Str) (post : List Str) (depth : Nat), pre.length = n → n < depth →
      secs = pre ++ s :: post →
      ∀ macros, (∀ x ∈ pre ++ [s], guardOf x ∈ macros ↔ x ∈ secs.take m) →
      ∃ lines macros', preprocessFile files depth macros (s ++ lit ".hpp") = some (lines, macros') ∧
        (metashellMacro ∈ macros' ↔ metashellMacro ∈ macros) ∧
        (∀ x, guardOf x ∈ macros' ↔ guardOf x ∈ macros ∨ x ∈ pre ++ [s]) ∧
        (lines.filter notComment).flatMap words =
          (([] :: pre).drop m).flatMap fun x => (ofSection ts x).flatMap (seenOf macros) := by
  have hmeta : ∀ s, metashellMacro ≠ guardOf s := by
    intro s h
    have := congrArg (List.take 1) h
    simp [metashellMacro, guardOf, lit] at this
  have hsec : ∀ x, (ts.map fun d => (d.1, definitionOf (rawCommand d.2))).filter (fun d => d.1 = x) =
      (ts.filter fun d => d.1 = x).map fun d => (d.1, definitionOf (rawCommand d.2)) := by
    intro x
    rw [List.filter_map]
    rfl
  have hbody : ∀ x, (if (ts.map fun d => (d.1, definitionOf (rawCommand d.2))).filter (fun d => d.1 = x) = [] then [[]]
      else ((ts.map fun d => (d.1, definitionOf (rawCommand d.2))).filter (fun d => d.1 = x)).flatMap
        fun d => linesOf d.2 ++ [[]]) =
      (if ofSection ts x = [] then [[]]
        else (ofSection ts x).flatMap fun ls => linesOf (definitionOf (rawCommand ls)) ++ [[]]) := by
    intro x
    rw [hsec, ofSection]
    simp only [List.map_eq_nil_iff, List.flatMap_map]
  have hwell : ∀ x, ∀ ls ∈ ofSection ts x, WellWrittenCommand ls := by
    intro x ls hls
    obtain ⟨d, hd, rfl⟩ := List.mem_map.1 hls
    exact hts d (List.mem_filter.1 hd).1
  have h3 : notComment [] = true := by decide
  -- a header that has been included already
  have hdone : ∀ pre s post depth, secs = pre ++ s :: post → ∀ macros, guardOf s ∈ macros →
      preprocessFile files (depth + 1) macros (s ++ lit ".hpp") = some ([[], []], macros) := by
    intro pre s post depth hsplit macros hg
    have hs := hchar s (by rw [hsplit]; simp)
    have hp : '\n' ∉ pre.getLast?.getD [] ∧ '"' ∉ pre.getLast?.getD [] := by
      cases hl : pre.getLast? with
      | none => simp
      | some p =>
        have := hchar p (by rw [hsplit]; simp [List.mem_of_getLast? hl])
        exact this.2
    rw [preprocessFile, hfiles pre s post hsplit, Option.bind_some, linesOf_header hp.1 hs.2.1, hbody]
    simp only [List.append_assoc, List.cons_append, List.nil_append]
    rw [preprocessLines]
    simp only [directive_ifndef, if_pos hg]
    have e1 := directive_define_skip (guardOf s) (preprocessFile files depth) macros 0
    simp only [List.cons_append, List.nil_append, Nat.zero_add] at e1
    have hpl : ∀ {l}, directive l = .other → ∀ rest, preprocessLines (preprocessFile files depth) macros 1 (l :: rest) =
        preprocessLines (preprocessFile files depth) macros 1 rest := by
      intro l hl rest
      rw [preprocessLines]
      simp only [hl]
    have e2 := skips_includeLines hp.2 (preprocessFile files depth) macros 0
    have e3 := skips_section (hwell (pre.getLast?.getD [])) (preprocessFile files depth) macros 0
    simp only [Nat.zero_add] at e2 e3
    rw [e1, hpl directive_blank, hpl (by decide), hpl directive_blank, e2,
      hpl (directive_comment (by simp [lit, List.isPrefixOf])), e3, preprocessLines]
    simp only [directive_endif]
    rw [preprocess_other directive_blank, preprocess_other directive_blank, preprocessLines]
    rfl
  -- the headers up to a section
  have htake : ∀ pre s post, secs = pre ++ s :: post → (s ∈ secs.take m ↔ pre.length < m) := by
    intro pre s post hsplit
    constructor
    · intro hm
      by_cases hlt : pre.length < m
      · exact hlt
      · exfalso
        rw [hsplit, List.take_append_of_le_length (by omega)] at hm
        rw [hsplit] at hnd
        exact (List.nodup_append.1 hnd).2.2 s (List.mem_of_mem_take hm) s (by simp) rfl
    · intro hlt
      rw [hsplit, List.take_append]
      have : m - pre.length = (m - pre.length - 1) + 1 := by omega
      rw [this, List.take_succ_cons]
      simp
  have hskip : ∀ pre s post depth, secs = pre ++ s :: post → pre.length < m → ∀ macros,
      (∀ x ∈ pre ++ [s], guardOf x ∈ macros ↔ x ∈ secs.take m) →
      ∃ lines macros', preprocessFile files (depth + 1) macros (s ++ lit ".hpp") = some (lines, macros') ∧
        (metashellMacro ∈ macros' ↔ metashellMacro ∈ macros) ∧
        (∀ x, guardOf x ∈ macros' ↔ guardOf x ∈ macros ∨ x ∈ pre ++ [s]) ∧
        (lines.filter notComment).flatMap words =
          (([] :: pre).drop m).flatMap fun x => (ofSection ts x).flatMap (seenOf macros) := by
    intro pre s post depth hsplit hlt macros hmac
    have hg := (hmac s (by simp)).2 ((htake pre s post hsplit).2 hlt)
    refine ⟨_, _, hdone pre s post depth hsplit macros hg, Iff.rfl, ?_, ?_⟩
    · intro x
      constructor
      · exact .inl
      · rintro (h | h)
        · exact h
        · refine (hmac x h).2 ?_
          have hpre : pre ++ [s] <+: secs.take m := by
            rw [hsplit, List.take_append, List.take_of_length_le (by omega)]
            have : m - pre.length = (m - pre.length - 1) + 1 := by omega
            rw [this, List.take_succ_cons]
            exact ⟨List.take (m - pre.length - 1) post, by simp⟩
          exact hpre.subset h
    · rw [List.drop_eq_nil_of_le (by simp; omega)]
      simp only [List.filter_cons, h3, if_true, List.filter_nil]
      simp [words]
  induction n with
  | zero =>
    intro pre s post depth hlen hdepth hsplit macros hmac
    have hpre : pre = [] := List.length_eq_zero_iff.1 hlen
    subst hpre
    obtain ⟨depth, rfl⟩ : ∃ d, depth = d + 1 := ⟨depth - 1, by omega⟩
    by_cases hm : 0 < m
    · exact hskip [] s post depth hsplit hm macros hmac
    have hm0 : m = 0 := by omega
    have hs := hchar s (by rw [hsplit]; simp)
    have hgs : guardOf s ∉ macros := by
      intro h
      have := (hmac s (by simp)).1 h
      rw [hm0] at this
      simp at this
    rw [preprocessFile, hfiles [] s post hsplit, Option.bind_some, List.getLast?_nil, Option.getD_none,
      linesOf_header (by simp) hs.2.1, hbody]
    obtain ⟨out, ho1, ho2⟩ := shows_section (hwell []) (guardOf s :: macros)
    have hi : includeLines [] = [] := by rw [includeLines, if_pos rfl]
    rw [hi]
    simp only [List.cons_append, List.nil_append]
    rw [preprocessLines]
    simp only [directive_ifndef, if_neg hgs]
    rw [preprocessLines]
    simp only [directive_define]
    rw [preprocess_other directive_blank, preprocess_other (by decide), preprocess_other directive_blank,
      preprocess_other (directive_comment (by simp [lit, List.isPrefixOf])), ho1, preprocess_end]
    simp only [Option.map_some]
    refine ⟨_, _, rfl, by simp [hmeta s], ?_, ?_⟩
    · intro x
      simp only [List.mem_cons, List.not_mem_nil, or_false]
      constructor
      · rintro (h | h)
        · exact .inr (guardOf_injective h)
        · exact .inl h
      · rintro (h | rfl)
        · exact .inr h
        · exact .inl rfl
    have h1 : notComment (lit "// Automatically generated header file") = false := by decide
    have h2 : notComment (lit "// Definitions of section " ++ replace '_' '.' []) = false := by decide
    have hcongr : seenOf (guardOf s :: macros) = seenOf macros := seenOf_congr (by simp [hmeta s])
    simp only [List.filter_cons, List.filter_append, h1, h2, h3, if_true, Bool.false_eq_true, if_false, List.filter_nil,
      List.flatMap_cons, List.flatMap_append, List.flatMap_nil, ho2, hcongr, hm0, List.drop_zero]
    simp [words]
  | succ n ih =>
    intro pre s post depth hlen hdepth hsplit macros hmac
    obtain ⟨depth, rfl⟩ : ∃ d, depth = d + 1 := ⟨depth - 1, by omega⟩
    by_cases hm : pre.length < m
    · exact hskip pre s post depth hsplit hm macros hmac
    have hgs : guardOf s ∉ macros := by
      intro h
      exact hm ((htake pre s post hsplit).1 ((hmac s (by simp)).1 h))
    have hne : pre ≠ [] := by rintro rfl; simp at hlen
    obtain ⟨pre', p, rfl⟩ : ∃ pre' p, pre = pre' ++ [p] :=
      ⟨pre.dropLast, pre.getLast hne, (List.dropLast_concat_getLast hne).symm⟩
    have hlen' : pre'.length = n := by simpa using hlen
    have hs := hchar s (by rw [hsplit]; simp)
    have hp := hchar p (by rw [hsplit]; simp)
    have hsplit' : secs = pre' ++ p :: (s :: post) := by rw [hsplit]; simp
    rw [preprocessFile, hfiles _ s post hsplit, Option.bind_some, List.getLast?_concat, Option.getD_some,
      linesOf_header hp.2.1 hs.2.1, hbody]
    have hi : includeLines p = [lit "// Definitions before section " ++ replace '_' '.' p,
        lit "#include \"" ++ p ++ lit ".hpp\"", []] := by rw [includeLines, if_neg hp.1]
    rw [hi]
    simp only [List.append_assoc, List.cons_append, List.nil_append]
    rw [preprocessLines]
    simp only [directive_ifndef, if_neg hgs]
    rw [preprocessLines]
    simp only [directive_define]
    have hg : ∀ x ∈ pre' ++ [p], guardOf x ∈ guardOf s :: macros ↔ x ∈ secs.take m := by
      intro x hx
      rw [← hmac x (by simp at hx ⊢; rcases hx with h | h <;> simp [h])]
      constructor
      · intro hm
        rcases List.mem_cons.1 hm with hm | hm
        · have := guardOf_injective hm
          subst this
          rw [hsplit] at hnd
          exact absurd rfl ((List.nodup_append.1 hnd).2.2 x hx x (by simp))
        · exact hm
      · exact List.mem_cons_of_mem _
    obtain ⟨lines, macros', hf1, hf2, hf3, hf4⟩ :=
      ih pre' p (s :: post) depth hlen' (by omega) hsplit' (guardOf s :: macros) hg
    obtain ⟨out, ho1, ho2⟩ := shows_section (hwell p) macros'
    rw [preprocess_other directive_blank, preprocess_other (by decide), preprocess_other directive_blank,
      preprocess_other (directive_comment (by simp [lit, List.isPrefixOf])), preprocessLines]
    have hd := directive_include hp.2.2
    simp only [List.append_assoc] at hd
    simp only [hd, hf1, Option.bind_some]
    rw [preprocess_other directive_blank, preprocess_other (directive_comment (by simp [lit, List.isPrefixOf])), ho1,
      preprocess_end]
    simp only [Option.map_some]
    have hm1 : metashellMacro ∈ macros' ↔ metashellMacro ∈ macros := by rw [hf2]; simp [hmeta s]
    refine ⟨_, _, rfl, hm1, ?_, ?_⟩
    · intro x
      rw [hf3]
      simp only [List.mem_cons, List.mem_append, List.not_mem_nil, or_false]
      constructor
      · rintro ((h | h) | h | h)
        · exact .inr (.inr (.inr (guardOf_injective h)))
        · exact .inl h
        · exact .inr (.inl h)
        · exact .inr (.inr (.inl h))
      · rintro (h | h | h | rfl)
        · exact .inl (.inr h)
        · exact .inr (.inl h)
        · exact .inr (.inr h)
        · exact .inl (.inl rfl)
    have h1 : notComment (lit "// Automatically generated header file") = false := by decide
    have h2 : ∀ r, notComment (lit "// Definitions of section " ++ r) = false := by
      intro r; simp [notComment, lit, List.isPrefixOf]
    have h4 : ∀ r, notComment (lit "// Definitions before section " ++ r) = false := by
      intro r; simp [notComment, lit, List.isPrefixOf]
    have hcongr : seenOf (guardOf s :: macros) = seenOf macros := seenOf_congr (by simp [hmeta s])
    have hcongr' : seenOf macros' = seenOf macros := seenOf_congr hm1
    rw [hcongr] at hf4
    rw [hcongr'] at ho2
    have hdrop : ([] :: (pre' ++ [p])).drop m = ([] :: pre').drop m ++ [p] := by
      rw [← List.cons_append, List.drop_append_of_le_length]
      simp at hm ⊢; omega
    rw [hdrop]
    simp only [List.filter_cons, List.filter_append, h1, h2, h3, h4, if_true, Bool.false_eq_true, if_false,
      List.filter_nil, List.flatMap_cons, List.flatMap_append, List.flatMap_nil, ho2, hf4]
    simp [words]

/-! ## The sections of the commands -/

theorem flatMap_congr_left {α β : Type} {f g : α → List β} : ∀ {l : List α}, (∀ x ∈ l, f x = g x) → l.flatMap f = l.flatMap g
  | [], _ => rfl
  | x :: l, h => by
      rw [List.flatMap_cons, List.flatMap_cons, h x (by simp), flatMap_congr_left fun y hy => h y (by simp [hy])]

theorem tagged_section {sec : Str} {doc : List Piece} {d : Str × List Str} (h : d ∈ tagged sec doc) :
    d.1 ∈ sec :: (numbers doc).map (dotted '_') := by
  induction doc generalizing sec with
  | nil => simp [tagged] at h
  | cons p doc ih =>
    rw [tagged] at h
    rcases List.mem_append.1 h with h | h
    · obtain ⟨ls, -, rfl⟩ := List.mem_map.1 h
      simp
    · have := ih h
      cases p with
      | heading n t =>
        simp only [sectionAfter] at this
        rw [numbers]
        simp only [List.map_cons]
        exact List.mem_cons_of_mem _ this
      | _ => exact this

theorem tagged_append (sec : Str) (a : List Piece) (n : List Nat) (t : Str) (b : List Piece) :
    tagged sec (a ++ .heading n t :: b) = tagged sec a ++ tagged (dotted '_' n) b := by
  induction a generalizing sec with
  | nil => rfl
  | cons p a ih =>
    rw [List.cons_append, tagged, tagged, ih, List.append_assoc]

theorem tagged_commands (sec : Str) (a : List Piece) : (tagged sec a).map (·.2) = a.flatMap Piece.commands := by
  induction a generalizing sec with
  | nil => rfl
  | cons p a ih =>
    rw [tagged, List.map_append, ih, List.flatMap_cons, List.map_map]
    simp [Function.comp_def]

theorem flatMap_sections {sec : Str} {doc : List Piece} (h : (sec :: (numbers doc).map (dotted '_')).Nodup) :
    (sec :: (numbers doc).map (dotted '_')).flatMap (fun s => (tagged sec doc).filter fun d => d.1 = s) =
      tagged sec doc := by
  induction doc generalizing sec with
  | nil => rfl
  | cons p doc ih =>
    cases hp : p with
    | heading n t =>
      rw [hp] at h
      rw [tagged, List.flatMap_cons]
      simp only [Piece.commands, List.map_nil, List.nil_append, sectionAfter, numbers, List.map_cons] at h ⊢
      rw [ih (List.nodup_cons.1 h).2, List.filter_eq_nil_iff.2, List.nil_append]
      intro d hd
      have := tagged_section hd
      have hns := (List.nodup_cons.1 h).1
      simp only [decide_eq_true_eq]
      intro e
      rw [e] at this
      exact hns this
    | _ =>
      all_goals
        rw [← hp]
        have hnum : numbers (p :: doc) = numbers doc := by rw [hp]; rfl
        have haft : sectionAfter sec p = sec := by rw [hp]; rfl
        rw [hnum] at h ⊢
        rw [tagged, haft]
        have hih := ih h
        rw [List.flatMap_cons] at hih ⊢
        have h1 : (p.commands.map (sec, ·) ++ tagged sec doc).filter (fun d => d.1 = sec) =
            p.commands.map (sec, ·) ++ (tagged sec doc).filter fun d => d.1 = sec := by
          rw [List.filter_append, List.filter_eq_self.2]
          intro d hd
          obtain ⟨ls, -, rfl⟩ := List.mem_map.1 hd
          simp
        have h2 : ((numbers doc).map (dotted '_')).flatMap
              (fun s => (p.commands.map (sec, ·) ++ tagged sec doc).filter fun d => d.1 = s) =
            ((numbers doc).map (dotted '_')).flatMap fun s => (tagged sec doc).filter fun d => d.1 = s := by
          apply flatMap_congr_left
          intro s hs
          rw [List.filter_append, List.filter_eq_nil_iff.2, List.nil_append]
          intro d hd
          obtain ⟨ls, -, rfl⟩ := List.mem_map.1 hd
          simp only [decide_eq_true_eq]
          rintro rfl
          exact (List.nodup_cons.1 h).1 hs
        rw [h1, h2, List.append_assoc, hih]

theorem ofSection_before {a : List Piece} {n : List Nat} {t : Str} {b : List Piece}
    (h : ([] :: (numbers (a ++ .heading n t :: b)).map (dotted '_')).Nodup) :
    ([] :: (numbers a).map (dotted '_')).flatMap (ofSection (tagged [] (a ++ .heading n t :: b))) =
      a.flatMap Piece.commands := by
  rw [numbers_append, numbers, List.map_append, ← List.cons_append, List.map_cons] at h
  have hnd := List.nodup_append.1 h
  rw [← tagged_commands [] a, ← flatMap_sections hnd.1, List.map_flatMap]
  apply flatMap_congr_left
  intro s hs
  rw [ofSection, tagged_append, List.filter_append, List.map_append]
  have : (tagged (dotted '_' n) b).filter (fun d => d.1 = s) = [] := by
    rw [List.filter_eq_nil_iff]
    intro d hd
    have hm := tagged_section hd
    simp only [decide_eq_true_eq]
    intro e
    rw [e] at hm
    exact hnd.2.2 s hs s hm rfl
  rw [this]
  simp

theorem commands_wellWritten {doc : List Piece} (h : ∀ p ∈ doc, WellWrittenPiece p) :
    ∀ ls ∈ doc.flatMap Piece.commands, WellWrittenCommand ls := by
  intro ls hls
  obtain ⟨p, hp, hls⟩ := List.mem_flatMap.1 hls
  have hw := h p hp
  cases p with
  | session ps =>
    rw [commands_session] at hls
    obtain ⟨q, hq, hls⟩ := List.mem_flatMap.1 hls
    have hq' := hw.1 q hq
    cases q with
    | command ls' => simp [Part.commands] at hls; rw [hls]; exact hq'
    | output l => simp [Part.commands] at hls
  | _ => simp [Piece.commands] at hls

theorem before_irrefl : ∀ n, ¬ Before n n
  | [], h => h
  | a :: l, h => by
      rw [Before] at h
      rcases h with h | ⟨-, h⟩
      · exact Nat.lt_irrefl _ h
      · exact before_irrefl l h

theorem names_nodup {doc : List Piece} (h : WellWritten doc) : ([] :: (numbers doc).map (dotted '_')).Nodup := by
  have hne := numbers_ne_nil h.pieces
  rw [List.nodup_cons]
  constructor
  · intro hm
    obtain ⟨n, hn, he⟩ := List.mem_map.1 hm
    exact dotted_ne_nil (hne n hn) he
  · rw [List.Nodup, List.pairwise_map]
    refine List.Pairwise.imp_of_mem ?_ h.increasing
    intro a b ha hb hab he
    have := dotted_injective (hne a ha) (hne b hb) he
    subst this
    exact before_irrefl _ hab

theorem names_char {doc : List Piece} (h : WellWritten doc) : ∀ s ∈ (numbers doc).map (dotted '_'),
    s ≠ [] ∧ '\n' ∉ s ∧ '"' ∉ s := by
  intro s hs
  obtain ⟨n, hn, rfl⟩ := List.mem_map.1 hs
  refine ⟨dotted_ne_nil (numbers_ne_nil h.pieces n hn), ?_, ?_⟩
  · intro hm
    rcases mem_dotted hm with h | h
    · exact absurd h (by decide)
    · exact absurd h (by decide)
  · intro hm
    rcases mem_dotted hm with h | h
    · exact absurd h (by decide)
    · exact absurd h (by decide)

theorem split_unique {l pre pre' post post' : List Str} {s : Str} (hnd : l.Nodup) (h : l = pre ++ s :: post)
    (h' : l = pre' ++ s :: post') : pre = pre' := by
  induction pre generalizing l pre' with
  | nil =>
    cases pre' with
    | nil => rfl
    | cons x pre' =>
      exfalso
      rw [h, List.nil_append, List.nodup_cons] at hnd
      rw [h, List.nil_append, List.cons_append, List.cons.injEq] at h'
      exact hnd.1 (by rw [h'.2]; simp)
  | cons y pre ih =>
    cases pre' with
    | nil =>
      exfalso
      rw [h', List.nil_append, List.nodup_cons] at hnd
      rw [h', List.nil_append, List.cons_append, List.cons.injEq] at h
      exact hnd.1 (by rw [h.2]; simp)
    | cons x pre' =>
      rw [h] at hnd h'
      rw [List.cons_append, List.nodup_cons] at hnd
      rw [List.cons_append, List.cons_append, List.cons.injEq] at h'
      rw [h'.1, ih hnd.2 rfl h'.2]

theorem drop_take_split {α : Type} (l : List α) {m k n : Nat} (h : m ≤ k) (h' : k ≤ n) :
    (l.take k).drop m ++ (l.take n).drop k = (l.take n).drop m := by
  have e : l.take k = (l.take n).take k := by rw [List.take_take, Nat.min_eq_left h']
  rw [e]
  generalize l.take n = q
  have h2 : q.drop m = (q.take k ++ q.drop k).drop m := by rw [List.take_append_drop]
  rw [h2, List.drop_append]
  congr 1
  rw [List.length_take]
  by_cases hq : k ≤ q.length
  · rw [Nat.min_eq_left hq, Nat.sub_eq_zero_of_le h]; rfl
  · rw [List.drop_eq_nil_of_le (by omega : q.length ≤ k)]; simp

/-- Includes some headers, when those of the first `m` sections have been included. -/
theorem preprocess_includes {ts : List (Str × List Str)} (hts : ∀ d ∈ ts, WellWrittenCommand d.2) {files : Str → Option Str}
    {secs : List Str} (hnd : secs.Nodup) (hchar : ∀ s ∈ secs, s ≠ [] ∧ '\n' ∉ s ∧ '"' ∉ s)
    (hfiles : ∀ pre s post, secs = pre ++ s :: post → files (s ++ lit ".hpp") =
      some (header (pre.getLast?.getD []) s (ts.map fun d => (d.1, definitionOf (rawCommand d.2)))))
    (last : Nat) : ∀ (is : List Str), (∀ s ∈ is, s ∈ secs.take last) → ∀ (m : Nat), m ≤ last →
      (secs.take last ≠ secs.take m → ∃ s ∈ is, secs.take last = secs.take (last - 1) ++ [s]) →
      last ≤ secs.length →
      ∀ macros, (∀ x ∈ secs, guardOf x ∈ macros ↔ x ∈ secs.take m) →
      ∃ lines macros', preprocessLines (preprocessFile files (secs.length + 1)) macros 0
          (is.map (fun s => lit "#include \"" ++ s ++ lit ".hpp\"") ++ [[]]) = some (lines, macros') ∧
        (lines.filter notComment).flatMap words =
          ((([] :: secs).take last).drop m).flatMap fun x => (ofSection ts x).flatMap (seenOf macros)
  | [], _, m, hm, hlast, hlen, macros, hmac => by
      have : last = m := by
        by_cases h : secs.take last = secs.take m
        · have := congrArg List.length h
          rw [List.length_take, List.length_take] at this
          omega
        · obtain ⟨s, hs, -⟩ := hlast h
          simp at hs
      subst this
      rw [List.map_nil, List.nil_append, preprocess_other directive_blank, preprocessLines]
      refine ⟨_, _, rfl, ?_⟩
      rw [List.drop_eq_nil_of_le (by simp; omega)]
      exact words_nil_line
  | s :: is, his, m, hm, hlast, hlen, macros, hmac => by
      have hs := his s (by simp)
      obtain ⟨pre, post', hpp⟩ := List.append_of_mem hs
      have hsplit : secs = pre ++ s :: (post' ++ secs.drop last) := by
        conv => lhs; rw [← List.take_append_drop last secs, hpp]
        simp
      have hk : pre.length + 1 ≤ last := by
        have := congrArg List.length hpp
        rw [List.length_take, List.length_append, List.length_cons] at this
        omega
      have hsm : s ∈ secs := List.mem_of_mem_take hs
      obtain ⟨lines, macros', h1, h2, h3, h4⟩ := preprocess_header hts hnd hchar hfiles m pre.length pre s _
        (secs.length + 1) rfl (by omega) hsplit macros
        (fun x hx => hmac x (by rw [hsplit]; simp at hx ⊢; rcases hx with h | h <;> simp [h]))
      -- the headers that have been included now
      have htk : secs.take (pre.length + 1) = pre ++ [s] := by
        rw [hsplit, List.take_append, List.take_of_length_le (by omega), Nat.add_sub_cancel_left]
        rfl
      have hmac' : ∀ x ∈ secs, guardOf x ∈ macros' ↔ x ∈ secs.take (max m (pre.length + 1)) := by
        intro x hx
        rw [h3, hmac x hx, ← htk]
        constructor
        · rintro (h | h)
          · exact (List.take_prefix_take_left (l := secs) (Nat.le_max_left _ _)).subset h
          · exact (List.take_prefix_take_left (l := secs) (Nat.le_max_right _ _)).subset h
        · intro h
          rcases Nat.le_total m (pre.length + 1) with hle | hle
          · rw [Nat.max_eq_right hle] at h; exact .inr h
          · rw [Nat.max_eq_left hle] at h; exact .inl h
      obtain ⟨lines', macros'', h1', h2'⟩ := preprocess_includes hts hnd hchar hfiles last is
        (fun x hx => his x (by simp [hx])) (max m (pre.length + 1)) (by omega)
        (by
          intro hne
          have hne' : secs.take last ≠ secs.take m := by
            intro he
            apply hne
            have := congrArg List.length he
            rw [List.length_take, List.length_take] at this
            have : last = m := by omega
            have : max m (pre.length + 1) = last := by omega
            rw [this]
          obtain ⟨x, hx, hxl⟩ := hlast hne'
          rcases List.mem_cons.1 hx with rfl | hx
          · exfalso
            apply hne
            -- the last header is this one
            have hlen2 := congrArg List.length hxl
            rw [List.length_take, List.length_append, List.length_take] at hlen2
            have hidx : pre.length + 1 = last := by
              have hs1 : secs = secs.take (last - 1) ++ x :: secs.drop last := by
                conv => lhs; rw [← List.take_append_drop last secs, hxl]
                simp
              have h5 : pre = secs.take (last - 1) := by
                have hnd2 := hnd
                exact split_unique hnd hsplit hs1
              have h6 := congrArg List.length h5
              rw [List.length_take] at h6
              omega
            have : max m (pre.length + 1) = last := by omega
            rw [this]
          · exact ⟨x, hx, hxl⟩)
        hlen macros' hmac'
      rw [List.map_cons, List.cons_append, preprocessLines]
      simp only [directive_include (hchar s hsm).2.2, h1, Option.bind_some, h1', Option.map_some]
      refine ⟨_, _, rfl, ?_⟩
      rw [List.filter_append, List.flatMap_append, h4, h2', seenOf_congr h2]
      rw [← List.flatMap_append]
      congr 1
      have hcons : ([] :: pre) = ([] :: secs).take (pre.length + 1) := by
        rw [List.take_succ_cons, hsplit, List.take_append]
        simp
      rw [hcons]
      rcases Nat.le_total m (pre.length + 1) with hle | hle
      · rw [Nat.max_eq_right hle]
        exact drop_take_split _ hle hk
      · rw [Nat.max_eq_left hle, List.drop_eq_nil_of_le, List.nil_append]
        rw [List.length_take]; omega

theorem linesOf_including {ns : List (List Nat)} :
    linesOf (including ns) = ns.map (fun n => lit "#include \"" ++ dotted '_' n ++ lit ".hpp\"") ++ [[]] := by
  induction ns with
  | nil => rfl
  | cons n ns ih =>
    have e : including (n :: ns) = (lit "#include \"" ++ dotted '_' n ++ lit ".hpp\"") ++ '\n' :: including ns := by
      rw [including, List.flatMap_cons, show lit ".hpp\"\n" = lit ".hpp\"" ++ ['\n'] by decide]
      simp only [List.append_assoc]
      rfl
    rw [e, linesOf_append, linesOf_line, ih]
    · rfl
    · simp only [List.mem_append, not_or]
      refine ⟨⟨by decide, ?_⟩, by decide⟩
      intro hm
      rcases mem_dotted hm with h | h
      · exact absurd h (by decide)
      · exact absurd h (by decide)

/-- The headers of the sections of a tutorial. -/
theorem headers_seen {a b : List Piece} {n : List Nat} {t : Str} (h : WellWritten (a ++ .heading n t :: b))
    {ns : List (List Nat)} (hn : n ∈ ns) (hns : ∀ x ∈ ns, x = n ∨ x ∈ numbers a)
    (macros : List Str) (hm : ∀ s, guardOf s ∉ macros) :
    Sees (genHeaders ((numbers (a ++ .heading n t :: b)).map (dotted '_'))
        ((tagged [] (a ++ .heading n t :: b)).map fun d => (d.1, definitionOf (rawCommand d.2)))).get
      macros (including ns) ((a.flatMap Piece.commands).flatMap (seenOf macros)) := by
  have hnd := names_nodup h
  have hnd' := (List.nodup_cons.1 hnd).2
  have hw := commands_wellWritten h.pieces
  have hsplit : (numbers (a ++ .heading n t :: b)).map (dotted '_') =
      (numbers a).map (dotted '_') ++ dotted '_' n :: (numbers b).map (dotted '_') := by
    rw [numbers_append, numbers]; simp
  have htake : ((numbers (a ++ .heading n t :: b)).map (dotted '_')).take ((numbers a).length + 1) =
      (numbers a).map (dotted '_') ++ [dotted '_' n] := by
    rw [hsplit, List.take_append, List.take_of_length_le (by simp), List.length_map, Nat.add_sub_cancel_left]
    rfl
  have htake' : ((numbers (a ++ .heading n t :: b)).map (dotted '_')).take (numbers a).length =
      (numbers a).map (dotted '_') := by
    rw [hsplit, List.take_append, List.take_of_length_le (by simp), List.length_map, Nat.sub_self]
    simp
  obtain ⟨lines, macros', h1, h2⟩ := preprocess_includes
    (ts := tagged [] (a ++ .heading n t :: b))
    (by
      intro d hd
      apply hw
      rw [← tagged_commands []]
      exact List.mem_map_of_mem hd)
    hnd' (names_char h)
    (files := (genHeaders ((numbers (a ++ .heading n t :: b)).map (dotted '_'))
      ((tagged [] (a ++ .heading n t :: b)).map fun d => (d.1, definitionOf (rawCommand d.2)))).get)
    (by
      intro pre s post he
      rw [he, genHeaders]
      rw [he] at hnd'
      exact genHeadersLoop_get _ s post pre [] [] hnd')
    ((numbers a).length + 1) (ns.map (dotted '_'))
    (by
      intro s hs
      obtain ⟨x, hx, rfl⟩ := List.mem_map.1 hs
      rw [htake]
      rcases hns x hx with rfl | hx
      · simp
      · exact List.mem_append_left _ (List.mem_map_of_mem hx))
    0 (Nat.zero_le _)
    (by
      intro _
      refine ⟨dotted '_' n, List.mem_map_of_mem hn, ?_⟩
      rw [htake, Nat.add_sub_cancel, htake'])
    (by rw [hsplit]; simp)
    macros
    (by
      intro x _
      simp [hm x])
  rw [List.map_map] at h1
  refine ⟨_, lines, macros', by rw [linesOf_including]; exact h1, ?_⟩
  · rw [← ofSection_before hnd, List.flatMap_assoc]
    rw [List.drop_zero, List.take_succ_cons, htake'] at h2
    exact h2.symm

end Metaparse.Gen
