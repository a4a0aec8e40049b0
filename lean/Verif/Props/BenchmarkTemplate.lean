import Verif.Lemmas.BenchmarkTemplate
import Verif.Props.Benchmark
import Verif.Props.BenchmarkRun
/-!
# C104 and C105: the statistics and the templates of the benchmarks
-/

namespace Metaparse

open Gen Bench

/-! ## C104: the statistics of characters -/

/-- **C104.** The statistics of a directory say for every character how often it is in the files in it, at any depth; a
character that is in none of them is not listed. -/
theorem C104_counts (root : Tree) (c : Char) :
    (generateStatistics root).lookup c = if root.occurrences c = 0 then none else some (root.occurrences c) := by
  unfold generateStatistics
  rw [lookup_countCharacters]
  unfold seenMore Tree.occurrences
  rw [List.lookup_nil]
  split
  · rfl
  · rw [Option.getD_none, Nat.zero_add]

/-- A tree with a directory in a directory. -/
def sourceTree : Tree := .dir [.file (lit "ab,a"), .dir [.other, .file (lit "\"b\n"), .dir []], .file []]

example : (generateStatistics sourceTree).lookup 'b' = some 2 ∧ (generateStatistics sourceTree).lookup 'z' = none := by
  rw [C104_counts, C104_counts]
  decide +kernel

/-- **C104**, no character is listed twice. -/
theorem C104_once (root : Tree) : ((generateStatistics root).map Prod.fst).Nodup :=
  countCharacters_keys root List.nodup_nil

example : ((generateStatistics sourceTree).map Prod.fst).Nodup ∧ 3 < (generateStatistics sourceTree).length :=
  ⟨C104_once _, by decide +kernel⟩

/-- **C104**, it does not matter in which order the files are read. -/
theorem C104_order {root root' : Tree} (h : root.texts.Perm root'.texts) (c : Char) :
    (generateStatistics root).lookup c = (generateStatistics root').lookup c := by
  rw [C104_counts, C104_counts, Tree.occurrences, Tree.occurrences, (h.flatten).count_eq]

example (c : Char) : (generateStatistics (.dir [.file (lit "ab"), .dir [.file (lit "c")]])).lookup c =
    (generateStatistics (.dir [.file (lit "c"), .file (lit "ab"), .other])).lookup c :=
  C104_order (by decide +kernel) c

theorem mem_of_lookup_char {d : List (Char × Nat)} {c : Char} {k : Nat} (h : d.lookup c = some k) : (c, k) ∈ d := by
  induction d with
  | nil => cases h
  | cons x d ih =>
      rw [List.lookup_cons] at h
      split at h
      · rename_i e
        cases h
        rw [beq_iff_eq.1 e]
        exact List.mem_cons_self
      · exact List.mem_cons_of_mem _ (ih h)

theorem lookup_of_mem_char {d : List (Char × Nat)} (hd : (d.map Prod.fst).Nodup) {c : Char} {k : Nat} (h : (c, k) ∈ d) :
    d.lookup c = some k := by
  induction d with
  | nil => cases h
  | cons x d ih =>
      rw [List.map_cons, List.nodup_cons] at hd
      rw [List.lookup_cons]
      rcases List.mem_cons.1 h with rfl | h
      · simp
      · have : (c == x.1) = false := beq_eq_false_iff_ne.2 fun e => hd.1 (e ▸ List.mem_map_of_mem h)
        rw [this]
        exact ih hd.2 h

/-- **C104**, with these statistics the strings of the benchmarks have the characters of the sources: of the numbers that
one is drawn from, exactly as many give a character as it has occurrences, -/
theorem C104_drawn (root : Tree) {c : Char} (hw : c ∈ writable) :
    (List.range (charNum (charMap (generateStatistics root)))).countP
      (fun i => nthChar (charMap (generateStatistics root)) i == some c) = root.occurrences c := by
  have h := C104_counts root c
  split at h
  · rename_i e
    rw [e, List.countP_eq_zero]
    intro i hi hc
    obtain ⟨d, k, h1, h2, -⟩ := C89_in_range (List.mem_range.1 hi)
    rw [beq_iff_eq.1 hc] at h1
    cases h1
    rw [lookup_of_mem_char (C104_once root) h2] at h
    cases h
  · exact C89_frequency (C104_once root) (mem_of_lookup_char h) hw

example : (List.range (charNum (charMap (generateStatistics sourceTree)))).countP
    (fun i => nthChar (charMap (generateStatistics sourceTree)) i == some '"') = 1 :=
  (C104_drawn sourceTree (by decide +kernel)).trans (by decide +kernel)

theorem countP_split (p : Char → Bool) (e : Char) : ∀ s : Str,
    s.countP p = (if p e then s.count e else 0) + (s.filter fun c => c != e).countP p
  | [] => by simp
  | a :: s => by
      have ih := countP_split p e s
      by_cases ha : a = e
      · subst ha
        simp only [List.countP_cons, List.count_cons, beq_self_eq_true, if_true, List.filter_cons, bne_self_eq_false,
          Bool.false_eq_true, if_false]
        rw [ih]
        split <;> omega
      · have h1 : (a == e) = false := beq_eq_false_iff_ne.2 ha
        have h2 : (a != e) = true := bne_iff_ne.2 ha
        simp only [List.countP_cons, List.count_cons, h1, List.filter_cons, h2, if_true, Bool.false_eq_true, if_false]
        rw [ih]
        split <;> omega

theorem sum_filter_keys {p : Char → Bool} : ∀ {s : Str} {d : List (Char × Nat)}, (d.map Prod.fst).Nodup →
    (∀ c, d.lookup c = if s.count c = 0 then none else some (s.count c)) →
    ((d.filter fun x => p x.1).map Prod.snd).sum = s.countP p := by
  intro s d
  induction d generalizing s with
  | nil =>
      intro _ h
      have : s = [] := by
        cases s with
        | nil => rfl
        | cons c s =>
            have := h c
            rw [if_neg (by simp)] at this
            cases this
      simp [this]
  | cons x d ih =>
      intro hd h
      obtain ⟨e, n⟩ := x
      rw [List.map_cons, List.nodup_cons] at hd
      have hn := h e
      rw [List.lookup_cons, beq_self_eq_true] at hn
      dsimp only at hn
      split at hn
      · cases hn
      · have hn := Option.some.inj hn
        have := ih (s := s.filter fun c => c != e) hd.2 (fun c => by
          have hc := h c
          rw [List.lookup_cons] at hc
          by_cases hce : c = e
          · subst hce
            have h0 : (s.filter fun d => d != c).count c = 0 := List.count_eq_zero.2 (by simp)
            rw [if_pos h0]
            exact List.lookup_eq_none_iff.2 fun x hx => bne_iff_ne.2 fun e => hd.1 (List.mem_map.2 ⟨x, hx, e.symm⟩)
          · have : (c == e) = false := beq_eq_false_iff_ne.2 hce
            rw [this] at hc
            rw [List.count_filter (by simpa using hce)]
            exact hc)
        rw [List.filter_cons, countP_split p e s, ← this]
        dsimp only
        split
        · rw [List.map_cons, List.sum_cons, hn]
        · rw [Nat.zero_add]

/-- **C104**, and there are as many numbers as there are characters in the sources that can be written. -/
theorem C104_total (root : Tree) :
    charNum (charMap (generateStatistics root)) = root.texts.flatten.countP fun c => decide (c ∈ writable) := by
  rw [charMap_eq]
  exact sum_filter_keys (p := fun c => decide (c ∈ writable)) (C104_once root) (C104_counts root)

example : charNum (charMap (generateStatistics sourceTree)) = 6 := (C104_total sourceTree).trans (by decide +kernel)

/-! ## C105: the comments of a template -/

/-- **C105.** The values of `n` are those of the first comment `// n in [a..b), step s`: from `a`, in steps, and below `b`. -/
theorem C105_range {ls : List Str} {content line : Str} {a b s : Nat} (ht : TextOf ls content)
    (hf : First (fun l => ∃ a b s, RangeLine l a b s) ls line) (hl : RangeLine line a b s) (hs : 0 < s) :
    ∃ r, rangeOf content = some r ∧ r.Pairwise (· < ·) ∧ ∀ x, x ∈ r ↔ x < b ∧ ∃ k, x = a + k * s := by
  obtain ⟨-, before, after, rfl, hb⟩ := hf
  obtain ⟨da, db, ds, hm, h1, h2, h3⟩ := match_rangeLine hl
  have hmatch : firstMatch rangeRegex content = some [da, db, ds] := by
    unfold firstMatch
    rw [splitLines_text ht]
    refine findSome_first (fun l hl => ?_) hm
    cases h : matchItems rangeRegex l with
    | none => rfl
    | some gs => exact absurd (rangeLine_of_match h) (hb l hl)
  have hr : ∃ r, pyRange a b s = some r := ⟨_, if_neg (by omega)⟩
  obtain ⟨r, hr⟩ := hr
  refine ⟨r, ?_, pyRange_sorted hr, mem_pyRange hs hr⟩
  unfold rangeOf
  rw [hmatch, Option.bind_some]
  dsimp only
  rw [toInt_decimal.2 h1, toInt_decimal.2 h2, toInt_decimal.2 h3]
  exact hr

/-- **C105**, a step of zero is an error, -/
theorem C105_no_step {ls : List Str} {content line : Str} {a b : Nat} (ht : TextOf ls content)
    (hf : First (fun l => ∃ a b s, RangeLine l a b s) ls line) (hl : RangeLine line a b 0) : rangeOf content = none := by
  obtain ⟨-, before, after, rfl, hb⟩ := hf
  obtain ⟨da, db, ds, hm, h1, h2, h3⟩ := match_rangeLine hl
  have hmatch : firstMatch rangeRegex content = some [da, db, ds] := by
    unfold firstMatch
    rw [splitLines_text ht]
    refine findSome_first (fun l hl => ?_) hm
    cases h : matchItems rangeRegex l with
    | none => rfl
    | some gs => exact absurd (rangeLine_of_match h) (hb l hl)
  unfold rangeOf
  rw [hmatch, Option.bind_some]
  dsimp only
  rw [toInt_decimal.2 h1, toInt_decimal.2 h2, toInt_decimal.2 h3]
  rfl

/-- **C105**, and so is a template without such a comment. -/
theorem C105_no_range {ls : List Str} {content : Str} (ht : TextOf ls content)
    (h : ∀ l ∈ ls, ¬ ∃ a b s, RangeLine l a b s) : rangeOf content = none := by
  unfold rangeOf firstMatch
  rw [splitLines_text ht, List.findSome?_eq_none_iff.2]
  · rfl
  · intro l hl
    cases hm : matchItems rangeRegex l with
    | none => rfl
    | some gs => exact absurd (rangeLine_of_match hm) (h l hl)

/-- **C105**, a property is what is after the colon in the first comment with its name, without the blanks before it. -/
theorem C105_property {name : Str} (hn : ∃ d t, name = d :: t ∧ d ≠ ' ' ∧ d ≠ '\t') {ls : List Str} {content line value : Str}
    (ht : TextOf ls content) (hf : First (fun l => ∃ v, PropertyLine name l v) ls line) (hl : PropertyLine name line value) :
    property name content = some value := by
  obtain ⟨-, before, after, rfl, hb⟩ := hf
  have hm := match_propertyLine hn (no_newline ht (by simp)) hl
  unfold property firstMatch
  rw [splitLines_text ht, findSome_first (fun l hl => ?_) hm]
  · rfl
  · cases h : matchItems (propertyRegex name) l with
    | none => rfl
    | some gs => exact absurd (propertyLine_of_match h) (hb l hl)

/-- **C105**, a property without a comment is an error. -/
theorem C105_no_property {name : Str} {ls : List Str} {content : Str} (ht : TextOf ls content)
    (h : ∀ l ∈ ls, ¬ ∃ v, PropertyLine name l v) : property name content = none := by
  unfold property firstMatch
  rw [splitLines_text ht, List.findSome?_eq_none_iff.2]
  · rfl
  · intro l hl
    cases hm : matchItems (propertyRegex name) l with
    | none => rfl
    | some gs => exact absurd (propertyLine_of_match hm) (h l hl)

/-- **C105**, the modes are those of the comment `// modes:`, with commas between them; white space does not matter.
Anything else after the colon is an error. -/
theorem C105_modes {ls : List Str} {content line value : Str} (ht : TextOf ls content)
    (hf : First (fun l => ∃ v, PropertyLine (lit "modes") l v) ls line) (hl : PropertyLine (lit "modes") line value)
    (ms : List Mode) : modesOf content = some ms ↔ ModeList value ms := by
  unfold modesOf
  rw [C105_property (name := lit "modes") ⟨'m', lit "odes", rfl, by decide, by decide⟩ ht hf hl, Option.bind_some]
  exact ⟨list_of_modes _ (Nat.le_refl _), modes_of_list⟩

/-- **C105**, there is one mode or more. -/
theorem C105_some_mode {content : Str} {ms : List Mode} (h : modesOf content = some ms) : ms ≠ [] := by
  unfold modesOf at h
  obtain ⟨v, -, h⟩ := Option.bind_eq_some_iff.1 h
  cases list_of_modes _ (Nat.le_refl _) h <;> exact List.cons_ne_nil _ _

theorem load_eq {instances : Str → Nat → Str} {t : Str × Str} {l : Loaded} (h : load instances t = some l) :
    l.template.name = t.1 ∧ modesOf t.2 = some l.template.modes ∧ rangeOf t.2 = some l.template.range ∧
      l.template.instances = instances t.2 ∧ property (lit "x_axis_label") t.2 = some l.xAxisLabel ∧
      property (lit "desc") t.2 = some l.desc := by
  unfold load at h
  obtain ⟨ms, h1, h⟩ := Option.bind_eq_some_iff.1 h
  obtain ⟨r, h2, h⟩ := Option.bind_eq_some_iff.1 h
  obtain ⟨x, h3, h⟩ := Option.bind_eq_some_iff.1 h
  obtain ⟨d, h4, h⟩ := Option.map_eq_some_iff.1 h
  subst h
  exact ⟨rfl, h1, h2, rfl, h3, h4⟩

theorem range_sorted {content : Str} {r : List Nat} (h : rangeOf content = some r) : r.Pairwise (· < ·) := by
  unfold rangeOf at h
  obtain ⟨gs, -, h⟩ := Option.bind_eq_some_iff.1 h
  split at h
  · obtain ⟨a, -, h⟩ := Option.bind_eq_some_iff.1 h
    obtain ⟨b, -, h⟩ := Option.bind_eq_some_iff.1 h
    obtain ⟨s, -, h⟩ := Option.bind_eq_some_iff.1 h
    exact pyRange_sorted h
  · cases h

theorem mapM_mem {α β : Type} {f : α → Option β} : ∀ {l : List α} {r : List β}, l.mapM f = some r →
    ∀ y ∈ r, ∃ x ∈ l, f x = some y
  | [], r, h, y, hy => by cases h; cases hy
  | a :: l, r, h, y, hy => by
      rw [List.mapM_cons] at h
      cases h1 : f a with
      | none => rw [h1] at h; cases h
      | some b =>
          cases h2 : l.mapM f with
          | none => rw [h1, h2] at h; cases h
          | some bs =>
              rw [h1, h2] at h
              cases h
              rcases List.mem_cons.1 hy with rfl | hy
              · exact ⟨a, List.mem_cons_self, h1⟩
              · obtain ⟨x, hx, e⟩ := mapM_mem h2 y hy
                exact ⟨x, List.mem_cons_of_mem _ hx, e⟩

theorem mapM_map_eq {α β γ : Type} {f : α → Option β} {g : β → γ} {g' : α → γ} (hg : ∀ x y, f x = some y → g y = g' x) :
    ∀ {l : List α} {r : List β}, l.mapM f = some r → r.map g = l.map g'
  | [], r, h => by cases h; rfl
  | a :: l, r, h => by
      rw [List.mapM_cons] at h
      cases h1 : f a with
      | none => rw [h1] at h; cases h
      | some b =>
          cases h2 : l.mapM f with
          | none => rw [h1, h2] at h; cases h
          | some bs =>
              rw [h1, h2] at h
              cases h
              rw [List.map_cons, List.map_cons, hg a b h1, mapM_map_eq hg h2]

/-- **C105**, the templates are the files with the extension `cpp`, by their names without it, in the order of the
directory. -/
theorem C105_templates {instances : Str → Nat → Str} {dir : List (Str × Str)} {loaded : List Loaded}
    (h : loadAll instances dir = some loaded) :
    loaded.map (fun l => l.template.name ++ lit ".cpp") = (dir.map Prod.fst).filter fun f => (lit ".cpp").isSuffixOf f := by
  have : loaded.map (fun l => l.template.name ++ lit ".cpp") = (templatesIn dir).map fun t => t.1 ++ lit ".cpp" :=
    mapM_map_eq (fun x y hy => by rw [(load_eq hy).1]) h
  rw [this, templatesIn, List.map_map, List.filter_map]
  refine List.map_congr_left fun f hf => ?_
  have hs := (List.mem_filter.1 hf).2
  obtain ⟨u, e⟩ := List.isSuffixOf_iff_suffix.1 hs
  dsimp only [Function.comp]
  rw [← e]
  simp [lit]

/-- **C105**, what is generated from a directory meets what C90 and C102 ask for: the templates have different names, and
none has a value of `n` twice. -/
theorem C105_distinct {instances : Str → Nat → Str} {dir : List (Str × Str)} (hd : (dir.map Prod.fst).Nodup)
    {loaded : List Loaded} (h : loadAll instances dir = some loaded) :
    ((loaded.map Loaded.template).map Template.name).Nodup ∧
      ∀ l ∈ loaded, l.template.range.Pairwise (· < ·) ∧ l.template.modes ≠ [] := by
  constructor
  · have hn : (loaded.map (fun l => l.template.name ++ lit ".cpp")).Nodup := by
      rw [C105_templates h]
      exact List.Pairwise.filter _ hd
    rw [List.map_map]
    unfold List.Nodup at hn ⊢
    rw [List.pairwise_map] at hn ⊢
    exact hn.imp fun h e => h (congrArg (· ++ lit ".cpp") e)
  · intro l hl
    obtain ⟨t, -, ht⟩ := mapM_mem h l hl
    obtain ⟨-, hm, hr, -⟩ := load_eq ht
    exact ⟨range_sorted hr, C105_some_mode hm⟩

/-- **C105**, all in all: the diagrams of the benchmarks in a directory are those that C102 says, unless a template has a
mode twice or `bmp` or `slt` in its name. -/
theorem C105_diagrams {M : Type} {measure : Str → Bool → Option M} {files : List Str} {results : List (Str × M)}
    {instances : Str → Nat → Str} {dir : List (Str × Str)} (hd : (dir.map Prod.fst).Nodup)
    {loaded : List Loaded} (h : loadAll instances dir = some loaded)
    (hg : ∀ l ∈ loaded, l.template.modes.Nodup ∧ ¬ Has l.template.name (lit "bmp") ∧ ¬ Has l.template.name (lit "slt"))
    (hf : MeasuredFiles (loaded.map Loaded.template) files) (hb : benchmark measure files = some results)
    (hno : ∀ f ∈ files, measure f true = none) {l : Loaded} (hl : l ∈ loaded) :
    ∃ cs, curves (configOf l.template) results = some cs ∧
      Diagram measure l.template (l.template.modes.map fun m => (m, false)) cs := by
  obtain ⟨h1, h2⟩ := C105_distinct hd h
  refine C102_without h1 ?_ hf hb hno (List.mem_map_of_mem hl)
  intro t ht
  obtain ⟨l, hl, rfl⟩ := List.mem_map.1 ht
  exact ⟨(h2 l hl).1, (hg l hl).1, (hg l hl).2.1, (hg l hl).2.2⟩

/-! ### Concrete cases -/

/-- The comments of `tools/benchmark/src/length128.cpp`, with other numbers and blanks. -/
def sampleLines : List Str :=
  [lit "// n in [007..20), step 5", lit "", lit "  //x_axis_label:\t Length of the 128 strings ", lit "// desc: 128 strings.",
    lit "// modes: BOOST_METAPARSE_STRING , manual", lit "// desc: another one", lit "TEST_STRING($random_string($n))"]

/-- The text of them, with the ends of lines of Unix. -/
def sampleContent : Str := sampleLines.flatMap fun l => l ++ ['\n']

theorem sample_text : TextOf sampleLines sampleContent := by
  have : ∀ ls : List Str, (∀ l ∈ ls, '\n' ∉ l ∧ '\r' ∉ l) → TextOf ls (ls.flatMap fun l => l ++ ['\n']) := by
    intro ls
    induction ls with
    | nil => exact fun _ => .nil
    | cons l ls ih =>
        intro h
        rw [List.flatMap_cons, List.append_assoc]
        exact .unix (h l List.mem_cons_self).1 (h l List.mem_cons_self).2 (ih fun x hx => h x (List.mem_cons_of_mem _ hx))
  exact this _ (by decide +kernel)

theorem sample_range : RangeLine (lit "// n in [007..20), step 5") 7 20 5 := by
  refine ⟨[], [' '], [' '], [' '], [' '], [' '], [], lit "007", lit "20", lit "5", by decide +kernel, ?_, ?_, ?_, ?_, ?_, ?_, ?_,
    by decide, by decide, by decide, ⟨by decide, ?_, by decide +kernel⟩, ⟨by decide, ?_, by decide +kernel⟩,
    ⟨by decide, ?_, by decide +kernel⟩⟩ <;> first | (unfold Blanks; decide +kernel) | decide +kernel

example : ∃ r, rangeOf sampleContent = some r ∧ r.Pairwise (· < ·) ∧ ∀ x, x ∈ r ↔ x < 20 ∧ ∃ k, x = 7 + k * 5 :=
  C105_range sample_text ⟨⟨7, 20, 5, sample_range⟩, [], _, rfl, by simp⟩ sample_range (by decide)

example : rangeOf sampleContent = some [7, 12, 17] := by decide +kernel

theorem zero_range : RangeLine (lit "//\tn in[0..9), step 0") 0 9 0 := by
  refine ⟨[], ['\t'], [' '], [], [' '], [' '], [], lit "0", lit "9", lit "0", by decide +kernel, ?_, ?_, ?_, ?_, ?_, ?_, ?_,
    by decide, by decide, by decide, ⟨by decide, ?_, by decide +kernel⟩, ⟨by decide, ?_, by decide +kernel⟩,
    ⟨by decide, ?_, by decide +kernel⟩⟩ <;> first | (unfold Blanks; decide +kernel) | decide +kernel

example : rangeOf (lit "//\tn in[0..9), step 0") = none :=
  C105_no_step (.last (by decide) (by decide +kernel) (by decide +kernel)) ⟨⟨0, 9, 0, zero_range⟩, [], [], rfl, by simp⟩
    zero_range

/-- There is no blank before `step`. -/
example : rangeOf (lit "// n in [0..9),step 2") = none := by
  refine C105_no_range (.last (by decide) (by decide +kernel) (by decide +kernel)) ?_
  intro l hl h
  obtain ⟨a, b, s, h⟩ := h
  obtain ⟨da, db, ds, h, -⟩ := match_rangeLine h
  rw [List.mem_singleton.1 hl] at h
  revert h
  rw [show matchItems rangeRegex (lit "// n in [0..9),step 2") = none by decide +kernel]
  exact nofun

theorem sample_label : PropertyLine (lit "x_axis_label") (lit "  //x_axis_label:\t Length of the 128 strings ")
    (lit "Length of the 128 strings ") :=
  ⟨[' ', ' '], [], ['\t', ' '], by decide +kernel, by unfold Blanks; decide +kernel, by unfold Blanks; decide +kernel,
    by unfold Blanks; decide +kernel, fun c t e => by
      rw [show lit "Length of the 128 strings " = 'L' :: lit "ength of the 128 strings " by decide +kernel] at e
      cases e; decide⟩

/-- The blank at the end stays. -/
example : property (lit "x_axis_label") sampleContent = some (lit "Length of the 128 strings ") := by
  refine C105_property ⟨'x', lit "_axis_label", by decide +kernel, by decide, by decide⟩ sample_text ⟨⟨_, sample_label⟩, sampleLines.take 2,
    sampleLines.drop 3, by decide +kernel, ?_⟩ sample_label
  intro l hl h
  obtain ⟨v, h⟩ := h
  have := match_propertyLine ⟨'x', lit "_axis_label", by decide +kernel, by decide, by decide⟩ (no_newline sample_text (List.mem_of_mem_take hl)) h
  have hnone : ∀ l ∈ sampleLines.take 2, matchItems (propertyRegex (lit "x_axis_label")) l = none := by decide +kernel
  rw [hnone l hl] at this
  cases this

example : property (lit "desc") (lit "// description: no") = none := by
  refine C105_no_property (.last (by decide) (by decide +kernel) (by decide +kernel)) ?_
  intro l hl h
  obtain ⟨v, h⟩ := h
  rw [List.mem_singleton.1 hl] at h
  have := match_propertyLine ⟨'d', lit "esc", by decide +kernel, by decide, by decide⟩ (by decide +kernel) h
  rw [show matchItems (propertyRegex (lit "desc")) (lit "// description: no") = none by decide +kernel] at this
  cases this

theorem sample_modes : PropertyLine (lit "modes") (lit "// modes: BOOST_METAPARSE_STRING , manual")
    (lit "BOOST_METAPARSE_STRING , manual") :=
  ⟨[], [' '], [' '], by decide +kernel, by unfold Blanks; decide +kernel, by unfold Blanks; decide +kernel,
    by unfold Blanks; decide +kernel, fun c t e => by
      rw [show lit "BOOST_METAPARSE_STRING , manual" = 'B' :: lit "OOST_METAPARSE_STRING , manual" by decide +kernel] at e
      cases e; decide⟩

example : modesOf (lit "// modes: BOOST_METAPARSE_STRING , manual") = some [.bmp, .man] :=
  (C105_modes (.last (by decide) (by decide +kernel) (by decide +kernel)) ⟨⟨_, sample_modes⟩, [], [], rfl, by simp⟩ sample_modes
    _).2 (.cons (a := []) (b := [' ']) (m := .bmp) (s := lit " manual") (by simp) (by decide +kernel)
      (.one (a := [' ']) (b := []) (m := .man) (by decide +kernel) (by simp)))

example : ∃ ms, modesOf sampleContent = some ms ∧ ms ≠ [] :=
  ⟨[.bmp, .man], by decide +kernel, C105_some_mode (content := sampleContent) (by decide +kernel)⟩

/-- What is generated from a directory with one template and another file. -/
theorem sample_load : loadAll (fun _ _ => []) [(lit "readme.txt", []), (lit "length.cpp", sampleContent)] = some
    [⟨⟨lit "length", [7, 12, 17], [.bmp, .man], fun _ => []⟩, lit "Length of the 128 strings ", lit "128 strings."⟩] := by
  unfold loadAll
  rw [show templatesIn [(lit "readme.txt", []), (lit "length.cpp", sampleContent)] = [(lit "length", sampleContent)] by
    decide +kernel, List.mapM_cons]
  unfold load
  rw [show modesOf (lit "length", sampleContent).2 = some [.bmp, .man] by decide +kernel,
    show rangeOf (lit "length", sampleContent).2 = some [7, 12, 17] by decide +kernel,
    show property (lit "x_axis_label") (lit "length", sampleContent).2 = some (lit "Length of the 128 strings ") by
      decide +kernel,
    show property (lit "desc") (lit "length", sampleContent).2 = some (lit "128 strings.") by decide +kernel]
  rfl

example := C105_templates sample_load

example := C105_distinct (by decide +kernel) sample_load

example : ∃ (files : List Str) (results : List (Str × Nat)) (cs : List (Str × List (Nat × Nat))),
    MeasuredFiles [⟨lit "length", [7, 12, 17], [.bmp, .man], fun _ => []⟩] files ∧ files.length = 6 ∧
    curves (configOf ⟨lit "length", [7, 12, 17], [.bmp, .man], fun _ => []⟩) results = some cs := by
  have hf : MeasuredFiles [⟨lit "length", [7, 12, 17], [.bmp, .man], fun _ => []⟩] (filesInDir ((allFiles
    [⟨lit "length", [7, 12, 17], [.bmp, .man], fun _ => []⟩]).map Prod.fst) (lit "cpp")) := List.Perm.refl _
  obtain ⟨cs, h, -⟩ := C105_diagrams (measure := fun f b => if b then none else some f.length)
    (results := (filesInDir ((allFiles [⟨lit "length", [7, 12, 17], [.bmp, .man], fun _ => []⟩]).map Prod.fst)
      (lit "cpp")).map fun f => (f, f.length)) (by decide +kernel) sample_load
    (fun l hl => by
      rw [List.mem_singleton.1 hl]
      exact ⟨by decide, fun h => absurd ((isIn_iff _ _).2 h) (by decide +kernel),
        fun h => absurd ((isIn_iff _ _).2 h) (by decide +kernel)⟩) hf (by decide +kernel) (fun _ _ => rfl)
    List.mem_cons_self
  exact ⟨_, _, cs, hf, by decide +kernel, h⟩

end Metaparse
