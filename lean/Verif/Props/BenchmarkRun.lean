import Verif.Lemmas.BenchmarkRun
/-!
# C102 and C103: the diagrams of the benchmarks

`tools/benchmark/benchmark.py` measures the files that `tools/benchmark/generate.py` writes, in any order, with and
without string literal templates, and plots a diagram for every template.
-/

namespace Metaparse

open Gen Bench

section

variable {M : Type} {measure : Str → Bool → Option M} {ts : List Template} {files : List Str} {results : List (Str × M)}

theorem measured_iff (hf : MeasuredFiles ts files) {f : Str} :
    f ∈ files ↔ ∃ t ∈ ts, ∃ n ∈ t.range, ∃ m ∈ t.modes, f = outFilename t.name n m := by
  rw [hf.mem_iff, filesInDir, List.mem_filter]
  constructor
  · rintro ⟨h, hs⟩
    obtain ⟨x, hx, rfl⟩ := List.mem_map.1 h
    obtain ⟨t, ht, hx⟩ := List.mem_flatMap.1 hx
    have : x.1 ∈ (filesOf t).map Prod.fst := List.mem_map_of_mem hx
    rw [filesOf_names] at this
    rcases List.mem_append.1 this with h | h
    · obtain ⟨n, hn, h⟩ := List.mem_flatMap.1 h
      obtain ⟨m, hm, e⟩ := List.mem_map.1 h
      exact ⟨t, ht, n, hn, m, hm, e.symm⟩
    · rw [List.mem_singleton.1 h] at hs
      obtain ⟨u, e⟩ := List.isSuffixOf_iff_suffix.1 hs
      have := congrArg List.getLast? e
      simp [lit] at this
  · rintro ⟨t, ht, n, hn, m, hm, rfl⟩
    refine ⟨?_, ?_⟩
    · rw [allFiles, List.map_flatMap]
      refine List.mem_flatMap.2 ⟨t, ht, ?_⟩
      rw [filesOf_names]
      exact List.mem_append_left _ (List.mem_flatMap.2 ⟨n, hn, List.mem_map_of_mem hm⟩)
    · exact List.isSuffixOf_iff_suffix.2 ⟨t.name ++ ['_'] ++ number n ++ ['_'] ++ m.identifier, by simp [outFilename, lit]⟩

theorem measured_nodup (hn : (ts.map Template.name).Nodup) (hts : ∀ t ∈ ts, GoodTemplate t) (hf : MeasuredFiles ts files) :
    files.Nodup := by
  refine (hf.nodup_iff).2 ?_
  refine List.Pairwise.filter _ (nodup_all hn fun t ht => ⟨?_, (hts t ht).modes⟩)
  exact (hts t ht).range.imp fun h e => by omega

theorem measured_no_clash (hts : ∀ t ∈ ts, GoodTemplate t) (hf : MeasuredFiles ts files) {f k : Str} (h : f ∈ files)
    (hb : isIn (lit "bmp") f = true) (hk : k ∈ files) : withTemplates f ≠ k := by
  obtain ⟨t, ht, n, -, m, -, rfl⟩ := (measured_iff hf).1 h
  obtain ⟨t', ht', n', -, m', -, rfl⟩ := (measured_iff hf).1 hk
  cases (bmp_outFilename (hts t ht).noBmp).1 hb
  intro e
  exact slt_outFilename (hts t' ht').noSlt (e ▸ has_withTemplates (hts t ht).noBmp)

theorem measured_plain (hn : (ts.map Template.name).Nodup) (hts : ∀ t ∈ ts, GoodTemplate t) (hf : MeasuredFiles ts files)
    (hb : benchmark measure files = some results) {f : Str} (h : f ∈ files) :
    (results.lookup f).isSome ∧ results.lookup f = measure f false :=
  loop_plain hb (measured_nodup hn hts hf) h fun _ hg hgb _ => measured_no_clash hts hf hg hgb h

theorem measured_templates (hn : (ts.map Template.name).Nodup) (hts : ∀ t ∈ ts, GoodTemplate t) (hf : MeasuredFiles ts files)
    (hb : benchmark measure files = some results)
    (ha : ∀ f ∈ files, isIn (lit "bmp") f = true → measure f true ≠ none) {t : Template} (ht : t ∈ ts) {n : Nat}
    (h : outFilename t.name n .bmp ∈ files) :
    (results.lookup (withTemplates (outFilename t.name n .bmp))).isSome ∧
      results.lookup (withTemplates (outFilename t.name n .bmp)) = measure (outFilename t.name n .bmp) true := by
  have hbmp := (bmp_outFilename (n := n) (m := .bmp) (hts t ht).noBmp).2 rfl
  refine loop_templates hb (measured_nodup hn hts hf) h hbmp rfl (fun hk => measured_no_clash hts hf h hbmp hk rfl) ?_ ha
  intro g hg hgb e
  obtain ⟨t', ht', n', -, m', -, rfl⟩ := (measured_iff hf).1 hg
  cases (bmp_outFilename (hts t' ht').noBmp).1 hgb
  obtain ⟨e1, e2⟩ := withTemplates_inj (hts t' ht').noBmp (hts t ht).noBmp e
  rw [e1, e2]

theorem measured_slt (hts : ∀ t ∈ ts, GoodTemplate t) (hf : MeasuredFiles ts files)
    (hb : benchmark measure files = some results) (h : (results.any fun r => isIn (lit "slt") r.1) = true) :
    ∃ f ∈ files, isIn (lit "bmp") f = true ∧ measure f true ≠ none := by
  obtain ⟨x, hx, hs⟩ := List.any_eq_true.1 h
  rcases loop_keys hb x hx with ⟨y, hy, -⟩ | hk | ⟨f, hf', h1, h2, -⟩
  · cases hy
  · obtain ⟨t, ht, n, -, m, -, e⟩ := (measured_iff hf).1 hk
    rw [e] at hs
    exact absurd ((isIn_iff _ _).1 hs) (slt_outFilename (hts t ht).noSlt)
  · exact ⟨f, hf', h1, h2⟩

/-- The points of one curve. -/
theorem shows_of {c : Config} {t : Template} {m : Mode} {b : Bool} {mode : Str} {name : Nat → Str}
    (hc : ∀ n ∈ t.range, ∃ f, c.files.lookup n = some f ∧ f.lookup mode = some (name n))
    (hr : ∀ n ∈ t.range, (results.lookup (name n)).isSome ∧
      results.lookup (name n) = measure (outFilename t.name n m) b) :
    ∃ ps, points c results mode t.range = some ps ∧ Bench.Shows measure t m b ps := by
  unfold points Bench.Shows
  generalize t.range = r at hc hr
  induction r with
  | nil => exact ⟨[], rfl, rfl⟩
  | cons n r ih =>
      obtain ⟨ps, e, hs⟩ := ih (fun x hx => hc x (List.mem_cons_of_mem _ hx)) fun x hx => hr x (List.mem_cons_of_mem _ hx)
      obtain ⟨f, h1, h2⟩ := hc n List.mem_cons_self
      obtain ⟨h3, h4⟩ := hr n List.mem_cons_self
      obtain ⟨v, hv⟩ := Option.isSome_iff_exists.1 h3
      refine ⟨(n, v) :: ps, ?_, ?_⟩
      · rw [List.mapM_cons, e, h1, Option.bind_some, h2, Option.bind_some, hv]
        rfl
      · rw [List.map_cons, List.map_cons, hs, ← h4, hv]

theorem diagram_append {t : Template} {l l' : List (Mode × Bool)} {cs cs' : List (Str × List (Nat × M))}
    (h : Diagram measure t l cs) (h' : Diagram measure t l' cs') : Diagram measure t (l ++ l') (cs ++ cs') := by
  induction h with
  | nil => exact h'
  | cons hs _ ih => exact .cons hs ih

theorem diagram_modes {c : Config} {t : Template} {modes : List Mode}
    (h : ∀ m ∈ modes, ∃ ps, points c results m.identifier t.range = some ps ∧ Bench.Shows measure t m false ps) :
    ∃ cs, ((modes.map fun m => (m.identifier, m.description)).mapM fun mode =>
        (points c results mode.1 t.range).map fun vals => (mode.2, vals)) = some cs ∧
      Diagram measure t (modes.map fun m => (m, false)) cs := by
  induction modes with
  | nil => exact ⟨[], rfl, .nil⟩
  | cons m modes ih =>
      obtain ⟨cs, e, hd⟩ := ih fun x hx => h x (List.mem_cons_of_mem _ hx)
      obtain ⟨ps, e1, hs⟩ := h m List.mem_cons_self
      refine ⟨(m.description, ps) :: cs, ?_, ?_⟩
      · rw [List.map_cons, List.mapM_cons, e, e1]
        rfl
      · rw [show m.description = legend m false by cases m <;> rfl]
        exact .cons hs hd

theorem identifier_ne {m m' : Mode} (h : m ≠ m') : m.identifier ≠ m'.identifier := by
  cases m <;> cases m' <;> first | exact absurd rfl h | decide

theorem lookup_identifier {β : Type} (g : Mode → β) : ∀ {l : List Mode} {m : Mode}, m ∈ l →
    (l.map fun m => (m.identifier, g m)).lookup m.identifier = some (g m)
  | m' :: l, m, h => by
      rw [List.map_cons, List.lookup_cons]
      by_cases e : m = m'
      · subst e; simp
      · have e2 : (m.identifier == m'.identifier) = false := beq_eq_false_iff_ne.2 (identifier_ne e)
        rw [e2]
        exact lookup_identifier g ((List.mem_cons.1 h).resolve_left e)

theorem sorted_range {t : Template} (h : GoodTemplate t) : (t.range.mergeSort fun a b => decide (a ≤ b)) = t.range :=
  List.mergeSort_of_pairwise (h.range.imp fun h => by simpa using Nat.le_of_lt h)

theorem config_keys {t : Template} : (configOf t).files.map Prod.fst = t.range := by
  simp [configOf, Function.comp_def]

theorem no_slt_key {t : Template} {β : Type} (g : Mode → β) : ∀ x ∈ t.modes.map fun m => (m.identifier, g m), x.1 ≠ lit "slt" := by
  intro x hx
  obtain ⟨m, -, rfl⟩ := List.mem_map.1 hx
  cases m
  · exact (by decide : Mode.bmp.identifier ≠ lit "slt")
  · exact (by decide : Mode.man.identifier ≠ lit "slt")

/-- The diagram without string literal templates. -/
theorem diagram_plain (hn : (ts.map Template.name).Nodup) (hts : ∀ t ∈ ts, GoodTemplate t) (hf : MeasuredFiles ts files)
    (hb : benchmark measure files = some results) {t : Template} (ht : t ∈ ts)
    (hc : addTemplates (configOf t) results = some (configOf t)) :
    ∃ cs, curves (configOf t) results = some cs ∧ Diagram measure t (t.modes.map fun m => (m, false)) cs := by
  unfold curves
  rw [hc, Option.bind_some, config_keys, sorted_range (hts t ht)]
  refine diagram_modes fun m hm => shows_of (name := fun n => outFilename t.name n m) (fun n hr => ⟨_,
    lookup_map_key (fun n => t.modes.map fun m : Mode => (m.identifier, outFilename t.name n m)) hr,
    lookup_identifier (fun m => outFilename t.name n m) hm⟩) fun n hr => ?_
  exact measured_plain hn hts hf hb ((measured_iff hf).2 ⟨t, ht, n, hr, m, hm, rfl⟩)

/-- **C102.** Where string literal templates do not work, a diagram has one curve for each mode of the template, with its
name in the legend, and the points of the curve are the measurements of the files that were generated for this mode. -/
theorem C102_without (hn : (ts.map Template.name).Nodup) (hts : ∀ t ∈ ts, GoodTemplate t) (hf : MeasuredFiles ts files)
    (hb : benchmark measure files = some results) (hno : ∀ f ∈ files, measure f true = none) {t : Template} (ht : t ∈ ts) :
    ∃ cs, curves (configOf t) results = some cs ∧ Diagram measure t (t.modes.map fun m => (m, false)) cs := by
  refine diagram_plain hn hts hf hb ht ?_
  unfold addTemplates
  rw [if_neg]
  intro h
  obtain ⟨f, hf', -, h2⟩ := measured_slt hts hf hb h
  exact h2 (hno f hf')

theorem bmp_first {t : Template} {n : Nat} : ((t.modes.map fun m => (m.identifier, outFilename t.name n m)).any fun x =>
    x.1 == lit "bmp") = true ↔ Mode.bmp ∈ t.modes := by
  rw [List.any_eq_true]
  constructor
  · rintro ⟨x, hx, e⟩
    obtain ⟨m, hm, rfl⟩ := List.mem_map.1 hx
    cases m
    · exact hm
    · exact absurd (show (Mode.man.identifier == lit "bmp") = true from e) (by decide)
  · exact fun h => ⟨_, List.mem_map_of_mem h, show (Mode.bmp.identifier == lit "bmp") = true by decide⟩

/-- The files with those for string literal templates. -/
theorem files_with {t : Template} (hm : Mode.bmp ∈ t.modes) :
    ((configOf t).files.mapM fun (f : Nat × List (Str × Str)) => (f.2.lookup (lit "bmp")).map fun name =>
        (f.1, assign f.2 (lit "slt") (withTemplates name))) =
      some (t.range.map fun n => (n, (t.modes.map fun m => (m.identifier, outFilename t.name n m)) ++
        [(lit "slt", withTemplates (outFilename t.name n .bmp))])) := by
  unfold configOf
  generalize t.range = r
  induction r with
  | nil => rfl
  | cons n r ih =>
      dsimp only at ih ⊢
      rw [List.map_cons, List.mapM_cons, ih]
      dsimp only
      rw [show lit "bmp" = Mode.bmp.identifier from rfl, lookup_identifier (fun m => outFilename t.name n m) hm]
      rw [Option.map_some, assign_new (no_slt_key _)]
      rfl

theorem addTemplates_with {t : Template} (hm : Mode.bmp ∈ t.modes) (hr : t.range ≠ [])
    (hs : (results.any fun r => isIn (lit "slt") r.1) = true) :
    addTemplates (configOf t) results = some
      ⟨t.range.map fun n => (n, (t.modes.map fun m => (m.identifier, outFilename t.name n m)) ++
        [(lit "slt", withTemplates (outFilename t.name n .bmp))]),
      (t.modes.map fun m => (m.identifier, m.description)) ++
        [(lit "slt", lit "Using BOOST_METAPARSE_STRING with string literal templates")]⟩ := by
  unfold addTemplates
  rw [if_pos hs]
  have hfiles := files_with hm
  have hmodes : assign (configOf t).modes (lit "slt") (lit "Using BOOST_METAPARSE_STRING with string literal templates") =
      (t.modes.map fun m => (m.identifier, m.description)) ++
        [(lit "slt", lit "Using BOOST_METAPARSE_STRING with string literal templates")] := assign_new (no_slt_key _)
  rw [hmodes, hfiles]
  cases hr' : t.range with
  | nil => exact absurd hr' hr
  | cons n r =>
      have : (configOf t).files = (n, t.modes.map fun m => (m.identifier, outFilename t.name n m)) ::
          (r.map fun n => (n, t.modes.map fun m => (m.identifier, outFilename t.name n m))) := by
        unfold configOf; rw [hr']; rfl
      rw [this]
      dsimp only
      rw [if_pos (bmp_first.2 hm)]
      rfl

/-- **C102**, where they work, a template that has the mode with the macro has one more curve: the measurements of the
same files with string literal templates. -/
theorem C102_with (hn : (ts.map Template.name).Nodup) (hts : ∀ t ∈ ts, GoodTemplate t) (hf : MeasuredFiles ts files)
    (hb : benchmark measure files = some results)
    (ha : ∀ t ∈ ts, ∀ n ∈ t.range, Mode.bmp ∈ t.modes → measure (outFilename t.name n .bmp) true ≠ none)
    {t : Template} (ht : t ∈ ts) (hr : t.range ≠ []) :
    ∃ cs, curves (configOf t) results = some cs ∧ Diagram measure t
      ((t.modes.map fun m => (m, false)) ++ if Mode.bmp ∈ t.modes then [(.bmp, true)] else []) cs := by
  have ha' : ∀ f ∈ files, isIn (lit "bmp") f = true → measure f true ≠ none := by
    intro f hf' hfb
    obtain ⟨t', ht', n, hr', m, hm, rfl⟩ := (measured_iff hf).1 hf'
    cases (bmp_outFilename (hts t' ht').noBmp).1 hfb
    exact ha t' ht' n hr' hm
  by_cases hm : Mode.bmp ∈ t.modes
  · rw [if_pos hm]
    obtain ⟨n, hnr⟩ := List.exists_mem_of_ne_nil _ hr
    have hs : (results.any fun r => isIn (lit "slt") r.1) = true := by
      obtain ⟨h1, -⟩ := measured_templates hn hts hf hb ha' ht ((measured_iff hf).2 ⟨t, ht, n, hnr, _, hm, rfl⟩)
      obtain ⟨v, hv⟩ := Option.isSome_iff_exists.1 h1
      exact List.any_eq_true.2 ⟨_, mem_of_lookup hv, (isIn_iff _ _).2 (has_withTemplates (hts t ht).noBmp)⟩
    unfold curves
    rw [addTemplates_with hm hr hs, Option.bind_some]
    dsimp only
    rw [List.map_map]
    rw [show (t.range.map (Prod.fst ∘ fun n => (n, (t.modes.map fun m => (m.identifier, outFilename t.name n m)) ++
        [(lit "slt", withTemplates (outFilename t.name n .bmp))]))) = t.range by simp [Function.comp_def],
      sorted_range (hts t ht), List.mapM_append]
    have key := fun n (hr : n ∈ t.range) => lookup_map_key (fun n => (t.modes.map fun m =>
      (m.identifier, outFilename t.name n m)) ++ [(lit "slt", withTemplates (outFilename t.name n .bmp))]) hr
    obtain ⟨cs, e, hd⟩ := diagram_modes (measure := measure) (results := results) (t := t) (modes := t.modes) (c :=
      ⟨t.range.map fun n => (n, (t.modes.map fun m => (m.identifier, outFilename t.name n m)) ++
        [(lit "slt", withTemplates (outFilename t.name n .bmp))]),
      (t.modes.map fun m => (m.identifier, m.description)) ++
        [(lit "slt", lit "Using BOOST_METAPARSE_STRING with string literal templates")]⟩) (fun m hm' =>
      shows_of (name := fun n => outFilename t.name n m) (fun n hr => ⟨_, key n hr, by
        rw [List.lookup_append, lookup_identifier (fun m => outFilename t.name n m) hm', Option.some_or]⟩) fun n hr =>
        measured_plain hn hts hf hb ((measured_iff hf).2 ⟨t, ht, n, hr, m, hm', rfl⟩))
    obtain ⟨ps, e1, hs1⟩ := shows_of (measure := measure) (results := results) (t := t) (m := .bmp) (b := true)
      (mode := lit "slt") (name := fun n => withTemplates (outFilename t.name n .bmp)) (c :=
      ⟨t.range.map fun n => (n, (t.modes.map fun m => (m.identifier, outFilename t.name n m)) ++
        [(lit "slt", withTemplates (outFilename t.name n .bmp))]),
      (t.modes.map fun m => (m.identifier, m.description)) ++
        [(lit "slt", lit "Using BOOST_METAPARSE_STRING with string literal templates")]⟩) (fun n hr => ⟨_, key n hr, by
        rw [List.lookup_append, List.lookup_eq_none_iff.2 (fun p hp => bne_iff_ne.2 fun e => no_slt_key _ p hp e.symm)]
        rfl⟩) fun n hr => measured_templates hn hts hf hb ha' ht ((measured_iff hf).2 ⟨t, ht, n, hr, _, hm, rfl⟩)
    refine ⟨cs ++ [(legend .bmp true, ps)], ?_, diagram_append hd (.cons hs1 .nil)⟩
    rw [e, List.mapM_cons, e1]
    rfl
  · rw [if_neg hm, List.append_nil]
    refine diagram_plain hn hts hf hb ht ?_
    unfold addTemplates
    split
    · cases hr' : t.range with
      | nil => exact absurd hr' hr
      | cons n r =>
          have : (configOf t).files = (n, t.modes.map fun m => (m.identifier, outFilename t.name n m)) ::
              (r.map fun n => (n, t.modes.map fun m => (m.identifier, outFilename t.name n m))) := by
            unfold configOf; rw [hr']; rfl
          rw [this]
          dsimp only
          rw [if_neg fun h => hm (bmp_first.1 h)]
    · rfl

/-- **C102**, where they work only for some of the files, there are no diagrams: a file that was not measured is a
`KeyError`. -/
theorem C102_sometimes (hts : ∀ t ∈ ts, GoodTemplate t) (hf : MeasuredFiles ts files)
    (hb : benchmark measure files = some results) {k : Str} (hk : (results.lookup k).isSome) (hk' : Has k (lit "slt"))
    {t : Template} (ht : t ∈ ts) {n : Nat} (hr : n ∈ t.range) (hm : Mode.bmp ∈ t.modes)
    (hno : measure (outFilename t.name n .bmp) true = none) : curves (configOf t) results = none := by
  have hs : (results.any fun r => isIn (lit "slt") r.1) = true := by
    obtain ⟨v, hv⟩ := Option.isSome_iff_exists.1 hk
    exact List.any_eq_true.2 ⟨_, mem_of_lookup hv, (isIn_iff _ _).2 hk'⟩
  have hl : results.lookup (withTemplates (outFilename t.name n .bmp)) = none := by
    refine Eq.trans (loop_untouched hb ?_ ?_) rfl
    · intro h
      exact measured_no_clash hts hf ((measured_iff hf).2 ⟨t, ht, n, hr, _, hm, rfl⟩)
        ((bmp_outFilename (hts t ht).noBmp).2 rfl) h rfl
    · intro g hg hgb hgm e
      obtain ⟨t', ht', n', -, m', -, rfl⟩ := (measured_iff hf).1 hg
      cases (bmp_outFilename (hts t' ht').noBmp).1 hgb
      obtain ⟨e1, e2⟩ := withTemplates_inj (hts t' ht').noBmp (hts t ht).noBmp e
      rw [e1, e2] at hgm
      exact hgm hno
  unfold curves
  rw [addTemplates_with hm (List.ne_nil_of_mem hr) hs, Option.bind_some]
  dsimp only
  rw [List.map_map]
  rw [show (t.range.map (Prod.fst ∘ fun n => (n, (t.modes.map fun m => (m.identifier, outFilename t.name n m)) ++
      [(lit "slt", withTemplates (outFilename t.name n .bmp))]))) = t.range by simp [Function.comp_def],
    sorted_range (hts t ht)]
  refine mapM_fails (x := (lit "slt", lit "Using BOOST_METAPARSE_STRING with string literal templates")) (by simp) ?_
  rw [Option.map_eq_none_iff]
  unfold points
  refine mapM_fails hr ?_
  dsimp only
  rw [lookup_map_key (fun n => (t.modes.map fun m =>
      (m.identifier, outFilename t.name n m)) ++ [(lit "slt", withTemplates (outFilename t.name n .bmp))]) hr,
    Option.bind_some, List.lookup_append,
    List.lookup_eq_none_iff.2 (fun p hp => bne_iff_ne.2 fun e => no_slt_key _ p hp e.symm)]
  show ((some _).bind fun name => _) = none
  rw [Option.bind_some, hl]
  rfl

end

/-! ### Concrete cases -/

/-- A template with both modes. -/
def shortTemplate : Template := ⟨lit "length", [9, 10], [.bmp, .man], fun _ => []⟩

/-- A template without the macro. -/
def manualTemplate : Template := ⟨lit "manual", [7], [.man], fun _ => []⟩

/-- The files of both, in another order than that in which they are written. -/
def shuffledFiles : List Str :=
  [lit "length_10_man.cpp", lit "manual_7_man.cpp", lit "length_9_bmp.cpp", lit "length_10_bmp.cpp", lit "length_9_man.cpp"]

theorem shuffled_measured : MeasuredFiles [shortTemplate, manualTemplate] shuffledFiles := by
  unfold MeasuredFiles
  decide +kernel

theorem good_templates : ∀ t ∈ [shortTemplate, manualTemplate], GoodTemplate t := by
  intro t ht
  simp only [List.mem_cons, List.not_mem_nil, or_false] at ht
  rcases ht with rfl | rfl
  · exact ⟨by decide, by decide, fun h => absurd ((isIn_iff _ _).2 h) (by decide +kernel),
      fun h => absurd ((isIn_iff _ _).2 h) (by decide +kernel)⟩
  · exact ⟨by decide, by decide, fun h => absurd ((isIn_iff _ _).2 h) (by decide +kernel),
      fun h => absurd ((isIn_iff _ _).2 h) (by decide +kernel)⟩

example : benchmark (fun f b => if b then none else some f.length) shuffledFiles = some
    [(lit "length_10_man.cpp", 17), (lit "manual_7_man.cpp", 16), (lit "length_9_bmp.cpp", 16), (lit "length_10_bmp.cpp", 17),
      (lit "length_9_man.cpp", 16)] := by decide +kernel

example : ∃ results, benchmark (fun f b => if b then none else some f.length) shuffledFiles = some results ∧
    ∃ cs, curves (configOf shortTemplate) results = some cs ∧
      Diagram (fun f b => if b then none else some f.length) shortTemplate [(.bmp, false), (.man, false)] cs := by
  have hb : benchmark (fun f b => if b then none else some f.length) shuffledFiles = some
    [(lit "length_10_man.cpp", 17), (lit "manual_7_man.cpp", 16), (lit "length_9_bmp.cpp", 16), (lit "length_10_bmp.cpp", 17),
      (lit "length_9_man.cpp", 16)] := by decide +kernel
  exact ⟨_, hb, C102_without (by decide) good_templates shuffled_measured hb (fun _ _ => rfl) (by simp)⟩

example : ∃ results, benchmark (fun f b => if b then some (f.length + 100) else some f.length) shuffledFiles = some results ∧
    results.lookup (lit "length_9_slt.cpp") = some 116 ∧
    ∃ cs, curves (configOf shortTemplate) results = some cs ∧
      Diagram (fun f b => if b then some (f.length + 100) else some f.length) shortTemplate
        [(.bmp, false), (.man, false), (.bmp, true)] cs := by
  have hb : benchmark (fun f b => if b then some (f.length + 100) else some f.length) shuffledFiles = some
    [(lit "length_10_man.cpp", 17), (lit "manual_7_man.cpp", 16), (lit "length_9_bmp.cpp", 16), (lit "length_9_slt.cpp", 116),
      (lit "length_10_bmp.cpp", 17), (lit "length_10_slt.cpp", 117), (lit "length_9_man.cpp", 16)] := by decide +kernel
  exact ⟨_, hb, by decide +kernel, C102_with (by decide) good_templates shuffled_measured hb
    (fun _ _ _ _ _ => by simp) (by simp) (by decide)⟩

example : ∃ results, benchmark (fun f b => if b && f.length == 17 then none else some f.length) shuffledFiles =
      some results ∧ curves (configOf shortTemplate) results = none := by
  have hb : benchmark (fun f b => if b && f.length == 17 then none else some f.length) shuffledFiles = some
    [(lit "length_10_man.cpp", 17), (lit "manual_7_man.cpp", 16), (lit "length_9_bmp.cpp", 16), (lit "length_9_slt.cpp", 16),
      (lit "length_10_bmp.cpp", 17), (lit "length_9_man.cpp", 16)] := by decide +kernel
  exact ⟨_, hb, C102_sometimes good_templates shuffled_measured hb (k := lit "length_9_slt.cpp") (by decide +kernel)
    ((isIn_iff _ _).1 (by decide +kernel)) (by simp) (n := 10) (by decide) (by decide) (by decide +kernel)⟩

/-- **C102**, a template whose name has `slt` in it has no diagram where string literal templates do not work, although
all of its files are measured. -/
theorem C102_named_slt : ∃ (t : Template) (measure : Str → Bool → Option Nat) (files : List Str) (results : List (Str × Nat)),
    t.name = lit "slt" ∧ t.modes = [.bmp] ∧ MeasuredFiles [t] files ∧ benchmark measure files = some results ∧
      (∀ f ∈ files, (measure f false).isSome) ∧ curves (configOf t) results = none := by
  refine ⟨⟨lit "slt", [9], [.bmp], fun _ => []⟩, fun f b => if b then none else some f.length, [lit "slt_9_bmp.cpp"],
    [(lit "slt_9_bmp.cpp", 13)], rfl, rfl, ?_, by decide +kernel, by decide +kernel, ?_⟩
  · unfold MeasuredFiles; decide +kernel
  · unfold curves
    rw [show addTemplates (configOf ⟨lit "slt", [9], [.bmp], fun _ => []⟩) [(lit "slt_9_bmp.cpp", 13)] =
      some ⟨[(9, [(lit "bmp", lit "slt_9_bmp.cpp"), (lit "slt", lit "slt_9_slt.cpp")])],
        [(lit "bmp", lit "Using BOOST_METAPARSE_STRING"),
          (lit "slt", lit "Using BOOST_METAPARSE_STRING with string literal templates")]⟩ by rfl]
    rw [Option.bind_some]
    dsimp only
    rw [show (([(9, [(lit "bmp", lit "slt_9_bmp.cpp"), (lit "slt", lit "slt_9_slt.cpp")])] :
        List (Nat × List (Str × Str))).map Prod.fst) = [9] from rfl, List.mergeSort_singleton]
    decide +kernel

/-- **C102**, a template with a name that has `bmp` in it can spoil the diagram of another one: a value is shown that is not
the measurement of its file. -/
theorem C102_named_bmp : ∃ (t t' : Template) (measure : Str → Bool → Option Nat) (files : List Str)
    (results : List (Str × Nat)) (cs : List (Str × List (Nat × Nat))),
    t.name = lit "bmp" ∧ t'.name = lit "slt" ∧ t'.range = [9] ∧ t'.modes = [.man] ∧ MeasuredFiles [t, t'] files ∧
      benchmark measure files = some results ∧ curves (configOf t') results = some cs ∧
      measure (outFilename t'.name 9 .man) false = some 1 ∧ cs = [(legend .man false, [(9, 2)])] := by
  refine ⟨⟨lit "bmp", [9], [.man], fun _ => []⟩, ⟨lit "slt", [9], [.man], fun _ => []⟩, fun _ b => some (if b then 2 else 1),
    [lit "slt_9_man.cpp", lit "bmp_9_man.cpp"], [(lit "slt_9_man.cpp", 2), (lit "bmp_9_man.cpp", 1)], _,
    rfl, rfl, rfl, rfl, ?_, by decide +kernel, ?_, rfl, rfl⟩
  · unfold MeasuredFiles; decide +kernel
  · unfold curves
    rw [show addTemplates (configOf ⟨lit "slt", [9], [.man], fun _ => []⟩)
      [(lit "slt_9_man.cpp", 2), (lit "bmp_9_man.cpp", 1)] =
      some ⟨[(9, [(lit "man", lit "slt_9_man.cpp")])], [(lit "man", lit "Generating strings manually")]⟩ by rfl]
    rw [Option.bind_some]
    dsimp only
    rw [show (([(9, [(lit "man", lit "slt_9_man.cpp")])] :
        List (Nat × List (Str × Str))).map Prod.fst) = [9] from rfl, List.mergeSort_singleton]
    decide +kernel

/-- **C102**, a template without files has no diagram where string literal templates work for another one. -/
theorem C102_no_files {M : Type} {results : List (Str × M)} {k : Str} (hk : (results.lookup k).isSome)
    (hk' : Has k (lit "slt")) {t : Template} (ht : t.range = []) : curves (configOf t) results = none := by
  have hs : (results.any fun r => isIn (lit "slt") r.1) = true := by
    obtain ⟨v, hv⟩ := Option.isSome_iff_exists.1 hk
    exact List.any_eq_true.2 ⟨_, mem_of_lookup hv, (isIn_iff _ _).2 hk'⟩
  unfold curves addTemplates
  rw [if_pos hs, show (configOf t).files = [] by unfold configOf; rw [ht]; rfl]
  rfl

example : curves (configOf ⟨lit "empty", [], [.bmp], fun _ => []⟩) [(lit "length_9_slt.cpp", 1)] = none :=
  C102_no_files (k := lit "length_9_slt.cpp") (by decide +kernel) ((isIn_iff _ _).1 (by decide +kernel)) rfl

/-! ### Joining the pictures -/

section

variable {C : Type}

theorem pasteAll_size : ∀ (imgs : List (Image C)) (joined : Image C) (left : Nat),
    (pasteAll joined left imgs).width = joined.width ∧ (pasteAll joined left imgs).height = joined.height
  | [], _, _ => ⟨rfl, rfl⟩
  | img :: imgs, joined, left => pasteAll_size imgs (paste joined img left) _

theorem pasteAll_before : ∀ (imgs : List (Image C)) (joined : Image C) (left : Nat) {x : Nat} (y : Nat), x < left →
    (pasteAll joined left imgs).pixel x y = joined.pixel x y
  | [], _, _, _, _, _ => rfl
  | img :: imgs, joined, left, x, y, h => by
      rw [pasteAll, pasteAll_before imgs _ _ y (by omega)]
      exact if_neg (by omega)

theorem pasteAll_pixel : ∀ (l : List (Image C)) (img : Image C) (r : List (Image C)) (joined : Image C) (left x y : Nat),
    x < img.width → (pasteAll joined left (l ++ img :: r)).pixel (left + (l.map Image.width).sum + x) y =
      if y < img.height then img.pixel x y else joined.pixel (left + (l.map Image.width).sum + x) y
  | [], img, r, joined, left, x, y, h => by
      rw [List.nil_append, pasteAll, pasteAll_before r _ _ y (by simp; omega)]
      simp only [paste, List.map_nil, List.sum_nil, Nat.add_zero]
      by_cases hy : y < img.height
      · rw [if_pos ⟨by omega, by omega, hy⟩, if_pos hy, Nat.add_sub_cancel_left]
      · rw [if_neg (fun h => hy h.2.2), if_neg hy]
  | i :: l, img, r, joined, left, x, y, h => by
      have := pasteAll_pixel l img r (paste joined i left) (left + i.width) x y h
      rw [List.cons_append, pasteAll, List.map_cons, List.sum_cons, ← Nat.add_assoc, this]
      split
      · rfl
      · exact if_neg (by omega)

theorem foldl_max : ∀ (hs : List Nat) (h : Nat), hs.foldl max h ∈ h :: hs ∧ ∀ x ∈ h :: hs, x ≤ hs.foldl max h
  | [], h => ⟨List.mem_singleton.2 rfl, fun x hx => Nat.le_of_eq (List.mem_singleton.1 hx)⟩
  | a :: hs, h => by
      obtain ⟨h1, h2⟩ := foldl_max hs (max h a)
      rw [List.foldl_cons]
      constructor
      · rcases List.mem_cons.1 h1 with e | e
        · rw [e]
          rcases Nat.le_total h a with h | h
          · rw [Nat.max_eq_right h]; simp
          · rw [Nat.max_eq_left h]; simp
        · exact List.mem_cons_of_mem _ (List.mem_cons_of_mem _ e)
      · intro x hx
        have hm := h2 (max h a) List.mem_cons_self
        rcases List.mem_cons.1 hx with rfl | hx
        · omega
        · rcases List.mem_cons.1 hx with rfl | hx
          · omega
          · exact h2 x (List.mem_cons_of_mem _ hx)

theorem join_eq {black : C} {images : List (Image C)} {w : Image C} (h : joinImages black images = some w) :
    ∃ k, k ∈ images.map Image.height ∧ (∀ x ∈ images.map Image.height, x ≤ k) ∧
      w = pasteAll ⟨(images.map Image.width).sum, k, fun _ _ => black⟩ 0 images := by
  unfold joinImages at h
  split at h
  · cases h
  · rename_i a hs e
    rw [e]
    obtain ⟨h1, h2⟩ := foldl_max hs a
    exact ⟨_, h1, h2, (Option.some.inj h).symm⟩

/-- **C103.** The joined picture has the pictures side by side, in their order and at the top: every one of them is to
the right of those before it and is shown completely. -/
theorem C103_side_by_side {black : C} {l r : List (Image C)} {img w : Image C}
    (h : joinImages black (l ++ img :: r) = some w) : ShownAt w img (l.map Image.width).sum := by
  obtain ⟨k, -, hk, rfl⟩ := join_eq h
  obtain ⟨hw, hh⟩ := pasteAll_size (l ++ img :: r) ⟨((l ++ img :: r).map Image.width).sum, k, fun _ _ => black⟩ 0
  refine ⟨?_, ?_, fun x y hx hy => ?_⟩
  · rw [hw]; simp
  · rw [hh]; exact hk _ (List.mem_map_of_mem (by simp))
  · have := pasteAll_pixel l img r ⟨((l ++ img :: r).map Image.width).sum, k, fun _ _ => black⟩ 0 x y hx
    rw [if_pos hy, Nat.zero_add] at this
    exact this

/-- **C103**, it is not larger than needed: as wide as all of them together and as high as the highest. -/
theorem C103_size {black : C} {images : List (Image C)} {w : Image C} (h : joinImages black images = some w) :
    w.width = (images.map Image.width).sum ∧ (∃ i ∈ images, i.height = w.height) ∧ ∀ i ∈ images, i.height ≤ w.height := by
  obtain ⟨k, hk, hk', rfl⟩ := join_eq h
  obtain ⟨hw, hh⟩ := pasteAll_size images ⟨(images.map Image.width).sum, k, fun _ _ => black⟩ 0
  rw [hw, hh]
  exact ⟨rfl, List.mem_map.1 hk, fun i hi => hk' _ (List.mem_map_of_mem hi)⟩

/-- **C103**, below a picture that is less high it is black. -/
theorem C103_below {black : C} {l r : List (Image C)} {img w : Image C} (h : joinImages black (l ++ img :: r) = some w)
    {x y : Nat} (hx : x < img.width) (hy : img.height ≤ y) : w.pixel ((l.map Image.width).sum + x) y = black := by
  obtain ⟨k, -, -, rfl⟩ := join_eq h
  have := pasteAll_pixel l img r ⟨((l ++ img :: r).map Image.width).sum, k, fun _ _ => black⟩ 0 x y hx
  rw [if_neg (by omega), Nat.zero_add] at this
  exact this

/-- **C103**, there is one whenever there are pictures. -/
theorem C103_joined {black : C} {images : List (Image C)} : joinImages black images = none ↔ images = [] := by
  cases images with
  | nil => exact ⟨fun _ => rfl, fun _ => rfl⟩
  | cons i l => exact ⟨fun h => by simp [joinImages] at h, fun h => by cases h⟩

end

/-- A picture of one colour. -/
def plainImage (w h c : Nat) : Image Nat := ⟨w, h, fun _ _ => c⟩

example : ∃ w, joinImages 0 [plainImage 2 3 7, plainImage 4 1 8] = some w ∧ w.width = 6 ∧ w.height = 3 ∧
    ShownAt w (plainImage 4 1 8) 2 ∧ w.pixel 3 0 = 8 ∧ w.pixel 3 1 = 0 ∧ w.pixel 1 2 = 7 := by
  refine ⟨_, rfl, rfl, rfl, ?_, rfl, rfl, rfl⟩
  exact C103_side_by_side (black := 0) (l := [plainImage 2 3 7]) (r := []) rfl

example : ∃ w, joinImages 0 [plainImage 2 3 7, plainImage 4 1 8] = some w ∧ w.pixel (2 + 1) 2 = 0 ∧
    w.width = ([plainImage 2 3 7, plainImage 4 1 8].map Image.width).sum :=
  ⟨_, rfl, C103_below (black := 0) (l := [plainImage 2 3 7]) (img := plainImage 4 1 8) (r := []) rfl (by decide) (by decide),
    (C103_size (black := 0) rfl).1⟩

example : joinImages 0 [plainImage 2 3 7] ≠ none := fun h => nomatch C103_joined.1 h

end Metaparse
