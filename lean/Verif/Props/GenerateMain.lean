import Verif.Lemmas.GenerateMain
import Verif.Props.GenerateSnippets

/-!
# C110: what a run of the generator of the tutorial does to the files

`tools/generate_all.py` deletes all headers in the directory of the headers, and writes headers, pages, copies of the
snippets and the text of the tutorial.
-/

namespace Metaparse

open Gen

variable {order : Files → Files} {dst doc name base : Str} {names : List Str} {d : Disk}

theorem header_not_qbk {n : Str} (h : IsHeader n) : ¬ lit ".qbk" <:+ n := by
  rintro ⟨s, hs⟩
  obtain ⟨t, ht⟩ := h
  rw [← ht] at hs
  have := congrArg List.getLast? hs
  simp [lit] at this

theorem copy_not_header {n : Str} (h : IsCopy base n) : ¬ IsHeader n := fun hh => by
  obtain ⟨k, rfl⟩ := h
  exact header_not_qbk hh (List.suffix_append _ _)

theorem page_not_header {n : Str} (h : IsPage n) : ¬ IsHeader n := fun hh => by
  obtain ⟨s, -, rfl⟩ := h
  exact header_not_qbk hh (List.suffix_append _ _)

theorem before_infix {base r : Str} (h : lit "before" <+: base ++ '_' :: r) : lit "before" <+: base := by
  rcases base with _ | ⟨a, _ | ⟨b, _ | ⟨c, _ | ⟨e, _ | ⟨f, _ | ⟨g, base⟩⟩⟩⟩⟩⟩ <;>
    simp [lit, List.cons_prefix_cons] at h ⊢
  exact h

theorem copy_not_page (hn : Named base name) (hb : ¬ lit "before" <+: name) {n : Str} (h : IsPage n) :
    ¬ IsCopy base n := by
  rintro ⟨k, hk⟩
  obtain ⟨s, -, rfl⟩ := h
  apply hb
  have h1 : lit "before" <+: base := by
    refine before_infix (r := digitsOf k ++ lit ".qbk") ⟨'_' :: (s ++ lit ".qbk"), ?_⟩
    simpa [copyName, lit] using hk
  rcases hn with rfl | ⟨rfl, -⟩
  · exact h1.trans (List.prefix_append _ _)
  · exact h1

/-- **C110.** Whatever the text of the tutorial is, whether the run succeeds or not, and wherever it stops: only headers
in the directory of the headers, pages, copies and the tutorial itself can be other files than before. -/
theorem C110_untouched (ho : AnyOrder order) (hb : Named base name) (listing : Option (List Str)) {p : Path}
    (hh : ¬ (p.1 = dst ∧ IsHeader p.2)) (hp : ¬ (p.1 = doc ∧ IsPage p.2)) (hc : ¬ (p.1 = doc ∧ IsCopy base p.2))
    (hs : p ≠ (doc, name)) : (runMain order dst doc name listing d).disk p = d p := by
  unfold runMain
  split
  · rw [base_of_named hb]
    refine next_other (delete_other hh _ _) ?_
    split
    · rfl
    · rename_i g hg
      have k := generate_keys hg
      refine next_other (write_other fun f hf he => ?_) ?_
      · subst he; exact hh ⟨rfl, k.isHeader f ((ho _).mem_iff.1 hf)⟩
      refine next_other (write_other fun f hf he => ?_) ?_
      · subst he; exact hp ⟨rfl, k.isPage f ((ho _).mem_iff.1 hf)⟩
      refine next_other (write_other fun f hf he => ?_) (writeFile_other hs)
      subst he; exact hc ⟨rfl, k.isCopy f ((ho _).mem_iff.1 hf)⟩
  · rfl

/-- **C110**, for a well-written tutorial the run succeeds, if no directory has the name of a generated file. -/
theorem C110_runs (ho : AnyOrder order) (hb : Named base name) (hl : Lists d dst names)
    (hw : NothingInTheWay d dst doc base) {tut : List Piece} (h : WellWritten tut) (hc : ∀ p ∈ tut, ClearPiece p)
    (hs : HasFile d (doc, name) (printTutorial tut).flatten) :
    (runMain order dst doc name (some names) d).fine = true := by
  obtain ⟨g, hg⟩ := C80_runs h hc base
  exact main_fine ho hl hb hw hs hg

theorem headers_get {tut : List Piece} (h : WellWritten tut) {g : Generated}
    (hg : generate base (printTutorial tut).flatten = some g) (n : Str) :
    g.headers.get n ≠ none ↔ ∃ k ∈ numbers tut, n = dotted '_' k ++ lit ".hpp" := by
  rw [(generate_headers h hg).1, genHeaders]
  constructor
  · intro hn
    refine Classical.byContradiction fun hex => hn ?_
    rw [genHeadersLoop_other]
    · rfl
    · intro s hs he
      obtain ⟨k, hk, rfl⟩ := List.mem_map.1 hs
      exact hex ⟨k, hk, he⟩
  · rintro ⟨k, hk, rfl⟩
    obtain ⟨pre, post, he⟩ := List.append_of_mem (List.mem_map_of_mem (f := dotted '_') hk)
    rw [he, genHeadersLoop_get]
    · exact fun he => by cases he
    · rw [← he]
      exact (List.nodup_cons.1 (names_nodup h)).2

theorem effect_header {g : Generated} (k : Keys base g) {n : Str} (hn : IsHeader n) (hs : (dst, n) ≠ (doc, name)) :
    effect dst doc name g d (dst, n) = (g.headers.get n).map .file := by
  have h1 : g.snippets.get n = none := by
    cases e : g.snippets.get n with
    | none => rfl
    | some c => exact absurd hn (copy_not_header (k.isCopy _ ((lookup_iff k.snippets).1 e)))
  have h2 : g.before.get n = none := by
    cases e : g.before.get n with
    | none => rfl
    | some c => exact absurd hn (page_not_header (k.isPage _ ((lookup_iff k.before).1 e)))
  have h3 : (lit ".hpp").isSuffixOf n = true := List.isSuffixOf_iff_suffix.2 hn
  unfold effect
  rw [Disk.set, if_neg hs]
  simp only [layered, cleared, h1, h2, h3, if_true, and_self]
  cases g.headers.get n <;> simp

/-- **C110**, after a run that succeeds there is a header for every numbered section of the tutorial and no other
header, whatever headers were there before. -/
theorem C110_headers (ho : AnyOrder order) (hb : Named base name) (hl : Lists d dst names) {tut : List Piece}
    (h : WellWritten tut) (hs : HasFile d (doc, name) (printTutorial tut).flatten)
    (hf : (runMain order dst doc name (some names) d).fine = true) {n : Str} (hn : IsHeader n)
    (hsep : dst = doc → n ≠ name) :
    (runMain order dst doc name (some names) d).disk (dst, n) ≠ none ↔
      ∃ k ∈ numbers tut, n = dotted '_' k ++ lit ".hpp" := by
  obtain ⟨src, g, h1, hg, he⟩ := main_effect ho hl hb hf
  rw [hs] at h1
  cases h1
  rw [he, effect_header (generate_keys hg) hn fun e => hsep (Prod.mk.inj e).1 (Prod.mk.inj e).2, ← headers_get h hg]
  cases g.headers.get n <;> simp

/-- **C110**, and the headers that are there have what was defined before their section: C80 for the files. -/
theorem C110_definitions (ho : AnyOrder order) (hb : Named base name) (hl : Lists d dst names) {a b : List Piece}
    {n : List Nat} {title : Str} (h : WellWritten (a ++ .heading n title :: b))
    (hs : HasFile d (doc, name) (printTutorial (a ++ .heading n title :: b)).flatten)
    (hf : (runMain order dst doc name (some names) d).fine = true) (hsep : dst = doc → ¬ IsHeader name)
    {ns : List (List Nat)} (hn : n ∈ ns) (hns : ∀ x ∈ ns, x = n ∨ x ∈ numbers a) (metashell : Bool) :
    Sees (fun f => fileAt (runMain order dst doc name (some names) d).disk (dst, f))
      (if metashell then [lit "__METASHELL"] else []) (including ns)
      ((definitions metashell a).flatMap fun ls => ls.flatMap words) := by
  obtain ⟨src, g, h1, hg, he⟩ := main_effect ho hl hb hf
  rw [hs] at h1
  cases h1
  refine (C80_headers h hg hn hns metashell).mono fun f t ht => ?_
  have k := generate_keys hg
  have hh : IsHeader f := k.isHeader _ ((lookup_iff k.headers).1 ht)
  rw [fileAt, he, effect_header k hh, ht]
  · rfl
  · intro e
    exact hsep (Prod.mk.inj e).1 ((Prod.mk.inj e).2 ▸ hh)

theorem effect_page {g : Generated} (k : Keys base g) (hb : Named base name) (hn : ¬ lit "before" <+: name) {n : Str}
    (hp : IsPage n) : effect dst doc name g d (doc, n) = match g.before.get n with
      | some t => some (.file t)
      | none => d (doc, n) := by
  have h1 : g.snippets.get n = none := by
    cases e : g.snippets.get n with
    | none => rfl
    | some c => exact absurd (k.isCopy _ ((lookup_iff k.snippets).1 e)) (copy_not_page hb hn hp)
  have h2 : g.headers.get n = none := by
    cases e : g.headers.get n with
    | none => rfl
    | some c => exact absurd (k.isHeader _ ((lookup_iff k.headers).1 e)) (page_not_header hp)
  have h3 : ¬ (lit ".hpp").isSuffixOf n = true := fun e => page_not_header hp (List.isSuffixOf_iff_suffix.1 e)
  have h4 : ((doc, n) : Path) ≠ (doc, name) := by
    intro e
    obtain ⟨s, -, rfl⟩ := hp
    rw [← (Prod.mk.inj e).2] at hn
    exact hn ⟨'_' :: (s ++ lit ".qbk"), by simp [lit]⟩
  unfold effect
  rw [Disk.set, if_neg h4]
  simp only [layered, cleared, h1, h2, h3, if_true]
  cases g.before.get n <;> simp

/-- The page of a section has the name of a page. -/
theorem isPage_pageName {n : List Nat} (hn : n ≠ []) : IsPage (pageName n) :=
  ⟨dotted '_' n, numbering_of_key (by rw [sectionKey_dotted hn]; rfl), rfl⟩

/-- **C110**, after a run that succeeds every section with definitions before it has its page: C81 for the files. The
other pages are as before: those of sections that are no longer there, or before which nothing is defined any more, are
not deleted. -/
theorem C110_pages (ho : AnyOrder order) (hb : Named base name) (hl : Lists d dst names) (hname : ¬ lit "before" <+: name)
    {a b : List Piece} {n : List Nat} {title : Str} (h : WellWritten (a ++ .heading n title :: b))
    (hs : HasFile d (doc, name) (printTutorial (a ++ .heading n title :: b)).flatten)
    (hf : (runMain order dst doc name (some names) d).fine = true) :
    (definitions true (inSections a) ≠ [] → ∃ page,
      HasFile (runMain order dst doc name (some names) d).disk (doc, pageName n) page ∧
      codeWords page = (definitions true (inSections a)).flatMap (fun ls => ls.flatMap words)) ∧
    (definitions true (inSections a) = [] →
      (runMain order dst doc name (some names) d).disk (doc, pageName n) = d (doc, pageName n)) := by
  obtain ⟨src, g, h1, hg, he⟩ := main_effect ho hl hb hf
  rw [hs] at h1
  cases h1
  have hn : n ≠ [] := numbers_ne_nil h.pieces n (by simp [numbers_append, numbers])
  obtain ⟨c1, c2⟩ := C81_pages h hg
  unfold HasFile
  rw [he, effect_page (generate_keys hg) hb hname (isPage_pageName hn)]
  constructor
  · intro hd
    obtain ⟨page, h3, h4, -⟩ := c2 hd
    exact ⟨page, by rw [h3], h4⟩
  · intro hd
    rw [c1 hd]

/-- **C110**, pages of numbers that no section has are not deleted. -/
theorem C110_old_pages (ho : AnyOrder order) (hb : Named base name) (hl : Lists d dst names)
    (hname : ¬ lit "before" <+: name) {tut : List Piece} (h : WellWritten tut)
    (hs : HasFile d (doc, name) (printTutorial tut).flatten)
    (hf : (runMain order dst doc name (some names) d).fine = true) {n : Str} (hp : IsPage n)
    (hn : ∀ k ∈ numbers tut, n ≠ pageName k) :
    (runMain order dst doc name (some names) d).disk (doc, n) = d (doc, n) := by
  obtain ⟨src, g, h1, hg, he⟩ := main_effect ho hl hb hf
  rw [hs] at h1
  cases h1
  rw [he, effect_page (generate_keys hg) hb hname hp]
  cases e : g.before.get n with
  | none => rfl
  | some t =>
    obtain ⟨k, hk, rfl⟩ := C81_no_other_pages h hg (f := n) (by rw [e]; exact fun h => by cases h)
    exact absurd rfl (hn k hk)

/-- **C110**, after a run that succeeds everything the author wrote is still in the tutorial: C82 for the files. -/
theorem C110_text (ho : AnyOrder order) (hb : Named base name) (hl : Lists d dst names) (hbase : ClearName base)
    {src : Str} (hsrc : Ended src) (hclear : ClearText (textLines src)) (hs : HasFile d (doc, name) src)
    (hf : (runMain order dst doc name (some names) d).fine = true) :
    ∃ t, HasFile (runMain order dst doc name (some names) d).disk (doc, name) t ∧ authored t = authored src := by
  obtain ⟨src', g, h1, hg, he⟩ := main_effect ho hl hb hf
  rw [hs] at h1
  cases h1
  refine ⟨g.text, ?_, C82_keeps hbase hsrc hclear hg⟩
  rw [HasFile, he, effect, Disk.set, if_pos rfl]

theorem effect_copy {g : Generated} (k : Keys base g) (hb : Named base name) (hn : ¬ lit "before" <+: name) (i : Nat) :
    effect dst doc name g d (doc, copyName base i ++ lit ".qbk") = match g.snippets.get (copyName base i ++ lit ".qbk") with
      | some t => some (.file t)
      | none => d (doc, copyName base i ++ lit ".qbk") := by
  have hc : IsCopy base (copyName base i ++ lit ".qbk") := ⟨i, rfl⟩
  generalize hx : copyName base i ++ lit ".qbk" = n at hc ⊢
  have h1 : g.before.get n = none := by
    cases e : g.before.get n with
    | none => rfl
    | some c => exact absurd hc (copy_not_page hb hn (k.isPage _ ((lookup_iff k.before).1 e)))
  have h2 : g.headers.get n = none := by
    cases e : g.headers.get n with
    | none => rfl
    | some c => exact absurd (k.isHeader _ ((lookup_iff k.headers).1 e)) (copy_not_header hc)
  have h3 : ¬ (lit ".hpp").isSuffixOf n = true := fun e => copy_not_header hc (List.isSuffixOf_iff_suffix.1 e)
  have h4 : ((doc, n) : Path) ≠ (doc, name) := by
    intro e
    have e := (Prod.mk.inj e).2
    rw [← hx] at e
    have hl := congrArg List.length e
    rcases hb with rfl | ⟨rfl, -⟩ <;> simp [copyName, lit] at hl <;> omega
  unfold effect
  rw [Disk.set, if_neg h4]
  simp only [layered, cleared, h1, h2, h3, if_true]
  cases g.snippets.get n <;> simp

/-- **C110**, after a run that succeeds every session in which more than one line is entered has its copy: C84 for the
files. Copies with higher numbers, of an earlier run, are not deleted. -/
theorem C110_copies (ho : AnyOrder order) (hb : Named base name) (hl : Lists d dst names) (hname : ¬ lit "before" <+: name)
    (hbase : ClearName base) {src : Str} (hsrc : Ended src) (hclear : ClearText (textLines src))
    (hap : Apart false (textLines src)) {tut : List Piece} (hdoc : body src = printTutorial tut)
    (hw : ∀ p ∈ tut, WellWrittenPiece p) (hsp : Separated tut) (hc : ∀ p ∈ tut, CopyPiece p)
    (hs : HasFile d (doc, name) src) (hf : (runMain order dst doc name (some names) d).fine = true) (i : Nat) :
    (∀ p, (copied tut)[i]? = some p → ∃ t,
      HasFile (runMain order dst doc name (some names) d).disk (doc, copyName base i ++ lit ".qbk") t ∧
      (codeLines t).map words = p.commands.map fun ls => ls.flatMap words) ∧
    ((copied tut)[i]? = none →
      (runMain order dst doc name (some names) d).disk (doc, copyName base i ++ lit ".qbk") =
        d (doc, copyName base i ++ lit ".qbk")) := by
  obtain ⟨src', g, h1, hg, he⟩ := main_effect ho hl hb hf
  rw [hs] at h1
  cases h1
  have k := generate_keys hg
  have h84 := C84_snippets hbase hsrc hclear hap hdoc hw hsp hc hg
  unfold HasFile
  rw [he, effect_copy k hb hname]
  constructor
  · intro p hp
    have h2 := congrArg (fun l => l[i]?) h84
    simp only [List.getElem?_map, List.getElem?_mapIdx, hp, Option.map_some, Option.map_eq_some_iff] at h2
    obtain ⟨f, hf, h2⟩ := h2
    obtain ⟨h3, h4⟩ := Prod.mk.inj h2
    have h5 : g.snippets.get (copyName base i ++ lit ".qbk") = some f.2 :=
      (lookup_iff k.snippets).2 (by rw [← h3]; exact List.mem_of_getElem? hf)
    exact ⟨f.2, by rw [h5], h4⟩
  · intro hp
    cases e : g.snippets.get (copyName base i ++ lit ".qbk") with
    | none => rfl
    | some t =>
      exfalso
      have h2 := List.mem_map_of_mem (f := fun f : Str × Str => (f.1, (codeLines f.2).map words))
        ((lookup_iff k.snippets).1 e)
      rw [h84, List.mem_mapIdx] at h2
      obtain ⟨j, hj, h2⟩ := h2
      have h3 := List.append_cancel_left (List.append_cancel_right (Prod.mk.inj h2).1)
      have h4 : j = i := number_injective (by rw [number_eq, number_eq, h3])
      rw [List.getElem?_eq_none_iff] at hp
      omega

theorem way_kept {g : Generated} (hw : NothingInTheWay d dst doc base) :
    NothingInTheWay (effect dst doc name g d) dst doc base :=
  ⟨fun n hn => effect_directory (hw.headers n hn), fun n hn => effect_directory (hw.pages n hn),
    fun n hn => effect_directory (hw.copies n hn)⟩

/-- **C110**, if a run succeeds, so does a second one, and a third one leaves every file as it is. -/
theorem C110_again (ho : AnyOrder order) (hb : Named base name) (hl : Lists d dst names) (hbase : ClearName base)
    (hw : NothingInTheWay d dst doc base)
    {src : Str} (hsrc : Ended src) (hclear : ClearText (textLines src)) (hs : HasFile d (doc, name) src) {d1 d2 : Disk}
    (h1 : runMain order dst doc name (some names) d = ⟨d1, true⟩) {names1 names2 : List Str} (hl1 : Lists d1 dst names1)
    {f2 : Bool} (h2 : runMain order dst doc name (some names1) d1 = ⟨d2, f2⟩) (hl2 : Lists d2 dst names2) :
    f2 = true ∧ runMain order dst doc name (some names2) d2 = ⟨d2, true⟩ := by
  obtain ⟨src', g, hs', hg, he⟩ := main_effect ho hl hb (by rw [h1])
  rw [hs] at hs'
  cases hs'
  obtain ⟨g', hg', -, hg''⟩ := C82_second_run hbase hsrc hclear hg
  rw [h1] at he
  change d1 = _ at he
  have hw1 : NothingInTheWay d1 dst doc base := he ▸ way_kept hw
  have t1 : d1 (doc, name) = some (.file g.text) := by rw [he, effect, Disk.set, if_pos rfl]
  have hf2 := main_fine ho hl1 hb hw1 t1 hg'
  obtain ⟨x, y, e1, e2, e3⟩ := main_effect ho hl1 hb hf2
  rw [t1] at e1
  cases e1
  rw [hg'] at e2
  cases e2
  rw [h2] at hf2 e3
  change f2 = true at hf2
  change d2 = _ at e3
  refine ⟨hf2, ?_⟩
  have hw2 : NothingInTheWay d2 dst doc base := e3 ▸ way_kept hw1
  have t2 : d2 (doc, name) = some (.file g'.text) := by rw [e3, effect, Disk.set, if_pos rfl]
  have hf3 := main_fine ho hl2 hb hw2 t2 hg''
  obtain ⟨x, y, e4, e5, e6⟩ := main_effect ho hl2 hb hf3
  rw [t2] at e4
  cases e4
  rw [hg''] at e5
  cases e5
  have : (runMain order dst doc name (some names2) d2).disk = d2 := by
    rw [e6, e3, effect_twice]
  cases e : runMain order dst doc name (some names2) d2 with
  | mk d3 f3 =>
    rw [e] at this hf3
    change d3 = d2 at this
    change f3 = true at hf3
    rw [this, hf3]

/-- **C110**, the headers are deleted before the text is read: if the generator raises an exception for the text, all
headers are gone, and everything else is as before. -/
theorem C110_exception (hb : Named base name) (hl : Lists d dst names)
    (hw : ∀ n, IsHeader n → d (dst, n) ≠ some .directory) {src : Str} (hs : HasFile d (doc, name) src)
    (hg : generate base src = none) :
    (runMain order dst doc name (some names) d).fine = false ∧
    (∀ n, IsHeader n → (runMain order dst doc name (some names) d).disk (dst, n) = none) ∧
    ∀ p : Path, ¬ (p.1 = dst ∧ IsHeader p.2) → (runMain order dst doc name (some names) d).disk p = d p := by
  have h1 := delete_all_fine hl hw
  have he : runMain order dst doc name (some names) d = ⟨cleared dst d, false⟩ := by
    unfold runMain
    simp only [show d (doc, name) = some (.file src) from hs, base_of_named hb, hg]
    rw [next_disk h1, cleared_of_lists hl h1]
  rw [he]
  refine ⟨rfl, fun n hn => ?_, fun p hp => ?_⟩
  · exact if_pos ⟨rfl, List.isSuffixOf_iff_suffix.2 hn⟩
  · exact if_neg fun h => hp ⟨h.1, List.isSuffixOf_iff_suffix.1 h.2⟩

theorem delete_not_fine {dst n : Str} (hn : (lit ".hpp").isSuffixOf n = true) : ∀ {names : List Str} {d : Disk}, n ∈ names →
    d (dst, n) = some .directory → (deleteOldHeaders dst d names).fine = false
  | [], _, hm, _ => by simp at hm
  | f :: fs, d, hm, hd => by
      rw [deleteOldHeaders]
      by_cases hf : f = n
      · subst hf
        rw [if_pos hn, osRemove, hd]
        rfl
      · have hm' : n ∈ fs := by
          rcases List.mem_cons.1 hm with h | h
          · exact absurd h.symm hf
          · exact h
        split
        · unfold Outcome.next
          split
          · refine delete_not_fine hn hm' ?_
            unfold osRemove
            split
            · show Disk.set _ _ _ _ = _
              rw [Disk.set, if_neg fun e => hf (Prod.mk.inj e).2.symm, hd]
            · exact hd
          · rename_i h; simpa using h
        · exact delete_not_fine hn hm' hd

/-- **C110**, with a directory that has the name of a header among the headers the generator always fails, and never
writes anything. -/
theorem C110_directory (hl : Lists d dst names) {n : Str} (hn : IsHeader n) (hd : d (dst, n) = some .directory) :
    (runMain order dst doc name (some names) d).fine = false ∧
    ∀ p : Path, (runMain order dst doc name (some names) d).disk p = d p ∨
      (p.1 = dst ∧ IsHeader p.2 ∧ (runMain order dst doc name (some names) d).disk p = none) := by
  have hf := delete_not_fine (List.isSuffixOf_iff_suffix.2 hn) ((hl.2 n).2 (by rw [hd]; exact fun h => by cases h)) hd
  unfold runMain
  split
  · rename_i src names' h1 h2
    cases h2
    rw [Outcome.next, if_neg (by rw [hf]; exact fun h => by cases h)]
    refine ⟨hf, fun p => ?_⟩
    by_cases hp : p.1 = dst ∧ IsHeader p.2
    · rcases delete_or p names d with h | h
      · exact .inl h
      · exact .inr ⟨hp.1, hp.2, h⟩
    · exact .inl (delete_other hp _ _)
  · exact ⟨rfl, fun p => .inl rfl⟩

/-! ## The hypotheses can be met -/

/-- A disk with a tutorial, an old header, an old page and something else among the headers. -/
def exampleDisk (src : Str) : Disk := fun p =>
  if p = (lit "doc", lit "t.qbk") then some (.file src)
  else if p = (lit "doc", lit "before_9.qbk") then some (.file (lit "old"))
  else if p = (lit "h", lit "9.hpp") then some (.file (lit "old"))
  else if p = (lit "h", lit "main.cpp") then some (.file (lit "int main() {}"))
  else none

theorem exampleDisk_lists (src : Str) : Lists (exampleDisk src) (lit "h") [lit "main.cpp", lit "9.hpp"] := by
  refine ⟨by decide, fun n => ?_⟩
  have h1 : ((lit "h", n) : Path) ≠ (lit "doc", lit "t.qbk") := fun e => absurd (Prod.mk.inj e).1 (by decide)
  have h2 : ((lit "h", n) : Path) ≠ (lit "doc", lit "before_9.qbk") := fun e => absurd (Prod.mk.inj e).1 (by decide)
  unfold exampleDisk
  rw [if_neg h1, if_neg h2]
  by_cases h3 : n = lit "9.hpp"
  · subst h3; simp
  · by_cases h4 : n = lit "main.cpp"
    · subst h4
      rw [if_neg (by decide), if_pos rfl]
      simp
    · have h5 : ((lit "h", n) : Path) ≠ (lit "h", lit "9.hpp") := fun e => h3 (Prod.mk.inj e).2
      have h6 : ((lit "h", n) : Path) ≠ (lit "h", lit "main.cpp") := fun e => h4 (Prod.mk.inj e).2
      rw [if_neg h5, if_neg h6]
      simp [h3, h4]

theorem exampleDisk_no_directory (src : Str) (p : Path) : exampleDisk src p ≠ some .directory := by
  unfold exampleDisk
  repeat' split
  all_goals exact fun e => by cases e

theorem exampleDisk_way (src : Str) : NothingInTheWay (exampleDisk src) (lit "h") (lit "doc") (lit "t") :=
  ⟨fun _ _ => exampleDisk_no_directory _ _, fun _ _ => exampleDisk_no_directory _ _,
    fun _ _ => exampleDisk_no_directory _ _⟩

theorem example_named : Named (lit "t") (lit "t.qbk") := .inl rfl

theorem id_anyOrder : AnyOrder id := fun _ => .refl _

theorem exampleDisk_file (src : Str) : HasFile (exampleDisk src) (lit "doc", lit "t.qbk") src := if_pos rfl

/-- A run with the disk of the example. -/
def exampleRun (src : Str) : Outcome :=
  runMain id (lit "h") (lit "doc") (lit "t.qbk") (some [lit "main.cpp", lit "9.hpp"]) (exampleDisk src)

/-- The run for the small tutorial succeeds. -/
theorem small_fine : (exampleRun (printTutorial smallTutorial).flatten).fine = true :=
  C110_runs id_anyOrder example_named (exampleDisk_lists _) (exampleDisk_way _) smallTutorial_wellWritten
    smallTutorial_clear (exampleDisk_file _)

/-- The old header is gone and `2.hpp` is there. -/
example : let o := exampleRun (printTutorial smallTutorial).flatten
    o.disk (lit "h", lit "9.hpp") = none ∧ o.disk (lit "h", lit "2.hpp") ≠ none := by
  have hh := fun n hn => C110_headers id_anyOrder example_named (exampleDisk_lists _) smallTutorial_wellWritten
    (exampleDisk_file _) small_fine (n := n) hn fun e => absurd e (by decide)
  constructor
  · refine Classical.byContradiction fun h => ?_
    obtain ⟨k, hk, he⟩ := (hh (lit "9.hpp") ⟨lit "9", rfl⟩).1 h
    simp only [smallTutorial, numbers, List.mem_cons, List.not_mem_nil, or_false] at hk
    rcases hk with rfl | rfl | rfl <;> exact absurd he (by decide)
  · exact (hh (lit "2.hpp") ⟨lit "2", rfl⟩).2 ⟨[2], by simp [smallTutorial, numbers], by decide⟩

/-- The old page and `main.cpp` are as before. -/
example : let o := exampleRun (printTutorial smallTutorial).flatten
    o.disk (lit "doc", lit "before_9.qbk") = some (.file (lit "old")) ∧
    o.disk (lit "h", lit "main.cpp") = some (.file (lit "int main() {}")) := by
  constructor
  · refine (C110_old_pages id_anyOrder example_named (exampleDisk_lists _) (by decide) smallTutorial_wellWritten
      (exampleDisk_file _) small_fine ⟨lit "9", ⟨by decide, by decide⟩, rfl⟩ ?_).trans ?_
    · intro k hk
      simp only [smallTutorial, numbers, List.mem_cons, List.not_mem_nil, or_false] at hk
      rcases hk with rfl | rfl | rfl <;> decide
    · rw [exampleDisk, if_neg (by decide), if_pos (by decide)]
  · refine (C110_untouched id_anyOrder example_named _ ?_ ?_ ?_ (by decide)).trans ?_
    · rintro ⟨-, h⟩
      exact absurd (List.isSuffixOf_iff_suffix.2 h) (by decide)
    · rintro ⟨h, -⟩; exact absurd h (by decide)
    · rintro ⟨h, -⟩; exact absurd h (by decide)
    · rw [exampleDisk, if_neg (by decide), if_neg (by decide), if_neg (by decide), if_pos rfl]

/-- A source that includes `1_1.hpp`, `2.hpp` and `1.hpp` has the definitions before section 2. -/
example : Sees (fun f => fileAt (exampleRun (printTutorial smallTutorial).flatten).disk (lit "h", f)) []
    (including [[1, 1], [2], [1]]) ((definitions false (smallTutorial.take 10)).flatMap fun ls => ls.flatMap words) :=
  C110_definitions (a := smallTutorial.take 10) (n := [2]) (b := []) (title := lit "Third]") id_anyOrder example_named
    (exampleDisk_lists _) smallTutorial_wellWritten (exampleDisk_file _) small_fine (fun e => absurd e (by decide))
    (ns := [[1, 1], [2], [1]]) (by simp) (by simp [smallTutorial, numbers]) false

/-- There is no page for section 1. -/
example : (exampleRun (printTutorial smallTutorial).flatten).disk (lit "doc", pageName [1]) =
    exampleDisk (printTutorial smallTutorial).flatten (lit "doc", pageName [1]) :=
  (C110_pages (a := []) (n := [1]) (b := smallTutorial.tail) (title := lit "First]") id_anyOrder example_named
    (exampleDisk_lists _) (by decide) smallTutorial_wellWritten (exampleDisk_file _) small_fine).2
    (by simp [inSections, definitions])

/-- A text for which the generator raises an exception: the headers are lost. -/
example : let o := exampleRun [lit "  ...> a\n", lit "  > b\n", lit "\n"].flatten
    o.fine = false ∧ o.disk (lit "h", lit "9.hpp") = none :=
  have h := C110_exception (order := id) example_named (exampleDisk_lists _) (fun _ _ => exampleDisk_no_directory _ _)
    (exampleDisk_file _) C84_exception
  ⟨h.1, h.2.1 _ ⟨lit "9", rfl⟩⟩

theorem new_fine : (exampleRun newTutorial).fine = true := by
  obtain ⟨-, g, -, hg, -⟩ := C82_not_idempotent
  exact main_fine id_anyOrder (exampleDisk_lists _) example_named (exampleDisk_way _) (exampleDisk_file _) hg

/-- What the author wrote is kept. -/
example : ∃ t, HasFile (exampleRun newTutorial).disk (lit "doc", lit "t.qbk") t ∧ authored t = authored newTutorial :=
  have h := newTutorial_hypotheses
  C110_text id_anyOrder example_named (exampleDisk_lists _) h.1 h.2.1 h.2.2.1 (exampleDisk_file _) new_fine

/-- A second and a third run. -/
example {names1 names2 : List Str} {d2 : Disk} {f : Bool} (h1 : Lists (exampleRun newTutorial).disk (lit "h") names1)
    (h2 : runMain id (lit "h") (lit "doc") (lit "t.qbk") (some names1) (exampleRun newTutorial).disk = ⟨d2, f⟩)
    (h3 : Lists d2 (lit "h") names2) :
    runMain id (lit "h") (lit "doc") (lit "t.qbk") (some names2) d2 = ⟨d2, true⟩ :=
  have h := newTutorial_hypotheses
  (C110_again id_anyOrder example_named (exampleDisk_lists _) h.1 (exampleDisk_way _) h.2.1 h.2.2.1 (exampleDisk_file _)
    (by rw [← new_fine]; rfl) h1 h2 h3).2

/-- A tutorial with one copy: there is a file for it. -/
example : ∃ t, HasFile (exampleRun copyTutorial).disk (lit "doc", lit "t_0.qbk") t ∧
    (codeLines t).map words = [[lit "struct", lit "x;"], [lit "x"]] := by
  obtain ⟨he, hc, ha, hb⟩ := copyTutorial_text
  have hp := copyTutorial_pieces
  have hsome : (generate (lit "t") copyTutorial).isSome = true := by decide +kernel
  obtain ⟨g, hg⟩ := Option.isSome_iff_exists.1 hsome
  have hf : (exampleRun copyTutorial).fine = true :=
    main_fine id_anyOrder (exampleDisk_lists _) example_named (exampleDisk_way _) (exampleDisk_file _) hg
  have hs : Separated (copyDocument ++
      .text (lit "[section Copy-paste friendly code examples]") :: .text (lit "[endsect]") :: []) := by
    simp [copyDocument, Separated, Piece.isSnippet]
  obtain ⟨t, h1, h2⟩ := (C110_copies id_anyOrder example_named (exampleDisk_lists _) (by decide) newTutorial_hypotheses.1 he hc
    ha hb (fun p h => (hp p h).1) hs (fun p h => (hp p h).2) (exampleDisk_file _) hf 0).1 _
    (by simp [copied, copyDocument, Piece.entered, Piece.commands]; rfl)
  refine ⟨t, h1, h2.trans ?_⟩
  decide +kernel

/-- A directory among the headers. -/
example : ∃ names, Lists (fun p => if p = (lit "h", lit "a.hpp") then some .directory else none) (lit "h") names ∧
    IsHeader (lit "a.hpp") := by
  refine ⟨[lit "a.hpp"], ⟨by simp, fun n => ?_⟩, lit "a", rfl⟩
  by_cases h : n = lit "a.hpp" <;> simp [h]

end Metaparse
