import Verif.Spec.GenerateMain
import Verif.Lemmas.GenerateCopies
import Verif.Lemmas.GeneratePages
import Verif.Lemmas.GenerateNotes

/-!
# Lemmas about runs of the generator of the tutorial
-/

namespace Metaparse

namespace Gen

/-! ## The files of a dictionary -/

theorem lookup_iff {fs : Files} (h : (fs.map (·.1)).Nodup) {n c : Str} : fs.get n = some c ↔ (n, c) ∈ fs := by
  unfold Files.get
  induction fs with
  | nil => simp
  | cons f fs ih =>
    obtain ⟨m, t⟩ := f
    rw [List.map_cons, List.nodup_cons] at h
    by_cases hn : n = m
    · subst hn
      rw [List.lookup_cons_self, List.mem_cons]
      constructor
      · intro he
        exact .inl (by rw [Option.some.inj he])
      · rintro (he | he)
        · rw [(Prod.mk.inj he).2]
        · exact absurd (List.mem_map_of_mem he) h.1
    · rw [List.lookup_cons, beq_eq_false_iff_ne.2 hn]
      simp only [List.mem_cons, Prod.mk.injEq, hn, false_and, false_or]
      exact ih h.2

theorem get_perm {fs fs' : Files} (hp : fs'.Perm fs) (h : (fs.map (·.1)).Nodup) (n : Str) : fs'.get n = fs.get n := by
  have h' : (fs'.map (·.1)).Nodup := (hp.map (·.1)).nodup_iff.2 h
  cases e : fs.get n with
  | some c => exact (lookup_iff h').2 (hp.mem_iff.2 ((lookup_iff h).1 e))
  | none =>
    cases e' : fs'.get n with
    | none => rfl
    | some c => rw [(lookup_iff h).2 (hp.mem_iff.1 ((lookup_iff h').1 e'))] at e; cases e

theorem put_nodup {fs : Files} (h : (fs.map (·.1)).Nodup) (n c : Str) : ((fs.put n c).map (·.1)).Nodup := by
  rw [Files.put, List.map_append, List.nodup_append]
  refine ⟨List.Sublist.nodup (List.filter_sublist.map _) h, by simp, ?_⟩
  intro a ha b hb he
  obtain ⟨f, hf, rfl⟩ := List.mem_map.1 ha
  simp only [List.mem_filter, decide_eq_true_eq] at hf
  simp only [List.map_cons, List.map_nil, List.mem_singleton] at hb
  exact hf.2 (he.trans hb)

theorem mem_put {fs : Files} {n c : Str} {f : Str × Str} (h : f ∈ fs.put n c) : f ∈ fs ∨ f.1 = n := by
  rw [Files.put, List.mem_append] at h
  rcases h with h | h
  · exact .inl (List.mem_filter.1 h).1
  · rw [List.mem_singleton.1 h]; exact .inr rfl

theorem genHeadersLoop_keys (defs : List (Str × Str)) : ∀ (ss : List Str) (prev : Str) (fs : Files), (fs.map (·.1)).Nodup →
    ((genHeadersLoop defs prev fs ss).map (·.1)).Nodup ∧
      ∀ f ∈ genHeadersLoop defs prev fs ss, f ∈ fs ∨ ∃ s ∈ ss, f.1 = s ++ lit ".hpp"
  | [], _, fs, h => ⟨h, fun f hf => .inl hf⟩
  | s :: ss, prev, fs, h => by
      obtain ⟨h1, h2⟩ := genHeadersLoop_keys defs ss s (fs.put (s ++ lit ".hpp") (header prev s defs)) (put_nodup h _ _)
      refine ⟨h1, fun f hf => ?_⟩
      rcases h2 f hf with hf | ⟨t, ht, hf⟩
      · rcases mem_put hf with hf | hf
        · exact .inl hf
        · exact .inr ⟨s, by simp, hf⟩
      · exact .inr ⟨t, by simp [ht], hf⟩

theorem beforeLoop_keys (defs : List (Str × Str)) : ∀ (ss : List Str) (fs : Files) (w : List Str) (o : Str),
    (fs.map (·.1)).Nodup → ((beforeLoop defs fs w o ss).1.map (·.1)).Nodup ∧
      ∀ f ∈ (beforeLoop defs fs w o ss).1, f ∈ fs ∨ ∃ s ∈ ss, f.1 = lit "before_" ++ s ++ lit ".qbk"
  | [], fs, _, _, h => ⟨h, fun f hf => .inl hf⟩
  | s :: ss, fs, w, o, h => by
      rw [beforeLoop]
      split
      · obtain ⟨h1, h2⟩ := beforeLoop_keys defs ss fs w (o ++ sectionSnippets defs s) h
        refine ⟨h1, fun f hf => ?_⟩
        rcases h2 f hf with hf | ⟨t, ht, hf⟩
        · exact .inl hf
        · exact .inr ⟨t, by simp [ht], hf⟩
      · obtain ⟨h1, h2⟩ := beforeLoop_keys defs ss (fs.put (lit "before_" ++ s ++ lit ".qbk") (beforeDoc s o)) (w ++ [s])
          (o ++ sectionSnippets defs s) (put_nodup h _ _)
        refine ⟨h1, fun f hf => ?_⟩
        rcases h2 f hf with hf | ⟨t, ht, hf⟩
        · rcases mem_put hf with hf | hf
          · exact .inl hf
          · exact .inr ⟨s, by simp, hf⟩
        · exact .inr ⟨t, by simp [ht], hf⟩

theorem number_injective {n m : Nat} (h : number n = number m) : n = m := by
  rw [number_eq, number_eq] at h
  have := dotted_injective (n := [n]) (m := [m]) (by simp) (by simp) h
  simpa using this

theorem extractOrdinary_files {base l : Str} {st st' : ExtractState} {x : Extracted}
    (h : extractOrdinary base st l = some (st', x)) :
    (x.files = [] ∧ st'.counter = st.counter) ∨
      ((∃ t, x.files = [(snippetName base st.counter ++ lit ".qbk", t)]) ∧ st'.counter = st.counter + 1) := by
  unfold extractOrdinary at h
  split at h
  · split at h
    · split at h <;> (cases h; exact .inl ⟨rfl, rfl⟩)
    · split at h
      · rw [Option.map_eq_some_iff] at h
        obtain ⟨c, -, h⟩ := h
        cases h
        exact .inr ⟨⟨_, rfl⟩, rfl⟩
      · cases h; exact .inl ⟨rfl, rfl⟩
  · split at h <;> (cases h; exact .inl ⟨rfl, rfl⟩)

theorem extractLine_files {base l : Str} {st st' : ExtractState} {x : Extracted}
    (h : extractLine base st l = some (st', x)) :
    (x.files = [] ∧ st'.counter = st.counter) ∨
      ((∃ t, x.files = [(snippetName base st.counter ++ lit ".qbk", t)]) ∧ st'.counter = st.counter + 1) := by
  unfold extractLine at h
  split at h
  · simp only at h
    split at h
    · split at h <;> (cases h; exact .inl ⟨rfl, rfl⟩)
    · split at h
      · cases h; exact .inl ⟨rfl, rfl⟩
      · split at h
        · cases h; exact .inl ⟨rfl, rfl⟩
        · exact extractOrdinary_files (st := { st with skipEmpty := false }) h
  · cases h; exact .inl ⟨rfl, rfl⟩

theorem extractLoop_files {base : Str} : ∀ {ls : List Str} {st : ExtractState} {x : Extracted},
    extractLoop base st ls = some x →
    ∃ n, x.files.map (·.1) = (List.range' st.counter n).map fun k => snippetName base k ++ lit ".qbk"
  | [], st, x, h => by cases h; exact ⟨0, rfl⟩
  | l :: ls, st, x, h => by
      rw [extractLoop, Option.bind_eq_some_iff] at h
      obtain ⟨⟨st', y⟩, h1, h⟩ := h
      rw [Option.map_eq_some_iff] at h
      obtain ⟨z, h2, rfl⟩ := h
      obtain ⟨n, hn⟩ := extractLoop_files h2
      rcases extractLine_files h1 with ⟨hf, hc⟩ | ⟨⟨t, hf⟩, hc⟩
      · refine ⟨n, ?_⟩
        simp only [hf, List.nil_append]
        rw [hn, hc]
      · refine ⟨n + 1, ?_⟩
        simp only [hf, List.map_append, List.map_cons, List.map_nil]
        rw [hn, hc, List.range'_succ]
        rfl

theorem mem_split {c x : Char} : ∀ {s : Str}, x ∈ s → x = c ∨ ∃ w ∈ split c s, x ∈ w
  | [], h => by simp at h
  | d :: s, h => by
      rw [split]
      by_cases hd : d = c
      · rw [if_pos hd]
        rcases List.mem_cons.1 h with rfl | h
        · exact .inl hd
        · rcases mem_split h with h | ⟨w, hw, h⟩
          · exact .inl h
          · exact .inr ⟨w, by simp [hw], h⟩
      · rw [if_neg hd]
        cases hs : split c s with
        | nil =>
          rcases List.mem_cons.1 h with rfl | h
          · exact .inr ⟨[x], by simp, by simp⟩
          · rcases mem_split (c := c) h with h | ⟨w, hw, -⟩
            · exact .inl h
            · rw [hs] at hw; simp at hw
        | cons v vs =>
          rcases List.mem_cons.1 h with rfl | h
          · exact .inr ⟨x :: v, by simp, by simp⟩
          · rcases mem_split (c := c) h with h | ⟨w, hw, h⟩
            · exact .inl h
            · rw [hs] at hw
              rcases List.mem_cons.1 hw with rfl | hw
              · exact .inr ⟨d :: w, by simp, by simp [h]⟩
              · exact .inr ⟨w, by simp [hw], h⟩

theorem mapM_toInt_some {l : List Str} {ks : List Nat} (h : l.mapM toInt = some ks) : ∀ w ∈ l, w ≠ [] ∧ w.all isDigit = true := by
  induction l generalizing ks with
  | nil => simp
  | cons v l ih =>
    rw [List.mapM_cons] at h
    cases hv : toInt v with
    | none => simp [hv] at h
    | some k =>
      cases hl : l.mapM toInt with
      | none => simp [hv, hl] at h
      | some ks' =>
        intro w hw
        rcases List.mem_cons.1 hw with rfl | hw
        · unfold toInt at hv
          split at hv
          · cases hv
          · rename_i hc
            simp only [Bool.or_eq_true, List.isEmpty_iff, Bool.not_eq_true', not_or, Bool.not_eq_false] at hc
            exact hc
        · exact ih hl w hw

theorem isDigit_mem {c : Char} (h : isDigit c = true) : c ∈ lit "0123456789" := by
  obtain ⟨d, -, hd, -⟩ := isDigit_eq h
  cases hm : decide (c ∈ lit "0123456789") with
  | true => exact of_decide_eq_true hm
  | false =>
    have := List.idxOf?_eq_none_iff.2 (of_decide_eq_false hm)
    rw [this] at hd
    cases hd

theorem numbering_of_key {s : Str} (h : (sectionKey s).isSome = true) : IsNumbering s := by
  obtain ⟨ks, hk⟩ := Option.isSome_iff_exists.1 h
  have h1 := mapM_toInt_some hk
  refine ⟨fun he => ?_, fun c hc => ?_⟩
  · subst he
    exact (h1 [] (by simp [split])).1 rfl
  · rcases mem_split (c := '_') hc with h | ⟨w, hw, h⟩
    · exact .inl h
    · exact .inr (isDigit_mem (List.all_eq_true.1 (h1 w hw).2 c h))

theorem sections_numbering {l r : List Str} (h : sortSections l = some r) : ∀ s ∈ r, IsNumbering s := by
  intro s hs
  have hm := sortSections_mem h s hs
  rw [sortSections, Option.map_eq_some_iff] at h
  obtain ⟨ks, hks, -⟩ := h
  exact numbering_of_key (mapM_isSome.1 (by rw [hks]; rfl) s hm)

/-- The names of the generated files. -/
structure Keys (base : Str) (g : Generated) : Prop where
  headers : (g.headers.map (·.1)).Nodup
  before : (g.before.map (·.1)).Nodup
  snippets : (g.snippets.map (·.1)).Nodup
  isHeader : ∀ f ∈ g.headers, IsHeader f.1
  isPage : ∀ f ∈ g.before, IsPage f.1
  isCopy : ∀ f ∈ g.snippets, IsCopy base f.1

theorem generate_keys {base src : Str} {g : Generated} (h : generate base src = some g) : Keys base g := by
  rw [generate] at h
  simp only [Option.bind_eq_some_iff] at h
  obtain ⟨⟨sections, defs⟩, h1, h⟩ := h
  simp only [Option.map_eq_some_iff] at h
  obtain ⟨x, h2, rfl⟩ := h
  rw [parseMd, Option.map_eq_some_iff] at h1
  obtain ⟨r, h1, he⟩ := h1
  cases he
  have hn := sections_numbering h1
  obtain ⟨a1, a2⟩ := genHeadersLoop_keys (parseLoop {} (readLines src)).defs sections [] [] (by simp)
  obtain ⟨b1, b2⟩ := beforeLoop_keys (parseLoop {} (readLines src)).defs sections [] [] [] (by simp)
  obtain ⟨n, c⟩ := extractLoop_files h2
  refine ⟨a1, b1, ?_, ?_, ?_, ?_⟩
  · show (x.files.map (·.1)).Nodup
    rw [c]
    refine List.Pairwise.map _ ?_ List.nodup_range'
    intro i j hij he
    refine hij (number_injective ?_)
    have := List.append_cancel_right he
    exact List.append_cancel_left this
  · intro f hf
    rcases a2 f hf with hf | ⟨s, -, hf⟩
    · simp at hf
    · exact ⟨s, hf.symm⟩
  · intro f hf
    rcases b2 f hf with hf | ⟨s, hs, hf⟩
    · simp at hf
    · exact ⟨s, hn s hs, hf⟩
  · intro f hf
    have : f.1 ∈ x.files.map (·.1) := List.mem_map_of_mem hf
    rw [c, List.mem_map] at this
    obtain ⟨k, -, hk⟩ := this
    exact ⟨k, by rw [← hk, snippetName_eq]⟩

/-! ## The disk -/

/-- Files of a directory are written. -/
def layered (dir : Str) (fs : Files) (d : Disk) : Disk := fun p =>
  if p.1 = dir then match fs.get p.2 with
    | some c => some (.file c)
    | none => d p
  else d p

/-- The headers are deleted. -/
def cleared (dst : Str) (d : Disk) : Disk := fun p =>
  if p.1 = dst ∧ (lit ".hpp").isSuffixOf p.2 = true then none else d p

/-- What a run that succeeds makes of the disk. -/
def effect (dst doc name : Str) (g : Generated) (d : Disk) : Disk :=
  (layered doc g.snippets (layered doc g.before (layered dst g.headers (cleared dst d)))).set (doc, name) (some (.file g.text))

theorem next_fine {o : Outcome} {f : Disk → Outcome} : (o.next f).fine = true ↔ o.fine = true ∧ (f o.disk).fine = true := by
  unfold Outcome.next
  cases h : o.fine <;> simp [h]

theorem next_disk {o : Outcome} {f : Disk → Outcome} (h : o.fine = true) : o.next f = f o.disk := by
  rw [Outcome.next, if_pos h]

/-- What is left as it is by both is left as it is. -/
theorem next_other {o : Outcome} {f : Disk → Outcome} {d : Disk} {p : Path} (h1 : o.disk p = d p)
    (h2 : (f o.disk).disk p = o.disk p) : (o.next f).disk p = d p := by
  unfold Outcome.next
  cases o.fine
  · exact h1
  · exact h2.trans h1

theorem delete_other {dst : Str} {p : Path} (hp : ¬ (p.1 = dst ∧ IsHeader p.2)) :
    ∀ (names : List Str) (d : Disk), (deleteOldHeaders dst d names).disk p = d p
  | [], d => rfl
  | f :: fs, d => by
      rw [deleteOldHeaders]
      split
      · rename_i hf
        refine next_other ?_ (delete_other hp fs _)
        unfold osRemove
        split
        · refine if_neg fun he => hp ?_
          rw [he]
          exact ⟨rfl, List.isSuffixOf_iff_suffix.1 hf⟩
        · rfl
      · exact delete_other hp fs d

theorem delete_or {dst : Str} (p : Path) : ∀ (names : List Str) (d : Disk),
    (deleteOldHeaders dst d names).disk p = d p ∨ (deleteOldHeaders dst d names).disk p = none
  | [], d => .inl rfl
  | f :: fs, d => by
      rw [deleteOldHeaders]
      split
      · have h1 : (osRemove d (dst, f)).disk p = d p ∨ (osRemove d (dst, f)).disk p = none := by
          unfold osRemove
          split
          · show Disk.set _ _ _ _ = _ ∨ Disk.set _ _ _ _ = _
            unfold Disk.set
            split
            · exact .inr rfl
            · exact .inl rfl
          · exact .inl rfl
        unfold Outcome.next
        split
        · rcases delete_or p fs (osRemove d (dst, f)).disk with h2 | h2
          · rw [h2]; exact h1
          · exact .inr h2
        · exact h1
      · exact delete_or p fs d

theorem delete_disk {dst : Str} : ∀ {names : List Str} {d : Disk}, (deleteOldHeaders dst d names).fine = true →
    ∀ p, (deleteOldHeaders dst d names).disk p =
      if p.1 = dst ∧ (lit ".hpp").isSuffixOf p.2 = true ∧ p.2 ∈ names then none else d p
  | [], d, _, p => by simp [deleteOldHeaders]
  | f :: fs, d, h, p => by
      rw [deleteOldHeaders] at h ⊢
      split at h
      · rename_i hf
        rw [next_fine] at h
        rw [if_pos hf, next_disk h.1, delete_disk h.2 p]
        have hr : (osRemove d (dst, f)).disk = d.set (dst, f) none := by
          have h1 := h.1
          unfold osRemove at h1 ⊢
          split at h1
          · simp
          · cases h1
        rw [hr, Disk.set]
        by_cases hp : p = (dst, f)
        · subst hp
          simp [hf]
        · rw [if_neg hp]
          by_cases h1 : p.1 = dst
          · have h2 : p.2 ≠ f := fun he => hp (Prod.ext h1 he)
            simp [h2]
          · simp [h1]
      · rename_i hf
        rw [if_neg hf, delete_disk h p]
        by_cases h2 : p.2 = f
        · rw [h2]; simp [hf]
        · simp [h2]

theorem delete_fine {dst : Str} : ∀ {names : List Str} {d : Disk}, names.Nodup →
    (∀ n ∈ names, (lit ".hpp").isSuffixOf n = true → ∃ t, d (dst, n) = some (.file t)) →
    (deleteOldHeaders dst d names).fine = true
  | [], _, _, _ => rfl
  | f :: fs, d, hn, h => by
      rw [List.nodup_cons] at hn
      rw [deleteOldHeaders]
      split
      · rename_i hf
        obtain ⟨t, ht⟩ := h f (by simp) hf
        have hr : osRemove d (dst, f) = ⟨d.set (dst, f) none, true⟩ := by rw [osRemove, ht]
        rw [hr, next_disk rfl]
        refine delete_fine hn.2 fun n hm hs => ?_
        obtain ⟨t, ht⟩ := h n (by simp [hm]) hs
        refine ⟨t, ?_⟩
        simp only [Disk.set]
        rw [if_neg, ht]
        intro he
        exact hn.1 ((Prod.mk.inj he).2 ▸ hm)
      · exact delete_fine hn.2 fun n hm hs => h n (by simp [hm]) hs

theorem writeFile_fine {d : Disk} {p : Path} {c : Str} : (writeFile d p c).fine = true ↔ d p ≠ some .directory := by
  unfold writeFile
  split
  · rename_i h; simp [h]
  · rename_i h; simpa using h

theorem writeFile_disk {d : Disk} {p : Path} {c : Str} (h : (writeFile d p c).fine = true) :
    (writeFile d p c).disk = d.set p (some (.file c)) := by
  unfold writeFile at h ⊢
  split at h
  · cases h
  · rfl

theorem writeFile_other {d : Disk} {p q : Path} {c : Str} (h : q ≠ p) : (writeFile d p c).disk q = d q := by
  unfold writeFile
  split
  · rfl
  · exact if_neg h

theorem write_other {dir : Str} {p : Path} : ∀ {fs : Files} {d : Disk}, (∀ f ∈ fs, p ≠ (dir, f.1)) →
    (writeFiles dir d fs).disk p = d p
  | [], _, _ => rfl
  | f :: fs, d, h => next_other (writeFile_other (h f (by simp))) (write_other fun f hf => h f (by simp [hf]))

theorem write_fine {dir : Str} : ∀ {fs : Files} {d : Disk}, (∀ f ∈ fs, d (dir, f.1) ≠ some .directory) →
    (writeFiles dir d fs).fine = true
  | [], _, _ => rfl
  | f :: fs, d, h => by
      have h1 : (writeFile d (dir, f.1) f.2).fine = true := writeFile_fine.2 (h f (by simp))
      rw [writeFiles, next_disk h1, writeFile_disk h1]
      refine write_fine fun x hx => ?_
      rw [Disk.set]
      split
      · exact fun he => by cases he
      · exact h x (by simp [hx])

theorem write_disk {dir : Str} : ∀ {fs : Files} {d : Disk}, (fs.map (·.1)).Nodup → (writeFiles dir d fs).fine = true →
    (writeFiles dir d fs).disk = layered dir fs d
  | [], d, _, _ => by
      funext p
      simp [writeFiles, layered, Files.get]
  | f :: fs, d, hn, h => by
      rw [List.map_cons, List.nodup_cons] at hn
      rw [writeFiles] at h ⊢
      rw [next_fine] at h
      rw [next_disk h.1, write_disk hn.2 h.2, writeFile_disk h.1]
      funext p
      unfold layered
      by_cases h1 : p.1 = dir
      · rw [if_pos h1, if_pos h1]
        by_cases h2 : p.2 = f.1
        · have hp : p = (dir, f.1) := Prod.ext h1 h2
          have h3 : Files.get fs p.2 = none := by
            cases e : Files.get fs p.2 with
            | none => rfl
            | some c => exact absurd (h2 ▸ List.mem_map_of_mem ((lookup_iff hn.2).1 e)) hn.1
          have h4 : Files.get (f :: fs) p.2 = some f.2 := by
            rw [h2]; exact List.lookup_cons_self
          rw [h3, h4]
          simp only [Disk.set]
          rw [if_pos hp]
        · have h4 : Files.get (f :: fs) p.2 = Files.get fs p.2 := by
            unfold Files.get
            obtain ⟨a, b⟩ := f
            rw [List.lookup_cons, beq_eq_false_iff_ne.2 h2]
          rw [h4]
          cases Files.get fs p.2 with
          | some c => rfl
          | none =>
            simp only [Disk.set]
            rw [if_neg]
            intro he
            exact h2 (by rw [he])
      · rw [if_neg h1, if_neg h1, Disk.set, if_neg]
        intro he
        exact h1 (by rw [he])

theorem layered_order {dir : Str} {fs : Files} (hn : (fs.map (·.1)).Nodup) {fs' : Files} (hp : fs'.Perm fs) (d : Disk) :
    layered dir fs' d = layered dir fs d := by
  funext p
  unfold layered
  rw [get_perm hp hn]

theorem base_of_named {base name : Str} (h : Named base name) : tutorialBase name = base := by
  unfold tutorialBase
  rcases h with rfl | ⟨rfl, h⟩
  · rw [if_pos (List.isSuffixOf_iff_suffix.2 (List.suffix_append _ _))]
    have : (base ++ lit ".qbk").length - 4 = base.length := by simp [lit]
    rw [this, List.take_left]
  · rw [if_neg]
    exact fun hs => h (List.isSuffixOf_iff_suffix.1 hs)

theorem named_base (name : Str) : Named (tutorialBase name) name := by
  unfold tutorialBase
  split
  · rename_i h
    obtain ⟨t, rfl⟩ := List.isSuffixOf_iff_suffix.1 h
    have : (t ++ lit ".qbk").length - 4 = t.length := by simp [lit]
    rw [this, List.take_left]
    exact .inl rfl
  · rename_i h
    exact .inr ⟨rfl, fun hs => h (List.isSuffixOf_iff_suffix.2 hs)⟩

section

variable {order : Files → Files} {dst doc name base : Str} {names : List Str} {d : Disk}

theorem cleared_of_lists (hl : Lists d dst names) (h : (deleteOldHeaders dst d names).fine = true) :
    (deleteOldHeaders dst d names).disk = cleared dst d := by
  funext p
  rw [delete_disk h p, cleared]
  by_cases h1 : p.1 = dst ∧ (lit ".hpp").isSuffixOf p.2 = true
  · rw [if_pos h1]
    split
    · rfl
    · rename_i h2
      have h3 : p.2 ∉ names := fun hm => h2 ⟨h1.1, h1.2, hm⟩
      rw [hl.2] at h3
      have h4 : d (dst, p.2) = none := Classical.not_not.1 h3
      rw [← h1.1] at h4
      exact h4
  · rw [if_neg h1, if_neg fun h2 => h1 ⟨h2.1, h2.2.1⟩]

/-- A run that succeeds. -/
theorem main_effect (ho : AnyOrder order) (hl : Lists d dst names) (hb : Named base name)
    (h : (runMain order dst doc name (some names) d).fine = true) :
    ∃ src g, d (doc, name) = some (.file src) ∧ generate base src = some g ∧
      (runMain order dst doc name (some names) d).disk = effect dst doc name g d := by
  unfold runMain at h ⊢
  cases hd : d (doc, name) with
  | none => simp [hd] at h
  | some e =>
    cases e with
    | directory => simp [hd] at h
    | file src =>
      simp only [hd, base_of_named hb] at h ⊢
      rw [next_fine] at h
      obtain ⟨h1, h⟩ := h
      rw [next_disk h1]
      rw [cleared_of_lists hl h1] at h ⊢
      cases hg : generate base src with
      | none => simp [hg] at h
      | some g =>
        have k := generate_keys hg
        simp only [hg] at h ⊢
        have nd : ∀ {fs : Files}, (fs.map (·.1)).Nodup → ((order fs).map (·.1)).Nodup := fun h => ((ho _).map _).nodup_iff.2 h
        rw [next_fine] at h
        obtain ⟨h2, h⟩ := h
        rw [next_disk h2]
        rw [write_disk (nd k.headers) h2, layered_order k.headers (ho _)] at h ⊢
        rw [next_fine] at h
        obtain ⟨h3, h⟩ := h
        rw [next_disk h3]
        rw [write_disk (nd k.before) h3, layered_order k.before (ho _)] at h ⊢
        rw [next_fine] at h
        obtain ⟨h4, h⟩ := h
        rw [next_disk h4]
        rw [write_disk (nd k.snippets) h4, layered_order k.snippets (ho _)] at h ⊢
        exact ⟨src, g, rfl, hg, writeFile_disk h⟩

theorem layered_directory {dir : Str} {fs : Files} {p : Path} (h : d p ≠ some .directory) :
    layered dir fs d p ≠ some .directory := by
  unfold layered
  split
  · split
    · exact fun he => by cases he
    · exact h
  · exact h

theorem cleared_directory {p : Path} (h : d p ≠ some .directory) : cleared dst d p ≠ some .directory := by
  unfold cleared
  split
  · exact fun he => by cases he
  · exact h

theorem effect_directory {g : Generated} {p : Path} (h : d p ≠ some .directory) :
    effect dst doc name g d p ≠ some .directory := by
  unfold effect
  rw [Disk.set]
  split
  · exact fun he => by cases he
  · exact layered_directory (layered_directory (layered_directory (cleared_directory h)))

theorem delete_all_fine (hl : Lists d dst names) (hw : ∀ n, IsHeader n → d (dst, n) ≠ some .directory) :
    (deleteOldHeaders dst d names).fine = true := by
  refine delete_fine hl.1 fun n hn hs => ?_
  have h1 := (hl.2 n).1 hn
  have h2 := hw n (List.isSuffixOf_iff_suffix.1 hs)
  cases e : d (dst, n) with
  | none => exact absurd e h1
  | some x =>
    cases x with
    | file t => exact ⟨t, rfl⟩
    | directory => exact absurd e h2

theorem main_fine (ho : AnyOrder order) (hl : Lists d dst names) (hb : Named base name)
    (hw : NothingInTheWay d dst doc base) {src : Str} (hs : d (doc, name) = some (.file src)) {g : Generated}
    (hg : generate base src = some g) : (runMain order dst doc name (some names) d).fine = true := by
  have k := generate_keys hg
  have h1 := delete_all_fine hl hw.headers
  unfold runMain
  simp only [hs, base_of_named hb]
  rw [next_disk h1, cleared_of_lists hl h1]
  simp only [hg]
  have nd : ∀ {fs : Files}, (fs.map (·.1)).Nodup → ((order fs).map (·.1)).Nodup := fun h => ((ho _).map _).nodup_iff.2 h
  have h2 : (writeFiles dst (cleared dst d) (order g.headers)).fine = true :=
    write_fine fun f hf => cleared_directory (hw.headers _ (k.isHeader f ((ho _).mem_iff.1 hf)))
  rw [next_disk h2, write_disk (nd k.headers) h2, layered_order k.headers (ho _)]
  have h3 : (writeFiles doc (layered dst g.headers (cleared dst d)) (order g.before)).fine = true :=
    write_fine fun f hf => layered_directory (cleared_directory (hw.pages _ (k.isPage f ((ho _).mem_iff.1 hf))))
  rw [next_disk h3, write_disk (nd k.before) h3, layered_order k.before (ho _)]
  have h4 : (writeFiles doc (layered doc g.before (layered dst g.headers (cleared dst d))) (order g.snippets)).fine = true :=
    write_fine fun f hf => layered_directory (layered_directory (cleared_directory
      (hw.copies _ (k.isCopy f ((ho _).mem_iff.1 hf)))))
  rw [next_disk h4, write_disk (nd k.snippets) h4, layered_order k.snippets (ho _)]
  refine writeFile_fine.2 (layered_directory (layered_directory (layered_directory (cleared_directory ?_))))
  rw [hs]
  exact fun he => by cases he

theorem effect_twice (g : Generated) : effect dst doc name g (effect dst doc name g d) = effect dst doc name g d := by
  funext p
  unfold effect
  generalize hE : (layered doc g.snippets (layered doc g.before (layered dst g.headers (cleared dst d)))) = E
  simp only [Disk.set]
  split
  · rfl
  · rename_i hp
    subst hE
    unfold layered cleared
    by_cases h1 : p.1 = doc <;> by_cases h2 : p.1 = dst <;> simp only [h1, h2, if_true, if_false, Disk.set, hp, true_and, false_and] <;>
      (repeat' split) <;> simp_all

end

/-! ## What is included -/

theorem preprocessLines_mono {f f' : List Str → Str → Option (List Str × List Str)}
    (h : ∀ m n r, f m n = some r → f' m n = some r) : ∀ (ls : List Str) (m : List Str) (k : Nat) (r : List Str × List Str),
    preprocessLines f m k ls = some r → preprocessLines f' m k ls = some r
  | [], m, k, r, hr => by
      cases k <;> exact hr
  | l :: ls, m, k + 1, r, hr => by
      rw [preprocessLines] at hr ⊢
      split at hr <;> exact preprocessLines_mono h ls _ _ r hr
  | l :: ls, m, 0, r, hr => by
      rw [preprocessLines] at hr ⊢
      split at hr
      · exact preprocessLines_mono h ls _ _ r hr
      · exact preprocessLines_mono h ls _ _ r hr
      · exact preprocessLines_mono h ls _ _ r hr
      · exact preprocessLines_mono h ls _ _ r hr
      · rw [Option.bind_eq_some_iff] at hr ⊢
        obtain ⟨x, h1, hr⟩ := hr
        rw [Option.map_eq_some_iff] at hr
        obtain ⟨y, h2, hr⟩ := hr
        exact ⟨x, h _ _ _ h1, Option.map_eq_some_iff.2 ⟨y, preprocessLines_mono h ls _ _ y h2, hr⟩⟩
      · rw [Option.map_eq_some_iff] at hr ⊢
        obtain ⟨y, h2, hr⟩ := hr
        exact ⟨y, preprocessLines_mono h ls _ _ y h2, hr⟩

theorem preprocessFile_mono {f f' : Str → Option Str} (h : ∀ n t, f n = some t → f' n = some t) :
    ∀ (k : Nat) (m : List Str) (n : Str) (r : List Str × List Str),
      preprocessFile f k m n = some r → preprocessFile f' k m n = some r
  | 0, _, _, _, hr => by cases hr
  | k + 1, m, n, r, hr => by
      rw [preprocessFile, Option.bind_eq_some_iff] at hr ⊢
      obtain ⟨t, h1, hr⟩ := hr
      exact ⟨t, h _ _ h1, preprocessLines_mono (preprocessFile_mono h k) _ _ _ _ hr⟩

theorem Sees.mono {f f' : Str → Option Str} (h : ∀ n t, f n = some t → f' n = some t) {m : List Str} {s : Str}
    {ws : List Str} (hs : Sees f m s ws) : Sees f' m s ws := by
  obtain ⟨k, ls, ms, h1, h2⟩ := hs
  exact ⟨k, ls, ms, preprocessLines_mono (preprocessFile_mono h k) _ _ _ _ h1, h2⟩

end Gen

end Metaparse
