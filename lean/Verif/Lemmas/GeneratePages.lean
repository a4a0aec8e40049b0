import Verif.Lemmas.GenerateRuns

/-! # The pages with the definitions before a section -/

namespace Metaparse.Gen

/-! ## The loop -/

/-- `so_far` after some sections. -/
def soFarOf (defs : List (Str × Str)) (ss : List Str) : Str := ss.flatMap (sectionSnippets defs)

/-- The name of a page, by the name of the section. -/
def pageOf (s : Str) : Str := lit "before_" ++ s ++ lit ".qbk"

theorem pageOf_injective {s t : Str} (h : pageOf s = pageOf t) : s = t :=
  List.append_cancel_left (List.append_cancel_right h)

theorem beforeLoop_other (defs : List (Str × Str)) {f : Str} :
    ∀ (ss : List Str) (files : Files) (withDefs : List Str) (soFar : Str), (∀ s ∈ ss, f ≠ pageOf s) →
      (beforeLoop defs files withDefs soFar ss).1.get f = files.get f
  | [], _, _, _, _ => rfl
  | s :: ss, files, withDefs, soFar, h => by
      rw [beforeLoop]
      split
      · exact beforeLoop_other defs ss _ _ _ fun x hx => h x (by simp [hx])
      · rw [beforeLoop_other defs ss _ _ _ fun x hx => h x (by simp [hx])]
        exact get_put_other _ _ (h s (by simp))

theorem beforeLoop_get (defs : List (Str × Str)) (s : Str) (post : List Str) :
    ∀ (pre : List Str) (files : Files) (withDefs : List Str) (soFar : Str), (pre ++ s :: post).Nodup →
      files.get (pageOf s) = none →
      (beforeLoop defs files withDefs soFar (pre ++ s :: post)).1.get (pageOf s) =
        if soFar ++ soFarOf defs pre = [] then none else some (beforeDoc s (soFar ++ soFarOf defs pre))
  | [], files, withDefs, soFar, h, hf => by
      rw [List.nil_append, soFarOf, List.flatMap_nil, List.append_nil, beforeLoop]
      have hne : ∀ x ∈ post, pageOf s ≠ pageOf x := by
        intro x hx he
        rw [List.nil_append, List.nodup_cons] at h
        exact h.1 (pageOf_injective he ▸ hx)
      split
      · rw [beforeLoop_other _ _ _ _ _ hne, hf]
      · rw [beforeLoop_other _ _ _ _ _ hne]
        exact get_put_same _ _ _
  | p :: pre, files, withDefs, soFar, h, hf => by
      have hnd := (List.nodup_cons.1 h)
      have e : soFar ++ soFarOf defs (p :: pre) = soFar ++ sectionSnippets defs p ++ soFarOf defs pre := by
        rw [soFarOf, List.flatMap_cons, List.append_assoc]; rfl
      rw [List.cons_append, beforeLoop, e]
      split
      · rename_i hs
        rw [beforeLoop_get defs s post pre _ _ _ hnd.2 hf]
      · rw [beforeLoop_get defs s post pre _ _ _ hnd.2]
        rw [← hf]
        apply get_put_other
        intro he
        have := pageOf_injective he
        exact hnd.1 (by rw [← this]; simp)

/-! ## The code of a page -/

theorem codeWords_append (u v : Str) : codeWords (u ++ '\n' :: v) = codeWords u ++ codeWords v := by
  rw [codeWords, linesOf_append, List.filter_append, List.flatMap_append]; rfl

theorem codeWords_snippet (s : Str) : codeWords (makeCodeSnippet s) = words s := by
  have e : linesOf (makeCodeSnippet s) = (linesOf s).map (lit "  " ++ ·) := linesOf_prefixLines (by decide) s
  rw [codeWords, e, List.filter_eq_self.2]
  · rw [List.flatMap_map, ← words_linesOf s]
    apply flatMap_congr_left
    intro l _
    exact (words_blank (by decide) _).trans (words_blank (by decide) _)
  · intro l hl
    obtain ⟨m, -, rfl⟩ := List.mem_map.1 hl
    simp [lit, List.isPrefixOf]

theorem codeWords_join (ds : List Str) (t : Str) (hne : ds ≠ []) :
    codeWords (join ['\n'] (ds.map fun d => d ++ ['\n']) ++ t) = ds.flatMap codeWords ++ codeWords t := by
  induction ds with
  | nil => exact absurd rfl hne
  | cons d ds ih =>
    cases ds with
    | nil =>
      show codeWords (d ++ ['\n'] ++ t) = _
      rw [List.append_assoc]
      show codeWords (d ++ '\n' :: t) = _
      rw [codeWords_append]
      simp
    | cons e ds =>
      have : join ['\n'] ((d :: e :: ds).map fun d => d ++ ['\n']) ++ t =
          d ++ '\n' :: ([] ++ '\n' :: (join ['\n'] ((e :: ds).map fun d => d ++ ['\n']) ++ t)) := by
        rw [List.map_cons, List.map_cons, join]
        · simp
        · simp
      rw [this, codeWords_append, codeWords_append, ih (by simp)]
      simp [codeWords, linesOf, lit, List.isPrefixOf]

open Classical in
/-- The definition in a page, without the protection. -/
theorem page_definition {ls : List Str} (h : WellWrittenCommand ls) :
    ((lit "//").isPrefixOf (definitionOf (rawCommand ls)) = true ↔ ¬ Defines ls) ∧
      (Defines ls → words (removeMetashellProtection (definitionOf (rawCommand ls))) = ls.flatMap words) := by
  by_cases hd : isDefinition (rawCommand ls) = true
  · have hD := (isDefinition_iff h).1 hd
    obtain ⟨g, -⟩ := goodText_command h
    rw [definitionOf, if_pos hd, protectMetashell]
    generalize strip (rawCommand ls) = t at g
    -- the text has a first line
    obtain ⟨l, ms, hl⟩ : ∃ l ms, linesOf t = l :: ms := by
      cases hl : linesOf t with
      | nil => exact absurd hl (linesOf_ne_nil t)
      | cons l ms => exact ⟨l, ms, rfl⟩
    have hh := g.harmless l (by rw [hl]; simp)
    split
    · refine ⟨?_, fun _ => ?_⟩
      · constructor
        · intro hp
          simp [lit, List.isPrefixOf] at hp
        · intro hn; exact absurd hD hn
      · have e : removeMetashellProtection (lit "#ifdef __METASHELL\n" ++ t ++ lit "\n#endif") = t ++ ['\n'] := by
          rw [removeMetashellProtection, if_pos]
          · have hlen1 : (lit "#ifdef __METASHELL\n").length = 19 := rfl
            have hlen2 : (lit "\n#endif").length = 7 := rfl
            rw [List.append_assoc, List.drop_append, hlen1, List.drop_eq_nil_of_le (by rw [hlen1]; exact Nat.le_refl _),
              Nat.sub_self, List.drop_zero, List.nil_append]
            have : (lit "#ifdef __METASHELL\n" ++ (t ++ lit "\n#endif")).length - 19 - 6 = t.length + 1 := by
              simp only [List.length_append, hlen1, hlen2]; omega
            rw [this, List.take_append, List.take_of_length_le (by omega), Nat.add_sub_cancel_left]
            rfl
          · rw [Bool.and_eq_true]
            constructor
            · rw [List.isPrefixOf_iff_prefix, List.append_assoc]
              exact List.prefix_append _ _
            · rw [List.isSuffixOf_iff_suffix]
              exact ⟨lit "#ifdef __METASHELL\n" ++ t ++ ['\n'], by simp [lit]⟩
        rw [e, words_append_blanks _ (by decide), g.words]
    · refine ⟨?_, fun _ => ?_⟩
      · constructor
        · intro hp
          exfalso
          apply hh.2
          rw [List.isPrefixOf_iff_prefix] at hp
          obtain ⟨r, hr⟩ := hp
          obtain ⟨i, m, x, q, h1, h2, h3⟩ := linesOf_concat (lit "//") r
          rw [hr, hl] at h3
          rw [linesOf_line (by decide)] at h1
          have hi : i = [] := by
            cases i with
            | nil => rfl
            | cons _ _ => simp at h1
          subst hi
          simp at h1 h3
          rw [h3.1, ← h1]
          exact List.prefix_append _ _
        · intro hn; exact absurd hD hn
      · rw [removeMetashellProtection, if_neg, g.words]
        rw [Bool.and_eq_true]
        rintro ⟨hp, -⟩
        rw [List.isPrefixOf_iff_prefix] at hp
        obtain ⟨r, hr⟩ := hp
        have hfirst : l = lit "#ifdef __METASHELL" := by
          have : t = lit "#ifdef __METASHELL" ++ '\n' :: r := by
            rw [← hr, show lit "#ifdef __METASHELL\n" = lit "#ifdef __METASHELL" ++ ['\n'] by decide]; simp
          rw [this, linesOf_append, linesOf_line (by decide)] at hl
          simp at hl
          exact hl.1.symm
        rw [hfirst] at hh
        exact absurd hh.1 (by decide)
  · have hD : ¬ Defines ls := fun h' => hd ((isDefinition_iff h).2 h')
    refine ⟨⟨fun _ => hD, fun _ => ?_⟩, fun h' => absurd h' hD⟩
    rw [definitionOf, if_neg hd, protect_query]
    obtain ⟨l', hl'⟩ := rstrip_cons (c := '/') (by decide) (lit "/ query:\n" ++ prefixLines (lit "//   ") (rawCommand ls))
    rw [show strip (lit "// query:\n" ++ prefixLines (lit "//   ") (rawCommand ls)) =
      rstrip ('/' :: (lit "/ query:\n" ++ prefixLines (lit "//   ") (rawCommand ls))) from rfl]
    have h2 : lit "//" <+: rstrip ('/' :: (lit "/ query:\n" ++ prefixLines (lit "//   ") (rawCommand ls))) := by
      obtain ⟨b, hb, hall⟩ := rstrip_split ('/' :: (lit "/ query:\n" ++ prefixLines (lit "//   ") (rawCommand ls)))
      apply (prefix_append_blanks (by decide) hall).1
      rw [← hb]
      exact ⟨lit " query:\n" ++ prefixLines (lit "//   ") (rawCommand ls), rfl⟩
    rw [List.isPrefixOf_iff_prefix]
    exact h2

/-- The definitions of the commands of a section, as they are for Metashell. -/
noncomputable def shown (cs : List (List Str)) : List (List Str) := by
  classical exact cs.filter fun ls => Defines ls

theorem sectionSnippets_eq {ts : List (Str × List Str)} (hts : ∀ d ∈ ts, WellWrittenCommand d.2) (s : Str) :
    ∃ ds, sectionSnippets (ts.map fun d => (d.1, definitionOf (rawCommand d.2))) s =
        join ['\n'] (ds.map fun d => d ++ ['\n']) ∧
      ds.flatMap codeWords = (shown (ofSection ts s)).flatMap (fun ls => ls.flatMap words) ∧
      (ds = [] ↔ shown (ofSection ts s) = []) := by
  classical
  refine ⟨(shown (ofSection ts s)).map fun ls =>
      makeCodeSnippet (removeMetashellProtection (definitionOf (rawCommand ls))), ?_, ?_, by simp⟩
  · rw [sectionSnippets]
    congr 1
    rw [List.map_map, List.filter_map, List.map_map, shown, ofSection, List.filter_map, List.map_map, List.filter_filter]
    have : ts.filter ((fun d : Str × Str => decide (d.1 = s) && !(lit "//").isPrefixOf d.2) ∘
          fun d => (d.1, definitionOf (rawCommand d.2))) =
        ts.filter (fun a => ((fun ls => decide (Defines ls)) ∘ fun x => x.2) a && decide (a.1 = s)) := by
      apply List.filter_congr
      intro d hd
      have := (page_definition (hts d hd)).1
      simp only [Function.comp]
      rw [Bool.and_comm]
      congr 1
      by_cases hD : Defines d.2
      · have hf : (lit "//").isPrefixOf (definitionOf (rawCommand d.2)) = false := by
          rw [← Bool.not_eq_true]; intro h; exact this.1 h hD
        simp [hf, hD]
      · simp [this.2 hD, hD]
    rw [this]
    rfl
  · rw [List.flatMap_map]
    apply flatMap_congr_left
    intro ls hls
    rw [shown] at hls
    obtain ⟨hls, hD⟩ := List.mem_filter.1 hls
    obtain ⟨d, hd, rfl⟩ := List.mem_map.1 hls
    rw [codeWords_snippet]
    exact (page_definition (hts d (List.mem_filter.1 hd).1)).2 (by simpa using hD)

theorem join_feeds_eq_nil {ds : List Str} : join ['\n'] (ds.map fun d => d ++ ['\n']) = [] ↔ ds = [] := by
  constructor
  · intro h
    cases ds with
    | nil => rfl
    | cons d ds =>
      exfalso
      cases ds with
      | nil => simp [join] at h
      | cons e ds =>
        rw [List.map_cons, List.map_cons, join] at h
        · simp at h
        · simp
  · rintro rfl; rfl

theorem soFarOf_words {ts : List (Str × List Str)} (hts : ∀ d ∈ ts, WellWrittenCommand d.2) (ss : List Str) :
    (soFarOf (ts.map fun d => (d.1, definitionOf (rawCommand d.2))) ss = [] ↔
      shown (ss.flatMap (ofSection ts)) = []) ∧
    ∀ t, codeWords (soFarOf (ts.map fun d => (d.1, definitionOf (rawCommand d.2))) ss ++ t) =
      (shown (ss.flatMap (ofSection ts))).flatMap (fun ls => ls.flatMap words) ++ codeWords t := by
  induction ss with
  | nil => exact ⟨by simp [soFarOf, shown], fun t => by simp [soFarOf, shown]⟩
  | cons s ss ih =>
    obtain ⟨ds, h1, h2, h3⟩ := sectionSnippets_eq hts s
    have e : soFarOf (ts.map fun d => (d.1, definitionOf (rawCommand d.2))) (s :: ss) =
        join ['\n'] (ds.map fun d => d ++ ['\n']) ++
          soFarOf (ts.map fun d => (d.1, definitionOf (rawCommand d.2))) ss := by
      rw [soFarOf, List.flatMap_cons, h1]; rfl
    have e2 : shown ((s :: ss).flatMap (ofSection ts)) =
        shown (ofSection ts s) ++ shown (ss.flatMap (ofSection ts)) := by
      classical
      rw [List.flatMap_cons, shown, List.filter_append]
      rfl
    rw [e, e2]
    constructor
    · rw [List.append_eq_nil_iff, List.append_eq_nil_iff, ih.1, join_feeds_eq_nil, h3]
    · intro t
      rw [List.append_assoc]
      by_cases hds : ds = []
      · rw [hds]
        have hs := h3.1 hds
        rw [hs]
        exact ih.2 t
      · rw [codeWords_join _ _ hds, ih.2, h2]
        simp

/-! ## The sections before a section -/

theorem ofSection_sections {a : List Piece} {n : List Nat} {t : Str} {b : List Piece}
    (h : ([] :: (numbers (a ++ .heading n t :: b)).map (dotted '_')).Nodup) :
    ((numbers a).map (dotted '_')).flatMap (ofSection (tagged [] (a ++ .heading n t :: b))) =
      (inSections a).flatMap Piece.commands := by
  have hall := ofSection_before h
  rw [List.flatMap_cons] at hall
  have hfirst : ofSection (tagged [] (a ++ .heading n t :: b)) [] =
      (a.takeWhile fun p => !p.isHeading).flatMap Piece.commands := by
    clear hall
    rw [ofSection]
    have hnd := (List.nodup_cons.1 h).1
    clear h
    induction a with
    | nil =>
      rw [List.nil_append, tagged]
      simp only [Piece.commands, List.map_nil, List.nil_append, sectionAfter, List.takeWhile_nil, List.flatMap_nil]
      rw [List.filter_eq_nil_iff.2]
      · rfl
      · intro d hd
        have := tagged_section hd
        simp only [decide_eq_true_eq]
        intro e
        apply hnd
        rw [e] at this
        simpa [numbers] using this
    | cons p a ih =>
      by_cases hp : p.isHeading = true
      · rw [List.takeWhile_cons, if_neg (by simp [hp])]
        rw [List.filter_eq_nil_iff.2]
        · rfl
        · intro d hd
          simp only [decide_eq_true_eq]
          intro e
          apply hnd
          have htag : tagged [] (p :: a ++ .heading n t :: b) = tagged (sectionAfter [] p) (a ++ .heading n t :: b) := by
            rw [List.cons_append, tagged]
            cases p with
            | heading m t => rfl
            | _ => simp [Piece.isHeading] at hp
          rw [htag] at hd
          have := tagged_section hd
          rw [e] at this
          cases p with
          | heading m t => simpa [numbers, sectionAfter] using this
          | _ => simp [Piece.isHeading] at hp
      · have hsec : sectionAfter [] p = [] := by
          cases p with
          | heading m t => simp [Piece.isHeading] at hp
          | _ => rfl
        have hnum : numbers (p :: a ++ .heading n t :: b) = numbers (a ++ .heading n t :: b) := by
          cases p with
          | heading m t => simp [Piece.isHeading] at hp
          | _ => rfl
        rw [List.takeWhile_cons, if_pos (by simp [hp]), List.flatMap_cons, List.cons_append, tagged, hsec,
          List.filter_append, List.map_append, ih (by rwa [hnum] at hnd), List.filter_eq_self.2]
        · rw [List.map_map]; simp [Function.comp_def]
        · intro d hd
          obtain ⟨ls, -, rfl⟩ := List.mem_map.1 hd
          simp
  have hsplit : a.flatMap Piece.commands =
      (a.takeWhile fun p => !p.isHeading).flatMap Piece.commands ++ (inSections a).flatMap Piece.commands := by
    rw [inSections, ← List.flatMap_append, List.takeWhile_append_dropWhile]
  rw [hfirst, hsplit] at hall
  exact List.append_cancel_left hall

theorem shown_definitions (doc : List Piece) : shown (doc.flatMap Piece.commands) = definitions true doc := by
  rw [shown, definitions]
  apply List.filter_congr
  intro ls _
  simp

theorem mem_beforeLoop (defs : List (Str × Str)) {f : Str} (ss : List Str)
    (h : (beforeLoop defs [] [] [] ss).1.get f ≠ none) : ∃ s ∈ ss, f = pageOf s := by
  by_cases hex : ∃ s ∈ ss, f = pageOf s
  · exact hex
  · exfalso
    apply h
    rw [beforeLoop_other]
    · rfl
    · intro s hs he
      exact hex ⟨s, hs, he⟩

end Metaparse.Gen
