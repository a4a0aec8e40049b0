import Verif.Lemmas.BenchmarkFiles
import Verif.Spec.BenchmarkRun
/-!
# Lemmas for the measurements and diagrams of the benchmarks
-/

namespace Metaparse.Bench

open Gen

/-! ## Dictionaries -/

theorem lookup_assign {β : Type} (d : List (Str × β)) (k : Str) (v : β) (k' : Str) :
    (assign d k v).lookup k' = if k' = k then some v else d.lookup k' := by
  unfold assign
  split
  · rename_i h
    induction d with
    | nil => simp at h
    | cons x d ih =>
        obtain ⟨a, b⟩ := x
        rw [List.map_cons]
        by_cases ha : a = k
        · subst ha
          simp only [beq_self_eq_true, if_true, List.lookup_cons]
          by_cases hk : k' = a
          · simp [hk]
          · have hk2 : (k' == a) = false := by simpa using hk
            simp only [hk2, if_neg hk]
            clear ih h
            induction d with
            | nil => rfl
            | cons y d ih =>
                obtain ⟨c, e⟩ := y
                rw [List.map_cons]
                by_cases hc : c = a
                · subst hc
                  simp only [beq_self_eq_true, if_true, List.lookup_cons, hk2]
                  exact ih
                · have hc2 : (c == a) = false := by simpa using hc
                  simp only [hc2, Bool.false_eq_true, if_false, List.lookup_cons, ih]
        · have ha2 : (a == k) = false := by simpa using ha
          simp only [List.any_cons, ha2, Bool.false_or] at h
          simp only [ha2, Bool.false_eq_true, if_false, List.lookup_cons, ih h]
          by_cases hk : k' = a
          · subst hk; simp [ha]
          · have hk2 : (k' == a) = false := by simpa using hk
            simp [hk2]
  · rename_i h
    rw [List.lookup_append]
    by_cases hk : k' = k
    · subst hk
      have : d.lookup k' = none := by
        rw [List.lookup_eq_none_iff]
        intro p hp
        simp only [List.any_eq_true, not_exists, not_and] at h
        have := h p hp
        simp only [beq_iff_eq] at this
        exact bne_iff_ne.2 fun e => this e.symm
      simp [this]
    · have hk2 : (k' == k) = false := by simpa using hk
      simp [hk, hk2, List.lookup_cons]

theorem assign_new {β : Type} {d : List (Str × β)} {k : Str} {v : β} (h : ∀ x ∈ d, x.1 ≠ k) :
    assign d k v = d ++ [(k, v)] := by
  unfold assign
  rw [if_neg]
  simp only [List.any_eq_true, not_exists, not_and]
  intro x hx
  simpa using h x hx

theorem key_assign {β : Type} {d : List (Str × β)} {k : Str} {v : β} {x : Str × β} (h : x ∈ assign d k v) :
    x.1 = k ∨ ∃ y ∈ d, y.1 = x.1 := by
  unfold assign at h
  split at h
  · obtain ⟨y, hy, e⟩ := List.mem_map.1 h
    split at e
    · exact .inl (by rw [← e])
    · exact .inr ⟨y, hy, by rw [e]⟩
  · rcases List.mem_append.1 h with h | h
    · exact .inr ⟨x, h, rfl⟩
    · rw [List.mem_singleton.1 h]; exact .inl rfl

theorem mem_of_lookup {β : Type} {d : List (Str × β)} {k : Str} {v : β} (h : d.lookup k = some v) : (k, v) ∈ d := by
  induction d with
  | nil => cases h
  | cons x d ih =>
      obtain ⟨a, b⟩ := x
      rw [List.lookup_cons] at h
      by_cases hk : k = a
      · subst hk; simp at h; simp [h]
      · have hk2 : (k == a) = false := by simpa using hk
        rw [hk2] at h
        exact List.mem_cons_of_mem _ (ih h)

theorem mapM_all {α β : Type} {f : α → Option β} {g : α → β} : ∀ {l : List α}, (∀ x ∈ l, f x = some (g x)) →
    l.mapM f = some (l.map g)
  | [], _ => rfl
  | x :: l, h => by
      rw [List.mapM_cons, h x List.mem_cons_self, mapM_all fun y hy => h y (List.mem_cons_of_mem _ hy)]
      rfl

theorem mapM_fails {α β : Type} {f : α → Option β} : ∀ {l : List α} {x : α}, x ∈ l → f x = none → l.mapM f = none
  | y :: l, x, hx, h => by
      rw [List.mapM_cons]
      rcases List.mem_cons.1 hx with rfl | hx
      · rw [h]; rfl
      · rw [mapM_fails hx h]; cases f y <;> rfl

theorem lookup_map_key {α β : Type} [BEq α] [LawfulBEq α] (g : α → β) : ∀ {l : List α} {x : α}, x ∈ l →
    (l.map fun n => (n, g n)).lookup x = some (g x)
  | y :: l, x, h => by
      rw [List.map_cons, List.lookup_cons]
      by_cases e : x = y
      · subst e; simp
      · have e2 : (x == y) = false := by simpa using e
        rw [e2]
        exact lookup_map_key g ((List.mem_cons.1 h).resolve_left e)

/-! ## Measuring -/

theorem loop_untouched {M : Type} {measure : Str → Bool → Option M} {k : Str} : ∀ {fs : List Str} {p : Progress M}
    {r : List (Str × M)}, benchmarkLoop measure fs p = some r → k ∉ fs →
    (∀ f ∈ fs, isIn (lit "bmp") f = true → measure f true ≠ none → withTemplates f ≠ k) →
    r.lookup k = p.result.lookup k
  | [], p, r, h, _, _ => by cases h; rfl
  | f :: fs, p, r, h, hk, ht => by
      rw [benchmarkLoop] at h
      have hkf : k ≠ f := fun e => hk (e ▸ List.mem_cons_self)
      have hkfs : k ∉ fs := fun e => hk (List.mem_cons_of_mem _ e)
      have ht' := fun g hg => ht g (List.mem_cons_of_mem _ hg)
      split at h
      · cases h
      · rename_i m hm
        split at h
        · rename_i hb
          split at h
          · rename_i m' hm'
            rw [loop_untouched h hkfs ht', lookup_assign, if_neg, lookup_assign, if_neg hkf]
            exact fun e => ht f List.mem_cons_self (by simp at hb; exact hb.1) (by rw [hm']; simp) e.symm
          · rw [loop_untouched h hkfs ht', lookup_assign, if_neg hkf]
        · rw [loop_untouched h hkfs ht', lookup_assign, if_neg hkf]

theorem loop_plain {M : Type} {measure : Str → Bool → Option M} {k : Str} : ∀ {fs : List Str} {p : Progress M}
    {r : List (Str × M)}, benchmarkLoop measure fs p = some r → fs.Nodup → k ∈ fs →
    (∀ f ∈ fs, isIn (lit "bmp") f = true → measure f true ≠ none → withTemplates f ≠ k) →
    (r.lookup k).isSome ∧ r.lookup k = measure k false
  | f :: fs, p, r, h, hn, hk, ht => by
      rw [benchmarkLoop] at h
      have ht' := fun g hg => ht g (List.mem_cons_of_mem _ hg)
      rw [List.nodup_cons] at hn
      split at h
      · cases h
      · rename_i m hm
        by_cases e : k = f
        · subst e
          suffices r.lookup k = some m by rw [this, hm]; exact ⟨rfl, rfl⟩
          split at h
          · rename_i hb
            split at h
            · rename_i m' hm'
              rw [loop_untouched h hn.1 ht', lookup_assign, if_neg, lookup_assign, if_pos rfl]
              exact fun e => ht k List.mem_cons_self (by simp at hb; exact hb.1) (by rw [hm']; simp) e.symm
            · rw [loop_untouched h hn.1 ht', lookup_assign, if_pos rfl]
          · rw [loop_untouched h hn.1 ht', lookup_assign, if_pos rfl]
        · have hk' := (List.mem_cons.1 hk).resolve_left e
          split at h
          · split at h
            · exact loop_plain h hn.2 hk' ht'
            · exact loop_plain h hn.2 hk' ht'
          · exact loop_plain h hn.2 hk' ht'

theorem loop_templates {M : Type} {measure : Str → Bool → Option M} {k : Str} : ∀ {fs : List Str} {p : Progress M}
    {r : List (Str × M)}, benchmarkLoop measure fs p = some r → fs.Nodup → k ∈ fs → isIn (lit "bmp") k = true →
    p.hasTemplates = true → withTemplates k ∉ fs →
    (∀ f ∈ fs, isIn (lit "bmp") f = true → withTemplates f = withTemplates k → f = k) →
    (∀ f ∈ fs, isIn (lit "bmp") f = true → measure f true ≠ none) →
    (r.lookup (withTemplates k)).isSome ∧ r.lookup (withTemplates k) = measure k true
  | f :: fs, p, r, h, hn, hk, hb, hp, hw, hi, ha => by
      rw [benchmarkLoop] at h
      rw [List.nodup_cons] at hn
      have hw' : withTemplates k ∉ fs := fun e => hw (List.mem_cons_of_mem _ e)
      have hi' := fun g hg => hi g (List.mem_cons_of_mem _ hg)
      have ha' := fun g hg => ha g (List.mem_cons_of_mem _ hg)
      split at h
      · cases h
      · rename_i m hm
        by_cases e : k = f
        · subst e
          rw [hb, hp] at h
          simp only [Bool.and_self, if_true] at h
          split at h
          · rename_i m' hm'
            have : r.lookup (withTemplates k) = some m' := by
              rw [loop_untouched h hw', lookup_assign, if_pos rfl]
              intro g hg hgb _ hge
              exact hn.1 (hi g (List.mem_cons_of_mem _ hg) hgb hge ▸ hg)
            rw [this, hm']; exact ⟨rfl, rfl⟩
          · rename_i hm'
            exact absurd hm' (ha k List.mem_cons_self hb)
        · have hk' := (List.mem_cons.1 hk).resolve_left e
          split at h
          · rename_i hfb
            simp only [Bool.and_eq_true] at hfb
            split at h
            · exact loop_templates h hn.2 hk' hb rfl hw' hi' ha'
            · rename_i hm'
              exact absurd hm' (ha f List.mem_cons_self hfb.1)
          · exact loop_templates h hn.2 hk' hb hp hw' hi' ha'

theorem loop_keys {M : Type} {measure : Str → Bool → Option M} : ∀ {fs : List Str} {p : Progress M}
    {r : List (Str × M)}, benchmarkLoop measure fs p = some r → ∀ x ∈ r, (∃ y ∈ p.result, y.1 = x.1) ∨ x.1 ∈ fs ∨
      ∃ f ∈ fs, isIn (lit "bmp") f = true ∧ measure f true ≠ none ∧ x.1 = withTemplates f
  | [], p, r, h, x, hx => by cases h; exact .inl ⟨x, hx, rfl⟩
  | f :: fs, p, r, h, x, hx => by
      rw [benchmarkLoop] at h
      have lift : ∀ {q : Progress M}, benchmarkLoop measure fs q = some r →
          (∀ y ∈ q.result, (∃ z ∈ p.result, z.1 = y.1) ∨ y.1 = f ∨
            (isIn (lit "bmp") f = true ∧ measure f true ≠ none ∧ y.1 = withTemplates f)) →
          (∃ y ∈ p.result, y.1 = x.1) ∨ x.1 ∈ f :: fs ∨
            ∃ g ∈ f :: fs, isIn (lit "bmp") g = true ∧ measure g true ≠ none ∧ x.1 = withTemplates g := by
        intro q hq hy
        rcases loop_keys hq x hx with ⟨y, hyr, e⟩ | h | ⟨g, hg, h⟩
        · rcases hy y hyr with ⟨z, hz, e'⟩ | e' | ⟨h1, h2, e'⟩
          · exact .inl ⟨z, hz, e'.trans e⟩
          · exact .inr (.inl (by rw [← e, e']; exact List.mem_cons_self))
          · exact .inr (.inr ⟨f, List.mem_cons_self, h1, h2, by rw [← e, e']⟩)
        · exact .inr (.inl (List.mem_cons_of_mem _ h))
        · exact .inr (.inr ⟨g, List.mem_cons_of_mem _ hg, h⟩)
      have one : ∀ {m : M} {y : Str × M}, y ∈ assign p.result f m → (∃ z ∈ p.result, z.1 = y.1) ∨ y.1 = f :=
        fun hy => (key_assign hy).symm
      split at h
      · cases h
      · rename_i m hm
        split at h
        · rename_i hb
          simp only [Bool.and_eq_true] at hb
          split at h
          · rename_i m' hm'
            refine lift h fun y hy => ?_
            rcases key_assign hy with e | ⟨z, hz, e⟩
            · exact .inr (.inr ⟨hb.1, by rw [hm']; simp, e⟩)
            · rcases one hz with ⟨w, hw, e'⟩ | e'
              · exact .inl ⟨w, hw, e'.trans e⟩
              · exact .inr (.inl (e ▸ e'))
          · exact lift h fun y hy => (one hy).imp_right .inl
        · exact lift h fun y hy => (one hy).imp_right .inl

/-! ## Names of files -/

theorem has_split {a b p : Str} {c : Char} (hc : c ∉ p) (h : Has (a ++ c :: b) p) : Has a p ∨ Has b p := by
  obtain ⟨u, v, e⟩ := h
  rw [List.append_assoc] at e
  rcases List.append_eq_append_iff.1 e with ⟨w, e1, e2⟩ | ⟨w, e1, e2⟩
  · cases w with
    | nil =>
        cases p with
        | nil => exact .inl ⟨a, [], by simp⟩
        | cons d p => injection e2 with e3 _; exact absurd (by rw [e3]; exact List.mem_cons_self) hc
    | cons d w =>
        injection e2 with e3 e4
        exact .inr ⟨w, v, by rw [List.append_assoc]; exact e4⟩
  · rcases List.append_eq_append_iff.1 e2 with ⟨w', e3, e4⟩ | ⟨w', e3, e4⟩
    · exact .inl ⟨u, w', by rw [e1, e3, List.append_assoc]⟩
    · cases w' with
      | nil => exact .inl ⟨u, [], by rw [e1, e3]; simp⟩
      | cons d w' =>
          injection e4 with e5 e6
          exact absurd (by rw [e3, ← e5]; simp) hc

theorem has_outFilename {name p : Str} {n : Nat} {m : Mode} (hp : '_' ∉ p) (hd : ∀ c ∈ p, isDigit c = false)
    (hne : p ≠ []) (h : Has (outFilename name n m) p) : Has name p ∨ Has (m.identifier ++ lit ".cpp") p := by
  have e : outFilename name n m = name ++ '_' :: (number n ++ '_' :: (m.identifier ++ lit ".cpp")) := by
    simp [outFilename]
  rw [e] at h
  rcases has_split hp h with h | h
  · exact .inl h
  · rcases has_split hp h with h | h
    · cases p with
      | nil => exact absurd rfl hne
      | cons c p => exact absurd (h.mem List.mem_cons_self) (not_mem_number (hd c List.mem_cons_self))
    · exact .inr h

theorem slt_outFilename {name : Str} {n : Nat} {m : Mode} (h : ¬ Has name (lit "slt")) :
    ¬ Has (outFilename name n m) (lit "slt") := by
  intro hh
  rcases has_outFilename (by decide) (by decide) (by decide) hh with h' | h'
  · exact h h'
  · rw [← isIn_iff] at h'
    cases m <;> exact absurd h' (by decide)

theorem bmp_outFilename {name : Str} {n : Nat} {m : Mode} (h : ¬ Has name (lit "bmp")) :
    isIn (lit "bmp") (outFilename name n m) = true ↔ m = .bmp := by
  rw [isIn_iff]
  constructor
  · intro hh
    rcases has_outFilename (by decide) (by decide) (by decide) hh with h' | h'
    · exact absurd h' h
    · rw [← isIn_iff] at h'
      cases m
      · rfl
      · exact absurd h' (by decide)
  · rintro rfl
    exact ⟨name ++ '_' :: number n ++ ['_'], lit ".cpp", by simp [outFilename, Mode.identifier]⟩

theorem replace_before {old new s t : Str} (h : ¬ Has (s ++ t.take (old.length - 1)) old) (ho : old ≠ []) :
    replaceFrom old new 0 (s ++ t) = s ++ replaceFrom old new 0 t := by
  induction s with
  | nil => rfl
  | cons c s ih =>
      rw [List.cons_append, replaceFrom, if_neg, ih]
      · rfl
      · exact fun ⟨u, v, e⟩ => h ⟨c :: u, v, by rw [List.cons_append, e]; rfl⟩
      · intro hp
        obtain ⟨v, e⟩ := List.isPrefixOf_iff_prefix.1 hp
        have key : old = (c :: s ++ t.take (old.length - 1)).take old.length := by
          have e1 : (c :: (s ++ t)).take old.length = old := by rw [← e]; simp
          rw [← List.cons_append] at e1
          rw [List.take_append] at e1 ⊢
          conv => lhs; rw [← e1]
          congr 1
          rw [List.take_take]
          congr 1
          cases old with
          | nil => exact absurd rfl ho
          | cons d old => simp only [List.length_cons]; omega
        generalize c :: s ++ t.take (old.length - 1) = x at h key
        exact h ⟨[], x.drop old.length, by
          conv => lhs; rw [← List.take_append_drop old.length x]
          rw [← key]; rfl⟩

theorem withTemplates_outFilename {name : Str} {n : Nat} (h : ¬ Has name (lit "bmp")) :
    withTemplates (outFilename name n .bmp) = name ++ '_' :: number n ++ ['_'] ++ lit "slt.cpp" := by
  have e : outFilename name n .bmp = (name ++ '_' :: number n ++ ['_']) ++ lit "bmp.cpp" := by
    simp [outFilename, Mode.identifier, lit]
  rw [e, withTemplates, replace_before _ (by decide)]
  · rw [show replaceFrom (lit "bmp") (lit "slt") 0 (lit "bmp.cpp") = lit "slt.cpp" by decide]
  · intro hh
    have e : name ++ '_' :: number n ++ ['_'] ++ (lit "bmp.cpp").take ((lit "bmp").length - 1) =
      name ++ '_' :: (number n ++ '_' :: lit "bm") := by simp [lit]
    rw [e] at hh
    rcases has_split (by decide) hh with h' | h'
    · exact h h'
    · rcases has_split (by decide) h' with h' | h'
      · exact absurd (h'.mem (c := 'b') (by decide)) (not_mem_number (by decide))
      · rw [← isIn_iff] at h'; exact absurd h' (by decide)

theorem has_withTemplates {name : Str} {n : Nat} (h : ¬ Has name (lit "bmp")) :
    Has (withTemplates (outFilename name n .bmp)) (lit "slt") := by
  rw [withTemplates_outFilename h]
  exact ⟨name ++ '_' :: number n ++ ['_'], lit ".cpp", by simp [lit]⟩

theorem withTemplates_inj {name name' : Str} {n n' : Nat} (h : ¬ Has name (lit "bmp")) (h' : ¬ Has name' (lit "bmp"))
    (e : withTemplates (outFilename name n .bmp) = withTemplates (outFilename name' n' .bmp)) : name = name' ∧ n = n' := by
  rw [withTemplates_outFilename h, withTemplates_outFilename h'] at e
  have h3 := (List.append_inj' (List.append_inj' e rfl).1 rfl).1
  obtain ⟨h4, h5⟩ := split_last (not_mem_number (by decide)) (not_mem_number (by decide)) h3
  exact ⟨h4, number_inj h5⟩

end Metaparse.Bench
