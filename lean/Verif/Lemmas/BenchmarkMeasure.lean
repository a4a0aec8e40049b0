import Verif.Lemmas.BenchmarkRun
import Verif.Lemmas.BenchmarkTemplate
import Verif.Lemmas.GenerateCopies
import Verif.Spec.BenchmarkMeasure
/-!
# Lemmas for measuring a file, the progress and the pages of the benchmarks
-/

namespace Metaparse.Bench

open Gen

theorem split_count (c : Char) : ∀ s : Str, (split c s).length = s.count c + 1
  | [] => rfl
  | d :: s => by
      have ih := split_count c s
      rw [split]
      by_cases h : d = c
      · simp [h, ih]
      · rw [if_neg h, List.count_cons_of_ne h]
        cases hs : split c s with
        | nil => simp [hs] at ih
        | cons w ws => simp [hs] at ih ⊢; exact ih

theorem digit_blank {c : Char} (h : '0' ≤ c ∧ c ≤ '9') : blank c = false := by
  have h1 := h.1
  have h2 := h.2
  rw [Char.le_def, UInt32.le_iff_toNat_le] at h1 h2
  have h3 : 48 ≤ c.val.toNat := h1
  cases hb : blank c with
  | false => rfl
  | true =>
      simp only [blank, List.elem_eq_mem, decide_eq_true_eq, List.mem_cons, List.not_mem_nil, or_false] at hb
      rcases hb with rfl | rfl | rfl | rfl | rfl | rfl <;> exact absurd h3 (by decide)

theorem digit_ne {c d : Char} (h : '0' ≤ c ∧ c ≤ '9') (hd : ¬ ('0' ≤ d ∧ d ≤ '9')) : c ≠ d := fun e => hd (e ▸ h)

theorem decimal_space {s : Str} {n : Nat} (h : Decimal s n) {d : Char} (hd : ¬ ('0' ≤ d ∧ d ≤ '9')) : d ∉ s := fun hm =>
  digit_ne (h.2.1 d hm) hd rfl

theorem decimal_ends {s : Str} {n : Nat} (h : Decimal s n) : ∃ a c, s = a ++ [c] ∧ blank c = false := by
  refine ⟨s.dropLast, s.getLast h.1, (List.dropLast_concat_getLast h.1).symm, digit_blank (h.2.1 _ (List.getLast_mem _))⟩

theorem decimal_starts {s : Str} {n : Nat} (h : Decimal s n) : ∃ c a, s = c :: a ∧ blank c = false := by
  cases hs : s with
  | nil => exact absurd hs h.1
  | cons c a => exact ⟨c, a, rfl, digit_blank (h.2.1 c (by simp [hs]))⟩

theorem lstrip_blanks : ∀ {w : Str}, (∀ c ∈ w, blank c = true) → ∀ s, lstrip (w ++ s) = lstrip s
  | [], _, _ => rfl
  | c :: w, h, s => by
      rw [List.cons_append, lstrip_blank (h c (by simp))]
      exact lstrip_blanks (fun d hd => h d (by simp [hd])) s

/-- The sums of the loop. -/
theorem sumRuns_eq {measured : Nat → Option (Rat × Rat)} {t m : Nat → Rat} : ∀ (left nth : Nat) (a b : Rat),
    (∀ k, k < left → measured (nth + k) = some (t (nth + k), m (nth + k))) →
    sumRuns measured left nth a b =
      some (a + ((List.range left).map fun k => t (nth + k)).sum, b + ((List.range left).map fun k => m (nth + k)).sum)
  | 0, _, a, b, _ => by simp [sumRuns, Rat.add_zero]
  | left + 1, nth, a, b, h => by
      have h0 := h 0 (by omega)
      rw [Nat.add_zero] at h0
      rw [sumRuns, h0, Option.bind_some, sumRuns_eq left (nth + 1) _ _ (fun k hk => by
        have := h (k + 1) (by omega)
        rw [show nth + (k + 1) = nth + 1 + k by omega] at this
        exact this)]
      rw [List.range_succ_eq_map]
      simp only [List.map_cons, List.map_map, List.sum_cons, Nat.add_zero, Function.comp_def, Nat.succ_eq_add_one]
      simp only [Rat.add_assoc]
      simp only [show ∀ k, nth + 1 + k = nth + (k + 1) from fun k => by omega]

theorem sumRuns_fails {measured : Nat → Option (Rat × Rat)} : ∀ (left nth : Nat) (a b : Rat) {k : Nat}, k < left →
    measured (nth + k) = none → sumRuns measured left nth a b = none
  | 0, _, _, _, _, hk, _ => absurd hk (by omega)
  | left + 1, nth, a, b, k, hk, h => by
      rw [sumRuns]
      cases hm : measured nth with
      | none => rfl
      | some x =>
          rw [Option.bind_some]
          cases k with
          | zero => rw [Nat.add_zero, hm] at h; cases h
          | succ k => exact sumRuns_fails left (nth + 1) _ _ (k := k) (by omega) (by rw [← h]; congr 1; omega)

theorem total_ge {lo : Rat} {f : Nat → Rat} : ∀ {n : Nat}, (∀ k, k < n → lo ≤ f k) → lo * n ≤ total n f
  | 0, _ => by simp [total]
  | n + 1, h => by
      have ih := total_ge (n := n) fun k hk => h k (by omega)
      have := h n (by omega)
      unfold total at ih ⊢
      rw [List.range_succ, List.map_append, List.sum_append]
      simp only [List.map_cons, List.map_nil, List.sum_cons, List.sum_nil]
      have e : ((n + 1 : Nat) : Rat) = (n : Rat) + 1 := by simp
      rw [e]
      grind

theorem total_le {hi : Rat} {f : Nat → Rat} : ∀ {n : Nat}, (∀ k, k < n → f k ≤ hi) → total n f ≤ hi * n
  | 0, _ => by simp [total]
  | n + 1, h => by
      have ih := total_le (n := n) fun k hk => h k (by omega)
      have := h n (by omega)
      unfold total at ih ⊢
      rw [List.range_succ, List.map_append, List.sum_append]
      simp only [List.map_cons, List.map_nil, List.sum_cons, List.sum_nil]
      have e : ((n + 1 : Nat) : Rat) = (n : Rat) + 1 := by simp
      rw [e]
      grind

/-! ## The progress -/

theorem ratio_le {x y n m : Nat} (hxy : x ≤ y) (hm : 0 < m) (hmn : m ≤ n) : (x : Rat) / n ≤ (y : Rat) / m := by
  have hm' : (0 : Rat) < (m : Rat) := by exact_mod_cast hm
  have hn' : (0 : Rat) < (n : Rat) := by exact_mod_cast (by omega : 0 < n)
  have hn0 : (n : Rat) ≠ 0 := fun e => by rw [e] at hn'; exact absurd hn' (by decide)
  refine Rat.not_lt.1 fun h => ?_
  have h1 := (Rat.div_lt_iff hm').1 h
  have h2 : (y : Rat) * n < (x : Rat) / n * m * n := Rat.mul_lt_mul_of_pos_right h1 hn'
  have h3 := Rat.div_mul_cancel (a := (x : Rat)) hn0
  have h4 : (x : Rat) / n * m * n = (x : Rat) * m := by grind
  rw [h4] at h2
  have h5 : x * m ≤ y * n := Nat.mul_le_mul hxy hmn
  have h6 : ((x * m : Nat) : Rat) ≤ ((y * n : Nat) : Rat) := by exact_mod_cast h5
  rw [Rat.natCast_mul, Rat.natCast_mul] at h6
  exact absurd h2 (Rat.not_lt.2 h6)

theorem ratio_lt {x y n : Nat} (hxy : x < y) (hn : 0 < n) : (x : Rat) / n < (y : Rat) / n := by
  have hn' : (0 : Rat) < (n : Rat) := by exact_mod_cast hn
  have hn0 : (n : Rat) ≠ 0 := fun e => by rw [e] at hn'; exact absurd hn' (by decide)
  rw [Rat.div_lt_iff hn', Rat.div_mul_cancel hn0]
  exact_mod_cast hxy

theorem ratio_le_one {x n : Nat} (hxn : x ≤ n) (hn : 0 < n) : (x : Rat) / n ≤ 1 := by
  have hn' : (0 : Rat) < (n : Rat) := by exact_mod_cast hn
  refine Rat.not_lt.1 fun h => ?_
  have h1 := (Rat.lt_div_iff hn').1 h
  rw [Rat.one_mul] at h1
  exact absurd h1 (Rat.not_lt.2 (by exact_mod_cast hxn))

theorem assign_length_le {β : Type} (d : List (Str × β)) (k : Str) (v : β) : (assign d k v).length ≤ d.length + 1 := by
  unfold assign; split <;> simp

theorem assign_length_ge {β : Type} (d : List (Str × β)) (k : Str) (v : β) : d.length ≤ (assign d k v).length := by
  unfold assign; split <;> simp

/-- The progress does not fall. -/
theorem progress_grows {M : Type} {measure : Str → Bool → Option M} {B N : Nat} (hN : 0 < N) :
    ∀ {fs : List Str} {p : Progress M} {n : Nat}, fs.Nodup → (∀ f ∈ fs, ∀ g ∈ fs, isIn (lit "bmp") g = true → withTemplates g ≠ f) →
    (∀ f ∈ fs, ∀ x ∈ p.result, x.1 ≠ f) → n = (if p.hasTemplates then N + B else N) →
    (∀ r ∈ progressLoop measure B fs p n, (p.result.length : Rat) / n ≤ r.1 ∧ r.1 < r.2) ∧
      (progressLoop measure B fs p n).Pairwise fun r r' => r.1 ≤ r'.1
  | [], _, _, _, _, _, _ => ⟨by simp [progressLoop], by simp [progressLoop]⟩
  | f :: fs, p, n, hd, hc, hr, hn => by
      have hn0 : 0 < n := by rw [hn]; split <;> omega
      have hd' := List.nodup_cons.1 hd
      have hc' : ∀ g ∈ fs, ∀ g' ∈ fs, isIn (lit "bmp") g' = true → withTemplates g' ≠ g := fun g hg g' hg' => hc g (by simp [hg]) g' (by simp [hg'])
      have new : ∀ m, (assign p.result f m).length = p.result.length + 1 := fun m => by
        rw [assign_new (hr f (by simp))]; simp
      have hr1 : ∀ m, ∀ g ∈ fs, ∀ x ∈ assign p.result f m, x.1 ≠ g := by
        intro m g hg x hx e
        rcases key_assign hx with h | ⟨y, hy, h⟩
        · exact hd'.1 (by rw [← h, e]; exact hg)
        · exact hr g (by simp [hg]) y hy (h.trans e)
      have hr2 : isIn (lit "bmp") f = true → ∀ m m', ∀ g ∈ fs, ∀ x ∈ assign (assign p.result f m) (withTemplates f) m', x.1 ≠ g := by
        intro hf m m' g hg x hx e
        rcases key_assign hx with h | ⟨y, hy, h⟩
        · exact hc g (by simp [hg]) f (by simp) hf (by rw [← h, e])
        · exact hr1 m g hg y hy (h.trans e)
      have start := ratio_lt (x := p.result.length) (y := p.result.length + 1) (by omega) hn0
      have start2 := ratio_lt (x := p.result.length + 1) (y := p.result.length + 2) (by omega) hn0
      -- what follows from what comes after
      have step : ∀ {p' : Progress M} {n' : Nat}, p.result.length + 1 ≤ p'.result.length → 0 < n' → n' ≤ n →
          ((∀ r ∈ progressLoop measure B fs p' n', (p'.result.length : Rat) / n' ≤ r.1 ∧ r.1 < r.2) ∧
            (progressLoop measure B fs p' n').Pairwise fun r r' => r.1 ≤ r'.1) →
          ∀ r ∈ progressLoop measure B fs p' n', ((p.result.length + 1 : Nat) : Rat) / n ≤ r.1 := by
        intro p' n' h1 h2 h3 h4 r hr
        exact Rat.le_trans (ratio_le h1 h2 h3) (h4.1 r hr).1
      rw [progressLoop]
      cases hm : measure f false with
      | none =>
          refine ⟨fun r h => ?_, by simp⟩
          rw [List.mem_singleton.1 h]
          exact ⟨Rat.le_refl, start⟩
      | some m =>
          simp only
          by_cases hb : (isIn (lit "bmp") f && p.hasTemplates) = true
          · rw [if_pos hb]
            have ht : p.hasTemplates = true := (Bool.and_eq_true _ _ ▸ hb).2
            rw [ht, if_pos rfl] at hn
            cases hm' : measure f true with
            | none =>
                simp only
                have ih := progress_grows (measure := measure) (B := B) hN (fs := fs) (p := ⟨assign p.result f m, false⟩)
                  (n := n - B) hd'.2 hc' (hr1 m) (by simp; omega)
                have st := step (p' := ⟨assign p.result f m, false⟩) (n' := n - B) (by simp [new]) (by omega) (by omega) ih
                refine ⟨?_, List.pairwise_cons.2 ⟨?_, List.pairwise_cons.2 ⟨st, ih.2⟩⟩⟩
                · intro r h
                  rcases List.mem_cons.1 h with rfl | h
                  · exact ⟨Rat.le_refl, start⟩
                  · rcases List.mem_cons.1 h with rfl | h
                    · exact ⟨Rat.le_of_lt start, start2⟩
                    · exact ⟨Rat.le_trans (Rat.le_of_lt start) (st r h), (ih.1 r h).2⟩
                · intro r h
                  rcases List.mem_cons.1 h with rfl | h
                  · exact Rat.le_of_lt start
                  · exact Rat.le_trans (Rat.le_of_lt start) (st r h)
            | some m' =>
                simp only
                have ih := progress_grows (measure := measure) (B := B) hN (fs := fs)
                  (p := ⟨assign (assign p.result f m) (withTemplates f) m', true⟩)
                  (n := n) hd'.2 hc' (hr2 (Bool.and_eq_true _ _ ▸ hb).1 m m') (by simp; omega)
                have st := step (p' := ⟨assign (assign p.result f m) (withTemplates f) m', true⟩) (n' := n)
                  (by rw [← new m]; exact assign_length_ge _ _ _) (by omega) (by omega) ih
                refine ⟨?_, List.pairwise_cons.2 ⟨?_, List.pairwise_cons.2 ⟨st, ih.2⟩⟩⟩
                · intro r h
                  rcases List.mem_cons.1 h with rfl | h
                  · exact ⟨Rat.le_refl, start⟩
                  · rcases List.mem_cons.1 h with rfl | h
                    · exact ⟨Rat.le_of_lt start, start2⟩
                    · exact ⟨Rat.le_trans (Rat.le_of_lt start) (st r h), (ih.1 r h).2⟩
                · intro r h
                  rcases List.mem_cons.1 h with rfl | h
                  · exact Rat.le_of_lt start
                  · exact Rat.le_trans (Rat.le_of_lt start) (st r h)
          · rw [if_neg hb]
            have ih := progress_grows (measure := measure) (B := B) hN (fs := fs)
              (p := ⟨assign p.result f m, p.hasTemplates⟩) (n := n) hd'.2 hc' (hr1 m) hn
            have st := step (p' := ⟨assign p.result f m, p.hasTemplates⟩) (n' := n) (by simp [new]) hn0 (Nat.le_refl _) ih
            refine ⟨?_, List.pairwise_cons.2 ⟨?_, ih.2⟩⟩
            · intro r h
              rcases List.mem_cons.1 h with rfl | h
              · exact ⟨Rat.le_refl, start⟩
              · exact ⟨Rat.le_trans (Rat.le_of_lt start) (st r h), (ih.1 r h).2⟩
            · intro r h
              exact Rat.le_trans (Rat.le_of_lt start) (st r h)

/-- With string literal templates for all files the progress stays below the end. -/
theorem progress_below_all {M : Type} {measure : Str → Bool → Option M} {B : Nat} :
    ∀ {fs : List Str} {p : Progress M} {n : Nat}, (∀ f ∈ fs, isIn (lit "bmp") f = true → measure f true ≠ none) →
    p.hasTemplates = true → p.result.length + fs.length + (fs.countP fun f => isIn (lit "bmp") f) ≤ n →
    ∀ r ∈ progressLoop measure B fs p n, r.2 ≤ 1
  | [], _, _, _, _, _ => by simp [progressLoop]
  | f :: fs, p, n, hm, ht, hn => by
      rw [List.countP_cons, List.length_cons] at hn
      rw [progressLoop]
      intro r h
      rcases List.mem_cons.1 h with rfl | h
      · exact ratio_le_one (by omega) (by omega)
      cases h1 : measure f false with
      | none => simp [h1] at h
      | some m =>
          simp only [h1, ht, Bool.and_true] at h
          have l1 := assign_length_le p.result f m
          by_cases hb : isIn (lit "bmp") f = true
          · rw [if_pos hb] at h hn
            rcases List.mem_cons.1 h with rfl | h
            · exact ratio_le_one (by omega) (by omega)
            · cases h2 : measure f true with
              | none => exact absurd h2 (hm f (by simp) hb)
              | some m' =>
                  simp only [h2] at h
                  have l2 := assign_length_le (assign p.result f m) (withTemplates f) m'
                  exact progress_below_all (fun g hg => hm g (by simp [hg])) rfl (by simp only; omega) r h
          · rw [if_neg hb] at h hn
            exact progress_below_all (fun g hg => hm g (by simp [hg])) rfl (by simp only; omega) r h

/-- Without string literal templates the progress stays below the end. -/
theorem progress_below_none {M : Type} {measure : Str → Bool → Option M} {B N : Nat} :
    ∀ {fs : List Str} {p : Progress M} {n : Nat}, (∀ f ∈ fs, isIn (lit "bmp") f = true → measure f true = none) →
    n = (if p.hasTemplates then N + B else N) → p.result.length + fs.length ≤ N →
    (fs.countP fun f => isIn (lit "bmp") f) ≤ B →
    ∀ r ∈ progressLoop measure B fs p n, r.2 ≤ 1
  | [], _, _, _, _, _, _ => by simp [progressLoop]
  | f :: fs, p, n, hm, hn, hl, hB => by
      rw [List.countP_cons] at hB
      rw [List.length_cons] at hl
      have hNn : N ≤ n := by rw [hn]; split <;> omega
      rw [progressLoop]
      intro r h
      rcases List.mem_cons.1 h with rfl | h
      · exact ratio_le_one (by omega) (by omega)
      cases h1 : measure f false with
      | none => simp [h1] at h
      | some m =>
          simp only [h1] at h
          have l1 := assign_length_le p.result f m
          by_cases hb : (isIn (lit "bmp") f && p.hasTemplates) = true
          · have hb2 := Bool.and_eq_true _ _ ▸ hb
            rw [if_pos hb] at h
            rw [if_pos hb2.1] at hB
            rw [hb2.2, if_pos rfl] at hn
            rcases List.mem_cons.1 h with rfl | h
            · exact ratio_le_one (by omega) (by omega)
            · simp only [hm f (by simp) hb2.1] at h
              exact progress_below_none (N := N) (fun g hg => hm g (by simp [hg])) (by simp; omega) (by simp only; omega)
                (by omega) r h
          · rw [if_neg hb] at h
            exact progress_below_none (N := N) (fs := fs) (p := ⟨assign p.result f m, p.hasTemplates⟩)
              (fun g hg => hm g (by simp [hg])) hn (by simp only; omega) (by omega) r h

/-! ## The name of the compiler -/

theorem version_inv {c : Char} {v : Str} (h : VersionText (c :: v)) :
    isDigit c = true ∧ (v = [] ∨ (∃ d v', v = d :: v' ∧ VersionText (d :: v')) ∨ ∃ v', v = '.' :: v' ∧ VersionText v') := by
  generalize hs : c :: v = s at h
  cases h with
  | last hd =>
      subst hs
      have hc := hd.2.1 c (by simp)
      refine ⟨by simpa [isDigit] using hc, ?_⟩
      cases v with
      | nil => exact .inl rfl
      | cons d v' =>
          obtain ⟨k, hk⟩ := decimal_exists (s := d :: v') (by simp) fun e he => by
            simpa [isDigit] using hd.2.1 e (List.mem_cons_of_mem _ he)
          exact .inr (.inl ⟨d, v', rfl, .last hk⟩)
  | @dot a t n hd ht =>
      cases a with
      | nil => exact absurd rfl hd.1
      | cons b a =>
          rw [List.cons_append] at hs
          injection hs with h1 h2
          subst h1
          have hc := hd.2.1 c (by simp)
          refine ⟨by simpa [isDigit] using hc, ?_⟩
          cases a with
          | nil => exact .inr (.inr ⟨t, h2, ht⟩)
          | cons d a =>
              obtain ⟨k, hk⟩ := decimal_exists (s := d :: a) (by simp) fun e he => by
                simpa [isDigit] using hd.2.1 e (List.mem_cons_of_mem _ he)
              exact .inr (.inl ⟨d, a ++ '.' :: t, h2, .dot hk ht⟩)

theorem version_digit {c : Char} (hc : isDigit c = true) {v : Str} (h : VersionText v) : VersionText (c :: v) := by
  cases h with
  | last hd =>
      obtain ⟨k, hk⟩ := decimal_exists (s := c :: v) (by simp) fun e he => by
        rcases List.mem_cons.1 he with rfl | he
        · exact hc
        · simpa [isDigit] using hd.2.1 e he
      exact .last hk
  | @dot a t n hd ht =>
      obtain ⟨k, hk⟩ := decimal_exists (s := c :: a) (by simp) fun e he => by
        rcases List.mem_cons.1 he with rfl | he
        · exact hc
        · simpa [isDigit] using hd.2.1 e he
      exact .dot hk ht

theorem version_single {c : Char} (hc : isDigit c = true) : VersionText [c] := by
  obtain ⟨k, hk⟩ := decimal_exists (s := [c]) (by simp) fun e he => by rwa [List.mem_singleton.1 he]
  exact .last hk

theorem version_point {c : Char} (hc : isDigit c = true) {v : Str} (h : VersionText v) : VersionText (c :: '.' :: v) := by
  obtain ⟨k, hk⟩ := decimal_exists (s := [c]) (by simp) fun e he => by rwa [List.mem_singleton.1 he]
  exact .dot (s := [c]) hk h

theorem versionTail_sound : ∀ (s : Str) {c : Char}, isDigit c = true → VersionText (c :: versionTail s) ∧ versionTail s <+: s
  | [], c, hc => ⟨version_single hc, List.prefix_rfl⟩
  | [d], c, hc => by
      rw [versionTail]
      split
      · rename_i hd
        exact ⟨version_digit hc (version_single hd), List.prefix_rfl⟩
      · exact ⟨version_single hc, List.nil_prefix⟩
  | d :: e :: s, c, hc => by
      rw [versionTail]
      split
      · rename_i hd
        obtain ⟨h1, h2⟩ := versionTail_sound (e :: s) hd
        exact ⟨version_digit hc h1, List.cons_prefix_cons.2 ⟨rfl, h2⟩⟩
      · split
        · rename_i he
          simp only [Bool.and_eq_true, beq_iff_eq] at he
          obtain ⟨h1, h2⟩ := versionTail_sound s he.2
          rw [he.1]
          exact ⟨version_point hc h1, List.cons_prefix_cons.2 ⟨rfl, List.cons_prefix_cons.2 ⟨rfl, h2⟩⟩⟩
        · exact ⟨version_single hc, List.nil_prefix⟩

theorem version_head {v : Str} (h : VersionText v) : ∃ c t, v = c :: t ∧ isDigit c = true := by
  cases hv : v with
  | nil =>
      subst hv
      generalize hs : ([] : Str) = s at h
      cases h with
      | last hd => exact absurd hs.symm hd.1
      | dot hd ht => simp at hs
  | cons c t => exact ⟨c, t, rfl, (version_inv (hv ▸ h)).1⟩

theorem versionTail_longest : ∀ (s : Str) {c : Char} {v : Str}, VersionText (c :: v) → v <+: s → v.length ≤ (versionTail s).length
  | [], c, v, _, hp => by rw [List.prefix_nil.1 hp]; simp
  | [d], c, v, hv, hp => by
      cases v with
      | nil => simp
      | cons x v =>
          obtain ⟨rfl, hp'⟩ := List.cons_prefix_cons.1 hp
          obtain rfl := List.prefix_nil.1 hp'
          rcases (version_inv hv).2 with h | ⟨_, _, h, h'⟩ | ⟨_, h, h'⟩
          · cases h
          · injection h with h1 h2
            subst h1 h2
            rw [versionTail, if_pos (version_inv h').1]; simp
          · injection h with h1 h2
            subst h2
            obtain ⟨_, _, h3, _⟩ := version_head h'
            cases h3
  | d :: e :: s, c, v, hv, hp => by
      cases v with
      | nil => simp
      | cons x v =>
          obtain ⟨rfl, hp'⟩ := List.cons_prefix_cons.1 hp
          rcases (version_inv hv).2 with h | ⟨_, _, h, h'⟩ | ⟨_, h, h'⟩
          · cases h
          · injection h with h1 h2
            subst h1 h2
            rw [versionTail, if_pos (version_inv h').1]
            have := versionTail_longest (e :: s) h' hp'
            simp only [List.length_cons]
            omega
          · injection h with h1 h2
            subst h1 h2
            obtain ⟨y, t, rfl, hy⟩ := version_head h'
            obtain ⟨rfl, hp2⟩ := List.cons_prefix_cons.1 hp'
            rw [versionTail, if_neg (by decide), if_pos (by simp [hy])]
            have := versionTail_longest s h' hp2
            simp only [List.length_cons]
            omega

/-- What the regular expression finds at a place: the longest version there is. -/
theorem versionAt_some {tool s r : Str} (h : versionAt tool s = some r) : ∃ v rest, VersionText v ∧
    s = tool ++ lit " version " ++ v ++ rest ∧ r = tool ++ lit " " ++ v := by
  unfold versionAt at h
  split at h
  · rename_i hp
    obtain ⟨t, rfl⟩ := List.isPrefixOf_iff_prefix.1 hp
    rw [List.drop_left] at h
    cases t with
    | nil => cases h
    | cons c t =>
        simp only at h
        split at h
        · rename_i hc
          obtain ⟨h1, rest, h2⟩ := versionTail_sound t hc
          injection h with h
          exact ⟨_, rest, h1, by rw [List.append_assoc (tool ++ lit " version "), List.cons_append, h2], h.symm⟩
        · cases h
  · cases h

theorem versionAt_longest {tool v rest : Str} (hv : VersionText v)
    (hl : ∀ v', VersionText v' → v' <+: v ++ rest → v'.length ≤ v.length) :
    versionAt tool (tool ++ lit " version " ++ v ++ rest) = some (tool ++ lit " " ++ v) := by
  obtain ⟨c, t, rfl, hc⟩ := version_head hv
  unfold versionAt
  rw [if_pos (List.isPrefixOf_iff_prefix.2 ⟨c :: t ++ rest, by simp⟩), List.append_assoc (tool ++ lit " version "), List.drop_left]
  simp only [List.cons_append]
  rw [if_pos hc]
  obtain ⟨h1, h2⟩ := versionTail_sound (t ++ rest) hc
  have h3 := hl _ h1 (List.cons_prefix_cons.2 ⟨rfl, h2⟩)
  have h4 := versionTail_longest (t ++ rest) hv (List.prefix_append _ _)
  simp only [List.length_cons] at h3
  rw [List.IsPrefix.eq_of_length (List.prefix_of_prefix_length_le h2 (List.prefix_append t rest) (by omega)) (by omega)]

theorem searchVersion_first : ∀ {line before tool v : Str}, FirstMention line before tool v →
    searchVersion line = some (tool ++ lit " " ++ v)
  | [], before, tool, v, h => by
      obtain ⟨⟨_, hv, rest, e⟩, _⟩ := h
      obtain ⟨c, t, rfl, _⟩ := version_head hv
      simp at e
  | c :: s, [], tool, v, h => by
      obtain ⟨⟨ht, hv, rest, e⟩, hf⟩ := h
      have hl : ∀ v', VersionText v' → v' <+: v ++ rest → v'.length ≤ v.length := by
        rintro v' hv' ⟨r', hr⟩
        rcases hf [] tool v' ⟨ht, hv', r', by rw [e]; simp only [List.nil_append, List.append_assoc]; rw [hr]⟩ with h | h
        · simp at h
        · exact h.2
      rw [List.nil_append] at e
      have h1 := versionAt_longest (tool := tool) hv hl
      rw [searchVersion, e]
      rcases ht with rfl | rfl
      · rw [h1]
      · have h0 : versionAt (lit "gcc") (lit "clang" ++ lit " version " ++ v ++ rest) = none := by
          unfold versionAt
          rw [if_neg]
          intro hp
          obtain ⟨u, hu⟩ := List.isPrefixOf_iff_prefix.1 hp
          simp [lit] at hu
        rw [h0, h1]
  | c :: s, b :: before, tool, v, h => by
      obtain ⟨⟨ht, hv, rest, e⟩, hf⟩ := h
      have none_at : ∀ tool', tool' = lit "gcc" ∨ tool' = lit "clang" → versionAt tool' (c :: s) = none := by
        intro tool' ht'
        cases hr : versionAt tool' (c :: s) with
        | none => rfl
        | some r =>
            obtain ⟨v', rest', hv', e', _⟩ := versionAt_some hr
            rcases hf [] tool' v' ⟨ht', hv', rest', by rw [e']; simp⟩ with h | h
            · simp at h
            · exact absurd h.1 (by simp)
      rw [searchVersion, none_at _ (.inl rfl), none_at _ (.inr rfl)]
      simp only
      simp only [List.cons_append] at e
      injection e with e1 e2
      refine searchVersion_first (before := before) ⟨⟨ht, hv, rest, e2⟩, ?_⟩
      rintro before' tool' v' ⟨ht', hv', rest', e'⟩
      rcases hf (c :: before') tool' v' ⟨ht', hv', rest', by rw [e']; simp⟩ with h | h
      · left; simpa using h
      · right; exact ⟨(List.cons.inj h.1).2, h.2⟩

theorem searchVersion_none : ∀ {line : Str}, (∀ before tool v, ¬ Mentions line before tool v) → searchVersion line = none
  | [], _ => rfl
  | c :: s, h => by
      have none_at : ∀ tool', tool' = lit "gcc" ∨ tool' = lit "clang" → versionAt tool' (c :: s) = none := by
        intro tool' ht'
        cases hr : versionAt tool' (c :: s) with
        | none => rfl
        | some r =>
            obtain ⟨v', rest', hv', e', _⟩ := versionAt_some hr
            exact absurd ⟨ht', hv', rest', by rw [e']; simp⟩ (h [] tool' v')
      rw [searchVersion, none_at _ (.inl rfl), none_at _ (.inr rfl)]
      simp only
      refine searchVersion_none ?_
      rintro before' tool' v' ⟨ht', hv', rest', e'⟩
      exact h (c :: before') tool' v' ⟨ht', hv', rest', by rw [e']; simp⟩

/-! ## The pages -/

theorem joinPath_inj {a b b' : Str} (hb : b.head? ≠ some '/') (hb' : b'.head? ≠ some '/') (h : joinPath a b = joinPath a b') :
    b = b' := by
  unfold joinPath at h
  rw [if_neg hb, if_neg hb'] at h
  split at h
  · exact List.append_cancel_left h
  · exact (List.cons.inj (List.append_cancel_left h)).2

theorem joinPath_last {a b : Str} {c : Char} (h : b.getLast? = some c) : (joinPath a b).getLast? = some c := by
  have hb : b ≠ [] := fun e => by rw [e] at h; cases h
  unfold joinPath
  split
  · exact h
  · split
    · rw [List.getLast?_append, h]; rfl
    · rw [List.getLast?_append, List.getLast?_cons, h]; rfl

/-- Where the picture of a configuration is. -/
def imagePath (outDir : Str) (c : PageConfig) (fn : Str) : Str :=
  joinPath (joinPath outDir (lit "images")) (c.name ++ lit "_" ++ fn ++ lit ".png")

/-- Where the page of a configuration is. -/
def pagePath (outDir : Str) (c : PageConfig) (fn : Str) : Str := joinPath outDir (c.name ++ lit "_" ++ fn ++ lit ".qbk")

/-- Where the temporary pictures are. -/
def tempPath (outDir measured : Str) : Str := joinPath (joinPath outDir (lit "images")) (tempName measured)

theorem last_append {a b : Str} {c : Char} (h : b.getLast? = some c) : (a ++ b).getLast? = some c := by
  rw [List.getLast?_append, h]; rfl

theorem write_apply (fs : Disk) (q : Str) (d : OutFile) (p : Str) : fs.write q d p = if p = q then some d else fs p := rfl

theorem remove_apply (fs : Disk) (q p : Str) : fs.remove q p = if p = q then none else fs p := rfl

theorem image_last {outDir : Str} {c : PageConfig} {fn : Str} : (imagePath outDir c fn).getLast? = some 'g' :=
  joinPath_last (last_append (by decide))

theorem page_last {outDir : Str} {c : PageConfig} {fn : Str} : (pagePath outDir c fn).getLast? = some 'k' :=
  joinPath_last (last_append (by decide))

theorem temp_last {outDir m : Str} : (tempPath outDir m).getLast? = some 'g' :=
  joinPath_last (last_append (by decide))

theorem name_head {c : PageConfig} (h1 : c.name ≠ []) (h2 : c.name.head? ≠ some '/') (s : Str) :
    (c.name ++ s).head? ≠ some '/' := by
  cases hn : c.name with
  | nil => exact absurd hn h1
  | cons x y => rw [hn] at h2; simpa using h2

theorem image_ne_temp {outDir m : Str} {c : PageConfig} {fn : Str} (h1 : c.name ≠ []) (h2 : c.name.head? ≠ some '/')
    (hm : '_' ∉ m) : imagePath outDir c fn ≠ tempPath outDir m := by
  intro e
  have e1 := joinPath_inj (by simp only [List.append_assoc]; exact name_head h1 h2 _) (by simp [tempName, lit]) e
  have e2 : c.name ++ lit "_" ++ fn = lit "_" ++ m := List.append_cancel_right e1
  cases hn : c.name with
  | nil => exact h1 hn
  | cons x y =>
      rw [hn] at e2
      have e3 := (List.cons.inj e2).2
      refine hm ?_
      rw [show m = y ++ lit "_" ++ fn from e3.symm]
      simp [lit]

theorem image_inj {outDir : Str} {c c' : PageConfig} {fn : Str} (h1 : c.name ≠ []) (h2 : c.name.head? ≠ some '/')
    (h1' : c'.name ≠ []) (h2' : c'.name.head? ≠ some '/') (e : imagePath outDir c fn = imagePath outDir c' fn) :
    c.name = c'.name := by
  have e1 := joinPath_inj (by simp only [List.append_assoc]; exact name_head h1 h2 _) (by simp only [List.append_assoc]; exact name_head h1' h2' _) e
  simp only [List.append_assoc] at e1
  exact List.append_cancel_right e1

theorem page_inj {outDir : Str} {c c' : PageConfig} {fn : Str} (h1 : c.name ≠ []) (h2 : c.name.head? ≠ some '/')
    (h1' : c'.name ≠ []) (h2' : c'.name.head? ≠ some '/') (e : pagePath outDir c fn = pagePath outDir c' fn) :
    c.name = c'.name := by
  have e1 := joinPath_inj (by simp only [List.append_assoc]; exact name_head h1 h2 _) (by simp only [List.append_assoc]; exact name_head h1' h2' _) e
  simp only [List.append_assoc] at e1
  exact List.append_cancel_right e1

theorem time_ne_memory {outDir : Str} : tempPath outDir (lit "time") ≠ tempPath outDir (lit "memory") := by
  intro e
  have := joinPath_inj (by simp [tempName, lit]) (by simp [tempName, lit]) e
  exact absurd this (by decide)

theorem plotDiagram_eq {outDir : Str} {c : PageConfig} {fn : Str} (fs : Disk) :
    plotDiagram c.name (joinPath outDir (lit "images")) (imagePath outDir c fn) fs = some fun p =>
      if p = tempPath outDir (lit "time") ∨ p = tempPath outDir (lit "memory") then none
      else if p = imagePath outDir c fn then some (.joined (.picture c.name (lit "time")) (.picture c.name (lit "memory")))
      else fs p := by
  have n1 : tempPath outDir (lit "time") ≠ tempPath outDir (lit "memory") := time_ne_memory
  unfold plotDiagram
  simp only [← tempPath.eq_1]
  simp only [write_apply, if_neg n1, if_true]
  congr 1
  funext p
  simp only [write_apply, remove_apply]
  by_cases a : p = tempPath outDir (lit "memory")
  · simp [a]
  · by_cases b : p = tempPath outDir (lit "time")
    · simp [b]
    · simp [a, b]

theorem plotLoop_spec (platform memory compiler outDir : Str) : ∀ {cs : List PageConfig} (fs : Disk),
    (cs.map PageConfig.name).Nodup → (∀ c ∈ cs, c.name ≠ [] ∧ c.name.head? ≠ some '/') →
    ∃ fs', plotLoop platform memory compiler outDir cs fs = some fs' ∧
      (∀ c ∈ cs, fs' (pagePath outDir c (makeFilename compiler)) =
          some (.page (pageText c (c.name ++ lit "_" ++ makeFilename compiler) platform memory compiler)) ∧
        fs' (imagePath outDir c (makeFilename compiler)) =
          some (.joined (.picture c.name (lit "time")) (.picture c.name (lit "memory")))) ∧
      (cs ≠ [] → fs' (tempPath outDir (lit "time")) = none ∧ fs' (tempPath outDir (lit "memory")) = none) ∧
      ∀ p, p ≠ tempPath outDir (lit "time") → p ≠ tempPath outDir (lit "memory") →
        (∀ c ∈ cs, p ≠ pagePath outDir c (makeFilename compiler) ∧ p ≠ imagePath outDir c (makeFilename compiler)) → fs' p = fs p
  | [], fs, _, _ => ⟨fs, rfl, by simp, by simp, by simp⟩
  | c :: cs, fs, hd, hc => by
      obtain ⟨c1, c2⟩ := hc c (by simp)
      have hd' := List.nodup_cons.1 hd
      rw [plotLoop]
      simp only [← imagePath.eq_1, ← pagePath.eq_1]
      rw [plotDiagram_eq]
      rw [Option.bind_some]
      generalize hfs : Disk.write _ _ _ = fs1
      obtain ⟨fs', h0, h1, h2, h3⟩ := plotLoop_spec platform memory compiler outDir (cs := cs) fs1 hd'.2
        (fun c hcs => hc c (by simp [hcs]))
      have pg : ∀ {c c' : PageConfig} {fn : Str}, pagePath outDir c fn ≠ imagePath outDir c' fn := by
        intro c c' fn e
        have := page_last (outDir := outDir) (c := c) (fn := fn)
        rw [e, image_last] at this
        exact absurd this (by decide)
      have pt : ∀ {c : PageConfig} {fn m : Str}, pagePath outDir c fn ≠ tempPath outDir m := by
        intro c fn m e
        have := page_last (outDir := outDir) (c := c) (fn := fn)
        rw [e, temp_last] at this
        exact absurd this (by decide)
      have it : ∀ {m : Str}, '_' ∉ m → imagePath outDir c (makeFilename compiler) ≠ tempPath outDir m := image_ne_temp c1 c2
      have it1 := it (m := lit "time") (by decide)
      have it2 := it (m := lit "memory") (by decide)
      have later : ∀ c' ∈ cs, c.name ≠ c'.name := fun c' hc' e => hd'.1 (List.mem_map.2 ⟨c', hc', e.symm⟩)
      refine ⟨fs', h0, ?_, ?_, ?_⟩
      · intro c' hc'
        rcases List.mem_cons.1 hc' with rfl | hc'
        · constructor
          · rw [h3 _ pt pt fun d hd => ⟨fun e => later d hd (page_inj c1 c2 (hc d (by simp [hd])).1 (hc d (by simp [hd])).2 e), pg⟩, ← hfs]
            simp [write_apply]
          · rw [h3 _ it1 it2 fun d hd => ⟨fun e => pg e.symm,
              fun e => later d hd (image_inj c1 c2 (hc d (by simp [hd])).1 (hc d (by simp [hd])).2 e)⟩, ← hfs]
            simp only [write_apply]
            rw [if_neg (fun e => pg e.symm), if_neg (by simp [it1, it2]), if_pos trivial]
        · exact h1 c' hc'
      · intro _
        by_cases hcs : cs = []
        · subst hcs
          rw [plotLoop] at h0
          injection h0 with h0
          rw [← h0, ← hfs]
          simp only [write_apply]
          constructor
          · rw [if_neg (fun e => pt e.symm), if_pos (.inl trivial)]
          · rw [if_neg (fun e => pt e.symm), if_pos (.inr trivial)]
        · exact h2 hcs
      · intro p p1 p2 hp
        rw [h3 p p1 p2 fun d hd => hp d (by simp [hd]), ← hfs]
        have hpc := hp c (by simp)
        simp only [write_apply]
        rw [if_neg hpc.1, if_neg (by simp [p1, p2]), if_neg hpc.2]

end Metaparse.Bench
