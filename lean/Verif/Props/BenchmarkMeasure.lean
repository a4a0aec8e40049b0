import Verif.Lemmas.BenchmarkMeasure
import Verif.Props.BenchmarkRun
/-!
# C106, C107, C108: what is measured, the progress and the pages

`tools/benchmark/benchmark.py`, lines 26-102, 132-174 and 260-295.
-/

namespace Metaparse

open Gen Bench

/-- C106: a compiler that is silent (or writes nothing but blanks) is measured: the two numbers that `time` writes. -/
theorem C106_silent {float : Str → Option Rat} (hf : ReadsNumbers float) {w text : Str} (hw : ∀ c ∈ w, blank c = true)
    {seconds kilobytes : Rat} (h : TimeText text seconds kilobytes) :
    benchmarkCommand float (w ++ text) = some (seconds, kilobytes) := by
  obtain ⟨u, f, m, a, b, k, hu, hfr, hm, rfl, rfl, rfl⟩ := h
  obtain ⟨c, u', rfl, hc⟩ := decimal_starts hu
  obtain ⟨m', e, rfl, he⟩ := decimal_ends hm
  unfold benchmarkCommand
  have h1 : strip (w ++ (c :: u' ++ '.' :: f ++ ' ' :: (m' ++ [e]) ++ ['\n'])) = c :: u' ++ '.' :: f ++ ' ' :: (m' ++ [e]) := by
    unfold strip
    rw [lstrip_blanks hw]
    simp only [List.cons_append]
    rw [lstrip_of_head hc]
    rw [show c :: (u' ++ '.' :: f ++ ' ' :: (m' ++ [e]) ++ ['\n']) = (c :: (u' ++ '.' :: f ++ ' ' :: m') ++ [e]) ++ ['\n'] by simp]
    rw [rstrip_append_blank (by decide), rstrip_of_last he]
    simp
  have h2 : (' ' : Char) ∉ (c :: u' ++ '.' :: f : Str) := by
    simp only [List.mem_append, List.mem_cons]
    rintro (h | h | h)
    · exact decimal_space hu (d := ' ') (by decide) (by simpa using h)
    · exact absurd h (by decide)
    · exact decimal_space hfr (d := ' ') (by decide) h
  rw [h1, split_append ' ' h2, split_none ' ' (decimal_space hm (by decide))]
  simp only
  rw [hf.fraction hu hfr, hf.whole hm]
  rfl

/-- C106: where anything comes before what `time` writes, in lines of its own, there is an exception: the compiler has
written a message. -/
theorem C106_noisy {float : Str → Option Rat} (hf : ReadsNumbers float) {w text : Str} (hw : ∃ c ∈ w, blank c = false)
    {seconds kilobytes : Rat} (h : TimeText text seconds kilobytes) :
    benchmarkCommand float (w ++ '\n' :: text) = none := by
  obtain ⟨u, f, m, a, b, k, hu, hfr, hm, rfl, rfl, rfl⟩ := h
  obtain ⟨c, u', rfl, hc⟩ := decimal_starts hu
  obtain ⟨m', e, rfl, he⟩ := decimal_ends hm
  obtain ⟨x, hx, hb⟩ := hw
  have hx' : x ∈ lstrip w := by
    obtain ⟨p, q, rfl⟩ := List.append_of_mem hx
    rw [lstrip_append_cons p hb]
    exact List.mem_append_right _ (by simp)
  have h1 : strip (w ++ '\n' :: (c :: u' ++ '.' :: f ++ ' ' :: (m' ++ [e]) ++ ['\n'])) =
      (lstrip w ++ '\n' :: (c :: u' ++ '.' :: f)) ++ ' ' :: (m' ++ [e]) := by
    unfold strip
    rw [lstrip_append ⟨x, hx, hb⟩]
    rw [show lstrip w ++ '\n' :: (c :: u' ++ '.' :: f ++ ' ' :: (m' ++ [e]) ++ ['\n']) =
      ((lstrip w ++ '\n' :: (c :: u' ++ '.' :: f) ++ ' ' :: m') ++ [e]) ++ ['\n'] by simp]
    rw [rstrip_append_blank (by decide), rstrip_of_last he]
    simp
  unfold benchmarkCommand
  rw [h1]
  by_cases hs : ' ' ∈ lstrip w ++ '\n' :: (c :: u' ++ '.' :: f)
  · have h2 := split_count ' ' ((lstrip w ++ '\n' :: (c :: u' ++ '.' :: f)) ++ ' ' :: (m' ++ [e]))
    rw [List.count_append, List.count_cons_self] at h2
    have h3 := List.count_pos_iff.2 hs
    split
    · rename_i h4
      rw [h4] at h2
      simp only [List.length_cons, List.length_nil] at h2
      omega
    · rfl
  · rw [split_append ' ' hs, split_none ' ' (decimal_space hm (by decide))]
    simp only
    rw [hf.lines rfl ⟨x, hx', hb⟩ ⟨c, by simp, hc⟩]
    rfl

/-- C106: in particular when the compiler fails, whatever it writes: `time` says so in a line before the numbers. -/
theorem C106_failed {float : Str → Option Rat} (hf : ReadsNumbers float) (w status : Str) {text : Str}
    {seconds kilobytes : Rat} (h : TimeText text seconds kilobytes) :
    benchmarkCommand float (w ++ lit "Command exited with non-zero status " ++ status ++ '\n' :: text) = none :=
  C106_noisy hf ⟨'C', by simp [lit], by decide⟩ h

/-- C106: one or more runs that can be measured give the mean of the times (in seconds) and of the memory (in megabytes). -/
theorem C106_mean {float : Str → Option Rat} {filename : Str} {runs : Nat → Run} {t m : Nat → Rat} {n : Nat} (hn : 0 < n)
    (h : ∀ k, k < n → measureRun float filename (runs k) = some (t k, m k)) :
    ∃ time memory, benchmarkFile float filename runs n = some (time, memory) ∧
      time * n = total n t ∧ memory * 1024 * n = total n m := by
  have h1 := sumRuns_eq (measured := fun k => measureRun float filename (runs k)) (t := t) (m := m) n 0 0 0
    (fun k hk => by rw [Nat.zero_add]; exact h k hk)
  simp only [Nat.zero_add, Rat.zero_add] at h1
  have hn' : ((n : Int) : Rat) ≠ 0 := by
    intro e
    have : (n : Int) = 0 := Rat.intCast_inj.1 (by simpa using e)
    omega
  have hn2 : ((n * 1024 : Int) : Rat) ≠ 0 := by
    intro e
    have : (n * 1024 : Int) = 0 := Rat.intCast_inj.1 (by simpa using e)
    omega
  refine ⟨total n t / (n : Int), total n m / (n * 1024 : Int), ?_, ?_, ?_⟩
  · unfold benchmarkFile
    rw [Int.toNat_natCast, h1, Option.bind_some, if_neg (by omega)]
    rfl
  · have := Rat.div_mul_cancel (a := total n t) hn'
    rw [Rat.intCast_natCast] at this ⊢
    exact this
  · have := Rat.div_mul_cancel (a := total n m) hn2
    rw [show ((n * 1024 : Int) : Rat) = 1024 * (n : Rat) by
      rw [Rat.intCast_mul, Rat.intCast_natCast, Rat.mul_comm]; rfl] at this ⊢
    rw [Rat.mul_assoc]
    exact this

/-- C106: what is plotted is between the smallest and the largest of the measured values. -/
theorem C106_between {float : Str → Option Rat} {filename : Str} {runs : Nat → Run} {t m : Nat → Rat} {n : Nat} (hn : 0 < n)
    (h : ∀ k, k < n → measureRun float filename (runs k) = some (t k, m k)) {lo hi lo' hi' : Rat}
    (ht : ∀ k, k < n → lo ≤ t k ∧ t k ≤ hi) (hm : ∀ k, k < n → lo' ≤ m k ∧ m k ≤ hi') :
    ∃ time memory, benchmarkFile float filename runs n = some (time, memory) ∧
      (lo ≤ time ∧ time ≤ hi) ∧ lo' ≤ memory * 1024 ∧ memory * 1024 ≤ hi' := by
  obtain ⟨T, M, h0, h1, h2⟩ := C106_mean hn h
  have hp : (0 : Rat) < (n : Rat) := by exact_mod_cast hn
  have a1 := total_ge (f := t) fun k hk => (ht k hk).1
  have a2 := total_le (f := t) fun k hk => (ht k hk).2
  have a3 := total_ge (f := m) fun k hk => (hm k hk).1
  have a4 := total_le (f := m) fun k hk => (hm k hk).2
  rw [← h1] at a1 a2
  rw [← h2] at a3 a4
  exact ⟨T, M, h0, ⟨Rat.le_of_mul_le_mul_right a1 hp, Rat.le_of_mul_le_mul_right a2 hp⟩,
    Rat.le_of_mul_le_mul_right a3 hp, Rat.le_of_mul_le_mul_right a4 hp⟩

/-- C106: when one of the runs cannot be measured or leaves no object file behind, there is an exception. -/
theorem C106_no_value {float : Str → Option Rat} {filename : Str} {runs : Nat → Run} {n k : Nat} (hk : k < n)
    (h : benchmarkCommand float (runs k).err = none ∨ objectFile filename ∉ (runs k).files) :
    benchmarkFile float filename runs n = none := by
  unfold benchmarkFile
  rw [Int.toNat_natCast, sumRuns_fails n 0 0 0 (k := k) hk]
  · rfl
  · rw [Nat.zero_add]
    unfold measureRun
    rcases h with h | h
    · rw [h]; rfl
    · cases benchmarkCommand float (runs k).err with
      | none => rfl
      | some x => rw [Option.bind_some, if_neg (by simpa using h)]

/-- C106: there are no other reasons for an exception, but for one: no run at all (`--repeat_count 0`). -/
theorem C106_exception {float : Str → Option Rat} {filename : Str} {runs : Nat → Run} {n : Nat} :
    benchmarkFile float filename runs n = none ↔
      n = 0 ∨ ∃ k, k < n ∧ (benchmarkCommand float (runs k).err = none ∨ objectFile filename ∉ (runs k).files) := by
  constructor
  · intro h
    apply Classical.byContradiction
    intro hc
    rw [not_or] at hc
    have hm : ∀ k, k < n → ∃ x, measureRun float filename (runs k) = some x := by
      intro k hk
      unfold measureRun
      cases hb : benchmarkCommand float (runs k).err with
      | none => exact absurd ⟨k, hk, .inl hb⟩ hc.2
      | some x =>
          by_cases hf : objectFile filename ∈ (runs k).files
          · exact ⟨x, by rw [Option.bind_some, if_pos (by simpa using hf)]⟩
          · exact absurd ⟨k, hk, .inr hf⟩ hc.2
    obtain ⟨T, M, h1, _⟩ := C106_mean (float := float) (filename := filename) (runs := runs) (n := n)
      (t := fun k => ((measureRun float filename (runs k)).getD (0, 0)).1)
      (m := fun k => ((measureRun float filename (runs k)).getD (0, 0)).2) (Nat.pos_of_ne_zero hc.1)
      fun k hk => by obtain ⟨x, hx⟩ := hm k hk; rw [hx]; rfl
    rw [h] at h1
    cases h1
  · rintro (rfl | ⟨k, hk, h⟩)
    · rfl
    · exact C106_no_value hk h

/-- C106: a negative `--repeat_count` measures nothing and gives 0 for everything. -/
theorem C106_negative (float : Str → Option Rat) (filename : Str) (runs : Nat → Run) {n : Int} (hn : n < 0) :
    benchmarkFile float filename runs n = some (0, 0) := by
  unfold benchmarkFile
  rw [Int.toNat_of_nonpos (by omega)]
  simp only [sumRuns, Option.bind_some]
  rw [if_neg (by omega), Rat.div_def, Rat.div_def, Rat.zero_mul, Rat.zero_mul]

/-- C106: the object file of a source is its name in the working directory, with another extension. -/
theorem C106_object (dir : Str) {stem : Str} (h1 : '/' ∉ stem) (h2 : ∃ c ∈ stem, c ≠ '.') :
    objectFile (dir ++ '/' :: stem ++ lit ".cpp") = stem ++ lit ".o" ∧ objectFile (stem ++ lit ".cpp") = stem ++ lit ".o" := by
  have hb : ∀ pre : Str, (pre = [] ∨ ∃ d, pre = d ++ ['/']) → basename (pre ++ (stem ++ lit ".cpp")) = stem ++ lit ".cpp" := by
    intro pre hp
    unfold basename
    rw [List.reverse_append]
    have hn : ∀ c ∈ (stem ++ lit ".cpp").reverse, (c != '/') = true := by
      intro c hc
      rw [List.mem_reverse, List.mem_append] at hc
      rw [bne_iff_ne]
      rintro rfl
      rcases hc with hc | hc
      · exact h1 hc
      · exact absurd hc (by decide)
    rw [List.takeWhile_append_of_pos hn]
    rcases hp with rfl | ⟨d, rfl⟩
    · simp
    · simp
  have hs : splitextRoot (stem ++ lit ".cpp") = stem := by
    unfold splitextRoot
    rw [show (stem ++ lit ".cpp").reverse.dropWhile (· != '.') = '.' :: stem.reverse by simp [lit]]
    simp only
    rw [if_pos]
    · simp
    · obtain ⟨c, hc, hd⟩ := h2
      exact List.any_eq_true.2 ⟨c, by simpa using hc, by simpa using hd⟩
  unfold objectFile
  have e1 := hb (dir ++ ['/']) (.inr ⟨dir, rfl⟩)
  have e2 := hb [] (.inl rfl)
  rw [List.nil_append] at e2
  rw [show dir ++ '/' :: stem ++ lit ".cpp" = dir ++ ['/'] ++ (stem ++ lit ".cpp") by simp, e1, e2, hs]
  exact ⟨rfl, rfl⟩

/-- C106: the progress of the runs of a file starts at the beginning of its range, grows with every run and stays below
the end of the range. -/
theorem C106_progress {a b : Rat} (hab : a < b) {n k : Nat} (hk : k < n) :
    progressAt a b n 0 = a ∧ progressAt a b n k < b ∧ progressAt a b n k < progressAt a b n (k + 1) := by
  have hp : (0 : Rat) < (n : Rat) := by exact_mod_cast (by omega : 0 < n)
  have hn : (n : Rat) ≠ 0 := fun e => by rw [e] at hp; exact absurd hp (by decide)
  have e0 : ∀ k : Nat, progressAt a b n k = a + (b - a) * k / n := by
    intro k
    unfold progressAt
    have : ((n - k : Int) : Rat) = (n : Rat) - (k : Rat) := by
      rw [Rat.intCast_sub, Rat.intCast_natCast, Rat.intCast_natCast]
    rw [this]
    have h1 := Rat.mul_div_cancel (a := a) hn
    grind
  have hkn : (k : Rat) < (n : Rat) := by exact_mod_cast hk
  refine ⟨?_, ?_, ?_⟩
  · rw [e0]; simp [Rat.div_def, Rat.add_zero]
  · have h2 : (b - a) * k / n < b - a := by
      rw [Rat.div_lt_iff hp]
      exact Rat.mul_lt_mul_of_pos_left hkn (by grind)
    rw [e0]
    grind
  · rw [e0, e0]
    have h2 : (b - a) * k / n < (b - a) * ((k + 1 : Nat) : Rat) / n := by
      rw [Rat.div_lt_iff hp, Rat.div_mul_cancel hn]
      exact Rat.mul_lt_mul_of_pos_left (by exact_mod_cast Nat.lt_succ_self k) (by grind)
    grind

/-! ### Concrete cases -/

/-- Decimal numbers only. -/
def sampleFloat (s : Str) : Option Rat :=
  if s.contains '\n' then none else
    match split '.' s with
    | [a] => (toInt a).map fun n => (n : Rat)
    | [a, b] => (toInt a).bind fun n => (toInt b).map fun k => n + (k : Rat) / (10 ^ b.length : Nat)
    | _ => none

theorem sample_reads : ReadsNumbers sampleFloat where
  whole := by
    intro s n h
    unfold sampleFloat
    rw [if_neg (by simpa using decimal_space h (d := '\n') (by decide)), split_none '.' (decimal_space h (by decide))]
    simp only
    rw [toInt_decimal.2 h]
    rfl
  fraction := by
    intro s t n k h h'
    unfold sampleFloat
    rw [if_neg, split_append '.' (decimal_space h (by decide)), split_none '.' (decimal_space h' (by decide))]
    · simp only
      rw [toInt_decimal.2 h, toInt_decimal.2 h']
      rfl
    · have h1 := decimal_space h (d := '\n') (by decide)
      have h2 := decimal_space h' (d := '\n') (by decide)
      simp [h1, h2]
  lines := by
    intro s a b e _ _
    unfold sampleFloat
    rw [if_pos (by simp [e])]

theorem sample_time : TimeText (lit "1.25 40960\n") (1 + ((25 : Nat) : Rat) / (10 ^ 2 : Nat)) ((40960 : Nat) : Rat) :=
  ⟨lit "1", lit "25", lit "40960", 1, 25, 40960, toInt_decimal.1 (by decide +kernel),
    toInt_decimal.1 (by decide +kernel), toInt_decimal.1 (by decide +kernel), by decide +kernel,
    rfl, rfl⟩

example : benchmarkCommand sampleFloat (lit "\n" ++ lit "1.25 40960\n") =
    some (1 + ((25 : Nat) : Rat) / (10 ^ 2 : Nat), ((40960 : Nat) : Rat)) :=
  C106_silent sample_reads (by decide +kernel) sample_time

example : benchmarkCommand sampleFloat (lit "warning" ++ '\n' :: lit "1.25 40960\n") = none :=
  C106_noisy sample_reads ⟨'w', by decide +kernel, by decide⟩ sample_time

example : benchmarkCommand sampleFloat (lit "a.cpp:1: error" ++ lit "Command exited with non-zero status " ++ lit "1" ++
    '\n' :: lit "1.25 40960\n") = none :=
  C106_failed sample_reads _ _ sample_time

/-- Two runs. -/
def sampleRuns : Nat → Run
  | 0 => ⟨lit "1.25 40960\n", [lit "a_9_bmp.o"]⟩
  | _ => ⟨lit "2.25 20480\n", [lit "notes", lit "a_9_bmp.o"]⟩

theorem sample_runs : ∀ k, k < 2 → measureRun sampleFloat (lit "generated/a_9_bmp.cpp") (sampleRuns k) =
    some ((fun k => if k = 0 then (5 : Rat) / 4 else (9 : Rat) / 4) k, (fun k => if k = 0 then (40960 : Rat) else 20480) k) := by
  intro k hk
  rcases (show k = 0 ∨ k = 1 by omega) with rfl | rfl <;> decide +kernel

example : benchmarkFile sampleFloat (lit "generated/a_9_bmp.cpp") sampleRuns 2 = some (7 / 4, 30) := by decide +kernel

example : ∃ time memory, benchmarkFile sampleFloat (lit "generated/a_9_bmp.cpp") sampleRuns (2 : Nat) = some (time, memory) ∧
    time * (2 : Nat) = total 2 (fun k => if k = 0 then (5 : Rat) / 4 else (9 : Rat) / 4) ∧
    memory * 1024 * (2 : Nat) = total 2 (fun k => if k = 0 then (40960 : Rat) else 20480) :=
  C106_mean (by decide) sample_runs

example : ∃ time memory, benchmarkFile sampleFloat (lit "generated/a_9_bmp.cpp") sampleRuns (2 : Nat) = some (time, memory) ∧
    ((1 : Rat) ≤ time ∧ time ≤ 3) ∧ (20000 : Rat) ≤ memory * 1024 ∧ memory * 1024 ≤ 50000 :=
  C106_between (by decide) sample_runs
    (fun k hk => by rcases (show k = 0 ∨ k = 1 by omega) with rfl | rfl <;> decide +kernel)
    (fun k hk => by rcases (show k = 0 ∨ k = 1 by omega) with rfl | rfl <;> decide +kernel)

example : benchmarkFile sampleFloat (lit "generated/b.cpp") sampleRuns (5 : Nat) = none :=
  C106_no_value (k := 3) (by decide) (.inr (by decide +kernel))

example : benchmarkFile sampleFloat (lit "generated/a_9_bmp.cpp") sampleRuns (2 : Nat) ≠ none ∧
    benchmarkFile sampleFloat (lit "generated/a_9_bmp.cpp") sampleRuns (0 : Nat) = none := by
  refine ⟨fun h => ?_, C106_exception.2 (.inl rfl)⟩
  rcases C106_exception.1 h with h | ⟨k, hk, h⟩
  · cases h
  · rcases (show k = 0 ∨ k = 1 by omega) with rfl | rfl <;> revert h <;> decide +kernel

example : benchmarkFile sampleFloat (lit "b.cpp") sampleRuns (-1) = some (0, 0) := C106_negative _ _ _ (by decide)

example : objectFile (lit "generated" ++ '/' :: lit "a.b" ++ lit ".cpp") = lit "a.b.o" :=
  (C106_object (lit "generated") (stem := lit "a.b") (by decide) ⟨'a', by decide, by decide⟩).1

example : progressAt (1 / 4) (1 / 2) 5 3 < 1 / 2 := (C106_progress (a := 1 / 4) (b := 1 / 2) (by decide +kernel) (n := 5) (k := 3) (by decide)).2.1

/-! ## The progress -/

/-- C107: whatever the order of the files and the measurements are, the progress at which the measurement of a file
begins is never smaller than those before; a measurement has a range of its own that is not empty. -/
theorem C107_grows {ts : List Template} {files : List Str} {M : Type} (measure : Str → Bool → Option M)
    (hn : (ts.map Template.name).Nodup) (hts : ∀ t ∈ ts, GoodTemplate t) (hf : MeasuredFiles ts files) :
    (∀ r ∈ progressRanges measure files, 0 ≤ r.1 ∧ r.1 < r.2) ∧
      (progressRanges measure files).Pairwise fun r r' => r.1 ≤ r'.1 := by
  cases files with
  | nil => exact ⟨by simp [progressRanges, progressLoop], by simp [progressRanges, progressLoop]⟩
  | cons f fs =>
      have h := progress_grows (measure := measure) (B := (f :: fs).countP fun f => isIn (lit "bmp") f) (N := (f :: fs).length)
        (by simp) (fs := f :: fs) (p := ⟨[], true⟩) (measured_nodup hn hts hf)
        (fun f' h1 g h2 hb => measured_no_clash hts hf h2 hb h1)
        (by simp) rfl
      refine ⟨fun r hr => ⟨Rat.le_trans ?_ (h.1 r hr).1, (h.1 r hr).2⟩, h.2⟩
      simp [Rat.div_def]

/-- C107: the progress is never above 100 % where string literal templates work for every file with
`BOOST_METAPARSE_STRING`, and where they work for none. -/
theorem C107_below {M : Type} {measure : Str → Bool → Option M} {files : List Str}
    (h : (∀ f ∈ files, Has f (lit "bmp") → measure f true ≠ none) ∨ (∀ f ∈ files, Has f (lit "bmp") → measure f true = none)) :
    ∀ r ∈ progressRanges measure files, r.2 ≤ 1 := by
  rcases h with h | h
  · exact progress_below_all (fun f hf hb => h f hf ((isIn_iff _ _).1 hb)) rfl (by simp)
  · exact progress_below_none (N := files.length) (fun f hf hb => h f hf ((isIn_iff _ _).1 hb)) rfl (by simp) (Nat.le_refl _)

/-- C107: where they work for some of the files only, it may be above 100 %. -/
theorem C107_above : ∃ (ts : List Template) (files : List Str) (measure : Str → Bool → Option Nat),
    (ts.map Template.name).Nodup ∧ (∀ t ∈ ts, GoodTemplate t) ∧ MeasuredFiles ts files ∧
      ∃ r ∈ progressRanges measure files, 1 < r.1 := by
  refine ⟨[⟨lit "a", [1, 2, 3, 4], [.bmp], fun _ => []⟩],
    [lit "a_1_bmp.cpp", lit "a_2_bmp.cpp", lit "a_3_bmp.cpp", lit "a_4_bmp.cpp"],
    fun f b => if b && f == lit "a_3_bmp.cpp" then none else some 1, by decide, ?_, ?_,
    ((5 : Nat) / (4 : Nat), (6 : Nat) / (4 : Nat)), ?_, by decide +kernel⟩
  · intro t ht
    rw [List.mem_singleton.1 ht]
    exact ⟨by decide, by decide, fun h => absurd ((isIn_iff _ _).2 h) (by decide +kernel),
      fun h => absurd ((isIn_iff _ _).2 h) (by decide +kernel)⟩
  · unfold MeasuredFiles; decide +kernel
  · decide +kernel

example : progressRanges (fun _ b => if b then none else some 0) shuffledFiles =
    [(0, 1 / 7), (1 / 7, 2 / 7), (2 / 7, 3 / 7), (3 / 7, 4 / 7), (3 / 5, 4 / 5), (4 / 5, 1)] := by decide +kernel

example : (progressRanges (fun _ b => if b then none else some 0) shuffledFiles).Pairwise fun r r' => r.1 ≤ r'.1 :=
  (C107_grows _ (by decide) good_templates shuffled_measured).2

example : ∀ r ∈ progressRanges (fun _ b => if b then none else some 0) shuffledFiles, r.2 ≤ 1 :=
  C107_below (.inr fun _ _ _ => rfl)

/-! ## The name of the compiler and the pages -/

/-- C108: the compiler is named after the first version of gcc or clang in what it writes, with all parts of the version. -/
theorem C108_version {compiler out err line before tool v : Str} {l l' : List Str} (hl : linesOf (out ++ err) = l ++ line :: l')
    (hn : ∀ x ∈ l, ∀ b t w, ¬ Mentions x b t w) (h : FirstMention line before tool v) :
    compilerInfo compiler out err = tool ++ lit " " ++ v := by
  unfold compilerInfo
  rw [← linesOf_eq_split, hl, List.findSome?_append, List.findSome?_eq_none_iff.2 fun x hx => searchVersion_none (hn x hx),
    List.findSome?_cons, searchVersion_first h]
  rfl

/-- C108: otherwise by the command. -/
theorem C108_unknown {compiler out err : Str} (h : ∀ x ∈ linesOf (out ++ err), ∀ b t w, ¬ Mentions x b t w) :
    compilerInfo compiler out err = compiler := by
  unfold compilerInfo
  rw [← linesOf_eq_split, List.findSome?_eq_none_iff.2 fun x hx => searchVersion_none (h x hx)]

/-- C108: in the name of a file every special character is an underscore, and everything else stays. -/
theorem C108_filename (s : Str) (i : Nat) :
    (makeFilename s)[i]? = (s[i]?).map fun c => if c ∈ [' ', '~', '(', ')', '/', '\\'] then '_' else c := by
  unfold makeFilename
  rw [List.getElem?_map]
  congr 1
  funext c
  unfold stringChar
  rw [List.elem_eq_mem]
  simp

/-- C108: so it has no special character and names a file in its directory. -/
theorem C108_no_special (s : Str) : ∀ c ∈ makeFilename s, ¬ Special c := by
  intro c hc
  obtain ⟨d, -, rfl⟩ := List.mem_map.1 hc
  unfold stringChar
  split
  · rintro (e | e | e | e | e | e) <;> exact absurd e (by decide)
  · rename_i h
    intro hs
    apply h
    rcases hs with e | e | e | e | e | e <;> rw [e] <;> decide

/-- C108: every configuration gets its page, with its description, the memory of the computer in gigabytes (rounded up),
the compiler and a link to its picture, and its picture, the two diagrams side by side; the temporary pictures are gone,
and all other files are as they were. -/
theorem C108_pages (platform : Str) (total : Nat) (compiler outDir : Str) {cs : List PageConfig} (fs : Disk)
    (hn : (cs.map PageConfig.name).Nodup) (hc : ∀ c ∈ cs, c.name ≠ [] ∧ c.name.head? ≠ some '/') :
    ∃ fs', plotDiagrams platform total compiler outDir cs fs = some fs' ∧
      (∀ c ∈ cs, ∃ page g : Str, ∃ memory : Nat,
        fs' (joinPath outDir (c.name ++ lit "_" ++ makeFilename compiler ++ lit ".qbk")) = some (.page page) ∧
        c.desc <+: page ∧ Has page (lit "[$images/metaparse/" ++ (c.name ++ lit "_" ++ makeFilename compiler ++ lit ".png")) ∧
        Has page (lit " host with " ++ g ++ lit " GB memory. Compiler used: " ++ compiler ++ lit ".") ∧
        Decimal g memory ∧ (total ≤ memory * 2 ^ 30 ∧ memory * 2 ^ 30 < total + 2 ^ 30) ∧
        fs' (joinPath (joinPath outDir (lit "images")) (c.name ++ lit "_" ++ makeFilename compiler ++ lit ".png")) =
          some (.joined (.picture c.name (lit "time")) (.picture c.name (lit "memory")))) ∧
      (cs ≠ [] → fs' (joinPath (joinPath outDir (lit "images")) (lit "_time.png")) = none ∧
        fs' (joinPath (joinPath outDir (lit "images")) (lit "_memory.png")) = none) ∧
      ∀ p, p ≠ joinPath (joinPath outDir (lit "images")) (lit "_time.png") →
        p ≠ joinPath (joinPath outDir (lit "images")) (lit "_memory.png") →
        (∀ c ∈ cs, p ≠ joinPath outDir (c.name ++ lit "_" ++ makeFilename compiler ++ lit ".qbk") ∧
          p ≠ joinPath (joinPath outDir (lit "images")) (c.name ++ lit "_" ++ makeFilename compiler ++ lit ".png")) →
        fs' p = fs p := by
  obtain ⟨fs', h0, h1, h2, h3⟩ := plotLoop_spec platform (Nat.toDigits 10 (gigabytes total)) compiler outDir fs hn hc
  have t1 : tempPath outDir (lit "time") = joinPath (joinPath outDir (lit "images")) (lit "_time.png") := by
    unfold tempPath
    rw [show tempName (lit "time") = lit "_time.png" by decide +kernel]
  have t2 : tempPath outDir (lit "memory") = joinPath (joinPath outDir (lit "images")) (lit "_memory.png") := by
    unfold tempPath
    rw [show tempName (lit "memory") = lit "_memory.png" by decide +kernel]
  rw [t1, t2] at h2 h3
  refine ⟨fs', h0, fun c hcs => ?_, h2, h3⟩
  obtain ⟨p1, p2⟩ := h1 c hcs
  refine ⟨_, Nat.toDigits 10 (gigabytes total), gigabytes total, p1, ?_, ?_, ?_, ?_, ?_, p2⟩
  · unfold pageText
    simp only [List.append_assoc]
    exact List.prefix_append _ _
  · refine ⟨c.desc ++ lit "\nMeasured on a " ++ platform ++ lit " host with " ++ Nat.toDigits 10 (gigabytes total) ++
      lit " GB memory. Compiler used: " ++ compiler ++ lit ".\n\n", lit " [width 100%]]\n", ?_⟩
    unfold pageText
    simp only [List.append_assoc]
    rw [show lit ".\n\n[$images/metaparse/" = lit ".\n\n" ++ lit "[$images/metaparse/" by decide +kernel,
      show lit ".png [width 100%]]\n" = lit ".png" ++ lit " [width 100%]]\n" by decide +kernel]
    simp only [List.append_assoc]
  · refine ⟨c.desc ++ lit "\nMeasured on a " ++ platform, lit "\n\n[$images/metaparse/" ++
      (c.name ++ lit "_" ++ makeFilename compiler) ++ lit ".png [width 100%]]\n", ?_⟩
    unfold pageText
    rw [show lit ".\n\n[$images/metaparse/" = lit "." ++ lit "\n\n[$images/metaparse/" by decide +kernel]
    simp only [List.append_assoc]
  · exact toInt_decimal.1 (toInt_digitsOf _)
  · unfold gigabytes
    omega

/-- C108: compilers with different commands may have the same files. -/
theorem C108_same_name : ∃ s s' : Str, s ≠ s' ∧ makeFilename s = makeFilename s' :=
  ⟨lit "g++ -m32", lit "g++_-m32", by decide +kernel, by decide +kernel⟩

/-! ### Concrete cases -/

theorem version_sample : VersionText (lit "5.4.0") := by
  rw [show lit "5.4.0" = lit "5" ++ '.' :: (lit "4" ++ '.' :: lit "0") by decide +kernel]
  exact .dot (n := 5) (toInt_decimal.1 (by decide +kernel))
    (.dot (n := 4) (toInt_decimal.1 (by decide +kernel)) (.last (n := 0) (toInt_decimal.1 (by decide +kernel))))

/-- The first mention in the last line of `g++ -v`. -/
theorem mention_sample : FirstMention (lit "gcc version 5.4.0 20160609 (x)") [] (lit "gcc") (lit "5.4.0") := by
  refine ⟨⟨.inl rfl, version_sample, lit " 20160609 (x)", by decide +kernel⟩, ?_⟩
  rintro before' tool' v' ⟨ht, hv, rest, e⟩
  cases before' with
  | cons b before' => left; simp
  | nil =>
      right
      refine ⟨rfl, ?_⟩
      rcases ht with rfl | rfl
      · have e1 : lit "5.4.0 20160609 (x)" = v' ++ rest := by
          rw [show lit "gcc version 5.4.0 20160609 (x)" = lit "gcc" ++ lit " version " ++ lit "5.4.0 20160609 (x)" by
            decide +kernel] at e
          simp only [List.nil_append, List.append_assoc] at e
          exact List.append_cancel_left (List.append_cancel_left e)
        obtain ⟨c, t, rfl, hc⟩ := version_head hv
        rw [show lit "5.4.0 20160609 (x)" = '5' :: lit ".4.0 20160609 (x)" by decide +kernel, List.cons_append] at e1
        have e2 := (List.cons.inj e1).2
        have h2 := versionTail_longest (lit ".4.0 20160609 (x)") hv ⟨rest, e2.symm⟩
        rw [show versionTail (lit ".4.0 20160609 (x)") = lit ".4.0" by decide +kernel] at h2
        rw [List.length_cons, show (lit "5.4.0").length = (lit ".4.0").length + 1 by decide +kernel]
        omega
      · rw [show lit "gcc version 5.4.0 20160609 (x)" = 'g' :: lit "cc version 5.4.0 20160609 (x)" by decide +kernel,
          show lit "clang" = 'c' :: lit "lang" by decide +kernel] at e
        simp only [List.nil_append, List.cons_append] at e
        exact absurd (List.cons.inj e).1 (by decide)

theorem no_mention_sample : ∀ b t w, ¬ Mentions (lit "Thread model: posix") b t w := by
  rintro b t w ⟨-, -, rest, e⟩
  have : isIn (lit " version ") (lit "Thread model: posix") = true :=
    (isIn_iff _ _).2 ⟨b ++ t, w ++ rest, by rw [e]; simp⟩
  exact absurd this (by decide +kernel)

example : compilerInfo (lit "g++") [] (lit "Thread model: posix\ngcc version 5.4.0 20160609 (x)\n") = lit "gcc 5.4.0" := by
  rw [C108_version (l := [lit "Thread model: posix"]) (l' := [[]]) (by decide +kernel)
    (fun x hx => by rw [List.mem_singleton.1 hx]; exact no_mention_sample) mention_sample]
  decide +kernel

example : compilerInfo (lit "icc") [] (lit "Thread model: posix") = lit "icc" :=
  C108_unknown fun x hx => by
    rw [show linesOf ([] ++ lit "Thread model: posix") = [lit "Thread model: posix"] by decide +kernel] at hx
    rw [List.mem_singleton.1 hx]
    exact no_mention_sample

example : compilerInfo (lit "c++") [] (lit "Apple clang version 12.0.x gcc version 4") = lit "clang 12.0" := by decide +kernel

example : makeFilename (lit "clang 12 (a/b)") = lit "clang_12__a_b_" := by decide +kernel

example : ∃ fs', plotDiagrams (lit "Linux") 17179869185 (lit "gcc 5.4.0") (lit "doc")
      [⟨lit "length", lit "Longer strings."⟩, ⟨lit "number", lit "More strings."⟩] (fun _ => none) = some fs' ∧
    fs' (lit "doc/length_gcc_5.4.0.qbk") = some (.page (lit
      "Longer strings.\nMeasured on a Linux host with 17 GB memory. Compiler used: gcc 5.4.0.\n\n[$images/metaparse/length_gcc_5.4.0.png [width 100%]]\n")) ∧
    fs' (lit "doc/images/number_gcc_5.4.0.png") =
      some (.joined (.picture (lit "number") (lit "time")) (.picture (lit "number") (lit "memory"))) ∧
    fs' (lit "doc/images/_time.png") = none :=
  ⟨_, rfl, by decide +kernel, by decide +kernel, by decide +kernel⟩

example : ∃ fs', plotDiagrams (lit "Linux") 17179869185 (lit "gcc 5.4.0") (lit "doc")
      [⟨lit "length", lit "Longer strings."⟩, ⟨lit "number", lit "More strings."⟩] (fun _ => none) = some fs' ∧
    fs' (lit "readme") = none := by
  obtain ⟨fs', h, -, -, h'⟩ := C108_pages (lit "Linux") 17179869185 (lit "gcc 5.4.0") (lit "doc")
    (cs := [⟨lit "length", lit "Longer strings."⟩, ⟨lit "number", lit "More strings."⟩]) (fun _ => none) (by decide +kernel)
    (by decide +kernel)
  exact ⟨fs', h, h' _ (by decide +kernel) (by decide +kernel) (by decide +kernel)⟩

end Metaparse
