import Verif.Lemmas.Benchmark
import Verif.Lemmas.GenerateAgainStep
/-!
# Lemmas for the characters, files and durations of the benchmarks
-/

namespace Metaparse.Bench

open Gen

theorem isPlain_or {c : Char} (h : isPlain c = true ∨ c = '"' ∨ c = '\'' ∨ c = '\\' ∨ c = '\n' ∨ c = '\r' ∨ c = '\t') :
    c.toNat < 128 := by
  rcases h with h | h | h | h | h | h | h
  · simp only [isPlain, Bool.or_eq_true, Bool.and_eq_true, decide_eq_true_eq] at h
    rcases h with ((⟨_, h⟩ | ⟨_, h⟩) | ⟨_, h⟩) | h
    · have : c.toNat ≤ 'z'.toNat := h
      exact Nat.lt_of_le_of_lt this (by decide)
    · have : c.toNat ≤ 'Z'.toNat := h
      exact Nat.lt_of_le_of_lt this (by decide)
    · have : c.toNat ≤ '9'.toNat := h
      exact Nat.lt_of_le_of_lt this (by decide)
    · have key : ∀ x ∈ lit "_.:; !?+-/=<>$()@~`|#[]{}&*^%", x.toNat < 128 := by decide +kernel
      exact key c (by simpa using h)
  all_goals subst h; decide

theorem writable_small : ∀ c ∈ writable, c.toNat < 128 := by decide +kernel

theorem ascii_cases : ∀ n < 128, decide (Char.ofNat n ∈ writable) =
    !(lit "\\x").isPrefixOf (formatCharacter (Char.ofNat n)) := by decide +kernel

theorem charMap_keep (c : Char) : (!(lit "\\x").isPrefixOf (formatCharacter c)) = decide (c ∈ writable) := by
  rcases Nat.lt_or_ge c.toNat 128 with h | h
  · have := ascii_cases c.toNat h
    simp only [Char.ofNat_toNat] at this
    exact this.symm
  · have h1 : c ∉ writable := fun hm => by have := writable_small c hm; omega
    have h2 : formatCharacter c = lit "\\x" ++ [hexDigit (c.toNat / 16), hexDigit (c.toNat % 16)] := by
      have hn := fun hh => Nat.not_lt.mpr h (isPlain_or (c := c) hh)
      unfold formatCharacter
      rw [if_neg (fun e => hn (.inl e)), if_neg (fun e => ?_), if_neg (fun e => hn (by simp [e])),
        if_neg (fun e => hn (by simp [e])), if_neg (fun e => hn (by simp [e]))]
      rcases e with e | e | e <;> exact hn (by simp [e])
    rw [h2]
    simp [h1, lit]

theorem charMap_eq (chars : List (Char × Nat)) : charMap chars = chars.filter fun x => decide (x.1 ∈ writable) := by
  unfold charMap
  congr 1
  funext x
  exact charMap_keep x.1

theorem element_format {c : Char} (h : c ∈ writable) : Element ['"', '\''] (formatCharacter c) c := by
  have key : ∀ c ∈ writable, (formatCharacter c = [c] ∧ c ∉ ['"', '\''] ∧ c ≠ '\\' ∧ c ≠ '\n') ∨
      ∃ x ∈ escapes, formatCharacter c = ['\\', x.1] ∧ x.2 = c := by decide +kernel
  rcases key c h with ⟨h1, h2, h3, h4⟩ | ⟨x, h1, h2, h3⟩
  · rw [h1]; exact .plain c h2 h3 h4
  · rw [h2]; exact .escape _ _ (by rw [← h3]; exact h1)

theorem charNum_eq (m : List (Char × Nat)) : charNum m = (unrolled m).length := by
  simp [charNum, unrolled, List.length_flatMap]

theorem nthChar_eq (m : List (Char × Nat)) (i : Nat) : nthChar m i = (unrolled m)[i]? := by
  induction m generalizing i with
  | nil => simp [nthChar, unrolled]
  | cons x m ih =>
      obtain ⟨c, k⟩ := x
      have hu : unrolled ((c, k) :: m) = List.replicate k c ++ unrolled m := by simp [unrolled]
      rw [hu, nthChar]
      split
      · rename_i h
        rw [List.getElem?_append_left (by simpa using h)]
        simp [h]
      · rename_i h
        rw [List.getElem?_append_right (by simp; omega), ih]
        simp

theorem mem_unrolled {m : List (Char × Nat)} {c : Char} (h : c ∈ unrolled m) : ∃ x ∈ m, x.1 = c := by
  simp only [unrolled, List.mem_flatMap, List.mem_replicate] at h
  obtain ⟨x, hx, _, e⟩ := h
  exact ⟨x, hx, e.symm⟩

/-! ## Names of files -/

theorem number_inj {n n' : Nat} (h : number n = number n') : n = n' := by
  rw [number_eq, number_eq] at h
  have := toInt_digitsOf n
  rw [h, toInt_digitsOf] at this
  exact (Option.some.inj this).symm

theorem split_last {a a' b b' : Str} {c : Char} (hb : c ∉ b) (hb' : c ∉ b') (h : a ++ c :: b = a' ++ c :: b') :
    a = a' ∧ b = b' := by
  rcases List.append_eq_append_iff.mp h with ⟨x, e1, e2⟩ | ⟨x, e1, e2⟩
  · cases x with
    | nil => simp only [List.append_nil, List.nil_append] at e1 e2; injection e2 with _ e2; exact ⟨e1.symm, e2⟩
    | cons d x => injection e2 with _ e2; exact absurd (by rw [e2]; simp) hb
  · cases x with
    | nil => simp only [List.append_nil, List.nil_append] at e1 e2; injection e2 with _ e2; exact ⟨e1, e2.symm⟩
    | cons d x => injection e2 with _ e2; exact absurd (by rw [e2]; simp) hb'

theorem identifier_length (m : Mode) : (m.identifier ++ lit ".cpp").length = 7 := by cases m <;> decide +kernel

theorem identifier_inj {m m' : Mode} (h : m.identifier ++ lit ".cpp" = m'.identifier ++ lit ".cpp") : m = m' := by
  cases m <;> cases m' <;> first | rfl | exact absurd h (by decide +kernel)

theorem outFilename_eq (name : Str) (n : Nat) (m : Mode) : outFilename name n m =
    (name ++ '_' :: number n ++ ['_']) ++ (m.identifier ++ lit ".cpp") := by simp [outFilename]

theorem outFilename_inj {name name' : Str} {n n' : Nat} {m m' : Mode}
    (h : outFilename name n m = outFilename name' n' m') : name = name' ∧ n = n' ∧ m = m' := by
  rw [outFilename_eq, outFilename_eq] at h
  have := List.append_inj' h (by rw [identifier_length, identifier_length])
  obtain ⟨h1, h2⟩ := this
  have h3 := (List.append_inj' h1 rfl).1
  obtain ⟨h4, h5⟩ := split_last (not_mem_number (by decide)) (not_mem_number (by decide)) h3
  exact ⟨h4, number_inj h5, identifier_inj h2⟩

theorem outFilename_ne_json {name name' : Str} {n : Nat} {m : Mode} : outFilename name n m ≠ name' ++ lit ".json" := by
  intro h
  have h1 : (outFilename name n m).getLast? = some 'p' := by
    rw [outFilename_eq, List.getLast?_append]
    cases m <;> simp [Mode.identifier, lit]
  have h2 : (name' ++ lit ".json").getLast? = some 'n' := by simp [lit]
  rw [h, h2] at h1
  exact absurd h1 (by decide)

theorem filesOf_names (t : Template) : (filesOf t).map Prod.fst =
    (t.range.flatMap fun n => t.modes.map fun m => outFilename t.name n m) ++ [t.name ++ lit ".json"] := by
  simp [filesOf, List.map_flatMap, Function.comp_def]

theorem nodup_names {t : Template} (hr : t.range.Nodup) (hm : t.modes.Nodup) : ((filesOf t).map Prod.fst).Nodup := by
  rw [filesOf_names, List.nodup_append]
  refine ⟨?_, by simp, ?_⟩
  · unfold List.Nodup
    rw [List.pairwise_flatMap]
    refine ⟨fun n _ => ?_, ?_⟩
    · rw [List.pairwise_map]
      exact hm.imp fun hne e => hne (outFilename_inj e).2.2
    · exact hr.imp fun hne x hx y hy e => by
        simp only [List.mem_map] at hx hy
        obtain ⟨m, _, rfl⟩ := hx
        obtain ⟨m', _, rfl⟩ := hy
        exact hne (outFilename_inj e).2.1
  · intro x hx y hy e
    simp only [List.mem_flatMap, List.mem_map, List.mem_singleton] at hx hy
    obtain ⟨n, _, m, _, rfl⟩ := hx
    subst hy
    exact outFilename_ne_json e

theorem nodup_all {ts : List Template} (hn : (ts.map Template.name).Nodup)
    (h : ∀ t ∈ ts, t.range.Nodup ∧ t.modes.Nodup) : ((allFiles ts).map Prod.fst).Nodup := by
  unfold allFiles
  rw [List.map_flatMap]
  unfold List.Nodup
  rw [List.pairwise_flatMap]
  refine ⟨fun t ht => nodup_names (h t ht).1 (h t ht).2, ?_⟩
  rw [List.Nodup, List.pairwise_map] at hn
  refine hn.imp fun hne x hx y hy e => hne ?_
  rw [filesOf_names] at hx hy
  simp only [List.mem_append, List.mem_flatMap, List.mem_map, List.mem_singleton] at hx hy
  rcases hx with ⟨n, _, m, _, rfl⟩ | rfl <;> rcases hy with ⟨n', _, m', _, rfl⟩ | rfl
  · exact (outFilename_inj e).1
  · exact (outFilename_ne_json e).elim
  · exact (outFilename_ne_json e.symm).elim
  · exact List.append_cancel_right e

theorem contentOf_of_mem {α : Type} {l : List (Str × α)} (h : (l.map Prod.fst).Nodup) {name : Str} {x : α}
    (hx : (name, x) ∈ l) : contentOf l name = some x := by
  unfold contentOf
  have h' : (l.reverse.map Prod.fst).Nodup := by 
    rw [List.map_reverse, List.Nodup, List.pairwise_reverse]; exact h.imp fun hne => hne.symm
  have hx' : (name, x) ∈ l.reverse := List.mem_reverse.mpr hx
  generalize l.reverse = r at h' hx'
  induction r with
  | nil => cases hx'
  | cons y r ih =>
      rw [List.map_cons, List.nodup_cons] at h'
      rw [List.find?_cons]
      by_cases hy : y.1 = name
      · have : y = (name, x) := by
          rcases List.mem_cons.mp hx' with e | e
          · exact e.symm
          · exact absurd (List.mem_map.mpr ⟨_, e, hy.symm⟩) h'.1
        simp [this]
      · have : (y.1 == name) = false := by simpa using hy
        rw [this]
        rcases List.mem_cons.mp hx' with e | e
        · exact absurd (by rw [← e]) hy
        · exact ih h'.2 e

/-! ## Durations -/

/-- What the loop of `format_time` (`/repo/tools/benchmark/benchmark.py:119-128`) leaves. -/
def leftOver (u : Nat) : List (Str × Nat) → Nat → Nat
  | [], t => t
  | (_, dur) :: l, t => if dur * u < t then leftOver u l (t % (dur * u)) else leftOver u l t

theorem leftOver_le (u : Nat) (us : List (Str × Nat)) (t : Nat) : leftOver u us t ≤ t := by
  induction us generalizing t with
  | nil => exact Nat.le_refl _
  | cons x us ih =>
      rw [leftOver]
      split
      · exact Nat.le_trans (ih _) (Nat.mod_le _ _)
      · exact ih _

theorem printed_loop {u : Nat} (hu : 0 < u) {us : List (Str × Nat)} (hin : ∀ x ∈ us, x ∈ unitSeconds)
    (hdec : (us.map Prod.snd).Pairwise (· > ·)) (t : Nat) :
    ∃ l, PrintedTime l (join [' '] ((durations u us t).map fun x =>
        number x.1 ++ [' '] ++ x.2 ++ if 1 < x.1 then ['s'] else [])) ∧
      totalTicks u l + leftOver u us t = t ∧ (∀ x ∈ l, x.2 ∈ us.map Prod.snd) ∧ (l = [] ↔ durations u us t = []) := by
  induction us generalizing t with
  | nil => exact ⟨[], .nil, by simp [totalTicks, leftOver], by simp, by simp [durations]⟩
  | cons y us ih =>
      obtain ⟨name, dur⟩ := y
      rw [List.map_cons, List.pairwise_cons] at hdec
      have hin' := fun x hx => hin x (List.mem_cons_of_mem _ hx)
      rw [durations, leftOver]
      split
      · rename_i hlt
        obtain ⟨l, h1, h2, h3, h4⟩ := ih hin' hdec.2 (t % (dur * u))
        have hm := hin _ List.mem_cons_self
        have hpos : 0 < dur := by
          have key : ∀ x ∈ unitSeconds, 0 < x.2 := by decide +kernel
          exact key _ hm
        have hv : 1 ≤ t / (dur * u) :=
          (Nat.one_le_div_iff (Nat.mul_pos hpos hu)).mpr (Nat.le_of_lt hlt)
        have hplural : (if 1 < t / (dur * u) then ['s'] else []) = (if t / (dur * u) = 1 then [] else lit "s") := by
          by_cases e : t / (dur * u) = 1
          · rw [if_neg (by omega), if_pos e]
          · rw [if_pos (by omega), if_neg e]; rfl
        refine ⟨(t / (dur * u), dur) :: l, ?_, ?_, ?_, by simp⟩
        · rw [List.map_cons]
          generalize hd : durations u us (t % (dur * u)) = ds at h1 h4
          cases l with
          | nil =>
              rw [h4.mp rfl]
              have := PrintedTime.one hm hv
              rw [← hplural, ← number_eq] at this
              exact this
          | cons z l =>
              obtain ⟨v', d'⟩ := z
              cases ds with
              | nil => exact absurd (h4.mpr rfl) (by simp)
              | cons w ds =>
                  have := PrintedTime.cons hm hv (hdec.1 _ (h3 _ List.mem_cons_self)) h1
                  rw [← hplural, ← number_eq] at this
                  exact this
        · have e := Nat.div_add_mod t (dur * u)
          have e' : t / (dur * u) * dur * u = dur * u * (t / (dur * u)) := by
            rw [Nat.mul_assoc, Nat.mul_comm]
          have e2 : totalTicks u ((t / (dur * u), dur) :: l) = t / (dur * u) * dur * u + totalTicks u l := by
            simp [totalTicks]
          rw [e2]
          omega
        · intro x hx
          rcases List.mem_cons.mp hx with rfl | hx
          · simp
          · exact List.mem_cons_of_mem _ (h3 x hx)
      · obtain ⟨l, h1, h2, h3, h4⟩ := ih hin' hdec.2 t
        exact ⟨l, h1, h2, fun x hx => List.mem_cons_of_mem _ (h3 x hx), h4⟩

theorem leftOver_mod {u d k : Nat} (hu : 0 < u) (hd : 0 < d) (hk : k ∣ d) (l : List (Str × Nat)) (name : Str) (t : Nat) :
    ∃ t', leftOver u ((name, d) :: l) t = leftOver u l t' ∧ t' % (k * u) = t % (k * u) ∧ t' ≤ d * u := by
  obtain ⟨q, rfl⟩ := hk
  rw [leftOver]
  split
  · refine ⟨_, rfl, ?_, Nat.le_of_lt (Nat.mod_lt _ (Nat.mul_pos hd hu))⟩
    rw [show k * q * u = k * u * q from Nat.mul_right_comm _ _ _, Nat.mod_mul_right_mod]
  · exact ⟨t, rfl, rfl, by omega⟩

theorem leftOver_units {u : Nat} (hu : 0 < u) (t : Nat) :
    leftOver u units t = if t % (60 * u) ≤ u then t % (60 * u) else t % u := by
  unfold units
  obtain ⟨t1, e1, m1, _⟩ := leftOver_mod (d := 604800) (k := 60) hu (by decide) (by decide)
    [(lit "day", 86400), (lit "hour", 3600), (lit "minute", 60), (lit "second", 1)] (lit "week") t
  obtain ⟨t2, e2, m2, _⟩ := leftOver_mod (d := 86400) (k := 60) hu (by decide) (by decide)
    [(lit "hour", 3600), (lit "minute", 60), (lit "second", 1)] (lit "day") t1
  obtain ⟨t3, e3, m3, _⟩ := leftOver_mod (d := 3600) (k := 60) hu (by decide) (by decide)
    [(lit "minute", 60), (lit "second", 1)] (lit "hour") t2
  obtain ⟨t4, e4, m4, b4⟩ := leftOver_mod (d := 60) (k := 60) hu (by decide) (by decide)
    [(lit "second", 1)] (lit "minute") t3
  have m : t4 % (60 * u) = t % (60 * u) := by rw [m4, m3, m2, m1]
  have mu : t4 % u = t % u := by
    rw [← Nat.mod_mul_left_mod t4 60 u, ← Nat.mod_mul_left_mod t 60 u, m]
  rw [e1, e2, e3, e4, ← m, ← mu]
  simp only [leftOver, Nat.one_mul]
  rcases Nat.lt_or_eq_of_le b4 with hlt | he
  · rw [Nat.mod_eq_of_lt hlt]
    by_cases h : u < t4
    · rw [if_pos h, if_neg (by omega)]
    · rw [if_neg h, if_pos (by omega)]
  · rw [he, Nat.mod_self, if_pos (by omega), if_pos (Nat.zero_le _), Nat.mul_mod_left]

end Metaparse.Bench
