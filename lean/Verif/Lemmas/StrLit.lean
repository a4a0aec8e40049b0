import Verif.Lemmas.Out
import Verif.Model.Str
/-!
# Lemmas about `BOOST_METAPARSE_STRING` and its generator
-/

namespace Metaparse.StrLit

theorem take_cases (n : Int) :
    (n ≤ 0 ∧ take n = 0) ∨ (take n ∈ steps ∧ 0 < take n ∧ take n ≤ n) := by
  simp only [take, steps]
  repeat' split
  all_goals simp
  all_goals omega

/-- `make_string` for the first `r` of the characters. -/
theorem makeString_take (r : Nat) : ∀ cs : List Chr, r ≤ cs.length →
    makeString (take r) (r - take r) cs = .ok (cs.take r) := by
  induction r using Nat.strongRecOn with
  | _ r ih =>
    intro cs hr
    rw [makeString]
    rcases take_cases r with ⟨h0, ht⟩ | ⟨hm, h0, hle⟩
    · have : r = 0 := by omega
      subst this
      rw [if_pos ⟨ht, by rw [ht]; rfl⟩]
      simp
    · rw [if_neg (by omega), dif_pos ⟨hm, by omega⟩]
      obtain ⟨t, ht⟩ : ∃ t : Nat, take (r : Int) = t := ⟨(take (r : Int)).toNat, by omega⟩
      rw [ht] at h0 hle ⊢
      have e : (r : Int) - t = ((r - t : Nat) : Int) := by omega
      rw [e, ih (r - t) (by omega) _ (by simp only [List.length_drop, Int.toNat_natCast]; omega)]
      simp only [Out.bind_ok, Str11.concat, Int.toNat_natCast, Out.ok.injEq]
      rw [show cs.take r = cs.take (t + (r - t)) by congr 1; omega, List.take_add]

theorem charsAt_ok (limit : Nat) (lit : List Chr) (h : lit.length ≤ limit) (is : List Nat) :
    charsAt limit lit is = .ok (is.map fun n => if n ≥ lit.length then 0 else lit.getD n 0) := by
  induction is with
  | nil => rfl
  | cons i is ih =>
    simp only [charsAt, stringAt, ih, if_pos (show lit.length + 1 ≤ limit + 1 by omega),
      Out.bind_ok, List.map_cons]

theorem charsAt_long (limit : Nat) (lit : List Chr) (h : limit < lit.length) (i : Nat)
    (is : List Nat) : charsAt limit lit (i :: is) = .ill .staticAssert := by
  simp only [charsAt, stringAt, if_neg (show ¬lit.length + 1 ≤ limit + 1 by omega), Out.bind_ill]

theorem chars_range (lit : List Chr) (l : Nat) (h : lit.length ≤ l) :
    (((List.range l).map fun n => if n ≥ lit.length then 0 else lit.getD n 0).take lit.length)
      = lit := by
  apply List.ext_getElem?
  intro i
  by_cases hi : i < lit.length
  · rw [List.getElem?_take_of_lt hi, List.getElem?_map, List.getElem?_range (by omega)]
    simp [List.getD_eq_getElem?_getD, hi, Nat.not_le.2 hi]
  · rw [List.getElem?_take_eq_none (by omega), List.getElem?_eq_none (by omega)]

theorem xrange_one (a b : Nat) : xrange a b 1 = List.range' a (b - a) := by
  simp only [xrange, Nat.add_sub_cancel, Nat.div_one, Nat.mul_one]
  rw [List.range'_eq_map_range]

/-- The index macro for a limit contains the indices below it. -/
theorem indexMacros_lookup : ∀ (limits : List Nat) (p : Nat), limits.Pairwise (· < ·) →
    (∀ l ∈ limits, p ≤ l) → ∀ l ∈ limits,
    (indexMacros (List.range p) p limits).lookup l = some (List.range l)
  | [], _, _, _, _, hl => by simp at hl
  | m :: ms, p, hp, hle, l, hl => by
    have e : List.range p ++ xrange p m 1 = List.range m := by
      rw [xrange_one, List.range_eq_range', List.range_eq_range',
        show List.range' 0 p ++ List.range' p (m - p) = List.range' 0 (p + (m - p)) from by
          have := List.range'_append_1 (s := 0) (m := p) (n := m - p)
          simpa using this]
      congr 1
      have := hle m (by simp)
      omega
    simp only [indexMacros, e]
    by_cases h : l = m
    · subst h
      simp
    · rw [List.lookup_cons, beq_false_of_ne h]
      have hl : l ∈ ms := by simpa [h] using hl
      rw [List.pairwise_cons] at hp
      exact indexMacros_lookup ms m hp.2 (fun k hk => Nat.le_of_lt (hp.1 k hk)) l hl

theorem foldl_min_mem : ∀ (ls : List Nat) (a : Nat), ls.foldl min a ∈ a :: ls
  | [], a => by simp
  | b :: ls, a => by
    have := foldl_min_mem ls (min a b)
    simp only [List.foldl_cons, List.mem_cons] at this ⊢
    rcases this with h | h
    · rw [h]; omega
    · exact .inr (.inr h)

theorem foldl_max_mem : ∀ (ls : List Nat) (a : Nat), ls.foldl max a ∈ a :: ls
  | [], a => by simp
  | b :: ls, a => by
    have := foldl_max_mem ls (max a b)
    simp only [List.foldl_cons, List.mem_cons] at this ⊢
    rcases this with h | h
    · rw [h]; omega
    · exact .inr (.inr h)

theorem le_foldl_max : ∀ (ls : List Nat) (a x : Nat), x ∈ a :: ls → x ≤ ls.foldl max a
  | [], a, x, h => by simp at h; simp [h]
  | b :: ls, a, x, h => by
    simp only [List.foldl_cons]
    simp only [List.mem_cons] at h
    rcases h with rfl | rfl | h
    · exact Nat.le_trans (Nat.le_max_left x b) (le_foldl_max ls _ _ (by simp))
    · exact Nat.le_trans (Nat.le_max_right a x) (le_foldl_max ls _ _ (by simp))
    · exact le_foldl_max ls _ _ (by simp [h])

theorem minimum_mem {ls : List Nat} {m : Nat} (h : minimum ls = some m) : m ∈ ls := by
  cases ls with
  | nil => cases h
  | cons l ls => cases h; exact foldl_min_mem ls l

theorem maximum_mem {ls : List Nat} {m : Nat} (h : maximum ls = some m) : m ∈ ls := by
  cases ls with
  | nil => cases h
  | cons l ls => cases h; exact foldl_max_mem ls l

theorem le_maximum {ls : List Nat} {m x : Nat} (h : maximum ls = some m) (hx : x ∈ ls) : x ≤ m := by
  cases ls with
  | nil => cases h
  | cons l ls => cases h; exact le_foldl_max ls l x hx

theorem indexMacroOf_covers {limits : List Nat} {limit x : Nat} (hx : x ∈ limits)
    (h : limit ≤ x) : ∃ l ∈ limits, limit ≤ l ∧ indexMacroOf limits limit = some l := by
  have hm : x ∈ limits.filter fun l => decide (l ≥ limit) := by simp [hx, h]
  simp only [indexMacroOf]
  cases e : minimum (limits.filter fun l => decide (l ≥ limit)) with
  | none =>
    cases e' : limits.filter fun l => decide (l ≥ limit) with
    | nil => rw [e'] at hm; cases hm
    | cons a b => rw [e'] at e; cases e
  | some l =>
    have := minimum_mem e
    simp at this
    exact ⟨l, this.1, this.2, rfl⟩

/-- The macro with a limit that is covered. -/
theorem metaparseString_covered {limits : List Nat} (hp : limits.Pairwise (· < ·))
    {limit x : Nat} (hx : x ∈ limits) (h : limit ≤ x) (lit : List Chr) :
    ∃ l ∈ limits, limit ≤ l ∧ metaparseString limits limit lit =
      (charsAt limit lit (List.range l)).bind fun cs =>
            makeString (take lit.length) (lit.length - take lit.length) cs := by
  obtain ⟨l, hl, hle, e⟩ := indexMacroOf_covers hx h
  refine ⟨l, hl, hle, ?_⟩
  have hlook := indexMacros_lookup limits 0 hp (fun _ _ => Nat.zero_le _) l hl
  simp only [List.range_zero] at hlook
  cases em : maximum limits with
  | none =>
    cases limits with
    | nil => cases hx
    | cons a b => cases em
  | some m =>
    have := le_maximum em hx
    simp only [metaparseString, em, e, hlook, if_neg (show ¬limit > m by omega)]

theorem mem_xrange {start stop step x : Nat} (hs : 0 < step) :
    x ∈ xrange start stop step ↔ start ≤ x ∧ x < stop ∧ step ∣ x - start := by
  simp only [xrange, List.mem_map, List.mem_range]
  constructor
  · rintro ⟨k, hk, rfl⟩
    have h1 : (k + 1) * step ≤ stop - start + step - 1 :=
      (Nat.le_div_iff_mul_le hs).1 hk
    rw [Nat.add_mul, Nat.one_mul] at h1
    refine ⟨by omega, by omega, ?_⟩
    rw [Nat.add_sub_cancel_left]
    exact Nat.dvd_mul_left step k
  · rintro ⟨h1, h2, k, hk⟩
    refine ⟨k, ?_, ?_⟩
    · apply (Nat.le_div_iff_mul_le hs).2
      rw [Nat.succ_mul, Nat.mul_comm k step, ← hk]
      omega
    · rw [Nat.mul_comm k step, ← hk]; omega

theorem xrange_pairwise {start stop step : Nat} (hs : 0 < step) :
    (xrange start stop step).Pairwise (· < ·) := by
  simp only [xrange, List.pairwise_map]
  refine List.Pairwise.imp ?_ List.pairwise_lt_range
  intro a b h
  have := Nat.mul_lt_mul_of_lt_of_le h (Nat.le_refl step) hs
  omega

end Metaparse.StrLit
