import Verif.Spec.Str
/-!
# Lemmas about strings
-/

namespace Metaparse

theorem str11_at (s : List Chr) : ∀ (i : Int) (c : Chr),
    Str11.atC s i = .ok c ↔ 0 ≤ i ∧ s[i.toNat]? = some c := by
  induction s with
  | nil => intro i c; simp [Str11.atC]
  | cons d s ih =>
    intro i c
    simp only [Str11.atC]
    split
    · next h => subst h; simp
    · next h =>
      rw [ih]
      constructor
      · rintro ⟨h0, h1⟩
        refine ⟨by omega, ?_⟩
        rw [show i.toNat = (i - 1).toNat + 1 by omega]
        simpa using h1
      · rintro ⟨h0, h1⟩
        refine ⟨by omega, ?_⟩
        rw [show i.toNat = (i - 1).toNat + 1 by omega] at h1
        simpa using h1

theorem str11_at_cases (s : List Chr) : ∀ i : Int, (∃ c, Str11.atC s i = .ok c) ∨
    (Str11.atC s i).Fails := by
  induction s with
  | nil => intro i; exact .inr ⟨_, rfl⟩
  | cons d s ih =>
    intro i
    simp only [Str11.atC]
    split
    · exact .inl ⟨_, rfl⟩
    · exact ih _

theorem str11_popBack (s : List Chr) (c : Chr) : Str11.popBack (s ++ [c]) = .ok s := by
  induction s with
  | nil => rfl
  | cons d s ih =>
    cases s with
    | nil => rfl
    | cons e s =>
      simp only [List.cons_append, Str11.popBack]
      rw [show e :: (s ++ [c]) = e :: s ++ [c] from rfl, ih]
      rfl

theorem visit_of_at {S : Type} [DecidableEq S] (M : StrImpl S) (x : S) : ∀ (n : Nat) (s : List Chr)
    (i : Int), s.length < n → (∀ (k : Nat) c, s[k]? = some c → M.atC x (i + k) = .ok c) →
      M.visit n ⟨x, i⟩ ⟨x, i + s.length⟩ = .ok s := by
  intro n
  induction n with
  | zero => intro s i h; omega
  | succ n ih =>
    intro s i h hat
    cases s with
    | nil => simp [StrImpl.visit]
    | cons c s =>
      have h0 := hat 0 c rfl
      simp only [StrImpl.visit]
      rw [if_neg (by
        simp only [StrIter.mk.injEq, true_and, List.length_cons]
        omega)]
      simp only [StrIter.deref]
      rw [show M.atC x i = .ok c by simpa using h0]
      simp only [Out.bind_ok, StrIter.next, List.length_cons]
      have := ih s (i + 1) (by simpa using h) (fun k d hk => by
        have := hat (k + 1) d (by simpa using hk)
        rw [show i + 1 + (k : Int) = i + ((k + 1 : Nat) : Int) by omega]
        exact this)
      rw [show i + ((s.length + 1 : Nat) : Int) = i + 1 + (s.length : Int) by omega, this]
      rfl


/-! ## C++98 -/

theorem mk_length {L : Nat} {s : List Chr} (h : s.length ≤ L) : (Str98.mk L s).length = L := by
  simp [Str98.mk]; omega

theorem mk_full {L : Nat} {s : List Chr} (h : s.length = L) : Str98.mk L s = s := by
  simp [Str98.mk, h]

theorem sizeMatches_mk (L : Nat) (s : List Chr) (n : Nat) :
    Str98.sizeMatches (Str98.mk L s) n = (s.drop n).all (· == Str98.noChar) := by
  simp only [Str98.sizeMatches, Str98.mk, List.drop_append, List.all_append, List.drop_replicate]
  simp

theorem sizeMatches_lt {L : Nat} {s : List Chr} (hc : ∀ c ∈ s, c ≠ -1) {n : Nat}
    (hn : n < s.length) : Str98.sizeMatches (Str98.mk L s) n = false := by
  rw [sizeMatches_mk]
  have : s[n] ≠ -1 := hc _ (List.getElem_mem hn)
  rw [List.drop_eq_getElem_cons hn, List.all_cons]
  simp only [Str98.noChar, Bool.and_eq_false_iff, beq_eq_false_iff_ne]
  exact .inl this

theorem find_size {L : Nat} {s : List Chr} (h : Fits98 L s) :
    (List.range L).find? (Str98.sizeMatches (Str98.mk L s)) = some s.length := by
  rw [List.find?_range_eq_some]
  refine ⟨?_, by simpa using h.1, ?_⟩
  · rw [sizeMatches_mk]; simp
  · intro j hj; simp [sizeMatches_lt h.2 hj]

theorem find_size_full {L : Nat} {s : List Chr} (hs : s.length = L) (hc : ∀ c ∈ s, c ≠ -1) :
    (List.range L).find? (Str98.sizeMatches (Str98.mk L s)) = none := by
  rw [List.find?_eq_none]
  intro n hn
  rw [List.mem_range] at hn
  simp [sizeMatches_lt hc (show n < s.length by omega)]

theorem str98_size {L : Nat} {s : List Chr} (h : Fits98 L s) :
    Str98.size L (Str98.mk L s) = .ok s.length := by
  simp [Str98.size, find_size h]

theorem str98_size_full {L : Nat} {s : List Chr} (hs : s.length = L)
    (hc : ∀ c ∈ s, c ≠ -1) : Str98.size L (Str98.mk L s) = .ill .noSpecialisation := by
  simp [Str98.size, find_size_full hs hc]

theorem str98_cStr {L : Nat} {s : List Chr} (h : Fits98 L s) :
    Str98.cStr L (Str98.mk L s) = s ++ [0] := by
  simp only [Str98.cStr, find_size h]
  simp [Str98.mk]

theorem str98_cStr_full {L : Nat} {s : List Chr} (hs : s.length = L)
    (hc : ∀ c ∈ s, c ≠ -1) : Str98.cStr L (Str98.mk L s) = s ++ [0] := by
  simp only [Str98.cStr, find_size_full hs hc]
  rw [mk_full hs, List.take_of_length_le (by omega)]

theorem mk_pad {L : Nat} {s : List Chr} {k : Nat} (h : s.length + k ≤ L) :
    Str98.mk L (s ++ List.replicate k Str98.noChar) = Str98.mk L s := by
  simp only [Str98.mk, List.append_assoc, List.replicate_append_replicate, List.length_append,
    List.length_replicate]
  rw [show k + (L - (s.length + k)) = L - s.length by omega]

theorem take_mk {L : Nat} {s : List Chr} {k : Nat} (h : s.length ≤ k) (hk : k ≤ L) :
    (Str98.mk L s).take k = s ++ List.replicate (k - s.length) Str98.noChar := by
  simp only [Str98.mk, List.take_append, List.take_replicate, List.take_of_length_le h]
  rw [show min (k - s.length) (L - s.length) = k - s.length by omega]

theorem str98_update {L : Nat} {s : List Chr} (c : Chr) (h : s.length < L) :
    Str98.updateC L (Str98.mk L s) s.length c = .ok (Str98.mk L (s ++ [c])) := by
  simp only [Str98.updateC]
  rw [if_pos (by omega), take_mk (by simp) (by simp; omega), take_mk (by omega) (by omega)]
  simp only [Int.toNat_natCast, Nat.sub_self, List.replicate_zero, List.append_nil]
  rw [List.drop_append, List.drop_eq_nil_of_le (by omega), List.nil_append, List.drop_replicate]
  rw [mk_pad]
  simp
  omega

theorem str98_pushBack {L : Nat} {s : List Chr} {c : Chr} (h : Fits98 L (s ++ [c])) :
    Str98.pushBackC L (Str98.mk L s) c = .ok (Str98.mk L (s ++ [c])) := by
  have hl := h.1
  simp only [List.length_append, List.length_singleton] at hl
  have hs : Fits98 L s := ⟨by omega, fun d hd => h.2 d (by simp [hd])⟩
  simp only [Str98.pushBackC, str98_size hs, Out.bind_ok]
  exact str98_update c (by omega)

theorem str98_pushFront {L : Nat} {s : List Chr} {c : Chr} (h : (c :: s).length < L) :
    Str98.pushFrontC L (Str98.mk L s) c = .ok (Str98.mk L (c :: s)) := by
  simp only [List.length_cons] at h
  simp only [Str98.pushFrontC]
  rw [take_mk (by omega) (by omega), ← List.cons_append, mk_pad]
  simp
  omega

theorem str98_pushFront_full {L : Nat} {s : List Chr} (c d : Chr)
    (hs : (s ++ [d]).length = L) :
    Str98.pushFrontC L (Str98.mk L (s ++ [d])) c = .ok (Str98.mk L (c :: s)) := by
  simp only [Str98.pushFrontC]
  rw [mk_full hs]
  simp only [List.length_append, List.length_singleton] at hs
  rw [List.take_append_of_le_length (by omega), List.take_of_length_le (by omega)]

theorem str98_popFront {L : Nat} {s : List Chr} {c : Chr} (h : (c :: s).length < L) :
    Str98.popFront L (Str98.mk L (c :: s)) = .ok (Str98.mk L s) := by
  simp only [List.length_cons] at h
  simp only [Str98.popFront]
  rw [take_mk (by simp; omega) (Nat.le_refl _)]
  simp only [List.cons_append, List.drop_one, List.tail_cons, List.append_assoc]
  rw [show [Str98.noChar] = List.replicate 1 Str98.noChar from rfl, List.replicate_append_replicate,
    mk_pad]
  simp
  omega

theorem str98_popFront_nil (L : Nat) (h : 0 < L) :
    Str98.popFront L (Str98.mk L []) = .ok (Str98.mk L []) := by
  simp only [Str98.popFront]
  rw [take_mk (by simp) (Nat.le_refl _)]
  simp only [List.nil_append, List.drop_replicate]
  rw [show [Str98.noChar] = List.replicate 1 Str98.noChar from rfl, List.replicate_append_replicate]
  have := mk_pad (L := L) (s := []) (k := L - 0 - 1 + 1) (by simp; omega)
  simpa using this

theorem str98_popBack {L : Nat} {s : List Chr} {c : Chr} (h : Fits98 L (s ++ [c])) :
    Str98.popBack L (Str98.mk L (s ++ [c])) = .ok (Str98.mk L s) := by
  have hl := h.1
  simp only [List.length_append, List.length_singleton] at hl
  simp only [Str98.popBack, str98_size h, Out.bind_ok, Str98.updateC, List.length_append,
    List.length_singleton]
  rw [if_pos (by omega)]
  rw [show ((s.length + 1 : Nat) : Int) - 1 = (s.length : Int) by omega]
  simp only [Int.toNat_natCast]
  rw [take_mk (k := L - 1) (by simp; omega) (by omega)]
  rw [List.drop_append, List.drop_eq_nil_of_le (by simp), List.nil_append, List.drop_replicate]
  have : (Str98.mk L (s ++ [c])).take s.length = s := by
    simp [Str98.mk, List.append_assoc]
  rw [this, List.append_assoc, show [Str98.noChar] = List.replicate 1 Str98.noChar from rfl,
    List.replicate_append_replicate, mk_pad]
  simp
  omega

theorem str98_at {L : Nat} {s : List Chr} {i : Nat} {c : Chr} (h : s.length < L)
    (e : s[i]? = some c) : Str98.atC L (Str98.mk L s) i = .ok c := by
  obtain ⟨hi, hc⟩ := List.getElem?_eq_some_iff.1 e
  simp only [Str98.atC]
  rw [if_pos (by omega)]
  simp only [Int.toNat_natCast, Str98.mk, List.getD_eq_getElem?_getD]
  rw [List.getElem?_append_left hi, e]
  rfl

theorem str98_at_padding {L : Nat} {s : List Chr} {i : Int} (h : (s.length : Int) ≤ i)
    (h' : i < (L : Int)) : Str98.atC L (Str98.mk L s) i = .ok (-1) := by
  simp only [Str98.atC]
  rw [if_pos (by omega)]
  simp only [Str98.mk, List.getD_eq_getElem?_getD]
  rw [List.getElem?_append_right (by omega), List.getElem?_replicate, if_pos (by omega)]
  rfl

theorem str98_injective {L : Nat} {s t : List Chr} (hs : Fits98 L s) (ht : Fits98 L t)
    (h : Str98.mk L s = Str98.mk L t) : s = t := by
  have e := find_size hs
  rw [h, find_size ht] at e
  have hl : t.length = s.length := by simpa using e
  have : (Str98.mk L s).take s.length = (Str98.mk L t).take t.length := by rw [h, hl]
  simpa [Str98.mk] using this

theorem str98_padding {L : Nat} {s : List Chr} (h : Fits98 L s) :
    Str98.pushBackC L (Str98.mk L s) (-1) = .ok (Str98.mk L s) ∧
    Str98.mk L (s ++ [-1]) = Str98.mk L s := by
  have e : Str98.mk L (s ++ [-1]) = Str98.mk L s :=
    mk_pad (k := 1) (show s.length + 1 ≤ L from h.1)
  refine ⟨?_, e⟩
  simp only [Str98.pushBackC, str98_size h, Out.bind_ok]
  rw [str98_update _ h.1, e]

end Metaparse
