import Verif.Lemmas.Str
import Verif.Props.Independence
/-!
# C40, C41, C44: compile-time strings
-/

namespace Metaparse

/-! ## C40: C++11 -/

/-- In C++11 all operations on strings agree with those on lists, without limit. -/
theorem C40_list_laws : StringLaws str11 id (fun _ => True) where
  pushBack := fun _ _ _ => rfl
  pushFront := fun _ _ _ => rfl
  popBack := fun s c _ => str11_popBack s c
  popFront := fun _ _ _ => rfl
  clear := rfl
  front := fun _ _ _ => rfl
  back := fun s c _ => by
    show Str11.atC _ _ = _
    rw [str11_at]
    simp only [StrIter.prior]
    refine ⟨?_, ?_⟩ <;> simp
  at_ := fun s i c _ h => by
    show Str11.atC s _ = _
    rw [str11_at]
    simp [StrImpl.begin_, StrIter.advance, h]
  size := fun s _ => by
    show StrIter.distance _ _ = _
    simp [StrIter.distance, StrImpl.begin_]
  empty := fun s _ => by
    show Out.ok _ = _
    cases s with
    | nil => simp [StrImpl.begin_]
    | cons c s =>
      simp [StrImpl.begin_]
      omega
  equalTo := fun s t _ _ => by simp [StrImpl.equalTo]
  elements := fun s _ => by
    refine ⟨s.length + 1, _, rfl, ?_⟩
    have := visit_of_at str11 s (s.length + 1) s 0 (by omega) (fun k c h => by
      show Str11.atC s _ = _
      rw [str11_at]
      simp [h])
    simpa [StrImpl.begin_] using this
  cStr := fun s _ => by cases s <;> rfl

example : str11.back (txt "metaparse") = .ok (ch 'e') := C40_list_laws.back (txt "metapars") _ trivial

/-- Concatenation (`impl::concat`). -/
theorem C40_concat (a b : List Chr) (i : Nat) :
    (Str11.concat a b)[i]? = if i < a.length then a[i]? else b[i - a.length]? := by
  show (a ++ b)[i]? = _
  rw [List.getElem?_append]

/-- What has no meaning does not compile: `front`, `back`, `pop_front`, `pop_back` of the empty
string, and `at` outside of the string. -/
theorem C40_no_meaning : (str11.front []).Fails ∧ (str11.back []).Fails ∧
    (str11.popFront []).Fails ∧ (str11.popBack []).Fails ∧
    ∀ (s : List Chr) (i : Int), (str11.at_ s i).Fails ↔ i < 0 ∨ (s.length : Int) ≤ i := by
  refine ⟨⟨_, rfl⟩, ⟨_, rfl⟩, ⟨_, rfl⟩, ⟨_, rfl⟩, ?_⟩
  intro s i
  have e : str11.at_ s i = Str11.atC s i := by
    show Str11.atC s (0 + i) = _
    rw [Int.zero_add]
  rw [e]
  have := str11_at s i
  constructor
  · rintro ⟨f, hf⟩
    rcases Int.lt_or_le i 0 with h | h
    · exact .inl h
    · right
      rcases Int.lt_or_le i s.length with h' | h'
      · have hi : i.toNat < s.length := by omega
        have := (this s[i.toNat]).2 ⟨h, List.getElem?_eq_getElem hi⟩
        rw [hf] at this
        cases this
      · exact h'
  · intro h
    rcases str11_at_cases s i with ⟨c, hc⟩ | h'
    · have := (this c).1 hc
      rcases h with h | h
      · omega
      · rw [List.getElem?_eq_none (by omega)] at this
        cases this.2
    · exact h'

/-- `c_str` read as a C string gives the string up to its first NUL character, so all of it if there
is none. -/
theorem C40_c_str (s : List Chr) : readCString (str11.cStr s) = s.takeWhile (· ≠ 0) := by
  have : str11.cStr s = s ++ [0] := C40_list_laws.cStr s trivial
  rw [this]
  induction s with
  | nil => rfl
  | cons c s ih =>
    by_cases h : c = 0
    · simp [readCString, h]
    · simp [readCString, h, ih (C40_list_laws.cStr s trivial)]

example : readCString (str11.cStr (txt "abc")) = txt "abc" := by rw [C40_c_str]; decide

/-- A C++11 string is an input with exactly its characters. -/
theorem C40_input : Represents str11.input (fun s t => s = t) where
  nil := by rintro s rfl; exact C40_list_laws.empty [] trivial
  cons := by
    rintro s c t rfl
    exact ⟨C40_list_laws.empty _ trivial, rfl, _, rfl, rfl⟩

/-- Hence parsing a C++11 string is parsing the text. -/
theorem C40_parses_as_text (E : Env (List Chr)) (hE : E.OnText) (p : P) (s : List Chr) (pos : Pos) :
    run { E with input := str11.input } p s pos = run E p s pos := by
  have := C45_representation (E := { E with input := str11.input }) (T := E)
    (Rep := fun s t => s = t) C40_input hE
    ⟨rfl, rfl, rfl, rfl, fun _ => rfl, fun i s t pos h => by
        subst h
        cases E.native i s pos with
        | ok r => cases r with
          | acc v s q => exact .acc v q rfl
          | rej m q => exact .rej m q
        | ill f => exact .ill f
        | deep => exact .deep,
      fun k m pos => by
        show SameIn _ (E.onError k m pos) _
        cases E.onError k m pos with
        | ok r => cases r with
          | acc v s q => exact .acc v q rfl
          | rej m q => exact .rej m q
        | ill f => exact .ill f
        | deep => exact .deep⟩
    p s s rfl pos
  revert this
  generalize run { E with input := str11.input } p s pos = a
  generalize run E p s pos = b
  rintro (⟨v, q, rfl⟩ | ⟨m, q⟩ | f | _) <;> rfl

example (s : List Chr) : run { env11 with input := str11.input } (P.repeated .int_) s start = run env11 (P.repeated .int_) s start :=
  C40_parses_as_text env11 env11_onText _ s start

/-! ## C41: C++98 -/

/-- In C++98 the operations on strings agree with those on lists as long as all strings are shorter
than the limit and do not contain the value that stands for "no character". -/
theorem C41_list_laws (L : Nat) : StringLaws (str98 L) (Str98.mk L) (Fits98 L) where
  pushBack := fun s c h => str98_pushBack h
  pushFront := fun s c h => str98_pushFront h.1
  popBack := fun s c h => str98_popBack h
  popFront := fun s c h => str98_popFront h.1
  clear := rfl
  front := fun s c h => by
    have := str98_at (L := L) (s := c :: s) (i := 0) h.1 rfl
    exact this
  back := fun s c h => by
    show (StrImpl.end_ _ _).bind _ = _
    simp only [StrImpl.end_, str98, str98_size h, Out.bind_ok, StrIter.prior, StrIter.deref]
    have := str98_at (L := L) (s := s ++ [c]) (i := s.length) (c := c) h.1 (by simp)
    rw [← this]
    congr 1
    simp
  at_ := fun s i c h e => by
    have := str98_at (L := L) h.1 e
    rw [← this]
    show Str98.atC _ _ _ = _
    simp [StrImpl.begin_, StrIter.advance]
  size := fun s h => by
    simp only [StrImpl.mplSize, StrImpl.end_, str98, str98_size h, Out.bind_ok]
    simp [StrIter.distance, StrImpl.begin_]
  empty := fun s h => by
    simp only [StrImpl.empty, StrImpl.end_, str98, str98_size h, Out.bind_ok]
    cases s with
    | nil => simp [StrImpl.begin_]
    | cons c s =>
      simp [StrImpl.begin_]
      omega
  equalTo := fun s t hs ht => by
    simp only [StrImpl.equalTo, decide_eq_true_eq]
    exact ⟨str98_injective hs ht, fun h => h ▸ rfl⟩
  elements := fun s h => by
    refine ⟨s.length + 1, ⟨Str98.mk L s, s.length⟩, ?_, ?_⟩
    · simp only [StrImpl.end_, str98, str98_size h, Out.bind_ok]
    · have := visit_of_at (str98 L) (Str98.mk L s) (s.length + 1) s 0 (by omega) (fun k c e => by
        have := str98_at (L := L) h.1 e
        rw [← this]
        show Str98.atC _ _ _ = _
        simp)
      simpa [StrImpl.begin_] using this
  cStr := fun s h => str98_cStr h

example : (str98 8).popBack (Str98.mk 8 (txt "abc")) = .ok (Str98.mk 8 (txt "ab")) :=
  (C41_list_laws 8).popBack (txt "ab") (ch 'c') ⟨by decide, by decide⟩

/-- Such a string is an input with exactly its characters, so (C45) parsing it is parsing the text. -/
theorem C41_input (L : Nat) : Represents (str98 L).input (fun r s => r = Str98.mk L s ∧ Fits98 L s) where
  nil := by rintro s ⟨rfl, h⟩; exact (C41_list_laws L).empty [] h
  cons := by
    rintro s c t ⟨rfl, h⟩
    exact ⟨(C41_list_laws L).empty _ h, (C41_list_laws L).front _ _ h, _,
      (C41_list_laws L).popFront _ _ h, rfl,
      by have := h.1; simp only [List.length_cons] at this; omega,
      fun d hd => h.2 d (List.mem_cons_of_mem _ hd)⟩

/-- At the limit: `size`, hence `end`, `empty`, `back`, `push_back` and `pop_back`, of a full string do
not compile, although the string itself and its `c_str` do. -/
theorem C41_full_string_fails {L : Nat} {s : List Chr} (hs : s.length = L)
    (hc : ∀ c ∈ s, c ≠ -1) :
    ((str98 L).size (Str98.mk L s)).Fails ∧ ((str98 L).end_ (Str98.mk L s)).Fails ∧
    ((str98 L).empty (Str98.mk L s)).Fails ∧ ((str98 L).back (Str98.mk L s)).Fails ∧
    (∀ c, ((str98 L).pushBackC (Str98.mk L s) c).Fails) ∧ ((str98 L).popBack (Str98.mk L s)).Fails ∧
    (str98 L).cStr (Str98.mk L s) = s ++ [0] := by
  have h : Str98.size L (Str98.mk L s) = .ill .noSpecialisation := str98_size_full hs hc
  refine ⟨⟨_, h⟩, ⟨.noSpecialisation, ?_⟩, ⟨.noSpecialisation, ?_⟩, ⟨.noSpecialisation, ?_⟩,
    fun c => ⟨.noSpecialisation, ?_⟩, ⟨.noSpecialisation, ?_⟩, str98_cStr_full hs hc⟩ <;>
  simp [StrImpl.end_, StrImpl.empty, StrImpl.back, str98, Str98.pushBackC, Str98.popBack, h]

example : ((str98 4).empty (Str98.mk 4 (txt "abcd"))).Fails ∧ ∀ c, ((str98 4).pushBackC (Str98.mk 4 (txt "abcd")) c).Fails :=
  have h := C41_full_string_fails (s := txt "abcd") rfl (by decide)
  ⟨h.2.2.1, h.2.2.2.2.1⟩

/-- Hence no parser that looks at a character compiles on a full string. -/
theorem C41_full_string_does_not_parse {L : Nat} {s : List Chr} (hs : s.length = L)
    (hc : ∀ c ∈ s, c ≠ -1) {E : Env (List Chr)} (hE : E.input = (str98 L).input) (pos : Pos) :
    IllFormed E .oneChar (Str98.mk L s) pos ∧ ∀ v, IllFormed E (.empty v) (Str98.mk L s) pos := by
  obtain ⟨f, hf⟩ := (C41_full_string_fails hs hc).2.2.1
  have hf : E.input.isEmpty (Str98.mk L s) = .ill f := by rw [hE]; exact hf
  refine ⟨⟨f, ?_⟩, fun v => ⟨f, ?_⟩⟩ <;> rw [run_step] <;>
    simp [step, Comb.oneChar, Comb.empty, hf]

example : IllFormed { env98 with input := (str98 4).input } .oneChar (Str98.mk 4 (txt "abcd")) start :=
  (C41_full_string_does_not_parse (s := txt "abcd") rfl (by decide) rfl start).1

/-- At the limit: `push_front` on a full string drops the last character. -/
theorem C41_push_front_full_drops {L : Nat} {s : List Chr} (c d : Chr)
    (hs : (s ++ [d]).length = L) :
    (str98 L).pushFrontC (Str98.mk L (s ++ [d])) c = .ok (Str98.mk L (c :: s)) :=
  str98_pushFront_full c d hs

/-- A last character equal to the padding is lost. -/
theorem C41_padding_is_lost {L : Nat} {s : List Chr} (h : Fits98 L s) :
    (str98 L).pushBackC (Str98.mk L s) (-1) = .ok (Str98.mk L s) ∧
    Str98.mk L (s ++ [-1]) = Str98.mk L s := str98_padding h

example : (str98 4).pushBackC (Str98.mk 4 (txt "ab")) (-1) = .ok (Str98.mk 4 (txt "ab")) :=
  (C41_padding_is_lost (s := txt "ab") ⟨by decide, by decide⟩).1

/-- Unlike in C++11, some operations without a meaning do compile: `front` and `at` give the padding
up to the limit, and `pop_front` of the empty string is the empty string. -/
theorem C41_no_meaning {L : Nat} {s : List Chr} (h : Fits98 L s) (i : Int) :
    (((str98 L).at_ (Str98.mk L s) i).Fails ↔ i < 0 ∨ (L : Int) ≤ i) ∧
    ((s.length : Int) ≤ i → i < (L : Int) → (str98 L).at_ (Str98.mk L s) i = .ok (-1)) ∧
    (str98 L).popFront (Str98.mk L []) = .ok (Str98.mk L []) ∧
    ((str98 L).popBack (Str98.mk L [])).Fails := by
  have hL : 0 < L := Nat.lt_of_le_of_lt (Nat.zero_le _) h.1
  have e : (str98 L).at_ (Str98.mk L s) i = Str98.atC L (Str98.mk L s) i := by
    show Str98.atC L (Str98.mk L s) (0 + i) = _
    rw [Int.zero_add]
  rw [e]
  refine ⟨⟨?_, ?_⟩, str98_at_padding, str98_popFront_nil L hL, .noSpecialisation, ?_⟩
  · rintro ⟨f, hf⟩
    simp only [Str98.atC] at hf
    split at hf
    · cases hf
    · omega
  · intro hi
    refine ⟨.noSpecialisation, ?_⟩
    simp only [Str98.atC]
    rw [if_neg (by omega)]
  · have h0 : Fits98 L [] := ⟨hL, by simp⟩
    simp [str98, Str98.popBack, str98_size h0, Str98.updateC]

example : (str98 4).size (Str98.mk 4 (txt "abcd")) = .ill .noSpecialisation := by decide

example : (str98 4).pushFrontC (Str98.mk 4 (txt "abcd")) (ch 'x') = .ok (Str98.mk 4 (txt "xabc")) :=
  C41_push_front_full_drops (ch 'x') (ch 'd') (s := txt "abc") rfl

/-! ## C44: iterators -/

section Iterators

variable {S : Type} [DecidableEq S]

/-- Advancing by the distance reaches the target, and the distance of an advanced iterator is the
number of steps, backwards as well. -/
theorem C44_advance_distance (a b : StrIter S) (n : Int) :
    (∀ d, a.distance b = .ok d → a.advance d = b) ∧ a.distance (a.advance n) = .ok n ∧
    (a.advance n).distance a = .ok (-n) := by
  obtain ⟨s, i⟩ := a
  obtain ⟨t, j⟩ := b
  refine ⟨?_, ?_, ?_⟩
  · intro d h
    simp only [StrIter.distance] at h
    split at h
    · rename_i e
      subst e
      cases h
      simp only [StrIter.advance, StrIter.mk.injEq, true_and]
      omega
    · cases h
  · simp only [StrIter.distance, StrIter.advance, if_true, Out.ok.injEq]
    omega
  · simp only [StrIter.distance, StrIter.advance, if_true, Out.ok.injEq]
    omega

/-- There is a distance between two iterators exactly if they belong to the same string. -/
theorem C44_distance_fails (s t : S) (i j : Int) :
    (StrIter.distance ⟨s, i⟩ ⟨t, j⟩).Fails ↔ s ≠ t := by
  simp only [StrIter.distance, Out.Fails]
  by_cases h : s = t <;> simp [h]

omit [DecidableEq S] in
/-- Advancing is an action of the integers, `next` and `prior` are single steps and inverse. -/
theorem C44_steps (a : StrIter S) (m n : Int) :
    a.advance 0 = a ∧ (a.advance m).advance n = a.advance (m + n) ∧ a.next = a.advance 1 ∧
    a.prior = a.advance (-1) ∧ a.next.prior = a ∧ a.prior.next = a := by
  obtain ⟨s, i⟩ := a
  simp only [StrIter.advance, StrIter.next, StrIter.prior, StrIter.mk.injEq, true_and]
  omega

/-- Iterators of a string are equal exactly if their distance is 0. -/
theorem C44_equal (a b : StrIter S) : a.equalTo b = true ↔ a.distance b = .ok 0 := by
  obtain ⟨s, i⟩ := a
  obtain ⟨t, j⟩ := b
  by_cases h : s = t
  · subst h
    simp only [StrIter.equalTo, StrIter.distance, decide_eq_true_eq, StrIter.mk.injEq, true_and,
      if_true, Out.ok.injEq]
    omega
  · simp [StrIter.equalTo, StrIter.distance, h]

/-- Dereferencing, for every implementation that satisfies the laws of C40 and C41: the iterator `i`
steps after the beginning gives the character at `i`; equally the iterator `k` steps before the
end. -/
theorem C44_deref {M : StrImpl S} {enc : List Chr → S} {Fits : List Chr → Prop}
    (laws : StringLaws M enc Fits) {s : List Chr} (hs : Fits s) {i : Nat} {c : Chr}
    (h : s[i]? = some c) :
    ((StrImpl.begin_ (enc s)).advance i).deref M = .ok c ∧
    ∀ last, M.end_ (enc s) = .ok last → (last.advance (i - (s.length : Int))).deref M = .ok c := by
  have h1 : ((StrImpl.begin_ (enc s)).advance i).deref M = .ok c := laws.at_ s i c hs h
  refine ⟨h1, fun last hl => ?_⟩
  have hz := laws.size s hs
  simp only [StrImpl.mplSize, hl, Out.bind_ok] at hz
  have := (C44_advance_distance (StrImpl.begin_ (enc s)) last 0).1 _ hz
  rw [← this, (C44_steps _ _ _).2.1, ← h1]
  congr 2
  omega

/-- From the beginning, the end is reached after as many steps as there are characters, and not
earlier; the characters met are those of the string in order. -/
theorem C44_iterate {M : StrImpl S} {enc : List Chr → S} {Fits : List Chr → Prop}
    (laws : StringLaws M enc Fits) {s : List Chr} (hs : Fits s) :
    ∃ last, M.end_ (enc s) = .ok last ∧
      (∀ i : Nat, (StrImpl.begin_ (enc s)).advance i = last ↔ i = s.length) ∧
      ∀ i : Nat, (h : i < s.length) →
        ((StrImpl.begin_ (enc s)).advance i).deref M = .ok (s[i]'h) := by
  obtain ⟨n, last, hl, _⟩ := laws.elements s hs
  refine ⟨last, hl, ?_, fun i h => (C44_deref laws hs (List.getElem?_eq_getElem h)).1⟩
  have hz := laws.size s hs
  simp only [StrImpl.mplSize, hl, Out.bind_ok] at hz
  have := (C44_advance_distance (StrImpl.begin_ (enc s)) last 0).1 _ hz
  intro i
  rw [← this]
  simp only [StrIter.advance, StrImpl.begin_, StrIter.mk.injEq, true_and]
  omega

example : ((StrImpl.begin_ (txt "abc")).advance 2).deref str11 = .ok (ch 'c') :=
  (C44_deref C40_list_laws trivial (s := txt "abc") (i := 2) rfl).1

end Iterators

end Metaparse
