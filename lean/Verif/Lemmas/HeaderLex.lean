import Verif.Model.HeaderCpp
import Verif.Lemmas.BenchmarkFiles
/-! # The tokens and lines of generated texts -/

namespace Metaparse.StrHdr

open Gen

/-- Something that is true if there are enough steps. -/
def Evt (p : Nat → Prop) : Prop := ∃ N, ∀ n, N ≤ n → p n

theorem Evt.mk {p : Nat → Prop} (N : Nat) (h : ∀ n, p (n + N)) : Evt p :=
  ⟨N, fun n hn => by have := h (n - N); rwa [Nat.sub_add_cancel hn] at this⟩

theorem Evt.mono {p q : Nat → Prop} (h : Evt p) (hpq : ∀ n, p n → q n) : Evt q :=
  let ⟨N, h⟩ := h; ⟨N, fun n hn => hpq n (h n hn)⟩

theorem Evt.succ {p q : Nat → Prop} (h : Evt p) (hpq : ∀ n, p n → q (n + 1)) : Evt q := by
  obtain ⟨N, h⟩ := h
  refine ⟨N + 1, fun n hn => ?_⟩
  obtain ⟨m, rfl⟩ : ∃ m, n = m + 1 := ⟨n - 1, by omega⟩
  exact hpq m (h m (by omega))

theorem Evt.and {p q : Nat → Prop} (h : Evt p) (h' : Evt q) : Evt fun n => p n ∧ q n := by
  obtain ⟨N, h⟩ := h
  obtain ⟨M, h'⟩ := h'
  exact ⟨max N M, fun n hn => ⟨h n (by omega), h' n (by omega)⟩⟩

theorem Evt.shift {p : Nat → Prop} (h : Evt p) (k : Nat) : Evt fun n => p (n + k) :=
  let ⟨N, h⟩ := h; ⟨N, fun n hn => h _ (by omega)⟩

theorem Evt.always {p : Nat → Prop} (h : ∀ n, p n) : Evt p := ⟨0, fun n _ => h n⟩

/-! ## Tokens -/

theorem lex_cut (l : Str) {c : Char} (hc : identChar c = false) (cur rest : Str) :
    lex cur (l ++ c :: rest) = lex cur l ++ symbol c :: lex [] rest := by
  induction l generalizing cur with
  | nil => simp [lex, hc]
  | cons d l ih =>
      rw [List.cons_append, lex, lex]
      split
      · exact ih _
      · rw [ih]; simp

theorem lex_ident {x : Str} (h : ∀ c ∈ x, identChar c = true) (cur rest : Str) :
    lex cur (x ++ rest) = lex (cur ++ x) rest := by
  induction x generalizing cur with
  | nil => simp
  | cons c x ih =>
      rw [List.cons_append, lex, h c (by simp), if_pos rfl, ih fun d hd => h d (by simp [hd])]
      simp

/-- A text that does not end in an identifier. -/
def Closed (u : Str) : Bool := u.getLast?.all fun c => !identChar c

theorem lex_append {u : Str} (h : Closed u = true) (v : Str) : lex [] (u ++ v) = lex [] u ++ lex [] v := by
  rcases List.eq_nil_or_concat u with rfl | ⟨u, c, rfl⟩
  · simp [lex, flush]
  · have hc : identChar c = false := by simpa [Closed] using h
    rw [List.concat_eq_append, List.append_assoc, List.singleton_append, lex_cut _ hc, lex_cut _ hc]
    simp [lex, flush]

/-- An identifier or number. -/
def IsName (x : Str) : Bool := !x.isEmpty && x.all identChar

theorem isName_all {x : Str} (h : IsName x = true) : ∀ c ∈ x, identChar c = true := by
  simp only [IsName, Bool.and_eq_true, List.all_eq_true] at h
  exact h.2

theorem isName_ne {x : Str} (h : IsName x = true) : x ≠ [] := by
  rintro rfl; simp [IsName] at h

theorem lex_name {x : Str} (h : IsName x = true) : lex [] x = [.id x] := by
  have := lex_ident (isName_all h) [] []
  rw [List.append_nil] at this
  rw [this]
  simp [lex, flush, isName_ne h]

theorem lex_name_cons {x : Str} (h : IsName x = true) {c : Char} (hc : identChar c = false) (v : Str) :
    lex [] (x ++ c :: v) = .id x :: symbol c :: lex [] v := by
  rw [lex_cut _ hc, lex_name h]; rfl

theorem identChar_digit {c : Char} (h : isDigit c = true) : identChar c = true := by
  simp only [isDigit] at h
  simp only [identChar]
  rw [h]; simp

theorem number_ne (n : Nat) : number n ≠ [] := by
  rw [number_eq, digitsOf]
  exact Nat.toDigits_ne_nil

theorem isName_number (n : Nat) : IsName (number n) = true := by
  simp only [IsName, Bool.and_eq_true, List.all_eq_true]
  refine ⟨by simp [number_ne], fun c hc => identChar_digit (isDigit_number hc)⟩

theorem isName_append {x y : Str} (hx : IsName x = true) (hy : ∀ c ∈ y, identChar c = true) : IsName (x ++ y) = true := by
  have h := isName_all hx
  have := isName_ne hx
  simp only [IsName, Bool.and_eq_true, List.all_eq_true, List.mem_append]
  refine ⟨by simp [this], ?_⟩
  rintro c (hc | hc)
  · exact h c hc
  · exact hy c hc

/-! ## Lines -/

/-- The lines of a text. -/
def L (text : Str) : List (List Tok) := lines [] (lex [] text)

theorem lines_cons {ts : List Tok} (h : .nl ∉ ts) (cur us : List Tok) :
    lines cur (ts ++ .nl :: us) = (cur ++ ts) :: lines [] us := by
  induction ts generalizing cur with
  | nil => simp [lines]
  | cons t ts ih =>
      have ht : t ≠ .nl := fun e => h (by simp [e])
      rw [List.cons_append, lines, ih fun hm => h (by simp [hm])]
      · simp
      · exact ht

theorem nl_lex {l : Str} (h : '\n' ∉ l) (cur : Str) : Tok.nl ∉ lex cur l := by
  have hf : ∀ x, Tok.nl ∉ flush x := fun x => by rw [flush]; split <;> simp
  induction l generalizing cur with
  | nil => rw [lex]; exact hf _
  | cons c l ih =>
      rw [lex]
      split
      · exact ih (fun hm => h (by simp [hm])) _
      · simp only [List.mem_append, List.mem_cons, not_or]
        refine ⟨hf _, ?_, ih (fun hm => h (by simp [hm])) _⟩
        have : c ≠ '\n' := fun e => h (by simp [e])
        rw [symbol, if_neg this]
        split <;> simp

theorem L_line {l : Str} (h : '\n' ∉ l) (rest : Str) : L (l ++ '\n' :: rest) = lex [] l :: L rest := by
  rw [L, lex_cut l (by decide)]
  have : symbol '\n' = .nl := rfl
  rw [this, lines_cons (nl_lex h [])]
  rfl

theorem run_line {l : Str} (h : '\n' ∉ l) {s s' : PP} (rest : Str) (hs : s.line (lex [] l) = some s') :
    s.run (L (l ++ '\n' :: rest)) = s'.run (L rest) := by
  rw [L_line h, PP.run, hs]; rfl

end Metaparse.StrHdr
