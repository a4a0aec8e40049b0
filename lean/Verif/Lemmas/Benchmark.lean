import Verif.Model.Benchmark
import Verif.Spec.Benchmark
/-!
# Lemmas for the generator of the benchmarks
-/

namespace Metaparse.Bench

open Gen

theorem macroPrefix_cons : ∃ t, macroPrefix = 'B' :: t ∧ 'B' ∉ t :=
  ⟨macroPrefix.tail, by decide +kernel, by decide +kernel⟩

theorem macroPrefix_length : macroPrefix.length = 24 := by decide +kernel

theorem find_none {s : Str} (h : NoMacro s) : find macroPrefix s = none := by
  induction s with
  | nil => decide +kernel
  | cons c s ih =>
      have h1 : macroPrefix.isPrefixOf (c :: s) = false := by
        cases hp : macroPrefix.isPrefixOf (c :: s) with
        | false => rfl
        | true =>
            obtain ⟨t, ht⟩ := List.isPrefixOf_iff_prefix.mp hp
            exact absurd ⟨[], t, by rw [← ht]; rfl⟩ h
      have h2 : NoMacro s := fun ⟨a, b, e⟩ => h ⟨c :: a, b, by rw [e]; rfl⟩
      simp [find, h1, ih h2]

theorem find_some {before rest : Str} (h : NoMacro before) :
    find macroPrefix (before ++ (macroPrefix ++ rest)) = some (before, rest) := by
  obtain ⟨p, hp, hB⟩ := macroPrefix_cons
  induction before with
  | nil =>
      rw [List.nil_append]
      have : macroPrefix.isPrefixOf (macroPrefix ++ rest) = true :=
        List.isPrefixOf_iff_prefix.mpr ⟨rest, rfl⟩
      have hd : (macroPrefix ++ rest).drop macroPrefix.length = rest := by simp
      rw [hp] at this hd ⊢
      rw [List.cons_append] at this hd ⊢
      rw [find, if_pos this, hd]
  | cons c b ih =>
      have h1 : ¬ macroPrefix.isPrefixOf (c :: b ++ (macroPrefix ++ rest)) = true := by
        intro hq
        obtain ⟨t, ht⟩ := List.isPrefixOf_iff_prefix.mp hq
        rcases List.append_eq_append_iff.mp ht with ⟨a, e, _⟩ | ⟨a, e, e'⟩
        · exact h ⟨[], a, by rw [e]; rfl⟩
        · cases a with
          | nil => exact h ⟨[], [], by rw [List.append_nil] at e; rw [← e]; rfl⟩
          | cons d a =>
              rw [hp, List.cons_append, List.cons_append] at e'
              injection e' with e1 _
              rw [hp] at e
              injection e with _ e2
              exact hB (by rw [e2, e1]; simp)
      have h2 : NoMacro b := fun ⟨x, y, e⟩ => h ⟨c :: x, y, by rw [e]; rfl⟩
      rw [List.cons_append] at h1 ⊢
      rw [find, if_neg h1, ih h2]
      rfl

theorem literals_nil {a : Str} (h : CharLiterals a []) : a = [] := by cases h; rfl

theorem element_mono {q q' : List Char} (h : ∀ c ∈ q', c ∈ q) {a : Str} {c : Char} (ha : Element q a c) :
    Element q' a c := by
  cases ha with
  | plain _ h1 h2 h3 => exact .plain c (fun hm => h1 (h _ hm)) h2 h3
  | escape e _ h1 => exact .escape e c h1

theorem convertLiteral_body {body : Str} {cs : List Char} (h : StringBody ['"', '\''] body cs) (rest comma : Str) :
    ∃ args, CharLiterals args cs ∧ convertLiteral false comma (body ++ (lit "\")" ++ rest)) =
      ((if cs = [] then [] else comma) ++ args, rest) := by
  induction h generalizing comma with
  | nil => exact ⟨[], .nil, by simp [lit, convertLiteral]⟩
  | @cons a b c cs ha hb ih =>
      obtain ⟨args, h1, h2⟩ := ih [',']
      have key : convertLiteral false comma ((a ++ b) ++ (lit "\")" ++ rest)) =
          (comma ++ (['\''] ++ a ++ ['\'']) ++ ((if cs = [] then [] else [',']) ++ args), rest) := by
        cases ha with
        | plain _ p1 p2 p3 =>
            have p4 : c ≠ '"' := fun e => p1 (by simp [e])
            simp only [List.cons_append, List.nil_append, convertLiteral, Bool.false_eq_true, if_false, if_neg p4,
              if_neg p2, h2]
        | escape e _ p =>
            have hq : ('\\' : Char) ≠ '"' := by decide
            simp only [List.cons_append, List.nil_append, convertLiteral, Bool.false_eq_true, if_false, if_neg hq,
              if_true, h2]
      have ha' := element_mono (q' := ['\'']) (by simp) ha
      rw [if_neg (List.cons_ne_nil _ _)]
      cases cs with
      | nil =>
          have := literals_nil h1
          subst this
          exact ⟨_, .one ha', by rw [key]; simp⟩
      | cons d cs =>
          exact ⟨_, .cons ha' h1, by rw [key]; simp⟩

theorem convertLoop_document {base last : Str} {l : List (Str × List Char)} (h : Document MacroString base l last) :
    ∀ n, base.length ≤ n → Document ManualString (convertLoop n base) l last := by
  induction h with
  | @last s hs =>
      intro n _
      cases n with
      | zero => exact .last hs
      | succ n => simp only [convertLoop, find_none hs]; exact .last hs
  | @cons before w rest last cs l h1 h2 h3 ih =>
      intro n hn
      obtain ⟨body, rfl, hb⟩ := h2
      have hlen := macroPrefix_length
      have hform : before ++ (lit "BOOST_METAPARSE_STRING(\"" ++ body ++ lit "\")") ++ rest =
          before ++ (macroPrefix ++ (body ++ (lit "\")" ++ rest))) := by simp [macroPrefix]
      rw [hform] at hn ⊢
      have hn' : rest.length + 24 ≤ n := by
        simp only [List.length_append, hlen] at hn; omega
      obtain ⟨m, rfl⟩ : ∃ m, n = m + 1 := ⟨n - 1, by omega⟩
      obtain ⟨args, ha, he⟩ := convertLiteral_body hb rest []
      have hr : convertLoop (m + 1) (before ++ (macroPrefix ++ (body ++ (lit "\")" ++ rest)))) =
          before ++ (lit "::boost::metaparse::string<" ++ args ++ lit ">") ++ convertLoop m rest := by
        simp only [convertLoop, find_some h1, he]
        simp [lit]
      rw [hr]
      exact .cons h1 ⟨args, rfl, ha⟩ (ih m (by omega))

/-! ## Literals are unambiguous -/

theorem escapes_fun {e c c' : Char} (h : (e, c) ∈ escapes) (h' : (e, c') ∈ escapes) : c = c' := by
  have key : ∀ x ∈ escapes, ∀ y ∈ escapes, x.1 = y.1 → x.2 = y.2 := by decide +kernel
  exact key _ h _ h' rfl

theorem element_unique {q : List Char} {a a' r r' : Str} {c c' : Char} (h : Element q a c) (h' : Element q a' c')
    (e : a ++ r = a' ++ r') : a = a' ∧ c = c' ∧ r = r' := by
  cases h with
  | plain _ h1 h2 h3 =>
      cases h' with
      | plain _ g1 g2 g3 => injection e with e1 e2; subst e1; exact ⟨rfl, rfl, e2⟩
      | escape x _ g => injection e with e1 e2; exact absurd e1 h2
  | escape x _ g =>
      cases h' with
      | plain _ g1 g2 g3 => injection e with e1 e2; exact absurd e1.symm g2
      | escape y _ g' =>
          injection e with e1 e2
          injection e2 with e2 e3
          subst e2
          exact ⟨rfl, escapes_fun g g', e3⟩

theorem element_not_quote {q : List Char} {a r r' : Str} {c x : Char} (h : Element q a c) (hx : x ∈ q)
    (hb : x ≠ '\\') (e : a ++ r = x :: r') : False := by
  cases h with
  | plain _ h1 _ _ => injection e with e1 _; subst e1; exact h1 hx
  | escape _ _ _ => injection e with e1 _; exact hb e1.symm

theorem body_unique {q : List Char} (hq : '"' ∈ q) {a a' r r' : Str} {cs cs' : List Char} (h : StringBody q a cs)
    (h' : StringBody q a' cs') (e : a ++ '"' :: r = a' ++ '"' :: r') : a = a' ∧ cs = cs' ∧ r = r' := by
  induction h generalizing a' cs' with
  | nil =>
      cases h' with
      | nil => injection e with _ e; exact ⟨rfl, rfl, e⟩
      | cons g1 g2 =>
          rw [List.append_assoc] at e
          exact (element_not_quote g1 hq (by decide) e.symm).elim
  | cons h1 h2 ih =>
      cases h' with
      | nil =>
          rw [List.append_assoc] at e
          exact (element_not_quote h1 hq (by decide) e).elim
      | cons g1 g2 =>
          rw [List.append_assoc, List.append_assoc] at e
          obtain ⟨rfl, rfl, e2⟩ := element_unique h1 g1 e
          obtain ⟨rfl, rfl, e3⟩ := ih g2 e2
          exact ⟨rfl, rfl, e3⟩

theorem literals_unique {a : Str} {cs cs' : List Char} (h : CharLiterals a cs) (h' : CharLiterals a cs') :
    cs = cs' := by
  have key : ∀ {a cs}, CharLiterals a cs → ∀ {a' cs'}, CharLiterals a' cs' → a = a' → cs = cs' := by
    intro a cs h
    induction h with
    | nil => intro a' cs' h' e; cases h' <;> simp at e ⊢
    | @one a c h1 =>
        intro a' cs' h' e
        cases h' with
        | nil => simp at e
        | @one a' c' g1 =>
            simp only [List.cons_append, List.nil_append] at e
            injection e with _ e
            obtain ⟨_, rfl, _⟩ := element_unique h1 g1 e
            rfl
        | @cons a' b c' d cs g1 g2 =>
            simp only [List.append_assoc, List.cons_append, List.nil_append] at e
            injection e with _ e
            obtain ⟨_, _, e⟩ := element_unique h1 g1 e
            simp at e
    | @cons a b c d cs h1 h2 ih =>
        intro a' cs' h' e
        cases h' with
        | nil => simp at e
        | @one a' c' g1 =>
            simp only [List.append_assoc, List.cons_append, List.nil_append] at e
            injection e with _ e
            obtain ⟨_, _, e⟩ := element_unique h1 g1 e
            simp at e
        | @cons a' b' c' d' cs' g1 g2 =>
            simp only [List.append_assoc, List.cons_append, List.nil_append] at e
            injection e with _ e
            obtain ⟨_, rfl, e⟩ := element_unique h1 g1 e
            injection e with _ e
            injection e with _ e
            rw [ih g2 e]
  exact key h h' rfl

theorem document_unique {s s' : Str} {l l' : List (Str × List Char)} {last last' : Str}
    (h : Document MacroString s l last) (h' : Document MacroString s' l' last') (e : s = s') :
    l = l' ∧ last = last' := by
  have form : ∀ (before body rest : Str), before ++ (lit "BOOST_METAPARSE_STRING(\"" ++ body ++ lit "\")") ++ rest =
          before ++ (macroPrefix ++ (body ++ (lit "\")" ++ rest))) := by simp [macroPrefix]
  induction h generalizing s' l' last' with
  | @last s hs =>
      cases h' with
      | last _ => exact ⟨rfl, e⟩
      | cons g1 g2 g3 =>
          obtain ⟨body, rfl, _⟩ := g2
          rw [form] at e
          exact absurd ⟨_, _, by rw [e, ← List.append_assoc]; rfl⟩ hs
  | @cons before w rest last cs l h1 h2 h3 ih =>
      obtain ⟨body, rfl, hb⟩ := h2
      rw [form] at e
      cases h' with
      | last hs => exact absurd ⟨_, _, by rw [← e, ← List.append_assoc]; rfl⟩ hs
      | @cons before' w' rest' last' cs' l' g1 g2 g3 =>
          obtain ⟨body', rfl, hb'⟩ := g2
          rw [form] at e
          have f1 := find_some (rest := body ++ (lit "\")" ++ rest)) h1
          have f2 := find_some (rest := body' ++ (lit "\")" ++ rest')) g1
          rw [e, f2] at f1
          injection f1 with f1
          injection f1 with f1 f3
          subst f1
          have f4 : body' ++ '"' :: (')' :: rest') = body ++ '"' :: (')' :: rest) := f3
          obtain ⟨rfl, rfl, e4⟩ := body_unique (by simp) hb' hb f4
          injection e4 with _ e5
          obtain ⟨rfl, rfl⟩ := ih g3 e5.symm
          exact ⟨rfl, rfl⟩

end Metaparse.Bench
