import Verif.Spec.Outcome
import Verif.Spec.Subparsers
/-!
# Which instantiations a parser needs

A class template is instantiated once for each list of arguments: `p::apply<S, Pos>` is one instantiation for each
`p`, `S`, `Pos`, however many times it is used.
-/

namespace Metaparse

variable {I : Type}

/-- `AppliesTo E p s pos q t u`: what `p` gives on `s` at `pos` is computed from what `q` gives on `t` at `u`. -/
inductive AppliesTo (E : Env I) : P → I → Pos → P → I → Pos → Prop
  | acceptWhen (p : P) (f : Val → Out Bool) (m : Msg) (s : I) (pos : Pos) : AppliesTo E (.acceptWhen p f m) s pos p s pos
  | changeErrorMessage (p : P) (m : Msg) (s : I) (pos : Pos) : AppliesTo E (.changeErrorMessage p m) s pos p s pos
  | transformErrorMessage (p : P) (f : Msg → Out Msg) (s : I) (pos : Pos) :
      AppliesTo E (.transformErrorMessage p f) s pos p s pos
  | transformError (p : P) (k : Nat) (s : I) (pos : Pos) : AppliesTo E (.transformError p k) s pos p s pos
  | transform (p : P) (f : Val → Val) (s : I) (pos : Pos) : AppliesTo E (.transform p f) s pos p s pos
  | always (p : P) (v : Val) (s : I) (pos : Pos) : AppliesTo E (.always p v) s pos p s pos
  | lookAhead (p : P) (s : I) (pos : Pos) : AppliesTo E (.lookAhead p) s pos p s pos
  | except (p : P) (v : Val) (m : Msg) (s : I) (pos : Pos) : AppliesTo E (.except p v m) s pos p s pos
  | optional (p : P) (v : Val) (s : I) (pos : Pos) : AppliesTo E (.optional p v) s pos p s pos
  | if_ (p : P) (t f : Val) (s : I) (pos : Pos) : AppliesTo E (.if_ p t f) s pos p s pos
  | failAtFirstCharExpected (p : P) (s : I) (pos : Pos) : AppliesTo E (.failAtFirstCharExpected p) s pos p s pos
  | foldl (p : P) (st : Val) (op : Val → Val → Val) (s : I) (pos : Pos) : AppliesTo E (.foldl p st op) s pos p s pos
  | foldlAgain {p : P} {st x v : Val} (op : Val → Val → Val) {s t : I} {pos u : Pos} : Accepts E p s pos v t u →
      st.force = .ok x → AppliesTo E (.foldl p st op) s pos (.foldl p (op x v) op) t u
  | foldlRejectIncomplete (p : P) (st : Val) (op : Val → Val → Val) (s : I) (pos : Pos) :
      AppliesTo E (.foldlRejectIncomplete p st op) s pos p s pos
  | foldlRejectIncompleteAgain {p : P} {st x v : Val} (op : Val → Val → Val) {s t : I} {pos u : Pos} :
      Accepts E p s pos v t u → st.force = .ok x →
      AppliesTo E (.foldlRejectIncomplete p st op) s pos (.foldlRejectIncomplete p (op x v) op) t u
  | foldlStart (p sp : P) (op : Val → Val → Val) (s : I) (pos : Pos) :
      AppliesTo E (.foldlStartWithParser p sp op) s pos sp s pos
  | foldlStartAgain (p : P) {sp : P} {v : Val} (op : Val → Val → Val) {s t : I} {pos u : Pos} :
      Accepts E sp s pos v t u → AppliesTo E (.foldlStartWithParser p sp op) s pos (.foldl p v op) t u
  | foldlRejectIncompleteStart (p sp : P) (op : Val → Val → Val) (s : I) (pos : Pos) :
      AppliesTo E (.foldlRejectIncompleteStartWithParser p sp op) s pos sp s pos
  | foldlRejectIncompleteStartAgain (p : P) {sp : P} {v : Val} (op : Val → Val → Val) {s t : I} {pos u : Pos} :
      Accepts E sp s pos v t u →
      AppliesTo E (.foldlRejectIncompleteStartWithParser p sp op) s pos (.foldlRejectIncomplete p v op) t u
  | foldr (p sp : P) (op : Val → Val → Val) (s : I) (pos : Pos) : AppliesTo E (.foldrStartWithParser p sp op) s pos p s pos
  | foldrEnd {p : P} (sp : P) (op : Val → Val → Val) {s : I} {pos : Pos} {m : Msg} {e : Pos} :
      Rejects E p s pos m e → AppliesTo E (.foldrStartWithParser p sp op) s pos sp s pos
  | foldrAgain {p : P} (sp : P) (op : Val → Val → Val) {s t : I} {pos u : Pos} {v : Val} : Accepts E p s pos v t u →
      AppliesTo E (.foldrStartWithParser p sp op) s pos (.foldrStartWithParser p sp op) t u
  | condition (p q : P) (s : I) (pos : Pos) : AppliesTo E (.ifAccepts p q) s pos p s pos
  | then_ {p : P} (q : P) {s t : I} {pos u : Pos} {v : Val} : Accepts E p s pos v t u →
      AppliesTo E (.ifAccepts p q) s pos q s pos
  | sequence {before : List P} (q : P) (after : List P) {s t : I} {pos u : Pos} {vs : List Val} :
      InSequence E before s pos vs t u → AppliesTo E (.sequence (before ++ q :: after)) s pos q t u
  | oneOf {ps : List P} {q : P} (h : q ∈ ps) (s : I) (pos : Pos) : AppliesTo E (.oneOf ps) s pos q s pos
  | nthOfC (n : Int) {before : List P} (q : P) (after : List P) {s t : I} {pos u : Pos} {vs : List Val} :
      InSequence E before s pos vs t u → AppliesTo E (.nthOfC n (before ++ q :: after)) s pos q t u
  | lastOf {before : List P} (q : P) (after : List P) {s t : I} {pos u : Pos} {vs : List Val} :
      InSequence E before s pos vs t u → AppliesTo E (.lastOf (before ++ q :: after)) s pos q t u
  | middleOf1 (p1 p2 p3 : P) (s : I) (pos : Pos) : AppliesTo E (.middleOf p1 p2 p3) s pos p1 s pos
  | middleOf2 {p1 : P} (p2 p3 : P) {s t : I} {pos u : Pos} {v : Val} : Accepts E p1 s pos v t u →
      AppliesTo E (.middleOf p1 p2 p3) s pos p2 t u
  | middleOf3 {p1 p2 : P} (p3 : P) {s t t' : I} {pos u u' : Pos} {v v' : Val} : Accepts E p1 s pos v t u →
      Accepts E p2 t u v' t' u' → AppliesTo E (.middleOf p1 p2 p3) s pos p3 t' u'
  | iterate {n : Int} (p : P) (accum : List Val) (s : I) (pos : Pos) : n ≠ 0 →
      AppliesTo E (.iterate n p accum) s pos p s pos
  | iterateAgain {n : Int} {p : P} (accum : List Val) {s t : I} {pos u : Pos} {v : Val} : n ≠ 0 →
      Accepts E p s pos v t u → AppliesTo E (.iterate n p accum) s pos (.iterate (n - 1) p (accum ++ [v])) t u
  | keyword (c : Chr) (cs : List Chr) (v : Val) (s : I) (pos : Pos) : AppliesTo E (.keyword (c :: cs) v) s pos (P.litC c) s pos
  | keywordAgain {c : Chr} (cs : List Chr) (v : Val) {s t : I} {pos u : Pos} {w : Val} :
      Accepts E (P.litC c) s pos w t u → AppliesTo E (.keyword (c :: cs) v) s pos (.keyword cs v) t u
  | oneOfC98 (cs : List Chr) (s : I) (pos : Pos) : E.std = .cpp98 →
      AppliesTo E (.oneOfC cs) s pos (.oneOf (cs.map P.litC)) s pos
  | oneOfC11 (cs : List Chr) (s : I) (pos : Pos) : E.std = .cpp11 →
      AppliesTo E (.oneOfC cs) s pos (.acceptWhen .oneChar (anyOfC11 cs) .noneOfTheExpectedCasesFound) s pos
  | oneOfC14 (cs : List Chr) (s : I) (pos : Pos) : E.std = .cpp14 →
      AppliesTo E (.oneOfC cs) s pos (.acceptWhen .oneChar (anyOfC14 cs) .noneOfTheExpectedCasesFound) s pos
  | oneCharExceptC98 (cs : List Chr) (s : I) (pos : Pos) : E.std = .cpp98 →
      AppliesTo E (.oneCharExceptC cs) s pos (.acceptWhen .oneChar (isNone98 cs) .unexpectedCharacter) s pos
  | oneCharExceptC (cs : List Chr) (s : I) (pos : Pos) : E.std ≠ .cpp98 →
      AppliesTo E (.oneCharExceptC cs) s pos (.acceptWhen .oneChar (isNoneC11 cs) .unexpectedCharacter) s pos
  | ref (i : Nat) (s : I) (pos : Pos) : AppliesTo E (.ref i) s pos (E.rules i) s pos

/-- `p::apply<S, Pos>` instantiates `q::apply<T, U>`, directly or not. -/
inductive Instantiates (E : Env I) (p : P) (s : I) (pos : Pos) : P → I → Pos → Prop
  | self : Instantiates E p s pos p s pos
  | call {q r : P} {t t' : I} {u u' : Pos} : Instantiates E p s pos q t u → AppliesTo E q t u r t' u' →
      Instantiates E p s pos r t' u'

/-- No state in the types: none of the folds from the left, and no `iterate`. -/
def P.Stateless : P → Prop
  | .foldl _ _ _ => False
  | .foldlRejectIncomplete _ _ _ => False
  | .foldlStartWithParser _ _ _ => False
  | .foldlRejectIncompleteStartWithParser _ _ _ => False
  | .iterate _ _ _ => False
  | _ => True

/-- A sequence of calls, each made by the one before it. -/
inductive CallPath (E : Env I) : P × I × Pos → List (P × I × Pos) → Prop
  | last (x : P × I × Pos) : CallPath E x [x]
  | call {p q : P} {s t : I} {pos u : Pos} {l : List (P × I × Pos)} : AppliesTo E p s pos q t u →
      CallPath E (q, t, u) l → CallPath E (p, s, pos) ((p, s, pos) :: l)

end Metaparse
