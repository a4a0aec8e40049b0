import Verif.Spec.Honest
import Verif.Spec.Sequences
import Verif.Spec.Subparsers
/-!
# Well-formed systems of parsers

No repetition of a parser that can accept without consuming, and no parser that can get to itself
without consuming.
-/

namespace Metaparse

/-- `p` accepts some input without consuming any of it. -/
def Nullable (E : Env (List Chr)) (p : P) : Prop :=
  ∃ s pos v pos', Accepts E p s pos v s pos'

/-- The repeated parsers of this layer consume whenever they accept.  (`iterate` with a negative
count goes on until the parser rejects.) -/
def P.RepeatsConsume (E : Env (List Chr)) : P → Prop
  | .foldl p _ _ => ¬ Nullable E p
  | .foldlRejectIncomplete p _ _ => ¬ Nullable E p
  | .foldlStartWithParser p _ _ => ¬ Nullable E p
  | .foldlRejectIncompleteStartWithParser p _ _ => ¬ Nullable E p
  | .foldrStartWithParser p _ _ => ¬ Nullable E p
  | .iterate n p _ => n < 0 → ¬ Nullable E p
  | _ => True

/-- The metafunctions of the user in this layer always finish (with a value or an error). -/
def P.FunctionsFinish : P → Prop
  | .acceptWhen _ pred _ => ∀ v, pred v ≠ .deep
  | .transformErrorMessage _ f => ∀ m, f m ≠ .deep
  | _ => True

/-- The user's own parsers and error functions always finish. -/
structure Env.UserFinishes (E : Env (List Chr)) : Prop where
  native : ∀ i s pos, E.native i s pos ≠ .deep
  onError : ∀ k m pos, E.onError k m pos ≠ .deep

/-- `StartsWith E p q`: applying `p` to an input may apply its part `q` to the same input, with
nothing consumed in between. -/
inductive StartsWith (E : Env (List Chr)) : P → P → Prop
  | acceptWhen (p : P) (f : Val → Out Bool) (m : Msg) : StartsWith E (.acceptWhen p f m) p
  | changeErrorMessage (p : P) (m : Msg) : StartsWith E (.changeErrorMessage p m) p
  | transformErrorMessage (p : P) (f : Msg → Out Msg) :
      StartsWith E (.transformErrorMessage p f) p
  | transformError (p : P) (k : Nat) : StartsWith E (.transformError p k) p
  | transform (p : P) (f : Val → Val) : StartsWith E (.transform p f) p
  | always (p : P) (v : Val) : StartsWith E (.always p v) p
  | lookAhead (p : P) : StartsWith E (.lookAhead p) p
  | except (p : P) (v : Val) (m : Msg) : StartsWith E (.except p v m) p
  | optional (p : P) (v : Val) : StartsWith E (.optional p v) p
  | if_ (p : P) (t f : Val) : StartsWith E (.if_ p t f) p
  | failAtFirstCharExpected (p : P) : StartsWith E (.failAtFirstCharExpected p) p
  | foldl (p : P) (st : Val) (op : Val → Val → Val) : StartsWith E (.foldl p st op) p
  | foldlRejectIncomplete (p : P) (st : Val) (op : Val → Val → Val) :
      StartsWith E (.foldlRejectIncomplete p st op) p
  | foldlStart (p sp : P) (op : Val → Val → Val) :
      StartsWith E (.foldlStartWithParser p sp op) sp
  | foldlNext (p sp : P) (op : Val → Val → Val) : Nullable E sp →
      StartsWith E (.foldlStartWithParser p sp op) p
  | foldlRejectIncompleteStart (p sp : P) (op : Val → Val → Val) :
      StartsWith E (.foldlRejectIncompleteStartWithParser p sp op) sp
  | foldlRejectIncompleteNext (p sp : P) (op : Val → Val → Val) : Nullable E sp →
      StartsWith E (.foldlRejectIncompleteStartWithParser p sp op) p
  | foldrNext (p sp : P) (op : Val → Val → Val) :
      StartsWith E (.foldrStartWithParser p sp op) p
  | foldrStart (p sp : P) (op : Val → Val → Val) :
      StartsWith E (.foldrStartWithParser p sp op) sp
  | condition (p q : P) : StartsWith E (.ifAccepts p q) p
  | then_ (p q : P) : StartsWith E (.ifAccepts p q) q
  | sequence (before : List P) (p : P) (after : List P) : (∀ q ∈ before, Nullable E q) →
      StartsWith E (.sequence (before ++ p :: after)) p
  | oneOf (ps : List P) (p : P) : p ∈ ps → StartsWith E (.oneOf ps) p
  | nthOfC (n : Int) (before : List P) (p : P) (after : List P) : (∀ q ∈ before, Nullable E q) →
      StartsWith E (.nthOfC n (before ++ p :: after)) p
  | lastOf (before : List P) (p : P) (after : List P) : (∀ q ∈ before, Nullable E q) →
      StartsWith E (.lastOf (before ++ p :: after)) p
  | middleOf1 (p1 p2 p3 : P) : StartsWith E (.middleOf p1 p2 p3) p1
  | middleOf2 (p1 p2 p3 : P) : Nullable E p1 → StartsWith E (.middleOf p1 p2 p3) p2
  | middleOf3 (p1 p2 p3 : P) : Nullable E p1 → Nullable E p2 →
      StartsWith E (.middleOf p1 p2 p3) p3
  | iterate (n : Int) (p : P) (accum : List Val) : StartsWith E (.iterate n p accum) p

/-- Applying `p` may apply the parser of the user number `i` with nothing consumed before. -/
inductive LeftCalls (E : Env (List Chr)) : P → Nat → Prop
  | ref (i : Nat) : LeftCalls E (.ref i) i
  | part {p q : P} {i : Nat} : StartsWith E p q → LeftCalls E q i → LeftCalls E p i

/-- The first thing applying `p` does is to apply the parser of the user number `i` (itself the
first thing a parser of the user may do). -/
inductive FirstCalls (E : Env (List Chr)) : P → Nat → Prop
  | ref (i : Nat) : FirstCalls E (.ref i) i
  | rule {j i : Nat} : FirstCalls E (E.rules j) i → FirstCalls E (.ref j) i
  | acceptWhen {p : P} {i : Nat} (f : Val → Out Bool) (m : Msg) : FirstCalls E p i →
      FirstCalls E (.acceptWhen p f m) i
  | transform {p : P} {i : Nat} (f : Val → Val) : FirstCalls E p i → FirstCalls E (.transform p f) i
  | optional {p : P} {i : Nat} (d : Val) : FirstCalls E p i → FirstCalls E (.optional p d) i
  | lookAhead {p : P} {i : Nat} : FirstCalls E p i → FirstCalls E (.lookAhead p) i
  | foldl {p : P} {i : Nat} (st : Val) (op : Val → Val → Val) : FirstCalls E p i →
      FirstCalls E (.foldl p st op) i
  | foldlStart {sp : P} {i : Nat} (p : P) (op : Val → Val → Val) : FirstCalls E sp i →
      FirstCalls E (.foldlStartWithParser p sp op) i
  | foldrStart {p : P} {i : Nat} (sp : P) (op : Val → Val → Val) : FirstCalls E p i →
      FirstCalls E (.foldrStartWithParser p sp op) i
  | sequence {p : P} {i : Nat} (ps : List P) : E.SupportsSequence (p :: ps).length →
      FirstCalls E p i → FirstCalls E (.sequence (p :: ps)) i
  | oneOf {p : P} {i : Nat} (ps : List P) : E.SupportsOneOf (p :: ps).length →
      FirstCalls E p i → FirstCalls E (.oneOf (p :: ps)) i
  | nthOfC {p : P} {i : Nat} (k : Int) (ps : List P) : E.SupportsNth (p :: ps).length →
      0 ≤ k → k < ((p :: ps).length : Int) → FirstCalls E p i → FirstCalls E (.nthOfC k (p :: ps)) i

/-- All repetitions in `p` consume and all metafunctions of the user in `p` finish. -/
def P.Sound (E : Env (List Chr)) (p : P) : Prop :=
  p.Every fun q => q.RepeatsConsume E ∧ q.FunctionsFinish

/-- A well-formed system of parsers: the user's own parsers, error functions and metafunctions
finish, repetitions consume, and there is no infinite chain of parsers applied to one input without
consuming (no left recursion). -/
structure Env.WellFormed (E : Env (List Chr)) : Prop where
  honest : E.Honest
  finishes : E.UserFinishes
  sound : ∀ i, (E.rules i).Sound E
  noLeftRecursion : WellFounded fun j i => LeftCalls E (E.rules i) j

/-- Whether a parser may accept without consuming, computed from its structure: `N i` and `NN i` say
so of the parsers of the user number `i` (recursive parsers and own parsers). -/
def P.mayBeEmpty (N NN : Nat → Bool) : P → Bool
  | .oneChar => false
  | .empty _ => true
  | .fail _ => false
  | .ret _ => true
  | .acceptWhen p _ _ => p.mayBeEmpty N NN
  | .changeErrorMessage p _ => p.mayBeEmpty N NN
  | .transformErrorMessage p _ => p.mayBeEmpty N NN
  | .transformError p _ => p.mayBeEmpty N NN
  | .transform p _ => p.mayBeEmpty N NN
  | .always p _ => p.mayBeEmpty N NN
  | .lookAhead _ => true
  | .except _ _ _ => true
  | .optional _ _ => true
  | .if_ _ _ _ => true
  | .failAtFirstCharExpected _ => true
  | .foldl _ _ _ => true
  | .foldlRejectIncomplete _ _ _ => true
  | .foldlStartWithParser _ sp _ => sp.mayBeEmpty N NN
  | .foldlRejectIncompleteStartWithParser _ sp _ => sp.mayBeEmpty N NN
  | .foldrStartWithParser _ sp _ => sp.mayBeEmpty N NN
  | .ifAccepts _ q => q.mayBeEmpty N NN
  | .sequence ps => allMayBeEmpty N NN ps
  | .oneOf ps => anyMayBeEmpty N NN ps
  | .nthOfC _ ps => allMayBeEmpty N NN ps
  | .lastOf ps => allMayBeEmpty N NN ps
  | .middleOf p1 p2 p3 => p1.mayBeEmpty N NN && (p2.mayBeEmpty N NN && p3.mayBeEmpty N NN)
  | .iterate n p _ => n == 0 || p.mayBeEmpty N NN
  | .keyword kw _ => kw.isEmpty
  | .oneOfC _ => false
  | .oneCharExceptC _ => false
  | .ref i => N i
  | .native i => NN i
where
  /-- All parsers of the list may accept without consuming. -/
  allMayBeEmpty (N NN : Nat → Bool) : List P → Bool
    | [] => true
    | p :: ps => p.mayBeEmpty N NN && allMayBeEmpty N NN ps
  /-- Some parser of the list may accept without consuming. -/
  anyMayBeEmpty (N NN : Nat → Bool) : List P → Bool
    | [] => false
    | p :: ps => p.mayBeEmpty N NN || anyMayBeEmpty N NN ps

/-- The recursive parsers of the user that may be called with nothing consumed before, computed from
the structure of the parser. -/
def P.leftRefs (N NN : Nat → Bool) : P → List Nat
  | .ref i => [i]
  | .acceptWhen p _ _ => p.leftRefs N NN
  | .changeErrorMessage p _ => p.leftRefs N NN
  | .transformErrorMessage p _ => p.leftRefs N NN
  | .transformError p _ => p.leftRefs N NN
  | .transform p _ => p.leftRefs N NN
  | .always p _ => p.leftRefs N NN
  | .lookAhead p => p.leftRefs N NN
  | .except p _ _ => p.leftRefs N NN
  | .optional p _ => p.leftRefs N NN
  | .if_ p _ _ => p.leftRefs N NN
  | .failAtFirstCharExpected p => p.leftRefs N NN
  | .foldl p _ _ => p.leftRefs N NN
  | .foldlRejectIncomplete p _ _ => p.leftRefs N NN
  | .foldlStartWithParser p sp _ =>
      sp.leftRefs N NN ++ if sp.mayBeEmpty N NN then p.leftRefs N NN else []
  | .foldlRejectIncompleteStartWithParser p sp _ =>
      sp.leftRefs N NN ++ if sp.mayBeEmpty N NN then p.leftRefs N NN else []
  | .foldrStartWithParser p sp _ => p.leftRefs N NN ++ sp.leftRefs N NN
  | .ifAccepts p q => p.leftRefs N NN ++ q.leftRefs N NN
  | .sequence ps => list N NN ps
  | .oneOf ps => alts N NN ps
  | .nthOfC _ ps => list N NN ps
  | .lastOf ps => list N NN ps
  | .middleOf p1 p2 p3 => p1.leftRefs N NN ++
      if p1.mayBeEmpty N NN then p2.leftRefs N NN ++
        if p2.mayBeEmpty N NN then p3.leftRefs N NN else []
      else []
  | .iterate _ p _ => p.leftRefs N NN
  | _ => []
where
  /-- Parsers applied one after the other. -/
  list (N NN : Nat → Bool) : List P → List Nat
    | [] => []
    | p :: ps => p.leftRefs N NN ++ if p.mayBeEmpty N NN then list N NN ps else []
  /-- Alternatives. -/
  alts (N NN : Nat → Bool) : List P → List Nat
    | [] => []
    | p :: ps => p.leftRefs N NN ++ alts N NN ps

/-- Whether every repeated parser in `p` consumes, as far as can be seen from its structure. -/
def P.repeatsOk (N NN : Nat → Bool) : P → Bool
  | .acceptWhen p _ _ => p.repeatsOk N NN
  | .changeErrorMessage p _ => p.repeatsOk N NN
  | .transformErrorMessage p _ => p.repeatsOk N NN
  | .transformError p _ => p.repeatsOk N NN
  | .transform p _ => p.repeatsOk N NN
  | .always p _ => p.repeatsOk N NN
  | .lookAhead p => p.repeatsOk N NN
  | .except p _ _ => p.repeatsOk N NN
  | .optional p _ => p.repeatsOk N NN
  | .if_ p _ _ => p.repeatsOk N NN
  | .failAtFirstCharExpected p => p.repeatsOk N NN
  | .foldl p _ _ => !p.mayBeEmpty N NN && p.repeatsOk N NN
  | .foldlRejectIncomplete p _ _ => !p.mayBeEmpty N NN && p.repeatsOk N NN
  | .foldlStartWithParser p sp _ =>
      !p.mayBeEmpty N NN && p.repeatsOk N NN && sp.repeatsOk N NN
  | .foldlRejectIncompleteStartWithParser p sp _ =>
      !p.mayBeEmpty N NN && p.repeatsOk N NN && sp.repeatsOk N NN
  | .foldrStartWithParser p sp _ =>
      !p.mayBeEmpty N NN && p.repeatsOk N NN && sp.repeatsOk N NN
  | .ifAccepts p q => p.repeatsOk N NN && q.repeatsOk N NN
  | .sequence ps => all N NN ps
  | .oneOf ps => all N NN ps
  | .nthOfC _ ps => all N NN ps
  | .lastOf ps => all N NN ps
  | .middleOf p1 p2 p3 => p1.repeatsOk N NN && p2.repeatsOk N NN && p3.repeatsOk N NN
  | .iterate n p _ => (decide (0 ≤ n) || !p.mayBeEmpty N NN) && p.repeatsOk N NN
  | _ => true
where
  /-- All parsers of the list. -/
  all (N NN : Nat → Bool) : List P → Bool
    | [] => true
    | p :: ps => p.repeatsOk N NN && all N NN ps

end Metaparse
