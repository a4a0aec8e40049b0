import Verif.Spec.Text
import Verif.Spec.Sequences
/-!
# Types of results

A type is a set of results, given as a predicate. `HasType E Γ F p T` is derived by rules, one for every parser:
what `p` accepts has a result in `T`. The functions given by the user are described by conditions in the rules: for
arguments of the right type their results have the right type, and they may break the compilation only with errors
in `F`. `Γ` gives the types of the parser classes of the user.
-/

namespace Metaparse

/-- Evaluated with `::type`, the class `v` gives a result in `T`, or does not compile with an error in `F`. -/
def GivesType (F : Fault → Prop) (T : Val → Prop) (v : Val) : Prop :=
  (∀ w, v.force = .ok w → T w) ∧ ∀ f, v.force = .ill f → F f

/-- The results are characters. -/
def IsChr (v : Val) : Prop := ∃ c, v = .chr c

/-- The typing rules. -/
inductive HasType (E : Env (List Chr)) (Γ : Nat → Option (Val → Prop)) (F : Fault → Prop) :
    P → (Val → Prop) → Prop
  | weaken {p : P} {A T : Val → Prop} : HasType E Γ F p A → (∀ v, A v → T v) → HasType E Γ F p T
  | oneChar : HasType E Γ F .oneChar IsChr
  | empty {v : Val} {T : Val → Prop} : T v → HasType E Γ F (.empty v) T
  | fail {m : Msg} {T : Val → Prop} : HasType E Γ F (.fail m) T
  | ret {v : Val} {T : Val → Prop} : T v → HasType E Γ F (.ret v) T
  | acceptWhen {p : P} {pred : Val → Out Bool} {m : Msg} {T : Val → Prop} : HasType E Γ F p T →
      (∀ v f, T v → pred v = .ill f → F f) →
      HasType E Γ F (.acceptWhen p pred m) fun v => T v ∧ pred v = .ok true
  | changeErrorMessage {p : P} {m : Msg} {T : Val → Prop} : HasType E Γ F p T →
      HasType E Γ F (.changeErrorMessage p m) T
  | transformErrorMessage {p : P} {g : Msg → Out Msg} {T : Val → Prop} : HasType E Γ F p T →
      (∀ m f, g m = .ill f → F f) → HasType E Γ F (.transformErrorMessage p g) T
  | transformError {p : P} {k : Nat} {T : Val → Prop} : HasType E Γ F p T →
      (∀ m pos v s pos', E.onError k m pos = .ok (.acc v s pos') → T v) →
      (∀ m pos f, E.onError k m pos = .ill f → F f) → HasType E Γ F (.transformError p k) T
  | transform {p : P} {g : Val → Val} {A T : Val → Prop} : HasType E Γ F p A → (∀ v, A v → GivesType F T (g v)) →
      HasType E Γ F (.transform p g) T
  | always {p : P} {v : Val} {A T : Val → Prop} : HasType E Γ F p A → T v → HasType E Γ F (.always p v) T
  | lookAhead {p : P} {T : Val → Prop} : HasType E Γ F p T → HasType E Γ F (.lookAhead p) T
  | except {p : P} {v : Val} {m : Msg} {A T : Val → Prop} : HasType E Γ F p A → T v →
      HasType E Γ F (.except p v m) T
  | optional {p : P} {v : Val} {T : Val → Prop} : HasType E Γ F p T → T v → HasType E Γ F (.optional p v) T
  | if_ {p : P} {t f : Val} {A T : Val → Prop} : HasType E Γ F p A → T t → T f → HasType E Γ F (.if_ p t f) T
  | failAtFirstCharExpected {p : P} {A : Val → Prop} : HasType E Γ F p A →
      HasType E Γ F (.failAtFirstCharExpected p) (· = .void_)
  | foldl {p : P} {st : Val} {op : Val → Val → Val} {A T : Val → Prop} : HasType E Γ F p A → GivesType F T st →
      (∀ x r, T x → A r → GivesType F T (op x r)) → HasType E Γ F (.foldl p st op) T
  | foldlRejectIncomplete {p : P} {st : Val} {op : Val → Val → Val} {A T : Val → Prop} : HasType E Γ F p A →
      GivesType F T st → (∀ x r, T x → A r → GivesType F T (op x r)) → HasType E Γ F (.foldlRejectIncomplete p st op) T
  | foldlStartWithParser {p sp : P} {op : Val → Val → Val} {A S T : Val → Prop} : HasType E Γ F p A →
      HasType E Γ F sp S → (∀ v, S v → GivesType F T v) → (∀ x r, T x → A r → GivesType F T (op x r)) →
      HasType E Γ F (.foldlStartWithParser p sp op) T
  | foldlRejectIncompleteStartWithParser {p sp : P} {op : Val → Val → Val} {A S T : Val → Prop} :
      HasType E Γ F p A → HasType E Γ F sp S → (∀ v, S v → GivesType F T v) →
      (∀ x r, T x → A r → GivesType F T (op x r)) →
      HasType E Γ F (.foldlRejectIncompleteStartWithParser p sp op) T
  | foldrStartWithParser {p sp : P} {op : Val → Val → Val} {A T : Val → Prop} : HasType E Γ F p A →
      HasType E Γ F sp T → (∀ x r, T x → A r → GivesType F T (op x r)) →
      HasType E Γ F (.foldrStartWithParser p sp op) T
  | ifAccepts {p q : P} {A T : Val → Prop} : HasType E Γ F p A → HasType E Γ F q T →
      HasType E Γ F (.ifAccepts p q) T
  | sequence {ps : List P} (U : Nat → Val → Prop) : E.SupportsSequence ps.length →
      (∀ i p, ps[i]? = some p → HasType E Γ F p (U i)) →
      HasType E Γ F (.sequence ps) fun v => ∃ vs, v = .seq vs ∧ vs.length = ps.length ∧
        ∀ i x, vs[i]? = some x → U i x
  | oneOf {ps : List P} {T : Val → Prop} : E.SupportsOneOf ps.length → (∀ p ∈ ps, HasType E Γ F p T) →
      HasType E Γ F (.oneOf ps) T
  | nthOfC {n : Int} {ps : List P} (U : Nat → Val → Prop) : E.SupportsNth ps.length →
      (∀ i p, ps[i]? = some p → HasType E Γ F p (U i)) → HasType E Γ F (.nthOfC n ps) (U n.toNat)
  | lastOf {ps : List P} (U : Nat → Val → Prop) : E.SupportsNth ps.length →
      (∀ i p, ps[i]? = some p → HasType E Γ F p (U i)) → HasType E Γ F (.lastOf ps) (U (ps.length - 1))
  | middleOf {p1 p2 p3 : P} {A T B : Val → Prop} : E.SupportsNth 3 → HasType E Γ F p1 A → HasType E Γ F p2 T →
      HasType E Γ F p3 B → HasType E Γ F (.middleOf p1 p2 p3) T
  | iterate {n : Int} {p : P} {accum : List Val} {A : Val → Prop} : 0 ≤ n → HasType E Γ F p A →
      HasType E Γ F (.iterate n p accum) fun v => ∃ vs, v = .seq (accum ++ vs) ∧ vs.length = n.toNat ∧
        ∀ x ∈ vs, A x
  | keyword {kw : List Chr} {v : Val} {T : Val → Prop} : T v → HasType E Γ F (.keyword kw v) T
  | oneOfC {cs : List Chr} : (E.std = .cpp98 → cs.length < E.limOneOf) →
      HasType E Γ F (.oneOfC cs) fun v => ∃ c ∈ cs, v = .chr c
  | oneCharExceptC {cs : List Chr} : (E.std = .cpp98 → cs.length < E.limOneCharExcept) →
      HasType E Γ F (.oneCharExceptC cs) fun v => ∃ c, c ∉ cs ∧ v = .chr c
  | ref {i : Nat} {T : Val → Prop} : Γ i = some T → HasType E Γ F (.ref i) T
  | native {i : Nat} {T : Val → Prop} : (∀ s pos v s' pos', E.native i s pos = .ok (.acc v s' pos') → T v) →
      (∀ s pos f, E.native i s pos = .ill f → F f) → HasType E Γ F (.native i) T

/-- The definitions of the parser classes have the types that `Γ` gives. -/
def Typed (E : Env (List Chr)) (Γ : Nat → Option (Val → Prop)) (F : Fault → Prop) : Prop :=
  ∀ i T, Γ i = some T → HasType E Γ F (E.rules i) T

end Metaparse
