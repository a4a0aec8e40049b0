import Verif.Spec.Templates
/-!
# Classes with an `apply`

The relation of the classes that declare `apply` to parsers of the model, for the proofs by induction on the layers of
instantiation.
-/

namespace Metaparse.Tmpl

open Metaparse (Val Msg GExp Pos Res P Env)

variable [Lang] {I : Type} [Inputs I]

/-- The class `f` is a metafunction class with two arguments, for values the first argument can be. -/
def Fun2On (U : User) (A : Val → Prop) (f : V) (op : Val → Val → Val) : Prop :=
  ∃ o, HasApply U f o ∧ ∀ x y, A x → Same (call U o [encVal x, encVal y]) (omap encVal (op x y).force) ∧
    ∀ z, (op x y).force = .ok z → A z

/-- Characters as classes. -/
def chars (cs : List Int) : List V := cs.map fun c => K .mpl_char_ [.num c]

mutual
/-- The class `o` declares an `apply` that is the parser `p`: the same name in the headers and in the model, with arguments
that correspond. `C i c` says that `c` is the class with the number `i` in the model. -/
inductive Den (U : User) (C : Nat → V → Prop) (E : Env I) : V → P → Prop
  | oneChar : Den U C E (K .one_char []) .oneChar
  | empty (x : Val) : Den U C E (K .empty [encVal x]) (.empty x)
  | fail (m : Msg) : Den U C E (K .fail [encMsg m]) (.fail m)
  | ret (x : Val) : Den U C E (K .return_ [encVal x]) (.ret x)
  | acceptWhen {v o f p pred m} : HasApply U v o → Den U C E o p → Pred U f pred →
      Den U C E (K .accept_when [v, f, encMsg m]) (.acceptWhen p pred m)
  | changeErrorMessage {v o p m} : HasApply U v o → Den U C E o p →
      Den U C E (K .change_error_message [v, encMsg m]) (.changeErrorMessage p m)
  | transformErrorMessage {v o f p g} : HasApply U v o → Den U C E o p → MsgFun U f g →
      Den U C E (K .transform_error_message [v, f]) (.transformErrorMessage p g)
  | transformError {v o f p k} : HasApply U v o → Den U C E o p → RejFun U f (E.onError k) →
      Den U C E (K .transform_error [v, f]) (.transformError p k)
  | transform {v o f p g} : HasApply U v o → Den U C E o p → Fun1 U f g →
      Den U C E (K .transform [v, f]) (.transform p g)
  | always {v o p x} : HasApply U v o → Den U C E o p → Den U C E (K .always [v, encVal x]) (.always p x)
  | lookAhead {v o p} : HasApply U v o → Den U C E o p → Den U C E (K .look_ahead [v]) (.lookAhead p)
  | except {v o p x m} : HasApply U v o → Den U C E o p →
      Den U C E (K .except [v, encVal x, encMsg m]) (.except p x m)
  | optional {v o p x} : HasApply U v o → Den U C E o p → Den U C E (K .optional [v, encVal x]) (.optional p x)
  | if_ {v o p x y} : HasApply U v o → Den U C E o p → Den U C E (K .if_ [v, encVal x, encVal y]) (.if_ p x y)
  | failAtFirstCharExpected {v o p} : HasApply U v o → Den U C E o p →
      Den U C E (K .fail_at_first_char_expected [v]) (.failAtFirstCharExpected p)
  | foldl {v o s f p st op A} : HasApply U v o → Den U C E o p → Lazy U s st →
      (∀ y, st.force = .ok y → A y) → Fun2On U A f op →
      Den U C E (K .foldl [v, s, f]) (.foldl p st op)
  | foldlRejectIncomplete {v o s f p st op A} : HasApply U v o → Den U C E o p → Lazy U s st →
      (∀ y, st.force = .ok y → A y) → Fun2On U A f op →
      Den U C E (K .foldl_reject_incomplete [v, s, f]) (.foldlRejectIncomplete p st op)
  | foldlStartWithParser {v o v' o' f p p' op} : HasApply U v o → Den U C E o p → HasApply U v' o' → Den U C E o' p' →
      Fun2 U f op → Den U C E (K .foldl_start_with_parser [v, v', f]) (.foldlStartWithParser p p' op)
  | foldlRejectIncompleteStartWithParser {v o v' o' f p p' op} : HasApply U v o → Den U C E o p → HasApply U v' o' →
      Den U C E o' p' → Fun2 U f op → Den U C E (K .foldl_reject_incomplete_start_with_parser [v, v', f])
        (.foldlRejectIncompleteStartWithParser p p' op)
  | foldrStartWithParser {v o v' o' f p p' op} : HasApply U v o → Den U C E o p → HasApply U v' o' → Den U C E o' p' →
      Fun2 U f op → Den U C E (K .foldr_start_with_parser [v, v', f]) (.foldrStartWithParser p p' op)
  | foldl1 {v o s f p st op A} : HasApply U v o → Den U C E o p → Lazy U s st →
      (∀ y, st.force = .ok y → A y) → Fun2On U A f op →
      Den U C E (K .foldl1 [v, s, f]) (.ifAccepts p (.foldl p st op))
  | foldlRejectIncomplete1 {v o s f p st op A} : HasApply U v o → Den U C E o p → Lazy U s st →
      (∀ y, st.force = .ok y → A y) → Fun2On U A f op →
      Den U C E (K .foldl_reject_incomplete1 [v, s, f]) (.ifAccepts p (.foldlRejectIncomplete p st op))
  | foldr1 {v o f p x op} : HasApply U v o → Den U C E o p → Fun2 U f op →
      Den U C E (K .foldr1 [v, encVal x, f]) (.ifAccepts p (.foldrStartWithParser p (.ret x) op))
  | foldrRejectIncomplete1 {v o f p x op} : HasApply U v o → Den U C E o p → Fun2 U f op → Room Limits.sequence 2 →
      Den U C E (K .foldr_reject_incomplete1 [v, encVal x, f])
        (.ifAccepts p (.foldrStartWithParser p (.nthOfC 0 [.ret x, .failAtFirstCharExpected p]) op))
  | sequence {v o p vs ps} : Lang.headers = .cpp11 → HasApply U v o → Den U C E o p → Dens U C E vs ps →
      Den U C E (K .sequence (v :: vs)) (.sequence (p :: ps))
  | oneOf {v o p vs ps} : Lang.headers = .cpp11 → HasApply U v o → Den U C E o p → Dens U C E vs ps →
      Den U C E (K .one_of (v :: vs)) (.oneOf (p :: ps))
  | nthOfC {n v o p vs ps} : Lang.headers = .cpp11 → HasApply U v o → Den U C E o p → Dens U C E vs ps →
      Den U C E (K .nth_of_c (.num n :: v :: vs)) (.nthOfC n (p :: ps))
  | firstOf {v o p vs ps} : Lang.headers = .cpp11 → HasApply U v o → Den U C E o p → Dens U C E vs ps →
      Den U C E (K .first_of (v :: vs)) (.nthOfC 0 (p :: ps))
  | lastOf {v o p vs ps} : Lang.headers = .cpp11 → HasApply U v o → Den U C E o p → Dens U C E vs ps →
      Den U C E (K .last_of (v :: vs)) (.lastOf (p :: ps))
  | middleOf {v o p v' o' p' v'' o'' p''} : HasApply U v o → Den U C E o p → HasApply U v' o' → Den U C E o' p' →
      HasApply U v'' o'' → Den U C E o'' p'' → Room Limits.sequence 3 →
      Den U C E (K .middle_of [v, v', v'']) (.middleOf p p' p'')
  | iterate {n v o p l} : n ≠ 0 → HasApply U v o → Den U C E o p →
      Den U C E (K .impl_iterate_impl [.num n, v, K .mpl_vector (encVals l)]) (.iterate n p l)
  | iterateZero {v o p l} : HasApply U v o → Den U C E o p →
      Den U C E (K .return_ [K .mpl_vector (encVals l)]) (.iterate 0 p l)
  | keyword {l x} : GoodStr l → Den U C E (K .keyword [encStr l, encVal x]) (.keyword l x)
  | oneOfC {l} : Lang.headers = .cpp11 → Den U C E (K .accept_when [K .one_char [], K .impl_any_of_c (l.map .num),
      encMsg .noneOfTheExpectedCasesFound]) (.oneOfC l)
  | oneCharExceptC {l} : Lang.headers = .cpp11 → Den U C E (K .accept_when [K .one_char [], K .impl_is_none_c (l.map .num),
      encMsg .unexpectedCharacter]) (.oneCharExceptC l)
  | ref {i c o} : C i c → HasApply U c o → Den U C E o (.ref i)
  | native {i o} : (∀ s pos, Same (call U o [encInp s, encPos pos]) (omap encRes (E.native i s pos))) →
      Den U C E o (.native i)
  | sequenceNil : Lang.headers = .cpp11 → Den U C E (K .return_ [K .mpl_vector []]) (.sequence [])
  | oneOfNil : Lang.headers = .cpp11 → Den U C E (K .fail [encMsg .noneOfTheExpectedCasesFound]) (.oneOf [])
  | nthOfCNil {n} : Lang.headers = .cpp11 → Den U C E (K .fail [encMsg (.indexOutOfRange 0 (-1) n)]) (.nthOfC n [])
  | lastOfNil : Lang.headers = .cpp11 → Den U C E (K .fail [encMsg (.indexOutOfRange 0 (-1) 0)]) (.lastOf [])
  | sequence98 {l vs ps} : Lang.headers = .cpp98 l → 1 ≤ vs.length → vs.length < l.sequence → Dens U C E vs ps →
      Den U C E (K .impl_sequence_n (.num vs.length :: vs)) (.sequence ps)
  | sequence98Nil {l} : Lang.headers = .cpp98 l → 1 < l.sequence →
      Den U C E (K .impl_sequence_n [.num 1, K .mpl_na []]) (.sequence [])
  | oneOf98 {l vs ps} : Lang.headers = .cpp98 l → vs.length ≤ l.oneOf → Dens U C E vs ps →
      Den U C E (K .impl_one_of [K .mpl_vector (fill .one_of vs)]) (.oneOf ps)
  | nthOf98 {l n vs ps} : Lang.headers = .cpp98 l → 0 ≤ n → n < (vs.length : Int) → vs.length < l.sequence → Dens U C E vs ps →
      Den U C E (K .impl_nth_of_c_impl [.num n, K .mpl_vector vs]) (.nthOfC n ps)
  | nthOf98Out {l n ps} : Lang.headers = .cpp98 l → ¬ (0 ≤ n ∧ n < (ps.length : Int)) → ps.length < l.sequence →
      Den U C E (K .fail [encMsg (.indexOutOfRange 0 ((ps.length : Int) - 1) n)]) (.nthOfC n ps)
  | lastOf98 {l vs ps} : Lang.headers = .cpp98 l → 1 ≤ vs.length → vs.length < l.sequence → Dens U C E vs ps →
      Den U C E (K .impl_nth_of_c_impl [.num ((vs.length : Int) - 1), K .mpl_vector vs]) (.lastOf ps)
  | lastOf98Nil {l} : Lang.headers = .cpp98 l → 0 < l.sequence →
      Den U C E (K .fail [encMsg (.indexOutOfRange 0 (-1) (-1))]) (.lastOf [])
  | oneOfC98 {l cs} : Lang.headers = .cpp98 l → cs.length < l.oneOf →
      Den U C E (K .impl_one_of [K .mpl_vector (fill .one_of (cs.map fun c => K .lit_c [.num c]))]) (.oneOfC cs)
  | oneCharExceptC98 {l cs} : Lang.headers = .cpp98 l → cs.length < l.oneCharExcept →
      Den U C E (K .accept_when [K .one_char [], K .impl_is_none_n (fill .impl_is_none_n (.num cs.length :: chars cs)),
        encMsg .unexpectedCharacter]) (.oneCharExceptC cs)
/-- Lists of classes that are parsers. -/
inductive Dens (U : User) (C : Nat → V → Prop) (E : Env I) : List V → List P → Prop
  | nil : Dens U C E [] []
  | cons {v o p vs ps} : HasApply U v o → Den U C E o p → Dens U C E vs ps → Dens U C E (v :: vs) (p :: ps)
end

/-- The class `v` is the parser `p`. -/
def IsParser (U : User) (C : Nat → V → Prop) (E : Env I) (v : V) (p : P) : Prop := ∃ o, HasApply U v o ∧ Den U C E o p

/-- The environment of the model is the one of the classes: the same inputs, the implementation for the same headers with
the same limits, and rules that are the same. -/
structure FitsDen (U : User) (C : Nat → V → Prop) (E : Env I) : Prop where
  input : E.input = Inputs.input
  std : Lang.headers.pick (E.std = .cpp11) fun l => E.std = .cpp98 ∧ E.limSequence = l.sequence ∧ E.limOneOf = l.oneOf ∧
    E.limOneCharExcept = l.oneCharExcept
  rules : ∀ i c o, C i c → HasApply U c o → Den U C E o (E.rules i) ∧ NoRef (E.rules i)

end Metaparse.Tmpl
