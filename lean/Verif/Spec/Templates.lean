import Verif.Model.Templates.Semantics
import Verif.Model.Derived
/-!
# Which class templates are which parsers

The classes the values, messages, positions, inputs and results of the model are, and the relation between classes of the
headers and parsers of the model.
-/

namespace Metaparse.Tmpl

open Metaparse (Val Msg GExp Pos Res P Env digitToInt)

/-- A class of a namespace. -/
scoped notation "K" => V.cls V.root

/-- Error messages as classes. -/
def encMsg : Msg → V
  | .digitExpected => K .error_digit_expected []
  | .endOfInputExpected => K .error_end_of_input_expected []
  | .expectedToFail => K .error_expected_to_fail []
  | .indexOutOfRange a b n => K .error_index_out_of_range [.num a, .num b, .num n]
  | .letterExpected => K .error_letter_expected []
  | .literalExpected c => K .error_literal_expected [.num c]
  | .noneOfTheExpectedCasesFound => K .error_none_of_the_expected_cases_found []
  | .unexpectedCharacter => K .error_unexpected_character []
  | .unexpectedEndOfInput => K .error_unexpected_end_of_input []
  | .unpaired l c m => K .error_unpaired [.num l, .num c, encMsg m]
  | .whitespaceExpected => K .error_whitespace_expected []
  | .user n => K .user_message [.num n]

/-- Values of users as classes. The first numbers are for what the metafunction classes of the rule parser of `grammar`
return. -/
def encUser : Nat → List V → V
  | 0, [a] => .cls (K .grammar_util_build_char []) .apply_impl [a]
  | 1, [a] => .cls (K .grammar_util_build_name []) .apply_impl [a]
  | 2, [.cls .root .mpl_int_ [.num c], a] => K .grammar_util_repeated_apply_impl [.num c, a]
  | 3, [a, b] => .cls (K .grammar_util_build_sequence []) .apply_impl [a, b]
  | 4, [a, b] => .cls (K .grammar_util_build_selection []) .apply_impl [a, b]
  | n, args => K .user_value (.num n :: args)

mutual
/-- No part of the value is the template argument that is ill-formed. -/
def NoBad : Val → Prop
  | .bad _ => False
  | .seq l => NoBads l
  | .user _ l => NoBads l
  | .flip _ a b => NoBad a ∧ NoBad b
  | .delayed v => NoBad v
  | _ => True
/-- The same for lists. -/
def NoBads : List Val → Prop
  | [] => True
  | v :: l => NoBad v ∧ NoBads l
end

/-- Positions as classes. -/
def encPos (p : Pos) : V :=
  K .source_position [K .mpl_int_ [.num p.line], K .mpl_int_ [.num p.col], K .mpl_char_ [.num p.prev]]

/-- Outcomes with the values as classes. -/
def omap {α β : Type} (f : α → β) (x : Out α) : Out β := x.bind fun a => .ok (f a)

/-- Outcomes that are the same, except for the reason why something is ill-formed. -/
def Same {α : Type} : Out α → Out α → Prop
  | .ok a, .ok b => a = b
  | .ill _, .ill _ => True
  | .deep, .deep => True
  | _, _ => False

/-- `T::x` -/
def get (h : V → Out Members) (v : V) (x : Id) : Out V := (h v).bind fun m => m.ty x

/-- The class the member template `x` of `T` is declared in. -/
def owner (h : V → Out Members) (v : V) (x : Id) : Out V := (h v).bind fun m => m.tmpl x

/-- `impl/next_digit.hpp:19-29` with numbers that have no bounds, as those of `Op.ev` -/
def nextDigitZ (a b : Val) : Val :=
  Metaparse.Val.ofOut (a.value.bind fun x => b.value.bind fun d => .ok (.int (x * 10 + d)))

/-- `int_.hpp:19` with numbers that have no bounds -/
def intZ : P := P.foldl1 P.digitVal (.int 0) nextDigitZ

/-- The classes of the user that are derived from parsers. -/
def OfUser (i : Nat) (c : V) : Prop := c = .rule i

/-- The parser is no reference to a rule. -/
def NoRef : P → Prop
  | .ref _ => False
  | _ => True

section Strings
variable [L : Lang]

/-- The characters can be written as a string: in C++98 there is a limit. -/
def shortStr (s : List Int) : Bool := L.headers.pick true fun l => s.length ≤ l.string

/-- Strings as classes. In C++98 the ones that are too long are classes of the user. -/
def encStr (s : List Int) : V :=
  if shortStr s then K .string (fill .string (s.map .num)) else K .user_long_string (s.map .num)

/-- The string is read as the characters it is made of: the templates of C++98 take the last characters that are
`BOOST_NO_CHAR` as not there, and a string as long as the limit has no size. -/
def GoodStr (s : List Int) : Prop :=
  L.headers.pick True fun l => s.length < l.string ∧ s.getLast? ≠ some (-1)

/-- There is room for that many arguments: in C++98 there is a limit. -/
def Room (lim : Limits → Nat) (n : Nat) : Prop := L.headers.pick True fun l => n < lim l

/-- No argument at the end is the value that stands for arguments that are left out in C++98. -/
def NoMark (mark : Int) (l : List Int) : Prop := L.headers.pick True fun _ => l.getLast? ≠ some mark

end Strings

variable [Lang]

/-- What the rule parser of `grammar` builds, as classes. -/
def encG : GExp → V
  | .chr c => K .user_rule_of_grammar [.num 0, .num c]
  | .name n => K .user_rule_of_grammar [.num 1, encStr n]
  | .rep op e => K .user_rule_of_grammar [.num 2, .num op, encG e]
  | .seq a b => K .user_rule_of_grammar [.num 3, encG a, encG b]
  | .sel a b => K .user_rule_of_grammar [.num 4, encG a, encG b]

mutual
/-- Values as classes. -/
def encVal : Val → V
  | .chr c => K .mpl_char_ [.num c]
  | .int n => K .mpl_int_ [.num n]
  | .bool b => K .mpl_bool_ [ofBool b]
  | .void_ => K .impl_void_ []
  | .cvoid => K .t_void []
  | .seq l => K .mpl_vector (encVals l)
  | .str l => encStr l
  | .msg m => encMsg m
  | .gexp e => encG e
  | .user n args => encUser n (encVals args)
  | .flip n a b => K .user_flip [.num n, encVal a, encVal b]
  | .delayed v => K .user_delayed [encVal v]
  | .bad _ => K .user_bad []
/-- Lists of values as arguments. -/
def encVals : List Val → List V
  | [] => []
  | v :: vs => encVal v :: encVals vs
end

/-- Every string in it is read as the characters it is made of. -/
def LegibleG : GExp → Prop
  | .chr _ => True
  | .name n => GoodStr n
  | .rep _ e => LegibleG e
  | .seq a b => LegibleG a ∧ LegibleG b
  | .sel a b => LegibleG a ∧ LegibleG b

mutual
/-- Every string in the value is read as the characters it is made of. -/
def Legible : Val → Prop
  | .str l => GoodStr l
  | .gexp e => LegibleG e
  | .seq l => Legibles l
  | .user _ l => Legibles l
  | .flip _ a b => Legible a ∧ Legible b
  | .delayed v => Legible v
  | _ => True
/-- The same for lists. -/
def Legibles : List Val → Prop
  | [] => True
  | v :: l => Legible v ∧ Legibles l
end

/-- Sequences of characters that are classes, which parsers can be applied to. -/
class Inputs (I : Type) where
  cls : I → V
  input : Metaparse.Input I

/-- An input as a class. -/
def encInp {I : Type} [Inputs I] (s : I) : V := Inputs.cls s

variable {I : Type} [Inputs I]

/-- What a parser returns, as a class. -/
def encRes : Res I → V
  | .acc v s pos => K .accept [encVal v, encInp s, encPos pos]
  | .rej m pos => K .reject [encMsg m, encPos pos]

/-- The class `v` has a member template `apply`, declared in the class `o`. -/
def HasApply (U : User) (v o : V) : Prop := owner (inst U) v .apply = .ok o

/-- `o::apply<x>::type`, with the arguments `xs` -/
noncomputable def call (U : User) (o : V) (xs : List V) : Out V := get (inst U) (.cls o .apply xs) .type

/-- What the metafunctions of MPL give for the inputs is what the model says. -/
class Lawful (U : User) (I : Type) [Inputs I] : Prop where
  type : ∀ s : I, get (inst U) (encInp s) .type = .ok (encInp s)
  empty : ∀ s : I, ∃ b, Inputs.input.isEmpty s = .ok b ∧
    get (inst U) (K .mpl_empty [encInp s]) .type = .ok (K .mpl_bool_ [ofBool b]) ∧
    get (inst U) (K .mpl_empty [encInp s]) .value = .ok (ofBool b)
  front : ∀ s : I, Inputs.input.isEmpty s = .ok false → ∃ c, Inputs.input.front s = .ok c ∧
    get (inst U) (K .mpl_front [encInp s]) .type = .ok (K .mpl_char_ [.num c])
  popFront : ∀ s : I, Inputs.input.isEmpty s = .ok false → ∃ t, Inputs.input.popFront s = .ok t ∧
    get (inst U) (K .mpl_pop_front [encInp s]) .type = .ok (encInp t)

/-- The class `v` is a value that is evaluated later. -/
def Lazy (U : User) (v : V) (x : Val) : Prop := Same (get (inst U) v .type) (omap encVal x.force)

/-- The class `v` is a metafunction class with one argument. -/
def Fun1 (U : User) (v : V) (f : Val → Val) : Prop :=
  ∃ o, HasApply U v o ∧ ∀ x, Same (call U o [encVal x]) (omap encVal (f x).force)

/-- The class `v` is a metafunction class with two arguments. -/
def Fun2 (U : User) (v : V) (f : Val → Val → Val) : Prop :=
  ∃ o, HasApply U v o ∧ ∀ x y, Same (call U o [encVal x, encVal y]) (omap encVal (f x y).force)

/-- The class `v` is a predicate. -/
def Pred (U : User) (v : V) (f : Val → Out Bool) : Prop :=
  ∃ o, HasApply U v o ∧ ∀ x, Same (call U o [encVal x]) (omap (fun b => K .mpl_bool_ [ofBool b]) (f x))

/-- The class `v` is a metafunction class on messages. -/
def MsgFun (U : User) (v : V) (f : Msg → Out Msg) : Prop :=
  ∃ o, HasApply U v o ∧ ∀ m, Same (call U o [encMsg m]) (omap encMsg (f m))

/-- The class `v` is a metafunction class on rejections. -/
def RejFun (U : User) (v : V) (f : Msg → Pos → Out (Res I)) : Prop :=
  ∃ o, HasApply U v o ∧ ∀ m pos, Same (call U o [K .reject [encMsg m, encPos pos]]) (omap encRes (f m pos))

/-- The class a typedef of a namespace stands for. -/
def Alias (t : Tm) (v : V) : Prop := t.ev (fun _ => .ill .noType) ⟨[], []⟩ = .ok v

/-- The class `c` is derived from the class `w` and adds nothing. -/
def Derived (U : User) (c w : V) : Prop := inst U c = inst U w

/-- `repeated_one_of<…>`: in C++11 another name for a class, in C++98 a class. -/
def repeatedOneOfV (vs : List V) : V :=
  Lang.headers.pick (K .repeated [K .one_of vs]) fun _ => K .repeated_one_of (fill .repeated_one_of vs)

/-- `repeated_one_of1<…>`. -/
def repeatedOneOf1V (vs : List V) : V :=
  Lang.headers.pick (K .repeated1 [K .one_of vs]) fun _ => K .repeated_one_of1 (fill .repeated_one_of1 vs)

mutual
/-- The class `v` is written as the parser `p` is: the same name in the headers and in the model, with arguments that
correspond. `C i c` says that `c` is the class with the number `i` in the model. -/
inductive Spells (U : User) (C : Nat → V → Prop) (E : Env I) : V → P → Prop
  | one_char : Spells U C E (K .one_char []) .oneChar
  | empty (x : Val) : Spells U C E (K .empty [encVal x]) (.empty x)
  | fail (m : Msg) : Spells U C E (K .fail [encMsg m]) (.fail m)
  | return_ (x : Val) : Spells U C E (K .return_ [encVal x]) (.ret x)
  | accept_when {v p f pred m} : Spells U C E v p → Pred U f pred →
      Spells U C E (K .accept_when [v, f, encMsg m]) (.acceptWhen p pred m)
  | change_error_message {v p m} : Spells U C E v p →
      Spells U C E (K .change_error_message [v, encMsg m]) (.changeErrorMessage p m)
  | transform_error_message {v p f g} : Spells U C E v p → MsgFun U f g →
      Spells U C E (K .transform_error_message [v, f]) (.transformErrorMessage p g)
  | transform_error {v p f k} : Spells U C E v p → RejFun U f (E.onError k) →
      Spells U C E (K .transform_error [v, f]) (.transformError p k)
  | transform {v p f g} : Spells U C E v p → Fun1 U f g → Spells U C E (K .transform [v, f]) (.transform p g)
  | always {v p x} : Spells U C E v p → Spells U C E (K .always [v, encVal x]) (.always p x)
  | always_c {c x} : Spells U C E (K .always_c [.num c, encVal x]) (P.alwaysC c x)
  | look_ahead {v p} : Spells U C E v p → Spells U C E (K .look_ahead [v]) (.lookAhead p)
  | except {v p x m} : Spells U C E v p → Spells U C E (K .except [v, encVal x, encMsg m]) (.except p x m)
  | optional {v p x} : Spells U C E v p → Spells U C E (K .optional [v, encVal x]) (.optional p x)
  | if_ {v p x y} : Spells U C E v p → Spells U C E (K .if_ [v, encVal x, encVal y]) (.if_ p x y)
  | fail_at_first_char_expected {v p} : Spells U C E v p →
      Spells U C E (K .fail_at_first_char_expected [v]) (.failAtFirstCharExpected p)
  | foldl {v p s st f op} : Spells U C E v p → Lazy U s st → Fun2 U f op →
      Spells U C E (K .foldl [v, s, f]) (.foldl p st op)
  | foldl1 {v p s st f op} : Spells U C E v p → Lazy U s st → Fun2 U f op →
      Spells U C E (K .foldl1 [v, s, f]) (P.foldl1 p st op)
  | foldl_reject_incomplete {v p s st f op} : Spells U C E v p → Lazy U s st → Fun2 U f op →
      Spells U C E (K .foldl_reject_incomplete [v, s, f]) (.foldlRejectIncomplete p st op)
  | foldl_reject_incomplete1 {v p s st f op} : Spells U C E v p → Lazy U s st → Fun2 U f op →
      Spells U C E (K .foldl_reject_incomplete1 [v, s, f]) (P.foldlRejectIncomplete1 p st op)
  | foldl_start_with_parser {v p v' p' f op} : Spells U C E v p → Spells U C E v' p' → Fun2 U f op →
      Spells U C E (K .foldl_start_with_parser [v, v', f]) (.foldlStartWithParser p p' op)
  | foldl_reject_incomplete_start_with_parser {v p v' p' f op} : Spells U C E v p → Spells U C E v' p' → Fun2 U f op →
      Spells U C E (K .foldl_reject_incomplete_start_with_parser [v, v', f]) (.foldlRejectIncompleteStartWithParser p p' op)
  | foldr {v p x f op} : Spells U C E v p → Fun2 U f op → Spells U C E (K .foldr [v, encVal x, f]) (P.foldr p x op)
  | foldr1 {v p x f op} : Spells U C E v p → Fun2 U f op → Spells U C E (K .foldr1 [v, encVal x, f]) (P.foldr1 p x op)
  | foldr_reject_incomplete {v p x f op} : Spells U C E v p → Fun2 U f op → Room Limits.sequence 2 →
      Spells U C E (K .foldr_reject_incomplete [v, encVal x, f]) (P.foldrRejectIncomplete p x op)
  | foldr_reject_incomplete1 {v p x f op} : Spells U C E v p → Fun2 U f op → Room Limits.sequence 2 →
      Spells U C E (K .foldr_reject_incomplete1 [v, encVal x, f]) (P.foldrRejectIncomplete1 p x op)
  | foldr_start_with_parser {v p v' p' f op} : Spells U C E v p → Spells U C E v' p' → Fun2 U f op →
      Spells U C E (K .foldr_start_with_parser [v, v', f]) (.foldrStartWithParser p p' op)
  | repeated {v p} : Spells U C E v p → Spells U C E (K .repeated [v]) (P.repeated p)
  | repeated1 {v p} : Spells U C E v p → Spells U C E (K .repeated1 [v]) (P.repeated1 p)
  | repeated_reject_incomplete {v p} : Spells U C E v p →
      Spells U C E (K .repeated_reject_incomplete [v]) (P.repeatedRejectIncomplete p)
  | repeated_reject_incomplete1 {v p} : Spells U C E v p →
      Spells U C E (K .repeated_reject_incomplete1 [v]) (P.repeatedRejectIncomplete1 p)
  | repeated_one_of {vs ps} : SpellsAll U C E vs ps → Room (fun l => l.oneOf + 1) vs.length →
      Spells U C E (repeatedOneOfV vs) (P.repeatedOneOf ps)
  | repeated_one_of1 {vs ps} : SpellsAll U C E vs ps → Room (fun l => l.oneOf + 1) vs.length →
      Spells U C E (repeatedOneOf1V vs) (P.repeatedOneOf1 ps)
  | sequence {vs ps} : SpellsAll U C E vs ps → Room Limits.sequence 1 → Room Limits.sequence vs.length →
      Spells U C E (K .sequence (fill .sequence vs)) (.sequence ps)
  | one_of {vs ps} : SpellsAll U C E vs ps → Room (fun l => l.oneOf + 1) vs.length →
      Spells U C E (K .one_of (fill .one_of vs)) (.oneOf ps)
  | nth_of_c {n vs ps} : SpellsAll U C E vs ps → Room Limits.sequence vs.length →
      Spells U C E (K .nth_of_c (fill .nth_of_c (.num n :: vs))) (.nthOfC n ps)
  | nth_of {n vs ps} : SpellsAll U C E vs ps → Room Limits.sequence vs.length →
      Spells U C E (K .nth_of (fill .nth_of (K .mpl_int_ [.num n] :: vs))) (P.nthOf n ps)
  | first_of {vs ps} : SpellsAll U C E vs ps → Room Limits.sequence vs.length →
      Spells U C E (K .first_of (fill .first_of vs)) (P.firstOf ps)
  | last_of {vs ps} : SpellsAll U C E vs ps → Room Limits.sequence vs.length →
      Spells U C E (K .last_of (fill .last_of vs)) (.lastOf ps)
  | middle_of {v p v' p' v'' p''} : Spells U C E v p → Spells U C E v' p' → Spells U C E v'' p'' →
      Room Limits.sequence 3 →
      Spells U C E (K .middle_of [v, v', v'']) (.middleOf p p' p'')
  | iterate_c {v p n} : Spells U C E v p → Spells U C E (K .iterate_c [v, .num n]) (P.iterateC p n)
  | iterate {v p n} : Spells U C E v p → Spells U C E (K .iterate [v, K .mpl_int_ [.num n]]) (P.iterateN p n)
  | keyword {l x} : GoodStr l → Spells U C E (K .keyword [encStr l, encVal x]) (.keyword l x)
  | lit_c {c} : Spells U C E (K .lit_c [.num c]) (P.litC c)
  | lit {c} : Spells U C E (K .lit [K .mpl_char_ [.num c]]) (P.lit c)
  | one_of_c {l} : Room Limits.oneOf l.length → NoMark 9223372036854775807 l →
      Spells U C E (K .one_of_c (fill .one_of_c (l.map .num))) (.oneOfC l)
  | one_char_except_c {l} : Room Limits.oneCharExcept l.length → NoMark 1024 l →
      Spells U C E (K .one_char_except_c (fill .one_char_except_c (l.map .num))) (.oneCharExceptC l)
  | one_char_except {l} : Room Limits.oneCharExcept l.length →
      Spells U C E (K .one_char_except (fill .one_char_except (l.map fun c => K .mpl_char_ [.num c]))) (P.oneCharExcept l)
  | range_c {a b} : Spells U C E (K .range_c [.num a, .num b]) (P.rangeC a b)
  | range {a b} : Spells U C E (K .range [K .mpl_char_ [.num a], K .mpl_char_ [.num b]]) (P.range a b)
  | digit {v} : Alias Hdr.alias_digit v → Spells U C E v P.digit
  | digit_val {v} : Alias Hdr.alias_digit_val v → Spells U C E v P.digitVal
  | letter {v} : Alias Hdr.alias_letter v → Spells U C E v P.letter
  | alphanum {v} : Alias Hdr.alias_alphanum v → Room (fun l => l.oneOf + 1) 2 → Spells U C E v P.alphanum
  | space {v} : Alias Hdr.alias_space v → Spells U C E v P.space
  | spaces {v} : Alias Hdr.alias_spaces v → Spells U C E v P.spaces
  | int_ {v} : Alias Hdr.alias_int_ v → Spells U C E v intZ
  | token {v p} : Spells U C E v p → Room Limits.sequence 2 → Spells U C E (K .token [v]) (P.token p)
  | entire_input {v p m} : Spells U C E v p → Room Limits.sequence 2 →
      Spells U C E (K .entire_input [v, encMsg m]) (P.entireInput p m)
  /-- a class that is derived from a parser -/
  | rule {i c} : C i c → Spells U C E c (.ref i)
  /-- a class of the user with an `apply` of its own -/
  | native {v o i} : HasApply U v o → (∀ s pos, Same (call U o [encInp s, encPos pos]) (omap encRes (E.native i s pos))) →
      Spells U C E v (.native i)
/-- Lists of classes that are written as parsers are. -/
inductive SpellsAll (U : User) (C : Nat → V → Prop) (E : Env I) : List V → List P → Prop
  | nil : SpellsAll U C E [] []
  | cons {v p vs ps} : Spells U C E v p → SpellsAll U C E vs ps → SpellsAll U C E (v :: vs) (p :: ps)
end

/-- The environment of the model is the one of the classes: the same inputs, the implementation for the same headers with
the same limits, and rules that are written the same. -/
structure Fits (U : User) (C : Nat → V → Prop) (E : Env I) : Prop where
  input : E.input = Inputs.input
  std : Lang.headers.pick (E.std = .cpp11) fun l => E.std = .cpp98 ∧ E.limSequence = l.sequence ∧ E.limOneOf = l.oneOf ∧
    E.limOneCharExcept = l.oneCharExcept
  rules : ∀ i c, C i c → ∃ w, Derived U c w ∧ Spells U C E w (E.rules i) ∧ NoRef (E.rules i)

/-- Strings as inputs. -/
instance texts : Inputs (List Int) := ⟨encStr, Metaparse.listInput⟩

/-- The strings that are read as the characters they are made of. -/
abbrev GoodText : Type := { s : List Int // GoodStr s }

end Metaparse.Tmpl
