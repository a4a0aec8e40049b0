import Verif.Spec.Text
import Verif.Spec.Subparsers
/-!
# When two parses have the same outcome

The same text at two positions (C08), the same parser in two implementations (C09), the same
characters in two representations (C45).
-/

namespace Metaparse

/-- The two messages are the same except for line and column numbers quoted in them. -/
inductive Msg.SameButPositions : Msg → Msg → Prop
  | refl (m : Msg) : Msg.SameButPositions m m
  | unpaired (line col line' col' : Int) {m m' : Msg} : Msg.SameButPositions m m' →
      Msg.SameButPositions (.unpaired line col m) (.unpaired line' col' m')

/-- The outcomes of parsing `s` at `pos` and at `pos'` are the same up to the shift of positions:
same result and remaining input and the positions moved over the same characters, or errors after
the same characters, or the same compile error, or no end. -/
inductive SameShifted (s : List Chr) (pos pos' : Pos) :
    Out (Res (List Chr)) → Out (Res (List Chr)) → Prop
  | acc (v : Val) {c t : List Chr} : s = c ++ t →
      SameShifted s pos pos' (.ok (.acc v t (moveOver pos c))) (.ok (.acc v t (moveOver pos' c)))
  | rej {m m' : Msg} {c t : List Chr} : m.SameButPositions m' → s = c ++ t →
      SameShifted s pos pos' (.ok (.rej m (moveOver pos c))) (.ok (.rej m' (moveOver pos' c)))
  | ill (f : Fault) : SameShifted s pos pos' (.ill f) (.ill f)
  | deep : SameShifted s pos pos' .deep .deep

/-- Two evaluations of a message function give the same, except for quoted positions. -/
inductive SameMsgs : Out Msg → Out Msg → Prop
  | ok {m m' : Msg} : m.SameButPositions m' → SameMsgs (.ok m) (.ok m')
  | ill (f : Fault) : SameMsgs (.ill f) (.ill f)
  | deep : SameMsgs .deep .deep

/-- The user's own parsers and error functions do not look at positions. -/
structure Env.IgnoresPositions (E : Env (List Chr)) : Prop where
  onText : E.OnText
  native : ∀ i s pos pos', SameShifted s pos pos' (E.native i s pos) (E.native i s pos')
  onError : ∀ k m m' pos pos', m.SameButPositions m' →
    (∃ n n', n.SameButPositions n' ∧ E.onError k m pos = .ok (.rej n pos) ∧
      E.onError k m' pos' = .ok (.rej n' pos')) ∨
    (∃ f, E.onError k m pos = .ill f ∧ E.onError k m' pos' = .ill f)

/-- A message function used by `transform_error_message` does not look at positions quoted in
messages. -/
def P.MsgIgnoresPositions : P → Prop
  | .transformErrorMessage _ f => ∀ m m', m.SameButPositions m' → SameMsgs (f m) (f m')
  | _ => True

/-- The outcomes are the same, except that the messages of rejections can be different. -/
inductive SameButMessage {I : Type} : Out (Res I) → Out (Res I) → Prop
  | acc (v : Val) (s : I) (pos : Pos) : SameButMessage (.ok (.acc v s pos)) (.ok (.acc v s pos))
  | rej (m m' : Msg) (pos : Pos) : SameButMessage (.ok (.rej m pos)) (.ok (.rej m' pos))
  | ill (f : Fault) : SameButMessage (.ill f) (.ill f)
  | deep : SameButMessage .deep .deep

/-- This layer of the parser exists in C++98, and does not depend on messages. -/
def P.Portable {I : Type} (E : Env I) : P → Prop
  | .transformErrorMessage _ f => ∀ m, ∃ m', f m = .ok m'
  | .sequence ps => 1 < E.limSequence ∧ ps.length < E.limSequence
  | .oneOf ps => ps.length ≤ E.limOneOf
  | .nthOfC _ ps => ps.length < E.limSequence
  | .lastOf ps => ps.length < E.limSequence
  | .middleOf _ _ _ => 3 < E.limSequence
  | .oneOfC cs => cs.length < E.limOneOf
  | .oneCharExceptC cs => cs.length < E.limOneCharExcept
  | _ => True

/-- Whether the user's error functions accept, and what they do except for the message, does not
depend on the message. -/
def Env.ErrorsIgnoreMessages {I : Type} (E : Env I) : Prop :=
  ∀ k m m' pos, SameButMessage (E.onError k m pos) (E.onError k m' pos)

/-- `Rep s t` says that the input `s` holds the characters `t`: `empty`, `front` and `pop_front` of
`s` do what they should, at every place that is reached. -/
structure Represents {I : Type} (inp : Input I) (Rep : I → List Chr → Prop) : Prop where
  nil : ∀ {s}, Rep s [] → inp.isEmpty s = .ok true
  cons : ∀ {s c t}, Rep s (c :: t) → inp.isEmpty s = .ok false ∧ inp.front s = .ok c ∧
    ∃ s', inp.popFront s = .ok s' ∧ Rep s' t

/-- The same outcome in two representations. -/
inductive SameIn {I : Type} (Rep : I → List Chr → Prop) : Out (Res I) → Out (Res (List Chr)) → Prop
  | acc (v : Val) (pos : Pos) {s : I} {t : List Chr} : Rep s t →
      SameIn Rep (.ok (.acc v s pos)) (.ok (.acc v t pos))
  | rej (m : Msg) (pos : Pos) : SameIn Rep (.ok (.rej m pos)) (.ok (.rej m pos))
  | ill (f : Fault) : SameIn Rep (.ill f) (.ill f)
  | deep : SameIn Rep .deep .deep

/-- The two environments differ only in the representation of the input: same implementation, same
limits, same parsers; the user's own parsers and error functions do the same in both. -/
structure SameUpToInput {I : Type} (E : Env I) (T : Env (List Chr)) (Rep : I → List Chr → Prop) :
    Prop where
  std : E.std = T.std
  limSequence : E.limSequence = T.limSequence
  limOneOf : E.limOneOf = T.limOneOf
  limOneCharExcept : E.limOneCharExcept = T.limOneCharExcept
  rules : ∀ i, E.rules i = T.rules i
  native : ∀ i {s t} pos, Rep s t → SameIn Rep (E.native i s pos) (T.native i t pos)
  onError : ∀ k m pos, SameIn Rep (E.onError k m pos) (T.onError k m pos)

end Metaparse
