import Verif.Props.Templates98
import Verif.Spec.TemplatesStandards
/-!
# The headers of C++98 and of C++11 agree

C95, with C93 and C09: the same parser written with both kinds of headers.
-/

namespace Metaparse

open Tmpl

theorem same_ok {α : Type} {x : Out α} {a : α} (h : Same x (.ok a)) : x = .ok a := by
  cases x with
  | ok b => exact congrArg Out.ok h
  | ill f => cases h
  | deep => cases h

theorem alike_of {I : Type} {a b : Res I → V} {x y : Out (Res I)} {p q : Out V} (h : SameButMessage x y)
    (hp : Same p (omap a x)) (hq : Same q (omap b y)) : Alike a b p q := by
  cases h with
  | acc v s pos =>
    rw [same_ok hp, same_ok hq]
    exact .acc v s pos
  | rej m m' pos =>
    rw [same_ok hp, same_ok hq]
    exact .rej m m' pos
  | ill f =>
    cases p with
    | ill g =>
      cases q with
      | ill g' => exact .ill g g'
      | _ => cases hq
    | _ => cases hp
  | deep =>
    cases p with
    | deep =>
      cases q with
      | deep => exact .deep
      | _ => cases hq
    | _ => cases hp

/-- C95: a parser within the limits, written with the headers of C++98 and with those of C++11, has the same outcome for
every string that C++98 can write, except for the messages of rejections. -/
theorem C95_same_as_11 {l : Limits} {U U' : User} {C C' : Nat → V → Prop} {T : Env (List Int)} (hT : T.OnText)
    {E : Env (@GoodText (Tmpl.cpp98 l))} (hE : @Tmpl.Fits (Tmpl.cpp98 l) _ _ U C E)
    (hET : SameUpToInput E { T with std := .cpp98 } fun s t => s.1 = t)
    (hT11 : @Tmpl.Fits Tmpl.cpp11 _ (@texts Tmpl.cpp11) U' C' { T with std := .cpp11 })
    (herr : T.ErrorsIgnoreMessages) (hrules : ∀ i, (T.rules i).Every (P.Portable T)) {p : P} (hp : p.Every (P.Portable T))
    {v v' : V} (h : @Spells (Tmpl.cpp98 l) _ _ U C E v p)
    (h' : @Spells Tmpl.cpp11 _ (@texts Tmpl.cpp11) U' C' { T with std := .cpp11 } v' p) :
    ∃ o o', @HasApply (Tmpl.cpp98 l) U v o ∧ @HasApply Tmpl.cpp11 U' v' o' ∧ ∀ s, @GoodStr (Tmpl.cpp98 l) s → ∀ pos,
      Alike (@encRes (Tmpl.cpp98 l) _ (@texts (Tmpl.cpp98 l))) (@encRes Tmpl.cpp11 _ (@texts Tmpl.cpp11))
        (@call (Tmpl.cpp98 l) U o [@encStr (Tmpl.cpp98 l) s, encPos pos])
        (@call Tmpl.cpp11 U' o' [@encStr Tmpl.cpp11 s, encPos pos]) := by
  obtain ⟨o, ho, hc⟩ := @C95_text (Tmpl.cpp98 l) U C E { T with std := .cpp98 } hE hT hET v p h
  obtain ⟨o', ho', hc'⟩ := C93_apply hT11 h'
  refine ⟨o, o', ho, ho', fun s hs pos => ?_⟩
  exact alike_of (C09_same_but_message hT herr hrules p hp .cpp98 .cpp11 s pos) (hc s hs pos) (hc' s pos)

theorem depth_portable : depthParser.Every (P.Portable depthText98) := by
  simp [P.every_iff, P.EveryL, P.parts, P.Portable, depthParser, depthText98, P.litC]

/-- The depth of brackets, written with both kinds of headers. -/
example : ∃ o o', @HasApply headers98 depthUser98 depthClass98 o ∧ @HasApply Tmpl.cpp11 depthUser depthClass o' ∧
    ∀ s, @GoodStr headers98 s → ∀ pos, Alike (@encRes headers98 _ (@texts headers98)) (@encRes Tmpl.cpp11 _ (@texts Tmpl.cpp11))
      (@call headers98 depthUser98 o [@encStr headers98 s, encPos pos])
      (@call Tmpl.cpp11 depthUser o' [@encStr Tmpl.cpp11 s, encPos pos]) :=
  C95_same_as_11 (l := defaultLimits) (T := depthText98) rfl depth_fits98 depth_same98 depth_fits (fun _ m m' pos => .rej m m' pos)
    (fun _ => depth_portable) depth_portable depth_spells98 depth_spells

end Metaparse
