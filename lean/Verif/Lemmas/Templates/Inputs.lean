import Verif.Lemmas.Templates.Strings
import Verif.Lemmas.Templates.Modes
import Verif.Lemmas.Templates.Inject
/-!
# Strings as inputs
-/

set_option linter.unusedSectionVars false

namespace Metaparse.Tmpl

open Metaparse (Input listInput Val GExp)

section
variable [L : Lang] {U : User}

/-- The strings that are read as the characters they are made of, as inputs. -/
def goodInput : Input GoodText where
  isEmpty s := .ok s.1.isEmpty
  front s := listInput.front s.1
  popFront
    | ⟨[], _⟩ => .ill .noSpecialisation
    | ⟨_ :: s, h⟩ => .ok ⟨s, good_tail h⟩

/-- The strings that are read as the characters they are made of, as classes. -/
instance goodTexts : Inputs GoodText := ⟨fun s => encStr s.1, goodInput⟩

instance goodLawful : Lawful U GoodText where
  type s := str_type
  empty s := ⟨s.1.isEmpty, rfl, by
    change get (inst U) (K .mpl_empty [encStr s.1]) .type = _ ∧ get (inst U) (K .mpl_empty [encStr s.1]) .value = _
    rw [empty_get s.2, empty_get s.2]
    exact ⟨bool_type, bool_value⟩⟩
  front s h := by
    obtain ⟨_ | ⟨c, s⟩, hs⟩ := s
    · cases h
    · exact ⟨c, rfl, front_string hs⟩
  popFront s h := by
    obtain ⟨_ | ⟨c, s⟩, hs⟩ := s
    · cases h
    · exact ⟨⟨s, good_tail hs⟩, rfl, pop_front_string hs⟩

theorem good_inj (s t : GoodText) (h : encInp s = encInp t) : s = t := Subtype.ext (encStr_inj s.2 t.2 h)
end

section
attribute [local instance] cpp11
variable {U : User}

instance lawful11 : Lawful U (List Int) where
  type s := str_type
  empty s := ⟨s.isEmpty, rfl, by
    change get (inst U) (K .mpl_empty [encStr s]) .type = _ ∧ get (inst U) (K .mpl_empty [encStr s]) .value = _
    rw [empty_get (good_11 s), empty_get (good_11 s)]
    exact ⟨bool_type, bool_value⟩⟩
  front s h := by
    obtain _ | ⟨c, s⟩ := s
    · cases h
    · exact ⟨c, rfl, front_string (good_11 _)⟩
  popFront s h := by
    obtain _ | ⟨c, s⟩ := s
    · cases h
    · exact ⟨s, rfl, pop_front_string (good_11 _)⟩

theorem text_inj (s t : List Int) (h : encInp s = encInp t) : s = t := encStr_inj (good_11 s) (good_11 t) h

theorem legibleG_11 : (e : GExp) → LegibleG e
  | .chr _ => trivial
  | .name n => good_11 n
  | .rep _ e => legibleG_11 e
  | .seq a b => ⟨legibleG_11 a, legibleG_11 b⟩
  | .sel a b => ⟨legibleG_11 a, legibleG_11 b⟩

mutual
theorem legible_11 : (v : Val) → Legible v
  | .str l => good_11 l
  | .gexp e => legibleG_11 e
  | .seq l => legibles_11 l
  | .user _ l => legibles_11 l
  | .flip _ a b => ⟨legible_11 a, legible_11 b⟩
  | .delayed v => legible_11 v
  | .chr _ | .int _ | .bool _ | .void_ | .cvoid | .msg _ | .bad _ => trivial
theorem legibles_11 : (l : List Val) → Legibles l
  | [] => trivial
  | v :: l => ⟨legible_11 v, legibles_11 l⟩
end
end

end Metaparse.Tmpl
