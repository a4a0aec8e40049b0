import Verif.Lemmas.HeaderPreprocess
/-! # The program that is in the generated header -/

namespace Metaparse.StrHdr

open Gen

/-! ## The part before the specialisations -/

theorem line_comment {s : PP} (ha : s.active = true) {ts : List Tok} (h : dropSp (stripComment ts) = []) :
    s.line ts = some s := by
  rw [PP.line, h]
  show (if s.active = false then some s else if false = true then none else some { s with out := s.out ++ [] }) = some s
  rw [ha]
  simp

/-- The lines of the program before the specialisations. -/
def frontLines : List Str :=
  [lit "", lit "namespace boost", lit "{", lit "  namespace metaparse", lit "  {", lit "    namespace v1", lit "    {",
    lit "      namespace impl", lit "      {", lit "        constexpr inline int take(int n_)", lit "        {",
    lit "          return n_ >= 512 ? 512 : (n_ >= 256 ? 256 : (n_ >= 128 ? 128 : (n_ >= 64 ? 64 : (n_ >= 32 ? 32 : " ++
      lit "(n_ >= 16 ? 16 : (n_ >= 8 ? 8 : (n_ >= 4 ? 4 : (n_ >= 2 ? 2 : (n_ >= 1 ? 1 : ( 0 ))))))))));",
    lit "        }", lit "", lit "        template <int LenNow, int LenRemaining, char... Cs>", lit "        struct make_string;",
    lit "", lit "        template <char... Cs> struct make_string<0, 0, Cs...> : string<> {};"]

/-- The text before the specialisations. -/
def front : Str :=
  guardBegin ++
  lit "\n#include <boost/metaparse/v" ++ number 1 ++ lit "/cpp11/impl/concat.hpp>\n#include <boost/preprocessor/cat.hpp>\n" ++
  nsBegin implNames ++
  generateTake (powers 9) (nsPrefix 4) ++
  nsPrefix 4 ++ lit "template <int LenNow, int LenRemaining, char... Cs>\n" ++
  nsPrefix 4 ++ lit "struct make_string;\n\n" ++
  nsPrefix 4 ++ lit "template <char... Cs> struct make_string<0, 0, Cs...> : string<> {};\n"

theorem front_eq : front =
    lit "#ifndef BOOST_METAPARSE_V1_CPP11_IMPL_STRING_HPP" ++ '\n' ::
    (lit "#define BOOST_METAPARSE_V1_CPP11_IMPL_STRING_HPP" ++ '\n' ::
    (lit "" ++ '\n' ::
    (lit "// This is an automatically generated header file." ++ '\n' ::
    (lit "// Generated with the tools/string_headers.py utility of" ++ '\n' ::
    (lit "// Boost.Metaparse" ++ '\n' ::
    (lit "" ++ '\n' ::
    (lit "#include <boost/metaparse/v1/cpp11/impl/concat.hpp>" ++ '\n' ::
    (lit "#include <boost/preprocessor/cat.hpp>" ++ '\n' :: text frontLines)))))))) := by
  decide +kernel

/-- The name of the guard. -/
def guardName : Str := lit "BOOST_METAPARSE_V1_CPP11_IMPL_STRING_HPP"

/-- The macros during the program. -/
def inside (sun : Bool) (limit : Nat) : Macros := (guardName, ⟨none, []⟩) :: before sun limit

theorem usual_inside (sun : Bool) (limit : Nat) : (inside sun limit).Usual := by
  cases sun <;> rfl

theorem run_front (sun : Bool) (limit : Nat) (rest : Str) :
    PP.run ⟨before sun limit, [], []⟩ (L (front ++ rest)) =
      PP.run ⟨inside sun limit, noSp (frontLines.flatMap (lex [])), [true]⟩ (L rest) := by
  rw [front_eq]
  simp only [List.append_assoc, List.cons_append]
  rw [run_line (by decide +kernel) _ (s' := ⟨before sun limit, [], [true]⟩) (by cases sun <;> rfl)]
  rw [run_line (by decide +kernel) _ (s' := ⟨inside sun limit, [], [true]⟩) (by rfl)]
  rw [run_line (by decide +kernel) _ (line_comment rfl rfl)]
  rw [run_line (by decide +kernel) _ (line_comment rfl rfl)]
  rw [run_line (by decide +kernel) _ (line_comment rfl rfl)]
  rw [run_line (by decide +kernel) _ (line_comment rfl rfl)]
  rw [run_line (by decide +kernel) _ (line_comment rfl rfl)]
  rw [run_line (by decide +kernel) _ (s' := ⟨inside sun limit, [], [true]⟩) (by rfl)]
  rw [run_line (by decide +kernel) _ (s' := ⟨inside sun limit, [], [true]⟩) (by rfl)]
  rw [run_prog (usual_inside sun limit) rfl (by decide +kernel)]
  rfl

/-! ## The specialisations -/

/-- The lengths that have specialisations. -/
def lengths (sun : Bool) : List Nat := if sun then [1, 2, 4, 8, 16, 32, 64] else [1, 2, 4, 8, 16, 32, 64, 128, 256, 512]

theorem text_append (a b : List Str) : text (a ++ b) = text a ++ text b := by simp [text]

theorem specialisations_eq :
    specialisations (nsPrefix 4) false (powers 9).reverse =
      text ([1, 2, 4, 8, 16, 32, 64].map (specLine (nsPrefix 4))) ++ (lit "#ifndef __SUNPRO_CC" ++ '\n' ::
        (text ([128, 256, 512].map (specLine (nsPrefix 4))) ++ (lit "#endif" ++ '\n' :: []))) := by
  have h : (powers 9).reverse = [1, 2, 4, 8, 16, 32, 64, 128, 256, 512] := by decide +kernel
  have e1 : lit "#ifndef __SUNPRO_CC\n" = lit "#ifndef __SUNPRO_CC" ++ ['\n'] := by decide +kernel
  have e2 : lit "#endif\n" = lit "#endif" ++ ['\n'] := by decide +kernel
  rw [h]
  simp only [specialisations, specialisation_eq, e1, e2]
  simp [text]

theorem flatMap_specLine (l : List Nat) :
    noSp ((l.map (specLine (nsPrefix 4))).flatMap (lex [])) = l.flatMap specToks := by
  induction l with
  | nil => rfl
  | cons i l ih => rw [List.map_cons, List.flatMap_cons, noSp_append, ih, noSp_specLine]; rfl

theorem prog_specLines (l : List Nat) : (l.map (specLine (nsPrefix 4))).all progLine = true := by
  induction l with
  | nil => rfl
  | cons i l ih => rw [List.map_cons, List.all_cons, prog_specLine, ih]; rfl

theorem run_specialisations (sun : Bool) (limit : Nat) (o : List Tok) (rest : Str) :
    PP.run ⟨inside sun limit, o, [true]⟩ (L (specialisations (nsPrefix 4) false (powers 9).reverse ++ rest)) =
      PP.run ⟨inside sun limit, o ++ (lengths sun).flatMap specToks, [true]⟩ (L rest) := by
  have hT := usual_inside sun limit
  rw [specialisations_eq]
  simp only [List.append_assoc, List.cons_append, List.nil_append]
  rw [run_prog hT rfl (prog_specLines _), flatMap_specLine]
  dsimp only
  rw [run_line (by decide +kernel) _
    (s' := ⟨inside sun limit, o ++ [1, 2, 4, 8, 16, 32, 64].flatMap specToks, [!sun, true]⟩) (by cases sun <;> rfl)]
  cases sun with
  | true =>
      rw [run_inactive rfl (prog_specLines _)]
      rw [run_line (by decide +kernel) _ (s' := ⟨inside true limit, o ++ [1, 2, 4, 8, 16, 32, 64].flatMap specToks, [true]⟩)
        (by rfl)]
      rfl
  | false =>
      rw [run_prog hT rfl (prog_specLines _), flatMap_specLine]
      dsimp only
      rw [run_line (by decide +kernel) _ (s' := ⟨inside false limit, o ++ [1, 2, 4, 8, 16, 32, 64].flatMap specToks ++
        [128, 256, 512].flatMap specToks, [true]⟩) (by rfl)]
      rw [List.append_assoc, ← List.flatMap_append]
      rfl

/-! ## The limit -/

theorem run_nsEnd (sun : Bool) (limit : Nat) (o : List Tok) (rest : Str) :
    PP.run ⟨inside sun limit, o, [true]⟩ (L (nsEnd 4 ++ rest)) =
      PP.run ⟨inside sun limit, o ++ [.p '}', .p '}', .p '}', .p '}'], [true]⟩ (L rest) := by
  have e : nsEnd 4 = text [lit "      }", lit "    }", lit "  }", lit "}"] := by decide +kernel
  rw [e, run_prog (usual_inside sun limit) rfl (by decide +kernel)]
  rfl

/-- The program. -/
def program (sun : Bool) : List Tok :=
  noSp (frontLines.flatMap (lex [])) ++ (lengths sun).flatMap specToks ++ [.p '}', .p '}', .p '}', .p '}']

end Metaparse.StrHdr
