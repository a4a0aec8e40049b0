import Verif.Spec.GenerateAll
/-!
# Literals of C++ and documents with strings in them
-/

namespace Metaparse.Bench

open Gen

/-- The simple escape sequences of C++: what is after the backslash, and the character. -/
def escapes : List (Char × Char) :=
  [('n', '\n'), ('r', '\r'), ('t', '\t'), ('\\', '\\'), ('\'', '\''), ('"', '"'), ('?', '?'), ('a', '\x07'),
   ('b', '\x08'), ('f', '\x0c'), ('v', '\x0b')]

/-- One character of a literal; those in `quotes` have to be escaped. (Octal and hexadecimal escape sequences are
left out.) -/
inductive Element (quotes : List Char) : Str → Char → Prop
  | plain (c : Char) : c ∉ quotes → c ≠ '\\' → c ≠ '\n' → Element quotes [c] c
  | escape (e c : Char) : (e, c) ∈ escapes → Element quotes ['\\', e] c

/-- What is between the quotes of a string literal. -/
inductive StringBody (quotes : List Char) : Str → List Char → Prop
  | nil : StringBody quotes [] []
  | cons {a b : Str} {c : Char} {cs : List Char} : Element quotes a c → StringBody quotes b cs →
      StringBody quotes (a ++ b) (c :: cs)

/-- A list of character literals, with commas between them. -/
inductive CharLiterals : Str → List Char → Prop
  | nil : CharLiterals [] []
  | one {a : Str} {c : Char} : Element ['\''] a c → CharLiterals (['\''] ++ a ++ ['\'']) [c]
  | cons {a b : Str} {c d : Char} {cs : List Char} : Element ['\''] a c → CharLiterals b (d :: cs) →
      CharLiterals (['\''] ++ a ++ ['\'', ','] ++ b) (c :: d :: cs)

/-- The string `cs` with the macro. `'` and `"` are escaped. -/
def MacroString (w : Str) (cs : List Char) : Prop :=
  ∃ body, w = lit "BOOST_METAPARSE_STRING(\"" ++ body ++ lit "\")" ∧ StringBody ['"', '\''] body cs

/-- The string `cs` as a template instance. -/
def ManualString (w : Str) (cs : List Char) : Prop :=
  ∃ args, w = lit "::boost::metaparse::string<" ++ args ++ lit ">" ∧ CharLiterals args cs

/-- A text that does not use the macro. -/
def NoMacro (s : Str) : Prop := ¬ ∃ a b, s = a ++ lit "BOOST_METAPARSE_STRING(\"" ++ b

/-- A document: strings, written as `S` says, with other text before each and after the last one. -/
inductive Document (S : Str → List Char → Prop) : Str → List (Str × List Char) → Str → Prop
  | last {s : Str} : NoMacro s → Document S s [] s
  | cons {before w rest last : Str} {cs : List Char} {l : List (Str × List Char)} : NoMacro before → S w cs →
      Document S rest l last → Document S (before ++ w ++ rest) ((before, cs) :: l) last

/-- The trigraphs of C++ before C++17: what is after `??`, and what the three stand for. -/
def trigraphs : List (Char × Char) :=
  [('=', '#'), ('/', '\\'), ('\'', '^'), ('(', '['), (')', ']'), ('!', '|'), ('<', '{'), ('>', '}'), ('-', '~')]

/-- The first phase of translation. -/
def replaceTrigraphs : Str → Str
  | '?' :: '?' :: c :: s => match trigraphs.lookup c with
      | some d => d :: replaceTrigraphs s
      | none => '?' :: replaceTrigraphs ('?' :: c :: s)
  | c :: s => c :: replaceTrigraphs s
  | [] => []

/-- The characters that strings of benchmarks have. There is no comma, and there are no bytes that are not ASCII. -/
def writable : List Char :=
  lit "abcdefghijklmnopqrstuvwxyzABCDEFGHIJKLMNOPQRSTUVWXYZ0123456789_.:; !?+-/=<>$()@~`|#[]{}&*^%\"'\\\n\r\t"

/-- A text with every character as many times as the statistics say. -/
def unrolled (m : List (Char × Nat)) : List Char := m.flatMap fun x => List.replicate x.2 x.1

/-- The files at the end, when they are written in this order and a later one replaces an earlier one. -/
def contentOf {α : Type} (written : List (Str × α)) (name : Str) : Option α :=
  (written.reverse.find? fun x => x.1 == name).map Prod.snd

/-- How long the printed units are together, in ticks, when a second has `u` ticks. -/
def totalTicks (u : Nat) (l : List (Nat × Nat)) : Nat := (l.map fun x => x.1 * x.2 * u).sum

/-- The units, in seconds. -/
def unitSeconds : List (Str × Nat) :=
  [(lit "second", 1), (lit "minute", 60), (lit "hour", 60 * 60), (lit "day", 24 * 60 * 60),
   (lit "week", 7 * 24 * 60 * 60)]

/-- A printed duration: values with units, the longest unit first and none twice, with plurals, separated by blanks. -/
inductive PrintedTime : List (Nat × Nat) → Str → Prop
  | nil : PrintedTime [] []
  | one {v d : Nat} {name : Str} : (name, d) ∈ unitSeconds → 1 ≤ v →
      PrintedTime [(v, d)] (digitsOf v ++ lit " " ++ name ++ if v = 1 then [] else lit "s")
  | cons {v d : Nat} {name : Str} {v' d' : Nat} {l : List (Nat × Nat)} {s : Str} : (name, d) ∈ unitSeconds → 1 ≤ v →
      d' < d → PrintedTime ((v', d') :: l) s →
      PrintedTime ((v, d) :: (v', d') :: l)
        (digitsOf v ++ lit " " ++ name ++ (if v = 1 then [] else lit "s") ++ lit " " ++ s)

end Metaparse.Bench
