import Verif.Spec.Subparsers
import Verif.Spec.Agreement
/-!
# Putting a parser in place of another
-/

namespace Metaparse

mutual

/-- The parser expression with `q` in place of every use of the user's parser number `h` (which so serves
as the hole of the expression). -/
def fill (h : Nat) (q : P) : P → P
  | .oneChar => .oneChar
  | .empty v => .empty v
  | .fail m => .fail m
  | .ret v => .ret v
  | .acceptWhen p f m => .acceptWhen (fill h q p) f m
  | .changeErrorMessage p m => .changeErrorMessage (fill h q p) m
  | .transformErrorMessage p f => .transformErrorMessage (fill h q p) f
  | .transformError p k => .transformError (fill h q p) k
  | .transform p f => .transform (fill h q p) f
  | .always p v => .always (fill h q p) v
  | .lookAhead p => .lookAhead (fill h q p)
  | .except p v m => .except (fill h q p) v m
  | .optional p d => .optional (fill h q p) d
  | .if_ p t f => .if_ (fill h q p) t f
  | .failAtFirstCharExpected p => .failAtFirstCharExpected (fill h q p)
  | .foldl p st op => .foldl (fill h q p) st op
  | .foldlRejectIncomplete p st op => .foldlRejectIncomplete (fill h q p) st op
  | .foldlStartWithParser p sp op => .foldlStartWithParser (fill h q p) (fill h q sp) op
  | .foldlRejectIncompleteStartWithParser p sp op =>
      .foldlRejectIncompleteStartWithParser (fill h q p) (fill h q sp) op
  | .foldrStartWithParser p sp op => .foldrStartWithParser (fill h q p) (fill h q sp) op
  | .ifAccepts p p' => .ifAccepts (fill h q p) (fill h q p')
  | .sequence ps => .sequence (fillL h q ps)
  | .oneOf ps => .oneOf (fillL h q ps)
  | .nthOfC n ps => .nthOfC n (fillL h q ps)
  | .lastOf ps => .lastOf (fillL h q ps)
  | .middleOf p1 p2 p3 => .middleOf (fill h q p1) (fill h q p2) (fill h q p3)
  | .iterate n p accum => .iterate n (fill h q p) accum
  | .keyword kw v => .keyword kw v
  | .oneOfC cs => .oneOfC cs
  | .oneCharExceptC cs => .oneCharExceptC cs
  | .ref i => .ref i
  | .native i => if i = h then q else .native i

/-- The same for a list of parsers. -/
def fillL (h : Nat) (q : P) : List P → List P
  | [] => []
  | p :: ps => fill h q p :: fillL h q ps

end

variable {I : Type}

/-- The environment with `f` as the user's parser number `h`. -/
def Env.withNative (E : Env I) (h : Nat) (f : Sem I) : Env I :=
  { E with native := fun i => if i = h then f else E.native i }

/-- The program with `q` in place of every use of the user's parser number `h` in the definitions of its
parser classes. -/
def Env.fillRules (E : Env I) (h : Nat) (q : P) : Env I :=
  { E with rules := fun i => fill h q (E.rules i) }

/-- The expression does not use the user's parser number `h` in this layer. -/
def P.NotHole (h : Nat) : P → Prop
  | .native i => i ≠ h
  | _ => True

end Metaparse
