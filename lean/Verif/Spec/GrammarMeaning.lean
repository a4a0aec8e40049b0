import Verif.Spec.Grammar
/-!
# What grammars mean

The meaning of rules as a parsing expression grammar, without any of the combinators of the library.
-/

namespace Metaparse

/-- What each name stands for: its rule (or imported parser) and its semantic action. -/
structure RuleSet where
  body : List Chr → Option RuleBody
  action : List Chr → Option (Val → Val)

/-- The rule set of a grammar. -/
def Grammar.ruleSet (G : Grammar) : RuleSet := ⟨fun n => G.rules.lookup n, fun n => G.actions.lookup n⟩

/-- The result after the semantic action, if there is one. -/
inductive Acted : Option (Val → Val) → Val → Val → Prop
  | plain (v : Val) : Acted none v v
  | action {f : Val → Val} {v w : Val} : (f v).force = .ok w → Acted (some f) v w

/-- An expression, or as many of it as there are. -/
inductive Goal where
  | exp (e : GExp)
  | many (e : GExp)

/-- `Means R E g s pos r`: at the text `s` and the position `pos`, `g` gives `r`: nothing (it does not
match), or a result with the text and the position after it.  `E` is the environment of the imported
parsers. -/
inductive Means (R : RuleSet) (E : Env (List Chr)) :
    Goal → List Chr → Pos → Option (Val × List Chr × Pos) → Prop
  /-- a quoted character matches itself -/
  | chr (c : Chr) (s : List Chr) (pos : Pos) :
      Means R E (.exp (.chr c)) (c :: s) pos (some (.chr c, s, moveOver pos [c]))
  | noChr (c : Chr) {s : List Chr} (pos : Pos) : s.head? ≠ some c →
      Means R E (.exp (.chr c)) s pos none
  /-- a name that was imported -/
  | native {n : List Chr} {p : P} {s : List Chr} {pos : Pos} {v w : Val} {s' : List Chr} {pos' : Pos} :
      R.body n = some (.native p) → Accepts E p s pos v s' pos' → Acted (R.action n) v w →
      Means R E (.exp (.name n)) s pos (some (w, s', pos'))
  | noNative {n : List Chr} {p : P} {s : List Chr} {pos : Pos} {m : Msg} {e : Pos} :
      R.body n = some (.native p) → Rejects E p s pos m e → Means R E (.exp (.name n)) s pos none
  /-- a name with a rule -/
  | rule {n : List Chr} {e : GExp} {s : List Chr} {pos : Pos} {v w : Val} {s' : List Chr} {pos' : Pos} :
      R.body n = some (.parsed e) → Means R E (.exp e) s pos (some (v, s', pos')) →
      Acted (R.action n) v w → Means R E (.exp (.name n)) s pos (some (w, s', pos'))
  | noRule {n : List Chr} {e : GExp} {s : List Chr} {pos : Pos} :
      R.body n = some (.parsed e) → Means R E (.exp e) s pos none →
      Means R E (.exp (.name n)) s pos none
  /-- one after the other; the result is the sequence of the two results -/
  | seq {a b : GExp} {s : List Chr} {pos : Pos} {v w : Val} {s1 s2 : List Chr} {pos1 pos2 : Pos} :
      Means R E (.exp a) s pos (some (v, s1, pos1)) →
      Means R E (.exp b) s1 pos1 (some (w, s2, pos2)) →
      Means R E (.exp (.seq a b)) s pos (some (.seq [v, w], s2, pos2))
  | noSeq1 {a b : GExp} {s : List Chr} {pos : Pos} : Means R E (.exp a) s pos none →
      Means R E (.exp (.seq a b)) s pos none
  | noSeq2 {a b : GExp} {s : List Chr} {pos : Pos} {v : Val} {s1 : List Chr} {pos1 : Pos} :
      Means R E (.exp a) s pos (some (v, s1, pos1)) → Means R E (.exp b) s1 pos1 none →
      Means R E (.exp (.seq a b)) s pos none
  /-- the first that matches; both are tried -/
  | selFirst {a b : GExp} {s : List Chr} {pos : Pos} {x : Val × List Chr × Pos}
      {y : Option (Val × List Chr × Pos)} : Means R E (.exp a) s pos (some x) →
      Means R E (.exp b) s pos y → Means R E (.exp (.sel a b)) s pos (some x)
  | selSecond {a b : GExp} {s : List Chr} {pos : Pos} {y : Option (Val × List Chr × Pos)} :
      Means R E (.exp a) s pos none → Means R E (.exp b) s pos y →
      Means R E (.exp (.sel a b)) s pos y
  /-- repetition, until it does not match any more; the result is the sequence of the results -/
  | manyNil {e : GExp} {s : List Chr} {pos : Pos} : Means R E (.exp e) s pos none →
      Means R E (.many e) s pos (some (.seq [], s, pos))
  | manyCons {e : GExp} {s : List Chr} {pos : Pos} {v : Val} {s1 : List Chr} {pos1 : Pos}
      {vs : List Val} {s2 : List Chr} {pos2 : Pos} :
      Means R E (.exp e) s pos (some (v, s1, pos1)) →
      Means R E (.many e) s1 pos1 (some (.seq vs, s2, pos2)) →
      Means R E (.many e) s pos (some (.seq (v :: vs), s2, pos2))
  /-- `*` (the rule parser only makes `*` and `+`) -/
  | star {op : Chr} {e : GExp} {s : List Chr} {pos : Pos} {x : Val × List Chr × Pos} : op ≠ ch '+' →
      Means R E (.many e) s pos (some x) → Means R E (.exp (.rep op e)) s pos (some x)
  /-- `+` -/
  | plus {e : GExp} {s : List Chr} {pos : Pos} {v : Val} {vs : List Val} {s' : List Chr} {pos' : Pos} :
      Means R E (.many e) s pos (some (.seq (v :: vs), s', pos')) →
      Means R E (.exp (.rep (ch '+') e)) s pos (some (.seq (v :: vs), s', pos'))
  | noPlus {e : GExp} {s : List Chr} {pos : Pos} : Means R E (.exp e) s pos none →
      Means R E (.exp (.rep (ch '+') e)) s pos none

/-! ## Which names a name needs -/

/-- The names in an expression. -/
def GExp.names : GExp → List (List Chr)
  | .chr _ => []
  | .name n => [n]
  | .rep _ e => e.names
  | .seq a b => a.names ++ b.names
  | .sel a b => a.names ++ b.names

/-- The rule of `a` mentions `b`. -/
def RuleSet.Uses (R : RuleSet) (a b : List Chr) : Prop :=
  ∃ e, R.body a = some (.parsed e) ∧ b ∈ e.names

/-- `a` uses `b`, directly or through other rules. -/
inductive RuleSet.Needs (R : RuleSet) : List Chr → List Chr → Prop
  | uses {a b : List Chr} : R.Uses a b → R.Needs a b
  | trans {a b c : List Chr} : R.Uses a b → R.Needs b c → R.Needs a c

/-! ## Definitions in the order in which they are given -/

/-- The link of the chain defines the name `n` as `b`. -/
def Grammar.Addition.Defines : Grammar.Addition → List Chr → RuleBody → Prop
  | .rule text _, n, b => ∃ e, IsRule text n e ∧ b = .parsed e
  | .import_ name p, n, b => (∃ rest, Tokens name [.name n] rest) ∧ b = .native p

/-- The link of the chain sets the semantic action of `n` to `f`. -/
def Grammar.Addition.SetsAction : Grammar.Addition → List Chr → (Val → Val) → Prop
  | .rule text a, n, f => (∃ e, IsRule text n e) ∧ a = some f
  | .import_ _ _, _, _ => False

/-- The last definition of `n` is `b`. -/
def LastDefinition (l : List Grammar.Addition) (n : List Chr) (b : RuleBody) : Prop :=
  ∃ before a after, l = before ++ a :: after ∧ a.Defines n b ∧ ∀ a' ∈ after, ∀ b', ¬ a'.Defines n b'

/-- The last semantic action given for `n` is `f`. -/
def LastAction (l : List Grammar.Addition) (n : List Chr) (f : Val → Val) : Prop :=
  ∃ before a after, l = before ++ a :: after ∧ a.SetsAction n f ∧
    ∀ a' ∈ after, ∀ f', ¬ a'.SetsAction n f'

end Metaparse
