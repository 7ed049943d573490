import Verif.Spec.Expr
import Verif.Model.Api
/-!
# Texts of expressions

`Writes s c`: the text `s` is a way to write the condition `c` that the library understands. `Basic`
conditions are the ones of the README's first examples; for them every way of writing is understood.
-/

namespace BoolParser.Spec
open BoolParser

/-- The word `null` (any letter case) is not used as default field. -/
def DefaultOk (df : Option JStr) : Prop := ∀ f, df = some f → (lower f == j!"null") = false

/-- The text `s` writes the condition `c`: well-formed names and literals, parentheses where binding
strength requires them, none of the constructs the library's parser garbles; any white space, any of the
keyword spellings. -/
structure Writes (s : JStr) (c : Cond) : Prop where
  valid : c.Valid
  grouped : c.Grouped
  readable : c.readable .nothing = true
  renders : Renders c.lexemes s

/-- The text `s` writes the compound arithmetic expression `e`. -/
structure WritesArith (s : JStr) (e : Arith) : Prop where
  valid : e.Valid
  grouped : e.Grouped
  readable : e.readable false = true
  compound : e.isAtom = false
  renders : Renders e.lexemes s

namespace Cond

/-- Comparisons of fields and literals, AND, OR, NOT and parentheses. -/
def basic : Cond → Bool
  | .cmp _ l r => l.isAtom && r.isAtom
  | .not c => c.basic
  | .group c => c.basic
  | .conn _ l r => l.basic && r.basic
  | _ => false

/-- `(x) AND (y)`. -/
def conj (x y : Cond) : Cond := .conn true (.group x) (.group y)
/-- `(x) OR (y)`. -/
def disj (x y : Cond) : Cond := .conn false (.group x) (.group y)
/-- `NOT (x)`. -/
def neg (x : Cond) : Cond := .not (.group x)

/-- The comparisons in a basic condition. -/
def comparisons : Cond → List (CmpOp × Arith × Arith)
  | .cmp o l r => [(o, l, r)]
  | .not c => c.comparisons
  | .group c => c.comparisons
  | .conn _ l r => l.comparisons ++ r.comparisons
  | _ => []

/-- The propositional truth value of a basic condition, given the truth of its comparisons. -/
def truth (ρ : CmpOp × Arith × Arith → Bool) : Cond → Bool
  | .cmp o l r => ρ (o, l, r)
  | .not c => !c.truth ρ
  | .group c => c.truth ρ
  | .conn true l r => l.truth ρ && r.truth ρ
  | .conn false l r => l.truth ρ || r.truth ρ
  | _ => false

end Cond

namespace Arith

/-- Fields, literals, `+ - * / % ^` and parentheses around compound expressions. -/
def basic : Arith → Bool
  | .field _ => true
  | .lit _ => true
  | .group e => !e.isAtom && e.basic
  | .op _ l r => l.basic && r.basic
  | _ => false

/-- `e`, in parentheses if it is compound. -/
def paren (e : Arith) : Arith := if e.isAtom then e else .group e

/-- An operator applied to operands that are parenthesised when compound. -/
def apart (o : ArithOp) (l r : Arith) : Arith := .op o l.paren r.paren

end Arith
end BoolParser.Spec

namespace BoolParser.Spec.Cond
open BoolParser

/-- Write the field `f` where the left operand of a comparison is omitted. -/
def fill (f : JStr) : Cond → Cond
  | .cmpD o r => .cmp o (.field f) r
  | .not c => .not (c.fill f)
  | .group c => .group (c.fill f)
  | .conn b l r => .conn b (l.fill f) (r.fill f)
  | c => c

end BoolParser.Spec.Cond

namespace BoolParser.Outcome

/-- Apply a function to a successful outcome. -/
def map {α β : Type} (f : α → β) : Outcome α → Outcome β
  | .success a => .success (f a)
  | .failure e => .failure e
  | .syntaxError => .syntaxError

end BoolParser.Outcome
