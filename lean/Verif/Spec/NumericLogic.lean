import Verif.Spec.Lists
import Verif.Spec.Paths
/-!
# Conditions about numbers
-/

namespace BoolParser.Spec
open BoolParser

namespace Arith

/-- A field or a number literal. -/
def isNumeric : Arith → Bool
  | .field _ => true
  | .lit l => l.isNumber
  | _ => false

/-- The number a field (under `ρ`) or a number literal stands for. -/
def rational (ρ : JStr → ℚ) : Arith → ℚ
  | .field f => ρ f
  | .lit l => l.number
  | _ => 0

end Arith

namespace Cond

/-- Comparisons, ranges and IN tests of fields and number literals, combined with NOT, AND, OR and parentheses. -/
def isNumeric : Cond → Bool
  | .cmp _ l r => l.isNumeric && r.isNumeric
  | .range _ _ _ => true
  | .isIn _ _ items => items.all Arith.isNumeric
  | .not c => c.isNumeric
  | .group c => c.isNumeric
  | .conn _ l r => l.isNumeric && r.isNumeric
  | _ => false

/-- What such a condition says about the numbers `ρ`. -/
def Says (ρ : JStr → ℚ) : Cond → Prop
  | .cmp o l r => Rel o (l.rational ρ) (r.rational ρ)
  | .range f lo hi => lo.number ≤ ρ f ∧ ρ f ≤ hi.number
  | .isIn f negated items => if negated then ∀ i ∈ items, ρ f ≠ i.rational ρ else ∃ i ∈ items, ρ f = i.rational ρ
  | .not c => ¬ c.Says ρ
  | .group c => c.Says ρ
  | .conn conj l r => if conj then l.Says ρ ∧ r.Says ρ else l.Says ρ ∨ r.Says ρ
  | _ => False

end Cond

/-- The data hold the numbers `ρ` for the fields `fs`, each as an `Integer`, `Long`, `BigDecimal`, `Double` or
`Float`. -/
def HoldsNumbers (d : Data) (fs : List JStr) (ρ : JStr → ℚ) : Prop :=
  ∀ f ∈ fs, ∃ ks v, Names f ks ∧ Reaches d ks v ∧ Num v (ρ f)

end BoolParser.Spec
