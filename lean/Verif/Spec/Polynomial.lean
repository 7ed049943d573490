import Verif.Spec.Arithmetic
import Verif.Spec.Paths
/-!
# Polynomials
-/

namespace BoolParser.Spec
open BoolParser

namespace Arith

/-- Fields and whole number literals combined with `+`, `*` and parentheses. -/
def Polynomial : Arith → Prop
  | .field _ => True
  | .lit (.int _) => True
  | .group e => e.Polynomial
  | .op .add l r => l.Polynomial ∧ r.Polynomial
  | .op .mul l r => l.Polynomial ∧ r.Polynomial
  | _ => False

/-- The value of a polynomial among the integers, the fields standing for `ρ`. -/
def integer (ρ : JStr → ℤ) : Arith → ℤ
  | .field f => ρ f
  | .lit (.int ds) => digitsValue ds
  | .group e => e.integer ρ
  | .op .add l r => l.integer ρ + r.integer ρ
  | .op .mul l r => l.integer ρ * r.integer ρ
  | _ => 0

end Arith

/-- The data hold the whole numbers `ρ` for the fields of `e`, as `Integer`s or `Long`s. -/
def HoldsWhole (d : Data) (e : Arith) (ρ : JStr → ℤ) : Prop :=
  ∀ f ∈ e.fields, ∃ ks v, Names f ks ∧ Reaches d ks v ∧ Whole v (ρ f)

end BoolParser.Spec
