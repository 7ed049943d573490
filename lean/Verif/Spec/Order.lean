import Verif.Spec.Fragment
/-!
# Which conditions can change places (for C43)
-/

namespace BoolParser.Spec.Cond

/-- The test that is written first. -/
def leftmost : Cond → Cond
  | .not c => c.leftmost
  | .group c => c.leftmost
  | .conn _ l _ => l.leftmost
  | c => c

/-- A comparison of two fields or literals, or a null check; an operand may be omitted. -/
def plainTest : Cond → Bool
  | .cmp _ l r => l.isAtom && r.isAtom
  | .cmpD _ r => r.isAtom
  | .isNull _ _ => true
  | _ => false

/-- `NOT f` for a field `f`. -/
def bareNot : Cond → Bool
  | .notField _ => true
  | _ => false

/-- A range, CONTAINS or unnegated IN test, perhaps in parentheses. -/
def membership : Cond → Bool
  | .range _ _ _ => true
  | .isIn _ negated _ => !negated
  | .contains _ _ _ => true
  | .group c => c.membership
  | _ => false

/-- `x` can be moved behind `y`: its lists and calls have plain items only and no comparison in it has two calls; it does
not begin with `NOT f`; and it does not begin with a plain comparison if `y` is a membership test. -/
def MayFollow (x y : Cond) : Prop :=
  x.tidy = true ∧ x.leftmost.bareNot = false ∧ ¬ (y.membership = true ∧ x.leftmost.plainTest = true)

end BoolParser.Spec.Cond
