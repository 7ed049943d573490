import Verif.Spec.Paths
import Verif.Spec.Fragment
/-!
# Conditions that are a single test (for C96 and C97)
-/

namespace BoolParser.Spec

/-- No AND and no OR: a comparison, null check, range, IN or CONTAINS test or `NOT f`, also negated or in parentheses. -/
def Cond.single : Cond → Bool
  | .not c => c.single
  | .group c => c.single
  | .conn _ _ _ => false
  | _ => true

/-- A null check, also negated or in parentheses. -/
def Cond.isNullTest : Cond → Bool
  | .not c => c.isNullTest
  | .group c => c.isNullTest
  | .isNull _ _ => true
  | _ => false

end BoolParser.Spec
