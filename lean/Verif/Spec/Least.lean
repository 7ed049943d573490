import Verif.Spec.Ladder
import Verif.Spec.Atoms
/-!
# The fewest parentheses (for C37)
-/

namespace BoolParser.Spec

mutual
/-- Insert the parentheses the binding strengths require, everywhere in a calculation. -/
def Arith.least : Arith → Arith
  | .field f => .field f
  | .lit l => .lit l
  | .group e => .group e.least
  | .op o l r => .op o (Arith.wrap (l.level < strength o) l.least) (Arith.wrap (r.level < strength o + 1) r.least)
  | .neg e => .neg (Arith.wrap (e.level < 13) e.least)
  | .call f args => .call f (Arith.leasts args)
def Arith.leasts : List Arith → List Arith
  | [] => []
  | e :: es => e.least :: Arith.leasts es
end

/-- The same for conditions: comparisons bind more strongly than operators (a minus may stand right of one), NOT takes
what cannot be read otherwise, AND and OR bind to the left. -/
def Cond.least : Cond → Cond
  | .cmp o l r => .cmp o (Arith.wrap (l.level < 16) l.least) (Arith.wrap (r.level < 13) r.least)
  | .cmpD o r => .cmpD o (Arith.wrap (r.level < 13) r.least)
  | .isNull f eq => .isNull f eq
  | .range f lo hi => .range f lo hi
  | .isIn f neg items => .isIn f neg (Arith.leasts items)
  | .contains f o items => .contains f o (Arith.leasts items)
  | .notField f => .notField f
  | .not c => .not (Cond.wrap (!c.tight) c.least)
  | .group c => .group c.least
  | .conn b l r => .conn b l.least (Cond.wrap r.isConn r.least)

mutual
/-- The same calculation without its parentheses. -/
def Arith.strip : Arith → Arith
  | .field f => .field f
  | .lit l => .lit l
  | .group e => e.strip
  | .op o l r => .op o l.strip r.strip
  | .neg e => .neg e.strip
  | .call f args => .call f (Arith.strips args)
def Arith.strips : List Arith → List Arith
  | [] => []
  | e :: es => e.strip :: Arith.strips es
end

/-- The same condition without its parentheses. -/
def Cond.strip : Cond → Cond
  | .cmp o l r => .cmp o l.strip r.strip
  | .cmpD o r => .cmpD o r.strip
  | .isNull f eq => .isNull f eq
  | .range f lo hi => .range f lo hi
  | .isIn f neg items => .isIn f neg (Arith.strips items)
  | .contains f o items => .contains f o (Arith.strips items)
  | .notField f => .notField f
  | .not c => .not c.strip
  | .group c => c.strip
  | .conn b l r => .conn b l.strip r.strip

end BoolParser.Spec
