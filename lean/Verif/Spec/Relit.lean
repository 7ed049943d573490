import Verif.Spec.Expr
/-!
# Writing the literals of an expression differently
-/

namespace BoolParser.Spec
open BoolParser

namespace Arith

mutual
/-- Replace every literal `l` by `g l`. -/
def mapLit (g : Lit → Lit) : Arith → Arith
  | .field f => .field f
  | .lit l => .lit (g l)
  | .group e => .group (mapLit g e)
  | .op o l r => .op o (mapLit g l) (mapLit g r)
  | .neg e => .neg (mapLit g e)
  | .call f args => .call f (mapLits g args)
def mapLits (g : Lit → Lit) : List Arith → List Arith
  | [] => []
  | e :: es => mapLit g e :: mapLits g es
end

end Arith

namespace Cond

/-- Replace every literal `l` by `g l`. -/
def mapLit (g : Lit → Lit) : Cond → Cond
  | .cmp o l r => .cmp o (l.mapLit g) (r.mapLit g)
  | .cmpD o r => .cmpD o (r.mapLit g)
  | .isNull f eq => .isNull f eq
  | .range f lo hi => .range f (g lo) (g hi)
  | .isIn f n items => .isIn f n (Arith.mapLits g items)
  | .contains f o items => .contains f o (Arith.mapLits g items)
  | .notField f => .notField f
  | .not c => .not (c.mapLit g)
  | .group c => .group (c.mapLit g)
  | .conn b l r => .conn b (l.mapLit g) (r.mapLit g)

end Cond

/-- Write the value of the same literal in another way: a literal for a literal, a number for a number. -/
structure SameLit (g : Lit → Lit) : Prop where
  value : ∀ l, (g l).value = l.value
  valid : ∀ l, l.Valid → (g l).Valid
  number : ∀ l, (g l).isNumber = l.isNumber

end BoolParser.Spec
