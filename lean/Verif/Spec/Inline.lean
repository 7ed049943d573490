import Verif.Spec.Fragment
/-!
# Writing values in place of fields
-/

namespace BoolParser.Spec
open BoolParser

namespace Arith

mutual
/-- Write the literal `σ f`, if there is one, for every field `f`. -/
def inline (σ : JStr → Option Lit) : Arith → Arith
  | .field f => match σ f with
    | some l => .lit l
    | none => .field f
  | .lit l => .lit l
  | .group e => .group (inline σ e)
  | .op o l r => .op o (inline σ l) (inline σ r)
  | .neg e => .neg (inline σ e)
  | .call f args => .call f (inlineAll σ args)
def inlineAll (σ : JStr → Option Lit) : List Arith → List Arith
  | [] => []
  | e :: es => inline σ e :: inlineAll σ es
end

end Arith

namespace Cond

/-- Write the literal `σ f`, if there is one, for every field `f` that is an operand, an argument or a list item. (The
tested field of a range, IN, CONTAINS or null test and of `NOT f` must be a field and stays.) -/
def inline (σ : JStr → Option Lit) : Cond → Cond
  | .cmp o l r => .cmp o (l.inline σ) (r.inline σ)
  | .cmpD o r => .cmpD o (r.inline σ)
  | .isNull f eq => .isNull f eq
  | .range f lo hi => .range f lo hi
  | .isIn f negated items => .isIn f negated (Arith.inlineAll σ items)
  | .contains f o items => .contains f o (Arith.inlineAll σ items)
  | .notField f => .notField f
  | .not c => .not (c.inline σ)
  | .group c => .group (c.inline σ)
  | .conn conj l r => .conn conj (l.inline σ) (r.inline σ)

end Cond
end BoolParser.Spec
