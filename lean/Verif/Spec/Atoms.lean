import Verif.Spec.Nodes
/-!
# The names and literals of an expression
-/

namespace BoolParser.Spec
open BoolParser

/-- What an expression is built from: a field name, or the value of a literal. -/
inductive Item where
  | name (f : JStr)
  | value (v : Value)

mutual
/-- The names and literal values of an arithmetic expression, from left to right. -/
def Arith.items : Arith → List Item
  | .field f => [.name f]
  | .lit l => [.value l.value]
  | .group e => e.items
  | .op _ l r => l.items ++ r.items
  | .neg e => e.items
  | .call _ args => Arith.itemsAll args
def Arith.itemsAll : List Arith → List Item
  | [] => []
  | e :: es => e.items ++ Arith.itemsAll es
end

/-- The names and literal values of a condition, from left to right, without the bounds of ranges. `NOT f` for a bare
field counts as the text `f`. -/
def Cond.items : Cond → List Item
  | .cmp _ l r => l.items ++ r.items
  | .cmpD _ r => r.items
  | .isNull f _ => [.name f]
  | .range f _ _ => [.name f]
  | .isIn f _ es => .name f :: Arith.itemsAll es
  | .contains f _ es => .name f :: Arith.itemsAll es
  | .notField f => [.value (.str f)]
  | .not c => c.items
  | .group c => c.items
  | .conn _ l r => l.items ++ r.items

/-- No name and no literal occurs twice; the word `null` and, where operands are omitted, the default field are not
used as names. -/
structure Cond.Distinct (df : Option JStr) (c : Cond) : Prop where
  once : c.items.Nodup
  null : .name j!"null" ∉ c.items
  dflt : c.usesDefault = true → ∀ f, df = some f → .name f ∉ c.items

/-- A field or literal in any number of parentheses. -/
def Arith.bare : Arith → Bool
  | .field _ => true
  | .lit _ => true
  | .group e => e.bare
  | _ => false

end BoolParser.Spec
