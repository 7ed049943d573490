import Verif.Spec.Ladder
/-!
# The node a condition stands for
-/

namespace BoolParser.Spec
open BoolParser

namespace Arith

/-- The data type of the first operand written: that of a literal, text for anything else. -/
def firstType : Arith → DataType
  | .lit l => l.type
  | .op _ l _ => l.firstType
  | _ => .string

end Arith

namespace Cond

/-- The node of a condition. Parentheses leave no trace; an omitted operand is the default field; a comparison is
tagged with the data type of its right operand, or of the left one if that is a field or a literal and the right one is
not; `NOT f` for a bare field holds the name as a text. -/
def node (df : Option JStr) : Cond → Node
  | .cmp o l r => .cmp l.node r.node o (if l.isAtom && !r.isAtom then l.firstType else r.firstType)
  | .cmpD o r => .cmp (.field df) r.node o (if r.isAtom then r.firstType else .string)
  | .isNull f eq => .cmp (.field (some f)) (.field (some j!"null")) (if eq then .eq else .ne) .string
  | .range f lo hi => .range f lo.value hi.value lo.type hi.type
  | .isIn f negated items => if negated then .not_ (.inn f (Arith.nodes items)) else .inn f (Arith.nodes items)
  | .contains f o items => .array f o (Arith.nodes items)
  | .notField f => .not_ (.unary .string (.str f))
  | .not c => .not_ (c.node df)
  | .group c => c.node df
  | .conn conj l r => if conj then .and_ (l.node df) (r.node df) else .or_ (l.node df) (r.node df)

/-- Is the left operand of a comparison omitted somewhere? -/
def usesDefault : Cond → Bool
  | .cmpD _ _ => true
  | .not c => c.usesDefault
  | .group c => c.usesDefault
  | .conn _ l r => l.usesDefault || r.usesDefault
  | _ => false

end Cond
end BoolParser.Spec
