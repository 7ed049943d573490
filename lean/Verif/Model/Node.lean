import Verif.Model.Functions
/-!
# Nodes (`domain/*`): what the parser returns
-/

namespace BoolParser

/-- `domain/logical/*.java`, `domain/arithmetic/*.java`, `domain/FieldNode.java`.
`and_`/`or_`/`not_` are `BooleanNode` (for NOT the right child is null), `neg` is `ArithmeticNode` with
operator UNARY, `field none` is a `FieldNode` holding a null name (omitted operand, no default field). -/
inductive Node where
  | cmp (l r : Node) (op : CmpOp) (dt : DataType)
  | range (f : JStr) (lo hi : Value) (loT hiT : DataType)
  | inn (f : JStr) (items : List Node)
  | array (f : JStr) (op : ArrOp) (items : List Node)
  | unary (dt : DataType) (v : Value)
  | and_ (l r : Node)
  | or_ (l r : Node)
  | not_ (l : Node)
  | field (f : Option JStr)
  | arith (op : ArithOp) (l r : Node)
  | neg (l : Node)
  | func (f : FuncType) (items : List Node)

namespace Node

/-- `instanceof ArithmeticBaseNode`: `FieldNode`, `UnaryNode`, `ArithmeticNode`,
`ArithmeticFunctionNode`. -/
def isArithBase : Node → Bool
  | .field _ => true
  | .unary _ _ => true
  | .arith _ _ _ => true
  | .neg _ => true
  | .func _ _ => true
  | _ => false

/-- `instanceof ArithmeticNode`. -/
def isArithNode : Node → Bool
  | .arith _ _ _ => true
  | .neg _ => true
  | _ => false

/-- `instanceof ComparisonNode || instanceof BooleanNode`
(`parser/antlr/BooleanFilterListener.java:159`). -/
def isCmpOrBool : Node → Bool
  | .cmp _ _ _ _ => true
  | .and_ _ _ => true
  | .or_ _ _ => true
  | .not_ _ => true
  | _ => false

/-- `instanceof FieldNode && isNull()` (`domain/FieldNode.java:22-24`); a null name throws. -/
def isNullField : Node → Result Bool
  | .field (some f) => .ok (lower f == j!"null")
  | .field none => .error .nullPointer
  | _ => .ok false

end Node

/-- `ComparisonNode.isNullCheck` (`domain/logical/ComparisonNode.java:34-36`): only for `=`/`!=`; the
right operand is looked at first. -/
def isNullCheck (op : CmpOp) (l r : Node) : Result Bool :=
  if op == .eq || op == .ne then do
    let b ← r.isNullField
    if b then pure true else l.isNullField
  else .ok false

end BoolParser
