import Verif.Model.Node
/-!
# The two evaluators (`application/*`)
-/

namespace BoolParser

/-- `Optional.of(value)`: throws on null. -/
def optOf : Value → Result (Option Value)
  | .null => .error .nullPointer
  | v => .ok (some v)

/-- `getValueFromMap(field, data)` for a possibly null field name (`key.split` throws on null). -/
def lookupField (f : Option JStr) (d : Data) : Result (Option Value) :=
  match f with
  | none => .error .nullPointer
  | some k => getValueFromMap k d

/-- `getValueFromMap(..).orElseThrow(DataNotFoundException)`. -/
def requireField (f : Option JStr) (d : Data) : Result Value := do
  let o ← lookupField f d
  match o with
  | some v => pure v
  | none => throw .dataNotFound

mutual
/-- `ArithmeticExpressionEvaluator.evaluateToken` and the methods it dispatches to
(`application/ArithmeticExpressionEvaluator.java:50-121`). The branches on `EvaluatedNode` (lines 89-93
and 100-114) are taken only if the data holds such objects: see `Model/Wrapped`. -/
def evalArith (env : Env) (d : Data) : Node → Result Value
  | .arith op l r => do
    let a ← evalArith env d l
    let b ← evalArith env d r
    arithBinary env op a (getDataType a) b (getDataType b)
  | .neg l => do
    let a ← evalArith env d l
    arithNegate a (getDataType a)
  | .func f items => do
    let vs ← evalArithAll env d items
    callFn env f (flattenItems vs)
  | .unary _ v => .ok v
  | .field f => requireField f d
  | _ => .error .unsupportedToken
/-- The stream `items.map(item -> evaluate(item, data))`
(`application/ArithmeticExpressionEvaluator.java:78-81`). -/
def evalArithAll (env : Env) (d : Data) : List Node → Result (List Value)
  | [] => .ok []
  | n :: ns => do
    let v ← evalArith env d n
    let vs ← evalArithAll env d ns
    pure (v :: vs)
end

/-- `BooleanExpressionEvaluator.getValue` (`application/BooleanExpressionEvaluator.java:76-89`);
`b` is the (lazily used) outcome of `evaluateToken(node, data)`. -/
def operandValue (env : Env) (d : Data) (n : Node) (b : Result Bool) : Result (Option Value) :=
  match n with
  | .field f => lookupField f d
  | .unary _ v => optOf v
  | _ =>
    if n.isArithBase then do
      let v ← evalArith env d n
      optOf v
    else do
      let x ← b
      pure (some (.bool x))

/-- `evaluateComparisonToken` (`application/BooleanExpressionEvaluator.java:91-101`), given the operands'
`getValue` outcomes. -/
def evalComparison (op : CmpOp) (l r : Node) (lv rv : Result (Option Value)) : Result Bool := do
  let lo ← lv
  let nullCheck ← isNullCheck op l r
  let a ← (if nullCheck then pure (lo.getD (.str j!"null"))
           else match lo with
             | some v => pure v
             | none => throw .dataNotFound : Result Value)
  let b ← (if nullCheck then pure (.str j!"null")
           else do
             let ro ← rv
             match ro with
             | some v => pure v
             | none => throw .noSuchElement : Result Value)
  logicalCmp op a (getDataType a) b (getDataType b)

/-- `evaluateNumericRangeToken` (`application/BooleanExpressionEvaluator.java:103-116`): both bounds are
tested before the results are combined. -/
def evalRange (d : Data) (f : JStr) (lo hi : Value) (loT hiT : DataType) : Result Bool := do
  let v ← requireField (some f) d
  let a ← logicalCmp .ge v (getDataType v) lo loT
  let b ← logicalCmp .le v (getDataType v) hi hiT
  pure (a && b)

/-- `evaluateUnaryToken` (`application/BooleanExpressionEvaluator.java:160-170`). -/
def evalUnary (d : Data) (dt : DataType) (v : Value) : Result Bool :=
  if dt == .boolean then
    match v with
    | .bool b => .ok b
    | .null => .error .nullPointer
    | _ => .error .classCast
  else do
    let k ← toText v
    let x ← requireField (some k) d
    match x with
    | .bool b => pure b
    | _ => throw .invalidUnaryOperand

/-- The loop body of `resolveArrayElements` (`application/BooleanExpressionEvaluator.java:133-138`). -/
def itemValue (env : Env) (d : Data) (n : Node) (b : Result Bool) : Result Value :=
  if n.isArithBase then evalArith env d n
  else do
    let x ← b
    pure (.bool x)

/-- More than one distinct data type (`application/BooleanExpressionEvaluator.java:148-152`). -/
def heterogeneous : List Typed → Bool
  | [] => false
  | x :: xs => xs.any (fun y => y.2 != x.2)

mutual
/-- `BooleanExpressionEvaluator.evaluateToken` (`application/BooleanExpressionEvaluator.java:57-74`) and
the methods it dispatches to (118-128 IN, 143-158 CONTAINS, 172-181 AND/OR/NOT). Field and arithmetic
nodes fall into `default: return false`. -/
def evalBool (env : Env) (d : Data) : Node → Result Bool
  | .cmp l r op _ =>
    evalComparison op l r (operandValue env d l (evalBool env d l)) (operandValue env d r (evalBool env d r))
  | .range f lo hi loT hiT => evalRange d f lo hi loT hiT
  | .inn f items => do
    let v ← requireField (some f) d
    let vs ← evalItems env d items
    logicalIn v (getDataType v) (flattenItems vs)
  | .array f op items => do
    let v ← requireField (some f) d
    let vs ← evalItems env d items
    if heterogeneous (flattenItems vs) then throw .heterogeneousArray
    logicalArray op v (getDataType v) (flattenItems vs)
  | .unary dt v => evalUnary d dt v
  | .and_ l r => do
    let a ← evalBool env d l
    if a then evalBool env d r else pure false
  | .or_ l r => do
    let a ← evalBool env d l
    if a then pure true else evalBool env d r
  | .not_ l => do
    let a ← evalBool env d l
    pure (!a)
  | .field _ => .ok false
  | .arith _ _ _ => .ok false
  | .neg _ => .ok false
  | .func _ _ => .ok false
/-- The stream of `resolveArrayElements` (`application/BooleanExpressionEvaluator.java:130-141`). -/
def evalItems (env : Env) (d : Data) : List Node → Result (List Value)
  | [] => .ok []
  | n :: ns => do
    let v ← itemValue env d n (evalBool env d n)
    let vs ← evalItems env d ns
    pure (v :: vs)
end

end BoolParser
