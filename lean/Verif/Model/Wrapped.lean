import Verif.Model.Api
/-!
# `EvaluatedNode` objects in the data

`EvaluatedNode` is a public class with a builder, so a user can put such objects into the data map. Everywhere else in the
model the data holds none; here the two evaluators are modelled once more with the branches on them.
-/

namespace BoolParser

/-- Which of the opaque objects of the data (`Value.other`, told apart by their text: `Object.toString` prints the identity
hash code, `domain/EvaluatedNode.java` does not override it) are `EvaluatedNode`s, and the data type and value they hold.
Simplification: the data type is not null, and distinct objects have distinct texts. -/
abbrev Wraps := JStr → Option (DataType × Value)

/-- `value instanceof EvaluatedNode`, and what it holds. -/
def Wraps.held (W : Wraps) : Value → Option (DataType × Value)
  | .other t => W t
  | _ => none

/-- The operand and data type passed to the operator service
(`application/ArithmeticExpressionEvaluator.java:89-98` and `101-119`). -/
def Wraps.typed (W : Wraps) (v : Value) : Typed :=
  match W.held v with
  | some (t, x) => (x, t)
  | none => (v, getDataType v)

/-- The elements of a collection, or the object with its type (`util/ValueUtils.java:45-50` and `52-57`). -/
def spread (v : Value) (t : DataType) : List Typed :=
  match v with
  | .list xs => xs.map (fun x => (x, getDataType x))
  | .coll xs => xs.map (fun x => (x, getDataType x))
  | w => [(w, t)]

/-- `ValueUtils.mapToEvaluatedNodes` (`util/ValueUtils.java:40-60`). The second `if` has no `else` before it: what an
`EvaluatedNode` holds is added, and then the `EvaluatedNode` itself as well. -/
def flattenItemsW (W : Wraps) : List Value → List Typed
  | [] => []
  | v :: vs =>
    (match W.held v with
     | some (t, x) => spread x t
     | none => []) ++ spread v (getDataType v) ++ flattenItemsW W vs

mutual
/-- `ArithmeticExpressionEvaluator.evaluateToken` (`application/ArithmeticExpressionEvaluator.java:50-121`), with the
branches on `EvaluatedNode`. -/
def evalArithW (W : Wraps) (env : Env) (d : Data) : Node → Result Value
  | .arith op l r => do
    let a ← evalArithW W env d l
    let b ← evalArithW W env d r
    arithBinary env op (W.typed a).1 (W.typed a).2 (W.typed b).1 (W.typed b).2
  | .neg l => do
    let a ← evalArithW W env d l
    arithNegate (W.typed a).1 (W.typed a).2
  | .func f items => do
    let vs ← evalArithAllW W env d items
    callFn env f (flattenItemsW W vs)
  | .unary _ v => .ok v
  | .field f => requireField f d
  | _ => .error .unsupportedToken
/-- See `evalArithAll`. -/
def evalArithAllW (W : Wraps) (env : Env) (d : Data) : List Node → Result (List Value)
  | [] => .ok []
  | n :: ns => do
    let v ← evalArithW W env d n
    let vs ← evalArithAllW W env d ns
    pure (v :: vs)
end

/-- `BooleanExpressionEvaluator.getValue` (`application/BooleanExpressionEvaluator.java:76-89`), see `operandValue`. -/
def operandValueW (W : Wraps) (env : Env) (d : Data) (n : Node) (b : Result Bool) : Result (Option Value) :=
  match n with
  | .field f => lookupField f d
  | .unary _ v => optOf v
  | _ =>
    if n.isArithBase then do
      let v ← evalArithW W env d n
      optOf v
    else do
      let x ← b
      pure (some (.bool x))

/-- `resolveArrayElements` (`application/BooleanExpressionEvaluator.java:133-138`), see `itemValue`. -/
def itemValueW (W : Wraps) (env : Env) (d : Data) (n : Node) (b : Result Bool) : Result Value :=
  if n.isArithBase then evalArithW W env d n
  else do
    let x ← b
    pure (.bool x)

mutual
/-- `BooleanExpressionEvaluator.evaluateToken` (`application/BooleanExpressionEvaluator.java:57-74`), see `evalBool`: only
calculations and items of lists look into `EvaluatedNode`s. -/
def evalBoolW (W : Wraps) (env : Env) (d : Data) : Node → Result Bool
  | .cmp l r op _ =>
    evalComparison op l r (operandValueW W env d l (evalBoolW W env d l)) (operandValueW W env d r (evalBoolW W env d r))
  | .range f lo hi loT hiT => evalRange d f lo hi loT hiT
  | .inn f items => do
    let v ← requireField (some f) d
    let vs ← evalItemsW W env d items
    logicalIn v (getDataType v) (flattenItemsW W vs)
  | .array f op items => do
    let v ← requireField (some f) d
    let vs ← evalItemsW W env d items
    if heterogeneous (flattenItemsW W vs) then throw .heterogeneousArray
    logicalArray op v (getDataType v) (flattenItemsW W vs)
  | .unary dt v => evalUnary d dt v
  | .and_ l r => do
    let a ← evalBoolW W env d l
    if a then evalBoolW W env d r else pure false
  | .or_ l r => do
    let a ← evalBoolW W env d l
    if a then pure true else evalBoolW W env d r
  | .not_ l => do
    let a ← evalBoolW W env d l
    pure (!a)
  | .field _ => .ok false
  | .arith _ _ _ => .ok false
  | .neg _ => .ok false
  | .func _ _ => .ok false
/-- See `evalItems`. -/
def evalItemsW (W : Wraps) (env : Env) (d : Data) : List Node → Result (List Value)
  | [] => .ok []
  | n :: ns => do
    let v ← itemValueW W env d n (evalBoolW W env d n)
    let vs ← evalItemsW W env d ns
    pure (v :: vs)
end

/-- `BooleanExpressionEvaluator.evaluate` (`application/BooleanExpressionEvaluator.java:48-51`) over data with
`EvaluatedNode`s. -/
def evaluateW (W : Wraps) (env : Env) (expr : JStr) (d : Data) (df : Option JStr) : Outcome Bool :=
  (parseExpression expr df).andThen (evalBoolW W env d)

/-- `ArithmeticExpressionEvaluator.evaluate` (`application/ArithmeticExpressionEvaluator.java:41-44`) over data with
`EvaluatedNode`s. -/
def evaluateArithW (W : Wraps) (env : Env) (expr : JStr) (d : Data) : Outcome Value :=
  (parseExpression expr none).andThen (evalArithW W env d)

end BoolParser
