import Verif.Model.Api
import Verif.Model.Recovery
/-!
# Evaluation over a map that the user implements

The data argument is a `java.util.Map`, an interface: the user may pass a map that computes its values when asked, that
answers differently over time or that throws. This module repeats the evaluators of `Model/Eval.lean` with every question
to the data written down. A question is one call of `ValueUtils.getValueFromMap` (`util/ValueUtils.java:20-38`), that is
one name of the expression; the walk through nested maps that answers it is one step (taken apart in `Model/Nested`).
-/

namespace BoolParser

/-- A map, seen from outside: the answer to a name, given the names it was asked for before. -/
abbrev UserMap := List JStr → JStr → Result (Option Value)

/-- A `HashMap` or the like, which always gives the answer of its contents. -/
def plainMap (d : Data) : UserMap := fun _ k => getValueFromMap k d

/-- The map, after it was asked for `g`. -/
def UserMap.after (S : UserMap) (g : List JStr) : UserMap := fun h => S (g ++ h)

/-- A computation that asks for names: from the names asked so far to those asked then, and the outcome. -/
def Ask (α : Type) : Type := List JStr → List JStr × Result α

/-- A computation that asks for nothing. -/
def told {α : Type} (r : Result α) : Ask α := fun h => (h, r)

/-- One computation after another; a failure ends it. -/
def Ask.next {α β : Type} (m : Ask α) (f : α → Ask β) : Ask β := fun h =>
  match m h with
  | (h', .ok a) => f a h'
  | (h', .error e) => (h', .error e)

instance : Monad Ask where
  pure a := told (.ok a)
  bind := Ask.next

/-- `getValueFromMap(field, data)`; `key.split` throws on null before the map is asked (`util/ValueUtils.java:21`). -/
def askField (S : UserMap) : Option JStr → Ask (Option Value)
  | none => told (.error .nullPointer)
  | some k => fun h => (h ++ [k], S h k)

/-- `getValueFromMap(..).orElseThrow(DataNotFoundException)`. -/
def askRequired (S : UserMap) (f : Option JStr) : Ask Value := do
  let o ← askField S f
  match o with
  | some v => pure v
  | none => told (.error .dataNotFound)

mutual
/-- `ArithmeticExpressionEvaluator.evaluateToken` (`application/ArithmeticExpressionEvaluator.java:50-121`), see
`evalArith`. -/
def evalArithA (S : UserMap) (env : Env) : Node → Ask Value
  | .arith op l r => do
    let a ← evalArithA S env l
    let b ← evalArithA S env r
    told (arithBinary env op a (getDataType a) b (getDataType b))
  | .neg l => do
    let a ← evalArithA S env l
    told (arithNegate a (getDataType a))
  | .func f items => do
    let vs ← evalArithAllA S env items
    told (callFn env f (flattenItems vs))
  | .unary _ v => pure v
  | .field f => askRequired S f
  | _ => told (.error .unsupportedToken)
/-- See `evalArithAll`. -/
def evalArithAllA (S : UserMap) (env : Env) : List Node → Ask (List Value)
  | [] => pure []
  | n :: ns => do
    let v ← evalArithA S env n
    let vs ← evalArithAllA S env ns
    pure (v :: vs)
end

/-- `BooleanExpressionEvaluator.getValue` (`application/BooleanExpressionEvaluator.java:76-89`), see `operandValue`. -/
def operandValueA (S : UserMap) (env : Env) (n : Node) (b : Ask Bool) : Ask (Option Value) :=
  match n with
  | .field f => askField S f
  | .unary _ v => told (optOf v)
  | _ =>
    if n.isArithBase then do
      let v ← evalArithA S env n
      told (optOf v)
    else do
      let x ← b
      pure (some (.bool x))

/-- The left operand of a comparison, once the map was asked (`application/BooleanExpressionEvaluator.java:94-95`). -/
def leftGiven (nullCheck : Bool) (lo : Option Value) : Result Value :=
  if nullCheck then pure (lo.getD (.str j!"null"))
  else match lo with
    | some v => pure v
    | none => throw .dataNotFound

/-- `Optional.get`. -/
def givenValue : Option Value → Result Value
  | some v => pure v
  | none => throw .noSuchElement

/-- The right operand of a comparison (`application/BooleanExpressionEvaluator.java:96`): not asked for in a null
check. -/
def rightAsked (nullCheck : Bool) (rv : Ask (Option Value)) : Ask Value :=
  if nullCheck then pure (.str j!"null")
  else do
    let ro ← rv
    told (givenValue ro)

/-- `evaluateComparisonToken` (`application/BooleanExpressionEvaluator.java:91-101`), see `evalComparison`. -/
def evalComparisonA (op : CmpOp) (l r : Node) (lv rv : Ask (Option Value)) : Ask Bool := do
  let lo ← lv
  let nullCheck ← told (isNullCheck op l r)
  let a ← told (leftGiven nullCheck lo)
  let b ← rightAsked nullCheck rv
  told (logicalCmp op a (getDataType a) b (getDataType b))

/-- Both bounds of a range (`application/BooleanExpressionEvaluator.java:106-115`). -/
def inBounds (v lo hi : Value) (loT hiT : DataType) : Result Bool := do
  let a ← logicalCmp .ge v (getDataType v) lo loT
  let b ← logicalCmp .le v (getDataType v) hi hiT
  pure (a && b)

/-- `evaluateNumericRangeToken` (`application/BooleanExpressionEvaluator.java:103-116`), see `evalRange`. -/
def evalRangeA (S : UserMap) (f : JStr) (lo hi : Value) (loT hiT : DataType) : Ask Bool := do
  let v ← askRequired S (some f)
  told (inBounds v lo hi loT hiT)

/-- `(boolean) unaryToken.getValue()` (`application/BooleanExpressionEvaluator.java:161-163`). -/
def boolConstant : Value → Result Bool
  | .bool b => .ok b
  | .null => .error .nullPointer
  | _ => .error .classCast

/-- `fieldData instanceof Boolean` (`application/BooleanExpressionEvaluator.java:166-169`). -/
def boolOperand : Value → Result Bool
  | .bool b => pure b
  | _ => throw .invalidUnaryOperand

/-- `evaluateUnaryToken` (`application/BooleanExpressionEvaluator.java:160-170`), see `evalUnary`. -/
def evalUnaryA (S : UserMap) (dt : DataType) (v : Value) : Ask Bool :=
  if dt == .boolean then told (boolConstant v)
  else do
    let k ← told (toText v)
    let x ← askRequired S (some k)
    told (boolOperand x)

/-- The loop body of `resolveArrayElements` (`application/BooleanExpressionEvaluator.java:133-138`), see `itemValue`. -/
def itemValueA (S : UserMap) (env : Env) (n : Node) (b : Ask Bool) : Ask Value :=
  if n.isArithBase then evalArithA S env n
  else do
    let x ← b
    pure (.bool x)

/-- The test of `evaluateArrayToken`, once the items are known (`application/BooleanExpressionEvaluator.java:148-157`). -/
def arrayTest (op : ArrOp) (v : Value) (vs : List Value) : Result Bool := do
  if heterogeneous (flattenItems vs) then throw .heterogeneousArray
  logicalArray op v (getDataType v) (flattenItems vs)

mutual
/-- `BooleanExpressionEvaluator.evaluateToken` (`application/BooleanExpressionEvaluator.java:57-74,118-181`), see
`evalBool`. -/
def evalBoolA (S : UserMap) (env : Env) : Node → Ask Bool
  | .cmp l r op _ =>
    evalComparisonA op l r (operandValueA S env l (evalBoolA S env l)) (operandValueA S env r (evalBoolA S env r))
  | .range f lo hi loT hiT => evalRangeA S f lo hi loT hiT
  | .inn f items => do
    let v ← askRequired S (some f)
    let vs ← evalItemsA S env items
    told (logicalIn v (getDataType v) (flattenItems vs))
  | .array f op items => do
    let v ← askRequired S (some f)
    let vs ← evalItemsA S env items
    told (arrayTest op v vs)
  | .unary dt v => evalUnaryA S dt v
  | .and_ l r => do
    let a ← evalBoolA S env l
    if a then evalBoolA S env r else pure false
  | .or_ l r => do
    let a ← evalBoolA S env l
    if a then pure true else evalBoolA S env r
  | .not_ l => do
    let a ← evalBoolA S env l
    pure (!a)
  | .field _ => pure false
  | .arith _ _ _ => pure false
  | .neg _ => pure false
  | .func _ _ => pure false
/-- See `evalItems`. -/
def evalItemsA (S : UserMap) (env : Env) : List Node → Ask (List Value)
  | [] => pure []
  | n :: ns => do
    let v ← itemValueA S env n (evalBoolA S env n)
    let vs ← evalItemsA S env ns
    pure (v :: vs)
end

/-- `BooleanExpressionEvaluator.evaluate(expression, data, defaultField)`
(`application/BooleanExpressionEvaluator.java:48-55`) with a map `S` of the user: the names it is asked for, in order,
and the outcome. -/
def evaluateAsk (S : UserMap) (env : Env) (expr : JStr) (df : Option JStr) : List JStr × Result Bool :=
  match parseAny expr df with
  | .ok n => evalBoolA S env n []
  | .error e => ([], .error e)

/-- `ArithmeticExpressionEvaluator.evaluate(expression, data)` (`application/ArithmeticExpressionEvaluator.java:41-44`)
with a map of the user. -/
def evaluateArithAsk (S : UserMap) (env : Env) (expr : JStr) : List JStr × Result Value :=
  match parseAny expr none with
  | .ok n => evalArithA S env n []
  | .error e => ([], .error e)

end BoolParser
