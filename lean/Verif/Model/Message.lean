import Verif.Model.Ask
/-!
# The message of a DataNotFoundException

The evaluators of `Model/Ask.lean` once more, with the key that a `DataNotFoundException` names in its message
(`exception/DataNotFoundException.java:3-9`). Other exceptions have no key; their messages are not modelled.
-/

namespace BoolParser

/-- A failure: the class of the exception and the argument of the constructor of `DataNotFoundException`. -/
structure Complaint where
  exn : Exn
  key : Option JStr
deriving DecidableEq, Repr

/-- `DataNotFoundException.getMessage()` (`exception/DataNotFoundException.java:4-8`). -/
def notFoundMessage (key : JStr) : JStr := j!"Data not found for the key " ++ key

/-- `new DataNotFoundException(key)`; `String.format("%s", null)` is the text null. -/
def notFound (key : Option JStr) : Complaint := ⟨.dataNotFound, some (key.getD j!"null")⟩

/-- The message of a failure, if it is a `DataNotFoundException` of the library. -/
def Complaint.message (c : Complaint) : Option JStr := c.key.map notFoundMessage

/-- An exception without a key. -/
def silent {α : Type} : Result α → Except Complaint α
  | .ok a => .ok a
  | .error e => .error ⟨e, none⟩

/-- A computation that asks for names and may complain. -/
def Say (α : Type) : Type := List JStr → List JStr × Except Complaint α

/-- A computation that asks for nothing and throws no `DataNotFoundException`. -/
def said {α : Type} (r : Result α) : Say α := fun h => (h, silent r)

/-- A failure. -/
def complain {α : Type} (c : Complaint) : Say α := fun h => (h, .error c)

/-- One computation after another; a failure ends it. -/
def Say.next {α β : Type} (m : Say α) (f : α → Say β) : Say β := fun h =>
  match m h with
  | (h', .ok a) => f a h'
  | (h', .error e) => (h', .error e)

instance : Monad Say where
  pure a := said (.ok a)
  bind := Say.next

/-- `getValueFromMap(field, data)`, see `askField`. An exception of the map has a message of its own, so no key. -/
def sayField (S : UserMap) : Option JStr → Say (Option Value)
  | none => said (.error .nullPointer)
  | some k => fun h => (h ++ [k], silent (S h k))

/-- `getValueFromMap(f, data).orElseThrow(() -> new DataNotFoundException(f))`
(`application/BooleanExpressionEvaluator.java:104-105,119-120,144-145,164-165`,
`application/ArithmeticExpressionEvaluator.java:66-71`). -/
def sayRequired (S : UserMap) (f : Option JStr) : Say Value := do
  let o ← sayField S f
  match o with
  | some v => pure v
  | none => complain (notFound f)

mutual
/-- `ArithmeticExpressionEvaluator.evaluateToken` (`application/ArithmeticExpressionEvaluator.java:50-121`), see
`evalArithA`. -/
def evalArithM (S : UserMap) (env : Env) : Node → Say Value
  | .arith op l r => do
    let a ← evalArithM S env l
    let b ← evalArithM S env r
    said (arithBinary env op a (getDataType a) b (getDataType b))
  | .neg l => do
    let a ← evalArithM S env l
    said (arithNegate a (getDataType a))
  | .func f items => do
    let vs ← evalArithAllM S env items
    said (callFn env f (flattenItems vs))
  | .unary _ v => pure v
  | .field f => sayRequired S f
  | _ => said (.error .unsupportedToken)
/-- See `evalArithAllA`. -/
def evalArithAllM (S : UserMap) (env : Env) : List Node → Say (List Value)
  | [] => pure []
  | n :: ns => do
    let v ← evalArithM S env n
    let vs ← evalArithAllM S env ns
    pure (v :: vs)
end

/-- `BooleanExpressionEvaluator.getValue` (`application/BooleanExpressionEvaluator.java:76-89`), see `operandValueA`. -/
def operandValueM (S : UserMap) (env : Env) (n : Node) (b : Say Bool) : Say (Option Value) :=
  match n with
  | .field f => sayField S f
  | .unary _ v => said (optOf v)
  | _ =>
    if n.isArithBase then do
      let v ← evalArithM S env n
      said (optOf v)
    else do
      let x ← b
      pure (some (.bool x))

/-- `new DataNotFoundException(((FieldNode) comparisonToken.getLeft()).getField())`
(`application/BooleanExpressionEvaluator.java:95`), with the cast. -/
def leftNotFound : Node → Complaint
  | .field f => notFound f
  | _ => ⟨.classCast, none⟩

/-- The left operand of a comparison, once the map was asked (`application/BooleanExpressionEvaluator.java:94-95`). -/
def leftSaid (nullCheck : Bool) (l : Node) (lo : Option Value) : Say Value :=
  if nullCheck then pure (lo.getD (.str j!"null"))
  else match lo with
    | some v => pure v
    | none => complain (leftNotFound l)

/-- The right operand of a comparison (`application/BooleanExpressionEvaluator.java:96`): `Optional.get` names no key. -/
def rightSaid (nullCheck : Bool) (rv : Say (Option Value)) : Say Value :=
  if nullCheck then pure (.str j!"null")
  else do
    let ro ← rv
    said (givenValue ro)

/-- `evaluateComparisonToken` (`application/BooleanExpressionEvaluator.java:91-101`), see `evalComparisonA`. -/
def evalComparisonM (op : CmpOp) (l r : Node) (lv rv : Say (Option Value)) : Say Bool := do
  let lo ← lv
  let nullCheck ← said (isNullCheck op l r)
  let a ← leftSaid nullCheck l lo
  let b ← rightSaid nullCheck rv
  said (logicalCmp op a (getDataType a) b (getDataType b))

/-- `evaluateNumericRangeToken` (`application/BooleanExpressionEvaluator.java:103-116`), see `evalRangeA`. -/
def evalRangeM (S : UserMap) (f : JStr) (lo hi : Value) (loT hiT : DataType) : Say Bool := do
  let v ← sayRequired S (some f)
  said (inBounds v lo hi loT hiT)

/-- `evaluateUnaryToken` (`application/BooleanExpressionEvaluator.java:160-170`), see `evalUnaryA`. -/
def evalUnaryM (S : UserMap) (dt : DataType) (v : Value) : Say Bool :=
  if dt == .boolean then said (boolConstant v)
  else do
    let k ← said (toText v)
    let x ← sayRequired S (some k)
    said (boolOperand x)

/-- The loop body of `resolveArrayElements` (`application/BooleanExpressionEvaluator.java:133-138`), see `itemValueA`. -/
def itemValueM (S : UserMap) (env : Env) (n : Node) (b : Say Bool) : Say Value :=
  if n.isArithBase then evalArithM S env n
  else do
    let x ← b
    pure (.bool x)

mutual
/-- `BooleanExpressionEvaluator.evaluateToken` (`application/BooleanExpressionEvaluator.java:57-74,118-181`), see
`evalBoolA`. -/
def evalBoolM (S : UserMap) (env : Env) : Node → Say Bool
  | .cmp l r op _ =>
    evalComparisonM op l r (operandValueM S env l (evalBoolM S env l)) (operandValueM S env r (evalBoolM S env r))
  | .range f lo hi loT hiT => evalRangeM S f lo hi loT hiT
  | .inn f items => do
    let v ← sayRequired S (some f)
    let vs ← evalItemsM S env items
    said (logicalIn v (getDataType v) (flattenItems vs))
  | .array f op items => do
    let v ← sayRequired S (some f)
    let vs ← evalItemsM S env items
    said (arrayTest op v vs)
  | .unary dt v => evalUnaryM S dt v
  | .and_ l r => do
    let a ← evalBoolM S env l
    if a then evalBoolM S env r else pure false
  | .or_ l r => do
    let a ← evalBoolM S env l
    if a then pure true else evalBoolM S env r
  | .not_ l => do
    let a ← evalBoolM S env l
    pure (!a)
  | .field _ => pure false
  | .arith _ _ _ => pure false
  | .neg _ => pure false
  | .func _ _ => pure false
/-- See `evalItemsA`. -/
def evalItemsM (S : UserMap) (env : Env) : List Node → Say (List Value)
  | [] => pure []
  | n :: ns => do
    let v ← itemValueM S env n (evalBoolM S env n)
    let vs ← evalItemsM S env ns
    pure (v :: vs)
end

/-- `BooleanExpressionEvaluator.evaluate(expression, data, defaultField)`
(`application/BooleanExpressionEvaluator.java:48-55`): the names asked for and the outcome with the key of the message. -/
def evaluateSay (S : UserMap) (env : Env) (expr : JStr) (df : Option JStr) : List JStr × Except Complaint Bool :=
  match parseAny expr df with
  | .ok n => evalBoolM S env n []
  | .error e => ([], .error ⟨e, none⟩)

/-- `ArithmeticExpressionEvaluator.evaluate(expression, data)` (`application/ArithmeticExpressionEvaluator.java:41-44`). -/
def evaluateArithSay (S : UserMap) (env : Env) (expr : JStr) : List JStr × Except Complaint Value :=
  match parseAny expr none with
  | .ok n => evalArithM S env n []
  | .error e => ([], .error ⟨e, none⟩)

end BoolParser
