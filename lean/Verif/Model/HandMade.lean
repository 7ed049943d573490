import Verif.Model.Eval
/-!
# A parser of the user, and nodes made by hand

The evaluators take any implementation of `BoolExpressionParser`. Such a parser may return null, throw, fail with any
exception, or return nodes no text leads to: every class of node has a public constructor that checks nothing, so
any reference may be null and any operator may stand anywhere, and `Node` may be extended.
-/

namespace BoolParser

/-- `constant/Operator.java:19-36`: one enumeration for comparisons, lists and arithmetic. -/
inductive AnyOp where
  | cmp (op : CmpOp)
  | inn
  | arith (op : ArithOp)
  | unary
  | arr (op : ArrOp)
deriving DecidableEq

/-- `constant/LogicalOperationType.java`. -/
inductive BoolOp where
  | and | or | not
deriving DecidableEq

/-- `constant/NodeType.java`. -/
inductive NodeType where
  | boolean | comparison | numericRange | inn | array | unary | field | arithmetic | arithmeticFunction
deriving DecidableEq

/-- A reference to a `Node` (`domain/logical/*.java`, `domain/arithmetic/*.java`, `domain/FieldNode.java`), every
component of which may be null. `foreign` is an object of a class of the user that extends `Node` (`arith`: that
extends `ArithmeticBaseNode`) and answers `getTokenType` with `t`.
Simplification: the value of a `UnaryNode` is not an `EvaluatedNode`; classes of the user that extend one of the
library's node classes and override its methods, cycles of nodes and nodes changed during an evaluation are not
represented. -/
inductive HNode where
  | null
  | cmp (l r : HNode) (op : Option AnyOp) (dt : Option DataType)
  | range (f : Option JStr) (lo hi : Value) (loT hiT : Option DataType)
  | inn (f : Option JStr) (items : Option (List HNode))
  | array (f : Option JStr) (op : Option AnyOp) (items : Option (List HNode))
  | unary (dt : Option DataType) (v : Value)
  | bool (l r : HNode) (op : Option BoolOp)
  | field (f : Option JStr)
  | arith (l r : HNode) (op : Option AnyOp)
  | func (f : Option FuncType) (items : Option (List HNode))
  | foreign (arith : Bool) (t : Option NodeType)

/-- `instanceof ArithmeticBaseNode`; null is an instance of nothing. -/
def HNode.isArithBase : HNode → Bool
  | .field _ => true
  | .unary _ _ => true
  | .arith _ _ _ => true
  | .func _ _ => true
  | .foreign a _ => a
  | _ => false

/-- `instanceof FieldNode && isNull()` (`domain/FieldNode.java:22-24`). -/
def HNode.isNullField : HNode → Result Bool
  | .field (some f) => .ok (lower f == j!"null")
  | .field none => .error .nullPointer
  | _ => .ok false

/-- `ComparisonNode.isNullCheck` (`domain/logical/ComparisonNode.java:34-36`). -/
def isNullCheckHand (op : Option AnyOp) (l r : HNode) : Result Bool :=
  if op == some (.cmp .eq) || op == some (.cmp .ne) then do
    let b ← r.isNullField
    if b then pure true else l.isNullField
  else .ok false

/-- `OperatorService.evaluateLogicalOperator` with container PRIMITIVE, one right operand and any operator
(`operator/OperatorService.java:24-42`): the operators of the list map are refused for their container type, and
`OperatorFactory.getLogicalOperator` (`operator/OperatorFactory.java:62-64`) returns null for the operators of
arithmetic and for null. -/
def logicalOne (op : Option AnyOp) (l : Value) (lt : DataType) (r : Value) (rt : DataType) : Result Bool :=
  match op with
  | some (.cmp o) => logicalCmp o l lt r rt
  | some .inn => logicalIn l lt [(r, rt)]
  | some (.arr _) => .error .invalidContainerType
  | some (.arith _) => .error .nullPointer
  | some .unary => .error .nullPointer
  | none => .error .nullPointer

/-- The same with container LIST. -/
def logicalMany (op : Option AnyOp) (l : Value) (lt : DataType) (rs : List Typed) : Result Bool :=
  match op with
  | some (.arr o) => logicalArray o l lt rs
  | some (.cmp _) => .error .invalidContainerType
  | some .inn => .error .invalidContainerType
  | some (.arith _) => .error .nullPointer
  | some .unary => .error .nullPointer
  | none => .error .nullPointer

/-- `evaluateLogicalOperator` for a bound of a range whose data type may be null, which is in no list of allowed types
(`operator/OperatorService.java:30-40`). -/
def logicalBound (op : CmpOp) (l : Value) (lt : DataType) (r : Value) (rt : Option DataType) : Result Bool :=
  match rt with
  | some t => logicalCmp op l lt r t
  | none => do
    if !op.allows lt then throw .invalidDataType
    let b ← isValid lt l
    if !b then throw .invalidDataType
    throw .invalidDataType

/-- `OperatorService.evaluateArithmeticOperator` with two operands and any operator
(`operator/OperatorService.java:44-63`); `OperatorFactory.getArithmeticOperator`
(`operator/OperatorFactory.java:66-68`) returns null for the other operators. -/
def arithTwo (env : Env) (op : AnyOp) (a b : Value) : Result Value :=
  match op with
  | .arith o => arithBinary env o a (getDataType a) b (getDataType b)
  | _ => .error .nullPointer

/-- `FunctionEvaluatorService.evaluateArithmeticFunction` (`function/FunctionEvaluatorService.java:23-46`):
`FunctionFactory.getArithmeticFunction` returns null for null, which is noticed after the arguments were counted. -/
def callFnHand (env : Env) (f : Option FuncType) (items : List Typed) : Result Value :=
  match f with
  | some g => callFn env g items
  | none => if items.isEmpty then .error .invalidExpression else .error .nullPointer

/-- A node of a class of the user in `ArithmeticExpressionEvaluator.evaluateToken`
(`application/ArithmeticExpressionEvaluator.java:50-63`): the casts throw. -/
def foreignArith : Option NodeType → Result Value
  | none => .error .nullPointer
  | some .arithmetic => .error .classCast
  | some .arithmeticFunction => .error .classCast
  | some .unary => .error .classCast
  | some .field => .error .classCast
  | some _ => .error .unsupportedToken

mutual
/-- `ArithmeticExpressionEvaluator.evaluateToken` and the methods it dispatches to
(`application/ArithmeticExpressionEvaluator.java:50-121`). -/
def evalArithHand (env : Env) (d : Data) : HNode → Result Value
  | .arith l r op => do
    let a ← evalArithHand env d l
    match op with
    | none => throw .nullPointer
    | some .unary => arithNegate a (getDataType a)
    | some o => do
      let b ← evalArithHand env d r
      arithTwo env o a b
  | .func f items => do
    let vs ← evalArithListHand env d items
    callFnHand env f (flattenItems vs)
  | .unary _ v => .ok v
  | .field f => requireField f d
  | .null => .error .nullPointer
  | .foreign _ t => foreignArith t
  | _ => .error .unsupportedToken
/-- The stream over the arguments of a function (`application/ArithmeticExpressionEvaluator.java:78-81`). -/
def evalArithListHand (env : Env) (d : Data) : Option (List HNode) → Result (List Value)
  | none => .error .nullPointer
  | some ns => evalArithAllHand env d ns
/-- The elements of that stream. -/
def evalArithAllHand (env : Env) (d : Data) : List HNode → Result (List Value)
  | [] => .ok []
  | n :: ns => do
    let v ← evalArithHand env d n
    let vs ← evalArithAllHand env d ns
    pure (v :: vs)
end

/-- `BooleanExpressionEvaluator.getValue` (`application/BooleanExpressionEvaluator.java:76-89`); `b` is the (lazily used)
outcome of `evaluateToken(node, data)`. -/
def operandValueHand (env : Env) (d : Data) (n : HNode) (b : Result Bool) : Result (Option Value) :=
  match n with
  | .null => .error .nullPointer
  | .field f => lookupField f d
  | .unary _ v => optOf v
  | .foreign _ none => .error .nullPointer
  | .foreign _ (some .field) => .error .classCast
  | .foreign _ (some .unary) => .error .classCast
  | _ =>
    if n.isArithBase then do
      let v ← evalArithHand env d n
      optOf v
    else do
      let x ← b
      pure (some (.bool x))

/-- `evaluateComparisonToken` (`application/BooleanExpressionEvaluator.java:91-101`), given the operands' `getValue`
outcomes. -/
def evalComparisonHand (op : Option AnyOp) (l r : HNode) (lv rv : Result (Option Value)) : Result Bool := do
  let lo ← lv
  let nullCheck ← isNullCheckHand op l r
  let a ← (if nullCheck then pure (lo.getD (.str j!"null"))
           else match lo with
             | some v => pure v
             | none => throw .dataNotFound : Result Value)
  let b ← (if nullCheck then pure (.str j!"null")
           else do
             let ro ← rv
             match ro with
             | some v => pure v
             | none => throw .noSuchElement : Result Value)
  logicalOne op a (getDataType a) b (getDataType b)

/-- `evaluateNumericRangeToken` (`application/BooleanExpressionEvaluator.java:103-116`). -/
def evalRangeHand (d : Data) (f : Option JStr) (lo hi : Value) (loT hiT : Option DataType) : Result Bool := do
  let v ← requireField f d
  let a ← logicalBound .ge v (getDataType v) lo loT
  let b ← logicalBound .le v (getDataType v) hi hiT
  pure (a && b)

/-- `evaluateUnaryToken` (`application/BooleanExpressionEvaluator.java:160-170`): `getDataType().equals` throws on null. -/
def evalUnaryHand (d : Data) (dt : Option DataType) (v : Value) : Result Bool :=
  match dt with
  | none => .error .nullPointer
  | some t => evalUnary d t v

/-- A node of a class of the user in `BooleanExpressionEvaluator.evaluateToken`
(`application/BooleanExpressionEvaluator.java:57-74`): the casts throw, the other types are not looked at. -/
def foreignBool : Option NodeType → Result Bool
  | none => .error .nullPointer
  | some .field => .ok false
  | some .arithmetic => .ok false
  | some .arithmeticFunction => .ok false
  | some _ => .error .classCast

/-- The loop body of `resolveArrayElements` (`application/BooleanExpressionEvaluator.java:133-138`). -/
def itemValueHand (env : Env) (d : Data) (n : HNode) (b : Result Bool) : Result Value :=
  if n.isArithBase then evalArithHand env d n
  else do
    let x ← b
    pure (.bool x)

mutual
/-- `BooleanExpressionEvaluator.evaluateToken` (`application/BooleanExpressionEvaluator.java:57-74`) and the methods it
dispatches to. -/
def evalBoolHand (env : Env) (d : Data) : HNode → Result Bool
  | .cmp l r op _ =>
    evalComparisonHand op l r (operandValueHand env d l (evalBoolHand env d l)) (operandValueHand env d r (evalBoolHand env d r))
  | .range f lo hi loT hiT => evalRangeHand d f lo hi loT hiT
  | .inn f items => do
    let v ← requireField f d
    let vs ← evalItemListHand env d items
    logicalIn v (getDataType v) (flattenItems vs)
  | .array f op items => do
    let v ← requireField f d
    let vs ← evalItemListHand env d items
    if heterogeneous (flattenItems vs) then throw .heterogeneousArray
    logicalMany op v (getDataType v) (flattenItems vs)
  | .unary dt v => evalUnaryHand d dt v
  | .bool l r op =>
    match op with
    | none => .error .nullPointer
    | some .and => do
      let a ← evalBoolHand env d l
      if a then evalBoolHand env d r else pure false
    | some .or => do
      let a ← evalBoolHand env d l
      if a then pure true else evalBoolHand env d r
    | some .not => do
      let a ← evalBoolHand env d l
      pure (!a)
  | .field _ => .ok false
  | .arith _ _ _ => .ok false
  | .func _ _ => .ok false
  | .null => .error .nullPointer
  | .foreign _ t => foreignBool t
/-- The stream of `resolveArrayElements` (`application/BooleanExpressionEvaluator.java:130-141`). -/
def evalItemListHand (env : Env) (d : Data) : Option (List HNode) → Result (List Value)
  | none => .error .nullPointer
  | some ns => evalItemsHand env d ns
/-- The elements of that stream. -/
def evalItemsHand (env : Env) (d : Data) : List HNode → Result (List Value)
  | [] => .ok []
  | n :: ns => do
    let v ← itemValueHand env d n (evalBoolHand env d n)
    let vs ← evalItemsHand env d ns
    pure (v :: vs)
end

/-- What a call of `BoolExpressionParser.parseExpression` (`parser/BoolExpressionParser.java`) can end in; `ε` are the
exceptions of the user's parser. -/
inductive Parsed (ε : Type) where
  | returnsNull
  | throws (e : ε)
  | failure (e : ε)
  | success (n : HNode)

/-- What a call of an evaluator ends in: an exception thrown at the caller, a `Failure` or a `Success`. -/
inductive Called (ε α : Type) where
  | thrown (e : ε ⊕ Exn)
  | failure (e : ε ⊕ Exn)
  | success (a : α)

/-- `tokenOptional.map(node -> ...)` of a reference to a vavr `Try`: the call on null throws, outside of any `Try`. -/
def Parsed.map {ε α : Type} (p : Parsed ε) (f : HNode → Result α) : Called ε α :=
  match p with
  | .returnsNull => .thrown (.inr .nullPointer)
  | .throws e => .thrown (.inl e)
  | .failure e => .failure (.inl e)
  | .success n =>
    match f n with
    | .ok a => .success a
    | .error e => .failure (.inr e)

/-- A parser of the user, with state: `parseExpression(expression, defaultField)`. -/
abbrev UserParser (σ ε : Type) := σ → Option JStr → Option JStr → Parsed ε × σ

/-- `BooleanExpressionEvaluator.evaluate(expression, data, defaultField)` over a parser of the user
(`application/BooleanExpressionEvaluator.java:48-51`), and the state it leaves the parser in. -/
def evaluateBy {σ ε : Type} (P : UserParser σ ε) (env : Env) (st : σ) (s : Option JStr) (d : Data) (df : Option JStr) :
    Called ε Bool × σ :=
  match P st s df with
  | (p, st') => (p.map (evalBoolHand env d), st')

/-- `BooleanExpressionEvaluator.evaluate(expression, data)` (`application/BooleanExpressionEvaluator.java:53-55`). -/
def evaluateBy2 {σ ε : Type} (P : UserParser σ ε) (env : Env) (st : σ) (s : Option JStr) (d : Data) : Called ε Bool × σ :=
  evaluateBy P env st s d none

/-- `ArithmeticExpressionEvaluator.evaluate(expression, data)` over a parser of the user
(`application/ArithmeticExpressionEvaluator.java:41-44`). -/
def evaluateArithBy {σ ε : Type} (P : UserParser σ ε) (env : Env) (st : σ) (s : Option JStr) (d : Data) :
    Called ε Value × σ :=
  match P st s none with
  | (p, st') => (p.map (evalArithHand env d), st')

end BoolParser
