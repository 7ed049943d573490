import Verif.Model.Recovery
import Verif.Model.Message
/-!
# The messages of the exceptions the library throws

The evaluators of `Model/Operators.lean`, `Model/Functions.lean` and `Model/Eval.lean` once more, with the text that
`getMessage()` of the cause returns. Exceptions of the JDK (`NullPointerException`, `ClassCastException` and so on) have
messages of the JDK, which are not modelled: `none`. The messages of the parser about texts that are not in the grammar are in
`Model/Verbatim.lean`.
-/

namespace BoolParser

/-- A failure: the class of the exception and its message, if the library chose it. -/
structure Fault where
  exn : Exn
  message : Option JStr
deriving DecidableEq, Repr

/-- The outcome of a computation. -/
abbrev Told (α : Type) := Except Fault α

/-- An outcome whose exceptions are not the library's. -/
def bare {α : Type} : Result α → Told α
  | .ok a => .ok a
  | .error e => .error ⟨e, none⟩

/-- An exception with a message. -/
def tell {α : Type} (e : Exn) (m : JStr) : Told α := .error ⟨e, some m⟩

/-- `DataType.name()` and `toString()` (`constant/DataType.java:11-18`). -/
def DataType.name : DataType → JStr
  | .string => j!"STRING" | .integer => j!"INTEGER" | .long => j!"LONG" | .decimal => j!"DECIMAL"
  | .version => j!"VERSION" | .boolean => j!"BOOLEAN" | .date => j!"DATE" | .datetime => j!"DATETIME"

/-- `Operator.toString()` of the comparisons (`constant/Operator.java:19-24`). -/
def CmpOp.name : CmpOp → JStr
  | .eq => j!"EQUALS" | .gt => j!"GREATER_THAN" | .ge => j!"GREATER_THAN_EQUAL" | .lt => j!"LESS_THAN"
  | .le => j!"LESS_THAN_EQUAL" | .ne => j!"NOT_EQUAL"

/-- `Operator.toString()` of the binary calculations (`constant/Operator.java:27-32`). -/
def ArithOp.name : ArithOp → JStr
  | .add => j!"ADD" | .sub => j!"SUBTRACT" | .mul => j!"MULTIPLY" | .div => j!"DIVIDE" | .mod => j!"MODULUS"
  | .exp => j!"EXPONENT"

/-- `Operator.toString()` of CONTAINS_ALL and CONTAINS_ANY (`constant/Operator.java:35-36`). -/
def ArrOp.name : ArrOp → JStr
  | .containsAll => j!"CONTAINS_ALL" | .containsAny => j!"CONTAINS_ANY"

/-- `FunctionType.name()` (`constant/FunctionType.java:11-20`). -/
def FuncType.name : FuncType → JStr
  | .min => j!"MIN" | .max => j!"MAX" | .avg => j!"AVG" | .sum => j!"SUM" | .mean => j!"MEAN" | .mode => j!"MODE"
  | .median => j!"MEDIAN" | .int => j!"INT" | .len => j!"LEN" | .daysElapsed => j!"DAYS_ELAPSED"

/-- `getTokenType().name()` (`constant/NodeType.java`) of the nodes the arithmetic evaluator refuses; the others are not
asked for it. -/
def Node.typeName : Node → JStr
  | .cmp .. => j!"COMPARISON" | .range .. => j!"NUMERIC_RANGE" | .inn .. => j!"IN" | .array .. => j!"ARRAY"
  | .unary .. => j!"UNARY" | .and_ .. => j!"BOOLEAN" | .or_ .. => j!"BOOLEAN" | .not_ .. => j!"BOOLEAN"
  | .field .. => j!"FIELD" | .arith .. => j!"ARITHMETIC" | .neg .. => j!"ARITHMETIC" | .func .. => j!"ARITHMETIC_FUNCTION"

/-- "Invalid left operand data type %s for operator %s" (`operator/OperatorService.java:31,51,57`). -/
def leftTypeText (t : DataType) (o : JStr) : JStr :=
  j!"Invalid left operand data type " ++ t.name ++ j!" for operator " ++ o

/-- "Invalid right operand data type %s for operator %s" (`operator/OperatorService.java:38`). -/
def rightTypeText (t : DataType) (o : JStr) : JStr :=
  j!"Invalid right operand data type " ++ t.name ++ j!" for operator " ++ o

/-- "Validation failed for the operator %s for the operand %s" (`operator/OperatorService.java:34,54,60`). -/
def operandText (o : JStr) (v : JStr) : JStr :=
  j!"Validation failed for the operator " ++ o ++ j!" for the operand " ++ v

/-- "Incompatible data types %s and %s" (`operator/comparison/NumericOperator.java:27,30`). -/
def incompatibleText (l r : DataType) : JStr := j!"Incompatible data types " ++ l.name ++ j!" and " ++ r.name

/-- "Invalid data type for value %s for data type %s" (`constant/ContainerDataType.java:26`). -/
def valueText (v : Value) (t : DataType) : JStr :=
  j!"Invalid data type for value " ++ v.text ++ j!" for data type " ++ t.name

/-- `ContainerDataType.PRIMITIVE.getValue(t, v)` (`constant/ContainerDataType.java:23-29`), see `need`. -/
def needX {α : Type} (t : DataType) (v : Value) : Result (Option α) → Told α
  | .ok (some a) => .ok a
  | .ok none => tell .invalidDataType (valueText v t)
  | .error e => .error ⟨e, none⟩

/-- See `both`. -/
def bothX {α : Type} (t : DataType) (f : Value → Result (Option α)) (c : α → α → Ordering) (a b : Value) : Told Ordering := do
  let x ← needX t a (f a)
  let y ← needX t b (f b)
  pure (c x y)

/-- See `comparePrim` (`operator/comparison/EqualsOperator.java:21-26`). -/
def comparePrimX (t : DataType) (a b : Value) : Told Ordering :=
  match t with
  | .string => bothX .string asString cmpStr a b
  | .integer => bothX .integer asInt compare a b
  | .long => bothX .long asLong compare a b
  | .decimal => bothX .decimal asDec Dec.cmp a b
  | .version => bothX .version asVer cmpVersion a b
  | .boolean => bothX .boolean asBool compare a b
  | .date => bothX .date asDate cmpDate a b
  | .datetime => bothX .datetime asDateTime cmpDateTime a b

/-- See `evalEq` (`operator/comparison/EqualsOperator.java:18-27`, `NotEqualsOperator.java:18-27`). -/
def evalEqX (op : CmpOp) (l : Value) (lt : DataType) (r : Value) (rt : DataType) : Told Bool := do
  let o ← comparePrimX (comparableType lt rt) l r
  pure (op.test o)

/-- `NumericOperator.validate` (`operator/comparison/NumericOperator.java:18-32`), see `validate`. -/
def validateX (l : Value) (lt : DataType) (r : Value) (rt : DataType) : Told Unit :=
  if lt.numeric == rt.numeric then .ok ()
  else do
    if !lt.numeric then
      let b ← bare (isValid rt l)
      if !b then tell .invalidDataType (incompatibleText lt rt)
    if !rt.numeric then
      let b ← bare (isValid lt r)
      if !b then tell .invalidDataType (incompatibleText lt rt)

/-- See `evalOrd` (lines 18-28 of `operator/comparison/{GreaterThan,GreaterThanEqual,LessThan,LessThanEqual}Operator.java`). -/
def evalOrdX (op : CmpOp) (l : Value) (lt : DataType) (r : Value) (rt : DataType) : Told Bool := do
  validateX l lt r rt
  let o ← comparePrimX (orderType lt rt) l r
  pure (op.test o)

/-- See `evalCmpOp`. -/
def evalCmpOpX (op : CmpOp) (l : Value) (lt : DataType) (r : Value) (rt : DataType) : Told Bool :=
  match op with
  | .eq => evalEqX op l lt r rt
  | .ne => evalEqX op l lt r rt
  | _ => evalOrdX op l lt r rt

/-- `OperatorService.evaluateLogicalOperator` for a comparison (`operator/OperatorService.java:24-42`), see `logicalCmp`. -/
def logicalCmpX (op : CmpOp) (l : Value) (lt : DataType) (r : Value) (rt : DataType) : Told Bool := do
  if !op.allows lt then tell .invalidDataType (leftTypeText lt op.name)
  let b ← bare (isValid lt l)
  if !b then tell .invalidDataType (operandText op.name l.text)
  if !op.allows rt then tell .invalidDataType (rightTypeText rt op.name)
  evalCmpOpX op l lt r rt

/-- See `allM'`. -/
def allMX {α : Type} (f : α → Told Bool) : List α → Told Bool
  | [] => .ok true
  | x :: xs => do
    let b ← f x
    if b then allMX f xs else pure false

/-- See `anyM'`. -/
def anyMX {α : Type} (f : α → Told Bool) : List α → Told Bool
  | [] => .ok false
  | x :: xs => do
    let b ← f x
    if b then pure true else anyMX f xs

/-- See `evalIn` (`operator/comparison/InOperator.java:21-25`). -/
def evalInX (l : Value) (lt : DataType) (rs : List Typed) : Told Bool :=
  anyMX (fun r => evalEqX .eq l lt r.1 r.2) rs

/-- `evaluateLogicalOperator(IN, ...)` (`operator/OperatorService.java:24-42`), see `logicalIn`. -/
def logicalInX (l : Value) (lt : DataType) (rs : List Typed) : Told Bool := do
  let b ← bare (isValid lt l)
  if !b then tell .invalidDataType (operandText j!"IN" l.text)
  evalInX l lt rs

/-- See `evalArray` (`operator/comparison/ContainsAllOperator.java:18-30`, `ContainsAnyOperator.java:18-30`). -/
def evalArrayX (op : ArrOp) (l : Value) (lt : DataType) (rs : List Typed) : Told Bool := do
  let b ← bare (isValidList lt l)
  if !b then pure false
  else
    match l with
    | .list xs =>
      let f : Typed → Told Bool := fun r => evalInX r.1 r.2 (xs.map (fun x => (x, lt)))
      match op with
      | .containsAll => allMX f rs
      | .containsAny => anyMX f rs
    | _ => .error ⟨.classCast, none⟩

/-- `evaluateLogicalOperator(CONTAINS_x, ...)` (`operator/OperatorService.java:24-42`), see `logicalArray`. -/
def logicalArrayX (op : ArrOp) (l : Value) (lt : DataType) (rs : List Typed) : Told Bool := do
  let b ← bare (isValidList lt l)
  if !b then tell .invalidDataType (operandText op.name l.text)
  evalArrayX op l lt rs

/-- `OperatorService.evaluateArithmeticOperator` for a binary operator (`operator/OperatorService.java:44-63`), see
`arithBinary`. Line 57 speaks of the left operand, line 60 prints the data type. -/
def arithBinaryX (env : Env) (op : ArithOp) (l : Value) (lt : DataType) (r : Value) (rt : DataType) : Told Value := do
  if !op.allows lt then tell .invalidDataType (leftTypeText lt op.name)
  let b ← bare (isValid lt l)
  if !b then tell .invalidDataType (operandText op.name l.text)
  if !op.allows rt then tell .invalidDataType (leftTypeText rt op.name)
  let b ← bare (rightValid rt r)
  if !b then tell .invalidDataType (operandText op.name rt.name)
  bare (evalArithOp env op l lt r rt)

/-- `evaluateArithmeticOperator` for UNARY (`operator/OperatorService.java:44-63`), see `arithNegate`. -/
def arithNegateX (v : Value) (t : DataType) : Told Value := do
  if !(t == .integer || t == .long || t == .decimal) then tell .invalidDataType (leftTypeText t j!"UNARY")
  let b ← bare (isValid t v)
  if !b then tell .invalidDataType (operandText j!"UNARY" v.text)
  bare (evalNeg v t)

/-- The validation loop (`function/FunctionEvaluatorService.java:39-44`), see `validateItems`. -/
def validateItemsX (f : FuncType) : List Typed → Told Unit
  | [] => .ok ()
  | x :: xs => do
    let b ← bare (isValid x.2 x.1)
    if !b then
      tell .invalidDataType (j!"Validation failed for the function " ++ f.name ++ j!" for the operand " ++ x.1.text)
    validateItemsX f xs

/-- `DaysElapsedFunction.evaluate` (`function/arithmetic/DaysElapsedFunction.java:23-47`), see `daysFn`. The messages of
lines 25 and 42 belong to arguments that `FunctionEvaluatorService` refuses before; the class name of line 42 is left out. -/
def daysFnX (env : Env) (items : List Typed) : Told Value :=
  match items with
  | [(.date d, _)] => .ok (.long (epochDay env.today - epochDay d))
  | [(.str s, _)] =>
    match parseIsoDate s with
    | some d => .ok (.long (epochDay env.today - epochDay d))
    | none => tell .invalidFunctionArgument (j!"DAYS_ELAPSED function requires a valid date argument, got: " ++ s)
  | [(.null, _)] => .error ⟨.nullPointer, none⟩
  | [_] => tell .invalidFunctionArgument j!"DAYS_ELAPSED function requires a date argument, got: "
  | _ => tell .invalidFunctionArgument j!"DAYS_ELAPSED function requires exactly one argument"

/-- See `evalFn`: the other functions throw no exceptions of the library. -/
def evalFnX (env : Env) (f : FuncType) (items : List Typed) : Told Value :=
  match f with
  | .daysElapsed => daysFnX env items
  | f => bare (evalFn env f items)

/-- `FunctionEvaluatorService.evaluateArithmeticFunction` (`function/FunctionEvaluatorService.java:23-46`), see `callFn`. -/
def callFnX (env : Env) (f : FuncType) (items : List Typed) : Told Value := do
  if items.isEmpty then tell .invalidExpression j!"Empty items not allowed"
  if !(if 1 < items.length then f.allowsMany else f.allowsOne) then
    tell .invalidContainerType (j!"Invalid container type " ++ (if 1 < items.length then j!"LIST" else j!"PRIMITIVE") ++
      j!" for function " ++ f.name)
  if !(items.all (fun x => f.allows x.2)) then tell .invalidDataType (j!"Invalid data type for function " ++ f.name)
  validateItemsX f items
  evalFnX env f items

/-- See `requireField`; the message is that of `exception/DataNotFoundException.java:4-8`. -/
def requireFieldX (f : Option JStr) (d : Data) : Told Value := do
  let o ← bare (lookupField f d)
  match o with
  | some v => pure v
  | none => tell .dataNotFound (notFoundMessage (f.getD j!"null"))

mutual
/-- `ArithmeticExpressionEvaluator.evaluateToken` (`application/ArithmeticExpressionEvaluator.java:50-121`), see
`evalArith`; the message of `exception/UnsupportedToken.java:4-8`. -/
def evalArithX (env : Env) (d : Data) : Node → Told Value
  | .arith op l r => do
    let a ← evalArithX env d l
    let b ← evalArithX env d r
    arithBinaryX env op a (getDataType a) b (getDataType b)
  | .neg l => do
    let a ← evalArithX env d l
    arithNegateX a (getDataType a)
  | .func f items => do
    let vs ← evalArithAllX env d items
    callFnX env f (flattenItems vs)
  | .unary _ v => .ok v
  | .field f => requireFieldX f d
  | n => tell .unsupportedToken (j!"Unsupported Token " ++ n.typeName)
/-- See `evalArithAll`. -/
def evalArithAllX (env : Env) (d : Data) : List Node → Told (List Value)
  | [] => .ok []
  | n :: ns => do
    let v ← evalArithX env d n
    let vs ← evalArithAllX env d ns
    pure (v :: vs)
end

/-- `BooleanExpressionEvaluator.getValue` (`application/BooleanExpressionEvaluator.java:76-89`), see `operandValue`. -/
def operandValueX (env : Env) (d : Data) (n : Node) (b : Told Bool) : Told (Option Value) :=
  match n with
  | .field f => bare (lookupField f d)
  | .unary _ v => bare (optOf v)
  | _ =>
    if n.isArithBase then do
      let v ← evalArithX env d n
      bare (optOf v)
    else do
      let x ← b
      pure (some (.bool x))

/-- The fault for a missing left operand (`application/BooleanExpressionEvaluator.java:95`), see `leftNotFound`. Only a
field can be missing, so the cast succeeds. -/
def leftFault : Node → Fault
  | .field f => ⟨.dataNotFound, some (notFoundMessage (f.getD j!"null"))⟩
  | _ => ⟨.dataNotFound, none⟩

/-- The left operand of a comparison (`application/BooleanExpressionEvaluator.java:94-95`). -/
def leftX (nullCheck : Bool) (l : Node) (lo : Option Value) : Told Value :=
  if nullCheck then pure (lo.getD (.str j!"null"))
  else match lo with
    | some v => pure v
    | none => .error (leftFault l)

/-- The right operand of a comparison (`application/BooleanExpressionEvaluator.java:96`). -/
def rightX (nullCheck : Bool) (rv : Told (Option Value)) : Told Value :=
  if nullCheck then pure (.str j!"null")
  else do
    let ro ← rv
    match ro with
    | some v => pure v
    | none => .error ⟨.noSuchElement, none⟩

/-- `evaluateComparisonToken` (`application/BooleanExpressionEvaluator.java:91-101`), see `evalComparison`. -/
def evalComparisonX (op : CmpOp) (l r : Node) (lv rv : Told (Option Value)) : Told Bool := do
  let lo ← lv
  let nullCheck ← bare (isNullCheck op l r)
  let a ← leftX nullCheck l lo
  let b ← rightX nullCheck rv
  logicalCmpX op a (getDataType a) b (getDataType b)

/-- `evaluateNumericRangeToken` (`application/BooleanExpressionEvaluator.java:103-116`), see `evalRange`. -/
def evalRangeX (d : Data) (f : JStr) (lo hi : Value) (loT hiT : DataType) : Told Bool := do
  let v ← requireFieldX (some f) d
  let a ← logicalCmpX .ge v (getDataType v) lo loT
  let b ← logicalCmpX .le v (getDataType v) hi hiT
  pure (a && b)

/-- The field of `evaluateUnaryToken` (`application/BooleanExpressionEvaluator.java:166-169`); the message of
`exception/InvalidUnaryOperand.java:4-7`. -/
def unaryX : Value → Told Bool
  | .bool b => .ok b
  | _ => tell .invalidUnaryOperand j!"Invalid operand data type in unary expression"

/-- `evaluateUnaryToken` (`application/BooleanExpressionEvaluator.java:160-170`), see `evalUnary`. -/
def evalUnaryX (d : Data) (dt : DataType) (v : Value) : Told Bool :=
  if dt == .boolean then
    match v with
    | .bool b => .ok b
    | .null => .error ⟨.nullPointer, none⟩
    | _ => .error ⟨.classCast, none⟩
  else do
    let k ← bare (toText v)
    let x ← requireFieldX (some k) d
    unaryX x

/-- See `itemValue` (`application/BooleanExpressionEvaluator.java:133-138`). -/
def itemValueX (env : Env) (d : Data) (n : Node) (b : Told Bool) : Told Value :=
  if n.isArithBase then evalArithX env d n
  else do
    let x ← b
    pure (.bool x)

mutual
/-- `BooleanExpressionEvaluator.evaluateToken` (`application/BooleanExpressionEvaluator.java:57-74` and the methods it
calls), see `evalBool`; the message of `exception/HeterogeneousArrayException.java:4-7`. -/
def evalBoolX (env : Env) (d : Data) : Node → Told Bool
  | .cmp l r op _ =>
    evalComparisonX op l r (operandValueX env d l (evalBoolX env d l)) (operandValueX env d r (evalBoolX env d r))
  | .range f lo hi loT hiT => evalRangeX d f lo hi loT hiT
  | .inn f items => do
    let v ← requireFieldX (some f) d
    let vs ← evalItemsX env d items
    logicalInX v (getDataType v) (flattenItems vs)
  | .array f op items => do
    let v ← requireFieldX (some f) d
    let vs ← evalItemsX env d items
    if heterogeneous (flattenItems vs) then tell .heterogeneousArray j!"Heterogeneous input of array not allowed"
    logicalArrayX op v (getDataType v) (flattenItems vs)
  | .unary dt v => evalUnaryX d dt v
  | .and_ l r => do
    let a ← evalBoolX env d l
    if a then evalBoolX env d r else pure false
  | .or_ l r => do
    let a ← evalBoolX env d l
    if a then pure true else evalBoolX env d r
  | .not_ l => do
    let a ← evalBoolX env d l
    pure (!a)
  | .field _ => .ok false
  | .arith _ _ _ => .ok false
  | .neg _ => .ok false
  | .func _ _ => .ok false
/-- See `evalItems` (`application/BooleanExpressionEvaluator.java:130-141`). -/
def evalItemsX (env : Env) (d : Data) : List Node → Told (List Value)
  | [] => .ok []
  | n :: ns => do
    let v ← itemValueX env d n (evalBoolX env d n)
    let vs ← evalItemsX env d ns
    pure (v :: vs)
end

/-! ## The parser -/

mutual
/-- How many tokens a context covers: the alternatives of `expression` (`BooleanExpression.g4:7-24`). An operand left out
covers none. -/
def Tree.width : Tree → Nat
  | .paren t => t.width + 2
  | .not_ t => t.width + 1
  | .cmp _ l r => l.width + 1 + r.width
  | .neg t => t.width + 1
  | .arith _ l r => l.width + 1 + r.width
  | .func _ items => 2 + Tree.widths items
  | .bin _ l r => l.width + 1 + r.width
  | .types _ e => if e then 0 else 1
  | .to_ _ _ _ => 4
  | .in_ _ no items => (if no then 4 else 3) + Tree.widths items
  | .array _ _ items => 3 + Tree.widths items
/-- The items of a `wordlist`, each with the comma or parenthesis after it (`BooleanExpression.g4:52-54`). -/
def Tree.widths : List Tree → Nat
  | [] => 0
  | t :: ts => t.width + 1 + Tree.widths ts
end

/-- `ctx.getText()`: the texts of the tokens the context covers, with nothing between them; `toks` are the tokens from the
first of the context on. -/
def Tree.textAt (t : Tree) (toks : List Token) : JStr := (toks.take t.width).flatMap Token.text

/-- "Array does not support this expression %s" (`parser/antlr/BooleanFilterListener.java:124`). -/
def itemText (s : JStr) : JStr := j!"Array does not support this expression " ++ s

/-- "Error parsing expression for the string %s" (`parser/antlr/BooleanFilterListener.java:147,192,273`). -/
def expressionText (s : JStr) : JStr := j!"Error parsing expression for the string " ++ s

/-- "Error parsing not expression for the string %s" (`parser/antlr/BooleanFilterListener.java:282`). -/
def notText (s : JStr) : JStr := j!"Error parsing not expression for the string " ++ s

/-- "Error parsing binary expression for the string %s" (`parser/antlr/BooleanFilterListener.java:302`). -/
def binaryText (s : JStr) : JStr := j!"Error parsing binary expression for the string " ++ s

mutual
/-- `mapContextToNode` (`parser/antlr/BooleanFilterListener.java:108-220`), see `mapNode`; the second argument is the list of
tokens from the first of the context on. This listener walks the trees of the grammar; `parseTold` (`Model/Verbatim.lean`)
treats any text and agrees with it on texts of the grammar (`parseTold_gram`). -/
def mapNodeX (df : Option JStr) : Tree → List Token → NStack → Told (Node × NStack)
  | .types t e, _, st => do
    let n ← bare (mapTypes df t e)
    pure (n, st)
  | .func f items, ks, st => do
    let (ns, st) ← mapNodesX df items (ks.drop 2) st
    pure (.func f ns, st)
  | .in_ f no items, ks, st => do
    let (ns, st) ← mapNodesX df items (ks.drop (if no then 4 else 3)) st
    pure (if no then .not_ (.inn f.text ns) else .inn f.text ns, st)
  | .to_ f lo hi, _, st => do
    let a ← bare (convertValue lo.text (tokType lo))
    let b ← bare (convertValue hi.text (tokType hi))
    pure (.range f.text a b (tokType lo) (tokType hi), st)
  | .cmp op l r, ks, st =>
    if useStack st l r && l.isTypes then do
      let (a, st) ← mapNodeX df l ks st
      let (b, st) ← bare (popN st)
      pure (.cmp a b op l.startType, st)
    else if useStack st l r && r.isTypes then do
      let (b, st) ← mapNodeX df r (ks.drop (l.width + 1)) st
      let (a, st) ← bare (popN st)
      pure (.cmp a b op r.startType, st)
    else do
      let (b, st) ← mapNodeX df r (ks.drop (l.width + 1)) st
      let (a, st) ← mapNodeX df l ks st
      pure (.cmp a b op r.startType, st)
  | .arith op l r, ks, st =>
    if l.isTypes && r.isTypes then do
      let (a, st) ← mapNodeX df l ks st
      let (b, st) ← mapNodeX df r (ks.drop (l.width + 1)) st
      pure (.arith op a b, st)
    else if l.isTypes then do
      let (a, st) ← mapNodeX df l ks st
      let (b, st) ← bare (popN st)
      pure (.arith op a b, st)
    else if r.isTypes then do
      let (b, st) ← mapNodeX df r (ks.drop (l.width + 1)) st
      let (a, st) ← bare (popN st)
      pure (.arith op a b, st)
    else
      match st with
      | b :: a :: st => .ok (.arith op a b, st)
      | _ => tell .invalidExpression (expressionText ((Tree.arith op l r).textAt ks))
  | .paren t, ks, _ => tell .invalidExpression (itemText ((Tree.paren t).textAt ks))
  | .not_ t, ks, _ => tell .invalidExpression (itemText ((Tree.not_ t).textAt ks))
  | .neg t, ks, _ => tell .invalidExpression (itemText ((Tree.neg t).textAt ks))
  | .bin c l r, ks, _ => tell .invalidExpression (itemText ((Tree.bin c l r).textAt ks))
  | .array f o items, ks, _ => tell .invalidExpression (itemText ((Tree.array f o items).textAt ks))
/-- `getArrayElements` (`parser/antlr/BooleanFilterListener.java:100-106`), see `mapNodes`. -/
def mapNodesX (df : Option JStr) : List Tree → List Token → NStack → Told (List Node × NStack)
  | [], _, st => .ok ([], st)
  | t :: ts, ks, st => do
    let (n, st) ← mapNodeX df t ks st
    let (ns, st) ← mapNodesX df ts (ks.drop (t.width + 1)) st
    pure (n :: ns, st)
end

/-- See `exitMapped`. -/
def exitMappedX (df : Option JStr) (t : Tree) (ks : List Token) (s : LState) : Told LState := do
  let (n, st) ← mapNodeX df t ks s.stack
  pure { s with stack := n :: st }

/-- `exitArrayExpression` (`parser/antlr/BooleanFilterListener.java:77-85`), see `exitArray`. -/
def exitArrayX (df : Option JStr) (f : Token) (op : ArrOp) (items : List Tree) (ks : List Token) (s : LState) :
    Told LState := do
  let (ns, st) ← mapNodesX df items (ks.drop 3) s.stack
  pure { s with stack := .array f.text op ns :: st }

/-- `exitNotExpression` (`parser/antlr/BooleanFilterListener.java:278-291`), see `exitNot`; `t` is the context. -/
def exitNotX (t : Tree) (ks : List Token) (s : LState) : Told LState :=
  match s.stack with
  | n :: st => .ok { s with stack := .not_ n :: st }
  | [] =>
    match s.last with
    | none => tell .invalidExpression (notText (t.textAt ks))
    | some u => do
      let v ← bare (convertValue u.text (tokType u))
      pure { s with stack := [.not_ (.unary (tokType u) v)] }

/-- `exitBinaryExpression` (`parser/antlr/BooleanFilterListener.java:299-310`), see `exitBin`; `t` is the context. -/
def exitBinX (conj : Bool) (t : Tree) (ks : List Token) (s : LState) : Told LState :=
  match s.stack with
  | b :: a :: st => .ok { s with stack := (if conj then .and_ a b else .or_ a b) :: st }
  | _ => tell .invalidExpression (binaryText (t.textAt ks))

mutual
/-- `ParseTreeWalker.walk`, see `walk`; the list of tokens starts with the first of the context. -/
def walkX (df : Option JStr) : Tree → List Token → LState → Told LState
  | .paren t, ks, s => walkX df t (ks.drop 1) s
  | .not_ t, ks, s => do
    let s ← walkX df t (ks.drop 1) s
    exitNotX (.not_ t) ks s
  | .cmp op l r, ks, s => do
    let s ← walkX df l ks s
    let s ← walkX df r (ks.drop (l.width + 1)) s
    exitMappedX df (.cmp op l r) ks s
  | .neg t, ks, s => do
    let s ← walkX df t (ks.drop 1) s
    bare (exitNeg df t s)
  | .arith op l r, ks, s => do
    let s ← walkX df l ks s
    let s ← walkX df r (ks.drop (l.width + 1)) s
    exitMappedX df (.arith op l r) ks s
  | .func f items, ks, s => do
    let s ← walkAllX df items (ks.drop 2) s
    exitMappedX df (.func f items) ks s
  | .bin c l r, ks, s => do
    let s ← walkX df l ks s
    let s ← walkX df r (ks.drop (l.width + 1)) s
    exitBinX c (.bin c l r) ks s
  | .types t _, _, s => .ok { s with last := some t, count := s.count + 1 }
  | .to_ f lo hi, ks, s => exitMappedX df (.to_ f lo hi) ks s
  | .in_ f neg items, ks, s => do
    let s ← walkAllX df items (ks.drop (if neg then 4 else 3)) s
    exitMappedX df (.in_ f neg items) ks s
  | .array f op items, ks, s => do
    let s ← walkAllX df items (ks.drop 3) s
    exitArrayX df f op items ks s
/-- See `walkAll`. -/
def walkAllX (df : Option JStr) : List Tree → List Token → LState → Told LState
  | [], _, s => .ok s
  | t :: ts, ks, s => do
    let s ← walkX df t ks s
    walkAllX df ts (ks.drop (t.width + 1)) s
end

/-- `exitParse` (`parser/antlr/BooleanFilterListener.java:263-276`), see `exitParse`; the context `parse` covers the whole
text and the end of the input, whose text is `<EOF>`. -/
def exitParseX (ks : List Token) (s : LState) : Told Node :=
  match exitParse s with
  | .error .invalidExpression => tell .invalidExpression (expressionText (ks.flatMap Token.text ++ j!"<EOF>"))
  | r => bare r

end BoolParser
