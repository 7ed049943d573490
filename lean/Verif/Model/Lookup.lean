import Verif.Model.Registry
import Verif.Model.Eval
/-!
# Evaluation through the registries

The evaluators fetch every operator, function and data type from the static registries at the moment they need
it (`operator/OperatorFactory.java:62-68`, `function/FunctionFactory.java:42-44`,
`datatype/DataTypeFactory.java:29-31`), while other threads may be writing to them. This module repeats the
evaluators of `Model/Eval.lean` with these reads made explicit: the `k`-th read of a thread sees the registries
as they are at that moment.
-/

namespace BoolParser

/-- What `getValue` of a data type object returns: some `Comparable`, here the library's own kinds and objects of
the user. -/
inductive Comp where
  | str (s : JStr)
  | int (n : Int)
  | long (n : Int)
  | dec (d : Dec)
  | ver (s : JStr)
  | bool (b : Bool)
  | date (d : Date)
  | datetime (t : DateTime)
  | user (id : Nat) (v : Value)

/-- What a data type object does (`datatype/AbstractDataType.java:33-37`). -/
structure TypeObj where
  valid : Value → Result Bool
  value : Value → Result (Option Comp)

/-- `getValue` of the library's data types. -/
def builtinValue (t : DataType) (v : Value) : Result (Option Comp) :=
  match t with
  | .string => do let o ← asString v; pure (o.map .str)
  | .integer => do let o ← asInt v; pure (o.map .int)
  | .long => do let o ← asLong v; pure (o.map .long)
  | .decimal => do let o ← asDec v; pure (o.map .dec)
  | .version => do let o ← asVer v; pure (o.map .ver)
  | .boolean => do let o ← asBool v; pure (o.map .bool)
  | .date => do let o ← asDate v; pure (o.map .date)
  | .datetime => do let o ← asDateTime v; pure (o.map .datetime)

/-- The library's own data type objects. -/
def builtinObj (t : DataType) : TypeObj := ⟨isValid t, builtinValue t⟩

/-- What an evaluation sees: the registries at the time of its `k`-th read, the users' data type objects, and
`compareTo` where an object of the user is involved or the two objects are of different classes. -/
structure Live where
  hist : Nat → Registry
  obj : Nat → TypeObj
  compareOther : Comp → Comp → Result Ordering

/-- `left.compareTo(right)`. -/
def compareTo (L : Live) : Comp → Comp → Result Ordering
  | .str a, .str b => .ok (cmpStr a b)
  | .int a, .int b => .ok (compare a b)
  | .long a, .long b => .ok (compare a b)
  | .dec a, .dec b => .ok (Dec.cmp a b)
  | .ver a, .ver b => .ok (cmpVersion a b)
  | .bool a, .bool b => .ok (compare a b)
  | .date a, .date b => .ok (cmpDate a b)
  | .datetime a, .datetime b => .ok (cmpDateTime a b)
  | a, b => L.compareOther a b

/-- `(BigDecimal) value`. -/
def castDec : Option Comp → Result (Option Dec)
  | some (.dec d) => .ok (some d)
  | some _ => .error .classCast
  | none => .ok none

/-- A computation that reads the registries; the state is the number of reads so far. -/
abbrev M := StateT Nat (Except Exn)

/-- A computation that reads nothing. -/
def lift {α : Type} (r : Result α) : M α := StateT.lift r

/-- One read. -/
def readSlot (L : Live) (s : Slot) : M (Option Impl) := fun k => .ok (L.hist k s, k + 1)

/-- `DataTypeFactory.getDataType(t)` with a method called on the result
(`constant/ContainerDataType.java:24,33,63,66`). -/
def typeObj (L : Live) (t : DataType) : M TypeObj := do
  match ← readSlot L (.dataType t) with
  | none => lift (.error .nullPointer)
  | some .builtin => pure (builtinObj t)
  | some (.custom i) => pure (L.obj i)

/-- `(XDataType) DataTypeFactory.getDataType(t)` with a method called on the result
(`operator/arithmetic/AddOperator.java:27-30` and the like). Simplification: a user's data type is not a subclass
of the library's, so the cast fails. -/
def castObj (L : Live) (t : DataType) : M Unit := do
  match ← readSlot L (.dataType t) with
  | none => lift (.error .nullPointer)
  | some .builtin => pure ()
  | some (.custom _) => lift (.error .classCast)

/-- `OperatorFactory.getXOperator(o)` with a method called on the result
(`operator/OperatorService.java:26-27,41,46-47,62`). -/
def needOperator (L : Live) (o : Operator) : M Unit := do
  match ← readSlot L (.operator o) with
  | none => lift (.error .nullPointer)
  | some _ => pure ()

/-- The registry key of a comparison operator. -/
def CmpOp.slot : CmpOp → Operator
  | .eq => .equals
  | .ne => .notEqual
  | .gt => .greaterThan
  | .ge => .greaterThanEqual
  | .lt => .lessThan
  | .le => .lessThanEqual

/-- The registry key of an array operator. -/
def ArrOp.slot : ArrOp → Operator
  | .containsAll => .containsAll
  | .containsAny => .containsAny

/-- The registry key of an arithmetic operator. -/
def ArithOp.slot : ArithOp → Operator
  | .add => .add
  | .sub => .subtract
  | .mul => .multiply
  | .div => .divide
  | .mod => .modulus
  | .exp => .exponent

/-- `ContainerDataType.PRIMITIVE.isValid`, `constant/ContainerDataType.java:32-34`. -/
def isValidL (L : Live) (t : DataType) (v : Value) : M Bool := do
  let o ← typeObj L t
  lift (o.valid v)

/-- `ContainerDataType.PRIMITIVE.getValue`, `constant/ContainerDataType.java:23-29`. -/
def getValueL (L : Live) (t : DataType) (v : Value) : M Comp := do
  let o ← typeObj L t
  lift (need (o.value v))

/-- Both operands coerced to type `t`, which is fetched for each of them, and compared
(`operator/comparison/EqualsOperator.java:21-26`). -/
def comparePrimL (L : Live) (t : DataType) (a b : Value) : M Ordering := do
  let x ← getValueL L t a
  let y ← getValueL L t b
  lift (compareTo L x y)

/-- `EqualsOperator.evaluate` / `NotEqualsOperator.evaluate`, see `evalEq`. -/
def evalEqL (L : Live) (op : CmpOp) (l : Value) (lt : DataType) (r : Value) (rt : DataType) : M Bool := do
  let o ← comparePrimL L (comparableType lt rt) l r
  pure (op.test o)

/-- `NumericOperator.validate`, see `validate`. -/
def validateL (L : Live) (l : Value) (lt : DataType) (r : Value) (rt : DataType) : M Unit :=
  if lt.numeric == rt.numeric then pure ()
  else do
    if !lt.numeric then
      let b ← isValidL L rt l
      if !b then lift (.error .invalidDataType)
    if !rt.numeric then
      let b ← isValidL L lt r
      if !b then lift (.error .invalidDataType)

/-- The order operators, see `evalOrd`. -/
def evalOrdL (L : Live) (op : CmpOp) (l : Value) (lt : DataType) (r : Value) (rt : DataType) : M Bool := do
  validateL L l lt r rt
  let o ← comparePrimL L (orderType lt rt) l r
  pure (op.test o)

/-- Dispatch, see `evalCmpOp`. -/
def evalCmpOpL (L : Live) (op : CmpOp) (l : Value) (lt : DataType) (r : Value) (rt : DataType) : M Bool :=
  match op with
  | .eq => evalEqL L op l lt r rt
  | .ne => evalEqL L op l lt r rt
  | _ => evalOrdL L op l lt r rt

/-- `OperatorService.evaluateLogicalOperator` for a comparison (`operator/OperatorService.java:24-42`): the
operator is fetched before the checks and again for the evaluation. -/
def logicalCmpL (L : Live) (op : CmpOp) (l : Value) (lt : DataType) (r : Value) (rt : DataType) : M Bool := do
  needOperator L op.slot
  if !op.allows lt then lift (.error .invalidDataType)
  let b ← isValidL L lt l
  if !b then lift (.error .invalidDataType)
  if !op.allows rt then lift (.error .invalidDataType)
  needOperator L op.slot
  evalCmpOpL L op l lt r rt

/-- `anyMatch` with early exit. -/
def anyL {α : Type} (f : α → M Bool) : List α → M Bool
  | [] => pure false
  | x :: xs => do
    let b ← f x
    if b then pure true else anyL f xs

/-- `allMatch` with early exit. -/
def allL {α : Type} (f : α → M Bool) : List α → M Bool
  | [] => pure true
  | x :: xs => do
    let b ← f x
    if b then allL f xs else pure false

/-- `InOperator.evaluate`; it holds its own `EqualsOperator` (`operator/comparison/InOperator.java:18-25`). -/
def evalInL (L : Live) (l : Value) (lt : DataType) (rs : List Typed) : M Bool :=
  anyL (fun r => evalEqL L .eq l lt r.1 r.2) rs

/-- `evaluateLogicalOperator(IN, ...)`, see `logicalIn`. -/
def logicalInL (L : Live) (l : Value) (lt : DataType) (rs : List Typed) : M Bool := do
  needOperator L .in_
  let b ← isValidL L lt l
  if !b then lift (.error .invalidDataType)
  needOperator L .in_
  evalInL L l lt rs

/-- `ContainerDataType.LIST.isValid`: the data type is fetched for every element
(`constant/ContainerDataType.java:57-67`). -/
def isValidListL (L : Live) (t : DataType) (v : Value) : M Bool :=
  match listElems? v with
  | some xs => allL (isValidL L t) xs
  | none => pure false

/-- `ContainsAllOperator.evaluate` / `ContainsAnyOperator.evaluate`, see `evalArray`. -/
def evalArrayL (L : Live) (op : ArrOp) (l : Value) (lt : DataType) (rs : List Typed) : M Bool := do
  let b ← isValidListL L lt l
  if !b then pure false
  else
    match l with
    | .list xs =>
      let f : Typed → M Bool := fun r => evalInL L r.1 r.2 (xs.map (fun x => (x, lt)))
      match op with
      | .containsAll => allL f rs
      | .containsAny => anyL f rs
    | _ => lift (.error .classCast)

/-- `evaluateLogicalOperator(CONTAINS_x, LIST, ...)`, see `logicalArray`. -/
def logicalArrayL (L : Live) (op : ArrOp) (l : Value) (lt : DataType) (rs : List Typed) : M Bool := do
  needOperator L op.slot
  let b ← isValidListL L lt l
  if !b then lift (.error .invalidDataType)
  needOperator L op.slot
  evalArrayL L op l lt rs

/-- The data types an arithmetic operator fetches, see `evalArithOp`. -/
def ArithOp.fetches (op : ArithOp) (lt rt : DataType) : Option DataType :=
  match op with
  | .add =>
    if isStringType lt || isStringType rt then none
    else if lt == .decimal || rt == .decimal then some .decimal else some .long
  | .sub =>
    if lt == .decimal || rt == .decimal then some .decimal
    else if lt == .long || rt == .long then some .long else some .integer
  | .mul => if lt == .decimal || rt == .decimal then some .decimal else some .long
  | .div => some .decimal
  | .mod => if lt == .long || rt == .long then some .long else some .integer
  | .exp => if lt == .decimal || rt == .decimal then some .decimal else some .long

/-- Fetch a data type if there is one to fetch. -/
def fetch (L : Live) : Option DataType → M Unit
  | some t => castObj L t
  | none => pure ()

/-- `evaluate` of the binary arithmetic operators: each branch first fetches its data type (lines cited at
`evalArithOp`). -/
def evalArithOpL (L : Live) (env : Env) (op : ArithOp) (l : Value) (lt : DataType) (r : Value) (rt : DataType) :
    M Value := do
  fetch L (op.fetches lt rt)
  lift (evalArithOp env op l lt r rt)

/-- `Objects.nonNull(rightOperand) && !isValid(...)`, see `rightValid`. -/
def rightValidL (L : Live) (rt : DataType) : Value → M Bool
  | .null => pure true
  | v => isValidL L rt v

/-- `OperatorService.evaluateArithmeticOperator`, see `arithBinary`. -/
def arithBinaryL (L : Live) (env : Env) (op : ArithOp) (l : Value) (lt : DataType) (r : Value) (rt : DataType) :
    M Value := do
  needOperator L op.slot
  if !op.allows lt then lift (.error .invalidDataType)
  let b ← isValidL L lt l
  if !b then lift (.error .invalidDataType)
  if !op.allows rt then lift (.error .invalidDataType)
  let b ← rightValidL L rt r
  if !b then lift (.error .invalidDataType)
  needOperator L op.slot
  evalArithOpL L env op l lt r rt

/-- `evaluateArithmeticOperator` for UNARY, see `arithNegate`. -/
def arithNegateL (L : Live) (v : Value) (t : DataType) : M Value := do
  needOperator L .unary
  if !(t == .integer || t == .long || t == .decimal) then lift (.error .invalidDataType)
  let b ← isValidL L t v
  if !b then lift (.error .invalidDataType)
  needOperator L .unary
  lift (evalNeg v t)

/-- The data type a function fetches with a cast (lines cited at `minFn`, `sumFn`, `avgFn`, `medianFn`). -/
def FuncType.fetches (f : FuncType) (items : List Typed) : Option DataType :=
  match f with
  | .min => if anyType .decimal items then some .decimal else if anyType .long items then some .long else some .integer
  | .max => if anyType .decimal items then some .decimal else if anyType .long items then some .long else some .integer
  | .sum => if anyType .decimal items then some .decimal else some .long
  | .avg => if anyType .decimal items then some .decimal else some .long
  | .mean => if anyType .decimal items then some .decimal else some .long
  | .median => some .decimal
  | _ => none

/-- `IntFunction.evaluate`: no cast of the data type object (`function/arithmetic/IntFunction.java:19-28`). -/
def intFnL (L : Live) (items : List Typed) : M Value :=
  match items with
  | [] => lift (.error .indexOutOfBounds)
  | (v, t) :: _ =>
    if t == .decimal then do
      let o ← typeObj L .decimal
      let d ← lift (getOpt (o.value v >>= castDec))
      pure (.int d.intValue)
    else if t == .long then
      match v with
      | .long n => pure (.int (wrap32 n))
      | _ => lift (.error .classCast)
    else pure v

/-- A function of the registry (`function/FunctionEvaluatorService.java:24`). -/
def needFunction (L : Live) (f : FuncType) : M (Option Impl) := readSlot L (.function f)

/-- `AbstractFunction.evaluate`, see `evalFn`; MEAN fetches AVG from the registry
(`function/arithmetic/MeanFunction.java:18-20`). -/
def evalFnL (L : Live) (env : Env) (f : FuncType) (items : List Typed) : M Value := do
  if f == .mean then
    match ← needFunction L .avg with
    | none => lift (.error .nullPointer)
    | some _ => pure ()
  match f with
  | .int => intFnL L items
  | f => do
    fetch L (f.fetches items)
    lift (evalFn env f items)

/-- The validation loop, see `validateItems`. -/
def validateItemsL (L : Live) : List Typed → M Unit
  | [] => pure ()
  | x :: xs => do
    let b ← isValidL L x.2 x.1
    if !b then lift (.error .invalidDataType)
    validateItemsL L xs

/-- `FunctionEvaluatorService.evaluateArithmeticFunction`, see `callFn`: the function is fetched first, a missing
one is noticed at the first use after the emptiness check (`function/FunctionEvaluatorService.java:24-29`). -/
def callFnL (L : Live) (env : Env) (f : FuncType) (items : List Typed) : M Value := do
  let g ← needFunction L f
  if items.isEmpty then lift (.error .invalidExpression)
  match g with
  | none => lift (.error .nullPointer)
  | some _ => pure ()
  if !(if 1 < items.length then f.allowsMany else f.allowsOne) then lift (.error .invalidContainerType)
  if !(items.all (fun x => f.allows x.2)) then lift (.error .invalidDataType)
  validateItemsL L items
  evalFnL L env f items

mutual
/-- `ArithmeticExpressionEvaluator.evaluateToken`, see `evalArith`. -/
def evalArithL (L : Live) (env : Env) (d : Data) : Node → M Value
  | .arith op l r => do
    let a ← evalArithL L env d l
    let b ← evalArithL L env d r
    arithBinaryL L env op a (getDataType a) b (getDataType b)
  | .neg l => do
    let a ← evalArithL L env d l
    arithNegateL L a (getDataType a)
  | .func f items => do
    let vs ← evalArithAllL L env d items
    callFnL L env f (flattenItems vs)
  | .unary _ v => pure v
  | .field f => lift (requireField f d)
  | _ => lift (.error .unsupportedToken)
/-- See `evalArithAll`. -/
def evalArithAllL (L : Live) (env : Env) (d : Data) : List Node → M (List Value)
  | [] => pure []
  | n :: ns => do
    let v ← evalArithL L env d n
    let vs ← evalArithAllL L env d ns
    pure (v :: vs)
end

/-- `BooleanExpressionEvaluator.getValue`, see `operandValue`. -/
def operandValueL (L : Live) (env : Env) (d : Data) (n : Node) (b : M Bool) : M (Option Value) :=
  match n with
  | .field f => lift (lookupField f d)
  | .unary _ v => lift (optOf v)
  | _ =>
    if n.isArithBase then do
      let v ← evalArithL L env d n
      lift (optOf v)
    else do
      let x ← b
      pure (some (.bool x))

/-- `evaluateComparisonToken`, see `evalComparison`. -/
def evalComparisonL (L : Live) (op : CmpOp) (l r : Node) (lv rv : M (Option Value)) : M Bool := do
  let lo ← lv
  let nullCheck ← lift (isNullCheck op l r)
  let a ← (if nullCheck then pure (lo.getD (.str j!"null"))
           else match lo with
             | some v => pure v
             | none => lift (.error .dataNotFound) : M Value)
  let b ← (if nullCheck then pure (.str j!"null")
           else do
             let ro ← rv
             match ro with
             | some v => pure v
             | none => lift (.error .noSuchElement) : M Value)
  logicalCmpL L op a (getDataType a) b (getDataType b)

/-- `evaluateNumericRangeToken`, see `evalRange`. -/
def evalRangeL (L : Live) (d : Data) (f : JStr) (lo hi : Value) (loT hiT : DataType) : M Bool := do
  let v ← lift (requireField (some f) d)
  let a ← logicalCmpL L .ge v (getDataType v) lo loT
  let b ← logicalCmpL L .le v (getDataType v) hi hiT
  pure (a && b)

/-- The loop body of `resolveArrayElements`, see `itemValue`. -/
def itemValueL (L : Live) (env : Env) (d : Data) (n : Node) (b : M Bool) : M Value :=
  if n.isArithBase then evalArithL L env d n
  else do
    let x ← b
    pure (.bool x)

mutual
/-- `BooleanExpressionEvaluator.evaluateToken`, see `evalBool`. -/
def evalBoolL (L : Live) (env : Env) (d : Data) : Node → M Bool
  | .cmp l r op _ =>
    evalComparisonL L op l r (operandValueL L env d l (evalBoolL L env d l))
      (operandValueL L env d r (evalBoolL L env d r))
  | .range f lo hi loT hiT => evalRangeL L d f lo hi loT hiT
  | .inn f items => do
    let v ← lift (requireField (some f) d)
    let vs ← evalItemsL L env d items
    logicalInL L v (getDataType v) (flattenItems vs)
  | .array f op items => do
    let v ← lift (requireField (some f) d)
    let vs ← evalItemsL L env d items
    if heterogeneous (flattenItems vs) then lift (.error .heterogeneousArray)
    logicalArrayL L op v (getDataType v) (flattenItems vs)
  | .unary dt v => lift (evalUnary d dt v)
  | .and_ l r => do
    let a ← evalBoolL L env d l
    if a then evalBoolL L env d r else pure false
  | .or_ l r => do
    let a ← evalBoolL L env d l
    if a then pure true else evalBoolL L env d r
  | .not_ l => do
    let a ← evalBoolL L env d l
    pure (!a)
  | .field _ => pure false
  | .arith _ _ _ => pure false
  | .neg _ => pure false
  | .func _ _ => pure false
/-- See `evalItems`. -/
def evalItemsL (L : Live) (env : Env) (d : Data) : List Node → M (List Value)
  | [] => pure []
  | n :: ns => do
    let v ← itemValueL L env d n (evalBoolL L env d n)
    let vs ← evalItemsL L env d ns
    pure (v :: vs)
end

/-- The outcome of an evaluation that starts at moment `k`. -/
def outcomeAt {α : Type} (m : M α) (k : Nat) : Result α := (m k).map Prod.fst

/-! ### The operator of a token

The parser looks the operator of a token up by its symbol among the registered operators
(`constant/Operator.java:38-53`, `parser/antlr/BooleanFilterListener.java:82,157,177`). The model of the parser
takes it from the kind of the token; `C48_symbols` shows that this is the same once a parser was constructed. -/

/-- `getSymbol` of the operators (`operator/comparison/*.java`, `operator/arithmetic/*.java`). -/
def Operator.symbol : Operator → JStr
  | .equals => j!"="
  | .greaterThan => j!">"
  | .greaterThanEqual => j!">="
  | .lessThan => j!"<"
  | .lessThanEqual => j!"<="
  | .notEqual => j!"!="
  | .in_ => j!"IN"
  | .add => j!"+"
  | .subtract => j!"-"
  | .multiply => j!"*"
  | .divide => j!"/"
  | .modulus => j!"%"
  | .exponent => j!"^"
  | .unary => j!"UNARY"
  | .containsAll => j!"CONTAINS_ALL"
  | .containsAny => j!"CONTAINS_ANY"

/-- The keys of the two operator maps in the order of an `EnumMap` (`constant/Operator.java:19-37`,
`operator/OperatorFactory.java:43-59`). -/
def logicalOperators : List Operator :=
  [.equals, .greaterThan, .greaterThanEqual, .lessThan, .lessThanEqual, .notEqual, .in_, .containsAll, .containsAny]

/-- See `logicalOperators`. -/
def arithmeticOperators : List Operator := [.add, .subtract, .multiply, .divide, .modulus, .exponent, .unary]

/-- `OperatorFactory.getAllXOperators().stream().filter(...).findFirst()` (`constant/Operator.java:40-44,48-52`). -/
def findSymbol (reg : Registry) (ops : List Operator) (text : JStr) : Option Operator :=
  (ops.filter fun o => (reg (.operator o)).isSome).find? fun o => lower o.symbol == lower text

/-- `Operator.getOperatorFromSymbol(text).orElse(Operator.EQUALS)`, `constant/Operator.java:38-53`. -/
def operatorOf (reg : Registry) (text : JStr) : Operator :=
  match findSymbol reg logicalOperators text with
  | some o => o
  | none => (findSymbol reg arithmeticOperators text).getD .equals

end BoolParser
