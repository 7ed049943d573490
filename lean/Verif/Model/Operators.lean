import Verif.Model.DataType
/-!
# Operators (`operator/*`)
-/

namespace BoolParser

/-- Comparison operators of `constant/Operator.java:19-24`. -/
inductive CmpOp where
  | eq | ne | gt | ge | lt | le
deriving DecidableEq, Repr

/-- Array operators of `constant/Operator.java:35-36`. -/
inductive ArrOp where
  | containsAll | containsAny
deriving DecidableEq, Repr

/-- Binary arithmetic operators of `constant/Operator.java:27-32`. -/
inductive ArithOp where
  | add | sub | mul | div | mod | exp
deriving DecidableEq, Repr

/-- The outside world: the clock (`LocalDate.now()`), and `Math.pow` on longs widened to double and on
`BigDecimal.doubleValue()`s. Theorems quantify over every such world unless they state an assumption. -/
structure Env where
  today : Date
  powL : Int → Int → Dbl
  powD : Dec → Dec → Dbl

/-- `getAllowedDataTypes` of the comparison operators: everything for `=`/`!=`
(`EqualsOperator.java:52-54`, `NotEqualsOperator.java:52-54`), everything but BOOLEAN for the order
operators (`GreaterThanOperator.java:46-48` and the same lines of the other three). -/
def CmpOp.allows : CmpOp → DataType → Bool
  | .eq, _ => true
  | .ne, _ => true
  | _, t => t != .boolean

/-- The test applied to the sign of `compareTo`. -/
def CmpOp.test : CmpOp → Ordering → Bool
  | .eq, o => o == .eq
  | .ne, o => o != .eq
  | .gt, o => o == .gt
  | .ge, o => o != .lt
  | .lt, o => o == .lt
  | .le, o => o != .gt

/-- `EqualsOperator.evaluate` / `NotEqualsOperator.evaluate`,
`operator/comparison/EqualsOperator.java:18-27`, `NotEqualsOperator.java:18-27`. -/
def evalEq (op : CmpOp) (l : Value) (lt : DataType) (r : Value) (rt : DataType) : Result Bool := do
  let o ← comparePrim (comparableType lt rt) l r
  pure (op.test o)

/-- `NumericOperator.validate`, `operator/comparison/NumericOperator.java:18-32`. -/
def validate (l : Value) (lt : DataType) (r : Value) (rt : DataType) : Result Unit :=
  if lt.numeric == rt.numeric then .ok ()
  else do
    if !lt.numeric then
      let b ← isValid rt l
      if !b then throw .invalidDataType
    if !rt.numeric then
      let b ← isValid lt r
      if !b then throw .invalidDataType

/-- `GreaterThanOperator.evaluate` and its three siblings, lines 18-28 of
`operator/comparison/{GreaterThan,GreaterThanEqual,LessThan,LessThanEqual}Operator.java`. -/
def evalOrd (op : CmpOp) (l : Value) (lt : DataType) (r : Value) (rt : DataType) : Result Bool := do
  validate l lt r rt
  let o ← comparePrim (orderType lt rt) l r
  pure (op.test o)

/-- `AbstractOperator.evaluate` of the comparison operators. -/
def evalCmpOp (op : CmpOp) (l : Value) (lt : DataType) (r : Value) (rt : DataType) : Result Bool :=
  match op with
  | .eq => evalEq op l lt r rt
  | .ne => evalEq op l lt r rt
  | _ => evalOrd op l lt r rt

/-- A value with its data type (`Pair<Object, DataType>`, `domain/EvaluatedNode.java`). -/
abbrev Typed := Value × DataType

/-- `OperatorService.evaluateLogicalOperator` for a comparison operator, container PRIMITIVE and one
right operand (`operator/OperatorService.java:24-42`). -/
def logicalCmp (op : CmpOp) (l : Value) (lt : DataType) (r : Value) (rt : DataType) : Result Bool := do
  if !op.allows lt then throw .invalidDataType
  let b ← isValid lt l
  if !b then throw .invalidDataType
  if !op.allows rt then throw .invalidDataType
  evalCmpOp op l lt r rt

/-- `InOperator.evaluate`: `anyMatch` of EQUALS (`operator/comparison/InOperator.java:21-25`). -/
def evalIn (l : Value) (lt : DataType) (rs : List Typed) : Result Bool :=
  anyM' (fun r => evalEq .eq l lt r.1 r.2) rs

/-- `evaluateLogicalOperator(IN, PRIMITIVE, ...)` (`operator/OperatorService.java:24-42`; IN allows
every data type, `InOperator.java:43-45`). -/
def logicalIn (l : Value) (lt : DataType) (rs : List Typed) : Result Bool := do
  let b ← isValid lt l
  if !b then throw .invalidDataType
  evalIn l lt rs

/-- `ContainsAllOperator.evaluate` / `ContainsAnyOperator.evaluate`
(`operator/comparison/ContainsAllOperator.java:18-30`, `ContainsAnyOperator.java:18-30`): the cast to
`List` throws for other collections and arrays; every item is looked up with IN among the elements,
which carry the data type of the whole list. -/
def evalArray (op : ArrOp) (l : Value) (lt : DataType) (rs : List Typed) : Result Bool := do
  let b ← isValidList lt l
  if !b then pure false
  else
    match l with
    | .list xs =>
      let f : Typed → Result Bool := fun r => evalIn r.1 r.2 (xs.map (fun x => (x, lt)))
      match op with
      | .containsAll => allM' f rs
      | .containsAny => anyM' f rs
    | _ => .error .classCast

/-- `evaluateLogicalOperator(CONTAINS_x, LIST, ...)` (`operator/OperatorService.java:24-42`; both
operators allow every data type). -/
def logicalArray (op : ArrOp) (l : Value) (lt : DataType) (rs : List Typed) : Result Bool := do
  let b ← isValidList lt l
  if !b then throw .invalidDataType
  evalArray op l lt rs

/-! ## Arithmetic -/

/-- `Optional.get()`: `NoSuchElementException` when empty. -/
def getOpt {α : Type} : Result (Option α) → Result α
  | .ok (some a) => .ok a
  | .ok none => .error .noSuchElement
  | .error e => .error e

/-- `ValueUtils.castLong`, `util/ValueUtils.java:96-101`. -/
def castLong (n : Int) : Value := if InInt32 n then .int n else .long n

/-- `BigDecimal.intValueExact()`. -/
def intValueExact (d : Dec) : Result Int :=
  if d.isIntegral ∧ InInt32 d.trunc then .ok d.trunc else .error .arithmetic

/-- `ValueUtils.castDecimal(BigDecimal)`, `util/ValueUtils.java:103-108`. -/
def castDecimal (d : Dec) : Result Value :=
  if d.isIntegral then do
    let n ← intValueExact d
    pure (.int n)
  else .ok (.dec d)

/-- `ValueUtils.castDecimal(double)` of a whole-number double (`util/ValueUtils.java:89-94`). -/
def castWhole (d : Int) : Value := if InInt32 d then .int d else .dec ⟨d, 0⟩

/-- `ValueUtils.castDecimal(double)`, `util/ValueUtils.java:89-94`: `new BigDecimal(double)` throws
`NumberFormatException` on NaN and infinities. -/
def castDouble : Dbl → Result Value
  | .nan => .error .numberFormat
  | .inf _ => .error .numberFormat
  | .fin m e =>
    let d := dblToDec m e
    .ok (if d.isIntegral ∧ InInt32 d.trunc then .int d.trunc else .dec d)

/-- String-like types of `+`, `operator/arithmetic/AddOperator.java:22`. -/
def isStringType (t : DataType) : Bool := t == .string || t == .version || t == .boolean

/-- `getAllowedDataTypes` of the arithmetic operators (`AddOperator.java:50-52`,
`SubtractOperator.java:50-52`, `MultiplyOperator.java:46-48`, `DivideOperator.java:44-46`,
`ModulusOperator.java:46-48`, `ExponentOperator.java:47-49`). -/
def ArithOp.allows : ArithOp → DataType → Bool
  | .add, t => t == .integer || t == .long || t == .decimal || isStringType t
  | .mod, t => t == .integer || t == .long
  | _, t => t == .integer || t == .long || t == .decimal

/-- `evaluate` of the binary arithmetic operators: `AddOperator.java:20-32`,
`SubtractOperator.java:20-32`, `MultiplyOperator.java:20-28`, `DivideOperator.java:21-26`,
`ModulusOperator.java:20-28`, `ExponentOperator.java:20-29`. -/
def evalArithOp (env : Env) (op : ArithOp) (l : Value) (lt : DataType) (r : Value) (rt : DataType) :
    Result Value :=
  match op with
  | .add =>
    if isStringType lt || isStringType rt then .ok (.str (l.text ++ r.text))
    else if lt == .decimal || rt == .decimal then do
      let a ← getOpt (asDec l)
      let b ← getOpt (asDec r)
      pure (.dec (a.add b))
    else do
      let a ← getOpt (asLong l)
      let b ← getOpt (asLong r)
      pure (castLong (wrap64 (a + b)))
  | .sub =>
    if lt == .decimal || rt == .decimal then do
      let a ← getOpt (asDec l)
      let b ← getOpt (asDec r)
      pure (.dec (a.sub b))
    else if lt == .long || rt == .long then do
      let a ← getOpt (asLong l)
      let b ← getOpt (asLong r)
      pure (.long (wrap64 (a - b)))
    else do
      let a ← getOpt (asInt l)
      let b ← getOpt (asInt r)
      pure (.int (wrap32 (a - b)))
  | .mul =>
    if lt == .decimal || rt == .decimal then do
      let a ← getOpt (asDec l)
      let b ← getOpt (asDec r)
      pure (.dec (a.mul b))
    else do
      let a ← getOpt (asLong l)
      let b ← getOpt (asLong r)
      pure (castLong (wrap64 (a * b)))
  | .div => do
    let a ← getOpt (asDec l)
    let b ← getOpt (asDec r)
    let q ← a.divDown b 3
    castDecimal q
  | .mod =>
    if lt == .long || rt == .long then do
      let a ← getOpt (asLong l)
      let b ← getOpt (asLong r)
      if b = 0 then throw .arithmetic
      pure (.long (a.tmod b))
    else do
      let a ← getOpt (asInt l)
      let b ← getOpt (asInt r)
      if b = 0 then throw .arithmetic
      pure (.int (a.tmod b))
  | .exp =>
    if lt == .decimal || rt == .decimal then do
      let a ← getOpt (asDec l)
      let b ← getOpt (asDec r)
      castDouble (env.powD a b)
    else do
      let a ← getOpt (asLong l)
      let b ← getOpt (asLong r)
      castDouble (env.powL a b)

/-- `Objects.nonNull(rightOperand) && !isValid(...)`, `operator/OperatorService.java:59-61`. -/
def rightValid (rt : DataType) : Value → Result Bool
  | .null => .ok true
  | v => isValid rt v

/-- `OperatorService.evaluateArithmeticOperator` for a binary operator
(`operator/OperatorService.java:44-63`, container PRIMITIVE). -/
def arithBinary (env : Env) (op : ArithOp) (l : Value) (lt : DataType) (r : Value) (rt : DataType) :
    Result Value := do
  if !op.allows lt then throw .invalidDataType
  let b ← isValid lt l
  if !b then throw .invalidDataType
  if !op.allows rt then throw .invalidDataType
  let b ← rightValid rt r
  if !b then throw .invalidDataType
  evalArithOp env op l lt r rt

/-- `UnaryOperator.evaluate`, `operator/arithmetic/UnaryOperator.java:17-26`: plain Java casts. -/
def evalNeg (v : Value) (t : DataType) : Result Value :=
  match t, v with
  | .decimal, .dec d => .ok (.dec d.neg)
  | .decimal, _ => .error .classCast
  | .long, .long n => .ok (.long (wrap64 (-n)))
  | .long, _ => .error .classCast
  | _, .int n => .ok (.int (wrap32 (-n)))
  | _, _ => .error .classCast

/-- `evaluateArithmeticOperator` for UNARY (`operator/OperatorService.java:44-63`; allowed types
`UnaryOperator.java:44-46`). -/
def arithNegate (v : Value) (t : DataType) : Result Value := do
  if !(t == .integer || t == .long || t == .decimal) then throw .invalidDataType
  let b ← isValid t v
  if !b then throw .invalidDataType
  evalNeg v t

end BoolParser
