import Verif.Model.Recovery
import Verif.Model.Cache
/-!
# Null for the text or for the data

The entry points once more, with null allowed for every argument. (Null for the default field is allowed
everywhere, and is what the overloads without it pass.)
-/

namespace BoolParser

/-- `getValueFromMap(field, data)` (`util/ValueUtils.java:20-38`): `keys[0]` is looked at before `data.get` is
called, which throws if `data` is null. -/
def lookupFieldOpt (f : Option JStr) : Option Data → Result (Option Value)
  | some d => lookupField f d
  | none =>
    match f with
    | none => .error .nullPointer
    | some k =>
      match splitKey k with
      | [] => .error .indexOutOfBounds
      | _ :: _ => .error .nullPointer

/-- `getValueFromMap(..).orElseThrow(DataNotFoundException)`. -/
def requireFieldOpt (f : Option JStr) (d : Option Data) : Result Value := do
  let o ← lookupFieldOpt f d
  match o with
  | some v => pure v
  | none => throw .dataNotFound

mutual
/-- `ArithmeticExpressionEvaluator.evaluateToken` (`application/ArithmeticExpressionEvaluator.java:50-121`). -/
def evalArithOpt (env : Env) (d : Option Data) : Node → Result Value
  | .arith op l r => do
    let a ← evalArithOpt env d l
    let b ← evalArithOpt env d r
    arithBinary env op a (getDataType a) b (getDataType b)
  | .neg l => do
    let a ← evalArithOpt env d l
    arithNegate a (getDataType a)
  | .func f items => do
    let vs ← evalArithAllOpt env d items
    callFn env f (flattenItems vs)
  | .unary _ v => .ok v
  | .field f => requireFieldOpt f d
  | _ => .error .unsupportedToken
/-- The arguments of a function (`application/ArithmeticExpressionEvaluator.java:78-81`). -/
def evalArithAllOpt (env : Env) (d : Option Data) : List Node → Result (List Value)
  | [] => .ok []
  | n :: ns => do
    let v ← evalArithOpt env d n
    let vs ← evalArithAllOpt env d ns
    pure (v :: vs)
end

/-- `BooleanExpressionEvaluator.getValue` (`application/BooleanExpressionEvaluator.java:76-89`). -/
def operandValueOpt (env : Env) (d : Option Data) (n : Node) (b : Result Bool) : Result (Option Value) :=
  match n with
  | .field f => lookupFieldOpt f d
  | .unary _ v => optOf v
  | _ =>
    if n.isArithBase then do
      let v ← evalArithOpt env d n
      optOf v
    else do
      let x ← b
      pure (some (.bool x))

/-- `evaluateNumericRangeToken` (`application/BooleanExpressionEvaluator.java:103-116`). -/
def evalRangeOpt (d : Option Data) (f : JStr) (lo hi : Value) (loT hiT : DataType) : Result Bool := do
  let v ← requireFieldOpt (some f) d
  let a ← logicalCmp .ge v (getDataType v) lo loT
  let b ← logicalCmp .le v (getDataType v) hi hiT
  pure (a && b)

/-- `evaluateUnaryToken` (`application/BooleanExpressionEvaluator.java:160-170`). -/
def evalUnaryOpt (d : Option Data) (dt : DataType) (v : Value) : Result Bool :=
  if dt == .boolean then
    match v with
    | .bool b => .ok b
    | .null => .error .nullPointer
    | _ => .error .classCast
  else do
    let k ← toText v
    let x ← requireFieldOpt (some k) d
    match x with
    | .bool b => pure b
    | _ => throw .invalidUnaryOperand

/-- The loop body of `resolveArrayElements` (`application/BooleanExpressionEvaluator.java:133-138`). -/
def itemValueOpt (env : Env) (d : Option Data) (n : Node) (b : Result Bool) : Result Value :=
  if n.isArithBase then evalArithOpt env d n
  else do
    let x ← b
    pure (.bool x)

mutual
/-- `BooleanExpressionEvaluator.evaluateToken` (`application/BooleanExpressionEvaluator.java:57-74`). -/
def evalBoolOpt (env : Env) (d : Option Data) : Node → Result Bool
  | .cmp l r op _ =>
    evalComparison op l r (operandValueOpt env d l (evalBoolOpt env d l)) (operandValueOpt env d r (evalBoolOpt env d r))
  | .range f lo hi loT hiT => evalRangeOpt d f lo hi loT hiT
  | .inn f items => do
    let v ← requireFieldOpt (some f) d
    let vs ← evalItemsOpt env d items
    logicalIn v (getDataType v) (flattenItems vs)
  | .array f op items => do
    let v ← requireFieldOpt (some f) d
    let vs ← evalItemsOpt env d items
    if heterogeneous (flattenItems vs) then throw .heterogeneousArray
    logicalArray op v (getDataType v) (flattenItems vs)
  | .unary dt v => evalUnaryOpt d dt v
  | .and_ l r => do
    let a ← evalBoolOpt env d l
    if a then evalBoolOpt env d r else pure false
  | .or_ l r => do
    let a ← evalBoolOpt env d l
    if a then pure true else evalBoolOpt env d r
  | .not_ l => do
    let a ← evalBoolOpt env d l
    pure (!a)
  | .field _ => .ok false
  | .arith _ _ _ => .ok false
  | .neg _ => .ok false
  | .func _ _ => .ok false
/-- `resolveArrayElements` (`application/BooleanExpressionEvaluator.java:130-141`). -/
def evalItemsOpt (env : Env) (d : Option Data) : List Node → Result (List Value)
  | [] => .ok []
  | n :: ns => do
    let v ← itemValueOpt env d n (evalBoolOpt env d n)
    let vs ← evalItemsOpt env d ns
    pure (v :: vs)
end

/-- `BoolParser.parseExpression` (`parser/antlr/BoolParser.java:20-43`): `CharStreams.fromString` throws for null
(line 34), inside the `Try`. -/
def parseOpt (expr : Option JStr) (df : Option JStr) : Result Node :=
  match expr with
  | some s => parseAny s df
  | none => .error .nullPointer

/-- `BooleanExpressionEvaluator.evaluate` (`application/BooleanExpressionEvaluator.java:48-55`). -/
def evaluateOpt (env : Env) (expr : Option JStr) (d : Option Data) (df : Option JStr) : Result Bool := do
  let n ← parseOpt expr df
  evalBoolOpt env d n

/-- `ArithmeticExpressionEvaluator.evaluate` (`application/ArithmeticExpressionEvaluator.java:41-44`). -/
def evaluateArithOpt (env : Env) (expr : Option JStr) (d : Option Data) : Result Value := do
  let n ← parseOpt expr none
  evalArithOpt env d n

/-- A request to the caching parser. -/
structure RequestOpt where
  expr : Option JStr
  df : Option JStr
deriving DecidableEq

/-- `expression + "_" + Optional.ofNullable(defaultField).orElse("")` (`CachedBoolParser.java:29`): Java writes null as
`null` when it joins texts. -/
def cacheKeyOpt (r : RequestOpt) : JStr := r.expr.getD j!"null" ++ ['_'] ++ r.df.getD []

/-- `CachedBoolParser.parseExpression` (`CachedBoolParser.java:18-31`), as `cachedParse`. -/
def cachedParseOpt (c : Cache) (r : RequestOpt) : Result Node × Cache :=
  match c.find (cacheKeyOpt r) with
  | some n => (.ok n, c)
  | none =>
    match parseOpt r.expr r.df with
    | .ok n => (.ok n, (cacheKeyOpt r, n) :: c)
    | .error e => (.error e, c)

/-- What can happen to a caching parser. -/
inductive CacheOpOpt where
  | request (r : RequestOpt)
  | evict (keep : JStr → Bool)

/-- One step. -/
def cacheStepOpt (c : Cache) : CacheOpOpt → Cache
  | .request r => (cachedParseOpt c r).2
  | .evict keep => c.filter (fun e => keep e.1)

/-- The cache after a history, starting empty. -/
def cacheAfterOpt (ops : List CacheOpOpt) : Cache := ops.foldl cacheStepOpt []

end BoolParser
