import Verif.Model.Operators
/-!
# Functions (`function/*`)
-/

namespace BoolParser

/-- `constant/FunctionType.java:10-20`. -/
inductive FuncType where
  | min | max | avg | sum | mean | mode | median | int | len | daysElapsed
deriving DecidableEq, Repr

/-- Element-wise coercion with `Optional::get`, in order. -/
def mapGetOpt {α : Type} (f : Value → Result (Option α)) : List Typed → Result (List α)
  | [] => .ok []
  | x :: xs => do
    let a ← getOpt (f x.1)
    let as ← mapGetOpt f xs
    pure (a :: as)

/-- `anyMatch(dataType == t)`. -/
def anyType (t : DataType) (items : List Typed) : Bool := items.any (fun x => x.2 == t)

/-- `stream().min(naturalOrder())`: `reduce((a, b) -> a.compareTo(b) <= 0 ? a : b)`. -/
def decMin : Dec → List Dec → Dec
  | a, [] => a
  | a, b :: bs => decMin (if a.cmp b == .gt then b else a) bs

/-- `stream().max(naturalOrder())`: `reduce((a, b) -> a.compareTo(b) >= 0 ? a : b)`. -/
def decMax : Dec → List Dec → Dec
  | a, [] => a
  | a, b :: bs => decMax (if a.cmp b == .lt then b else a) bs

/-- `LongStream.min()` / `IntStream.min()` (`Math::min`). -/
def intMin : Int → List Int → Int
  | a, [] => a
  | a, b :: bs => intMin (min a b) bs

/-- `LongStream.max()` / `IntStream.max()` (`Math::max`). -/
def intMax : Int → List Int → Int
  | a, [] => a
  | a, b :: bs => intMax (max a b) bs

/-- `LongStream.sum()`: 64-bit wrap-around addition. -/
def longSum : List Int → Int
  | xs => xs.foldl (fun acc x => wrap64 (acc + x)) 0

/-- `reduce(BigDecimal.ZERO, BigDecimal::add)`. -/
def decSum (xs : List Dec) : Dec := xs.foldl Dec.add ⟨0, 0⟩

/-- `MinFunction.evaluate`, `function/arithmetic/MinFunction.java:26-48`. -/
def minFn (items : List Typed) : Result Value :=
  if anyType .decimal items then do
    let ds ← mapGetOpt asDec items
    match ds with
    | [] => .error .noSuchElement
    | d :: ds => castDecimal (decMin d ds)
  else if anyType .long items then do
    let ns ← mapGetOpt asLong items
    match ns with
    | [] => .error .noSuchElement
    | n :: ns => pure (castWhole (longToDouble (intMin n ns)))
  else do
    let ns ← mapGetOpt asInt items
    match ns with
    | [] => .error .noSuchElement
    | n :: ns => pure (castWhole (longToDouble (intMin n ns)))

/-- `MaxFunction.evaluate`, `function/arithmetic/MaxFunction.java:26-48`. -/
def maxFn (items : List Typed) : Result Value :=
  if anyType .decimal items then do
    let ds ← mapGetOpt asDec items
    match ds with
    | [] => .error .noSuchElement
    | d :: ds => castDecimal (decMax d ds)
  else if anyType .long items then do
    let ns ← mapGetOpt asLong items
    match ns with
    | [] => .error .noSuchElement
    | n :: ns => pure (castWhole (longToDouble (intMax n ns)))
  else do
    let ns ← mapGetOpt asInt items
    match ns with
    | [] => .error .noSuchElement
    | n :: ns => pure (castWhole (longToDouble (intMax n ns)))

/-- `SumFunction.evaluate`, `function/arithmetic/SumFunction.java:24-41`. -/
def sumFn (items : List Typed) : Result Value :=
  if anyType .decimal items then do
    let ds ← mapGetOpt asDec items
    castDecimal (decSum ds)
  else do
    let ns ← mapGetOpt asLong items
    pure (castWhole (longToDouble (longSum ns)))

/-- `AvgFunction.evaluate`, `function/arithmetic/AvgFunction.java:25-42`. -/
def avgFn (items : List Typed) : Result Value :=
  if anyType .decimal items then do
    let ds ← mapGetOpt asDec items
    let q ← (decSum ds).divDown (Dec.ofInt ds.length) 3
    castDecimal q
  else do
    let ns ← mapGetOpt asLong items
    let q ← (Dec.ofInt (longSum ns)).divExact (Dec.ofInt items.length) 2
    castDecimal q

/-- Stable insertion into a sorted list: before the first strictly greater element. -/
def insertDec (x : Dec) : List Dec → List Dec
  | [] => [x]
  | y :: ys => if x.cmp y == .lt then x :: y :: ys else y :: insertDec x ys

/-- `Collections.sort` (stable sort by `compareTo`; elements inserted in list order). -/
def sortDecs (xs : List Dec) : List Dec := xs.foldl (fun acc x => insertDec x acc) []

/-- `list.get(i)`. -/
def getAt (xs : List Dec) (i : Nat) : Result Dec :=
  match xs[i]? with
  | some x => .ok x
  | none => .error .indexOutOfBounds

/-- `MedianFunction.evaluate`, `function/arithmetic/MedianFunction.java:26-41`. -/
def medianFn (items : List Typed) : Result Value := do
  let ds ← mapGetOpt asDec items
  let s := sortDecs ds
  let n := items.length
  if n % 2 = 0 then
    let a ← getAt s (n / 2)
    let b ← getAt s (n / 2 - 1)
    let q ← (a.add b).divDown (Dec.ofInt 2) 2
    castDecimal q
  else
    let a ← getAt s (n / 2)
    castDecimal a

/-- `Object.equals` between the values a function of numbers can receive (`Integer`, `Long`,
`BigDecimal`, `Double`, `Float`); only used for those. -/
def jEquals : Value → Value → Bool
  | .int a, .int b => a == b
  | .long a, .long b => a == b
  | .dec a, .dec b => a == b
  | .dbl a, .dbl b => a == b
  | .flt a, .flt b => a == b
  | _, _ => false

/-- Look a count up in the `HashMap`. -/
def countOf (hm : List (Value × Nat)) (v : Value) : Option Nat :=
  match hm with
  | [] => none
  | (k, n) :: es => if jEquals k v then some n else countOf es v

/-- `hm.put(value, count)`. -/
def putCount (hm : List (Value × Nat)) (v : Value) (n : Nat) : List (Value × Nat) :=
  match hm with
  | [] => [(v, n)]
  | (k, m) :: es => if jEquals k v then (k, n) :: es else (k, m) :: putCount es v n

/-- The loop of `ModeFunction.evaluate`, `function/arithmetic/ModeFunction.java:26-42`. -/
def modeGo : List Value → List (Value × Nat) → Nat → Value → Value
  | [], _, _, temp => temp
  | v :: vs, hm, mx, temp =>
    match countOf hm v with
    | some c =>
      if mx < c + 1 then modeGo vs (putCount hm v (c + 1)) (c + 1) v
      else modeGo vs (putCount hm v (c + 1)) mx temp
    | none => modeGo vs (putCount hm v 1) mx temp

/-- `ModeFunction.evaluate`, `function/arithmetic/ModeFunction.java:21-50`. -/
def modeFn (items : List Typed) : Result Value :=
  match items with
  | [] => .error .indexOutOfBounds
  | x :: _ =>
    match modeGo (items.map Prod.fst) [] 1 x.1 with
    | .dec d => castDecimal d
    | .long n => .ok (castLong n)
    | v => .ok v

/-- `LenFunction.evaluate`, `function/arithmetic/LenFunction.java:16-21`. -/
def lenFn (items : List Typed) : Result Value :=
  match items with
  | [(.str s, _)] => .ok (.int (jlength s))
  | xs => .ok (.int xs.length)

/-- `IntFunction.evaluate`, `function/arithmetic/IntFunction.java:19-28`. -/
def intFn (items : List Typed) : Result Value :=
  match items with
  | [] => .error .indexOutOfBounds
  | (v, t) :: _ =>
    if t == .decimal then do
      let d ← getOpt (asDec v)
      pure (.int d.intValue)
    else if t == .long then
      match v with
      | .long n => .ok (.int (wrap32 n))
      | _ => .error .classCast
    else .ok v

/-- `DaysElapsedFunction.evaluate`, `function/arithmetic/DaysElapsedFunction.java:23-47`;
`ChronoUnit.DAYS.between(d, today)` is the difference of epoch days. -/
def daysFn (env : Env) (items : List Typed) : Result Value :=
  match items with
  | [(.date d, _)] => .ok (.long (epochDay env.today - epochDay d))
  | [(.str s, _)] =>
    match parseIsoDate s with
    | some d => .ok (.long (epochDay env.today - epochDay d))
    | none => .error .invalidFunctionArgument
  | [(.null, _)] => .error .nullPointer
  | _ => .error .invalidFunctionArgument

/-- `getAllowedContainerTypes` contains LIST (more than one item). -/
def FuncType.allowsMany : FuncType → Bool
  | .int => false
  | .daysElapsed => false
  | _ => true

/-- `getAllowedContainerTypes` contains PRIMITIVE (exactly one item). -/
def FuncType.allowsOne : FuncType → Bool
  | .int => true
  | .daysElapsed => true
  | .len => true
  | _ => false

/-- `getAllowedDataTypes` of the functions (last method of each `function/arithmetic/*Function.java`). -/
def FuncType.allows : FuncType → DataType → Bool
  | .len, _ => true
  | .daysElapsed, t => t == .date
  | _, t => t == .integer || t == .long || t == .decimal

/-- `AbstractFunction.evaluate` dispatch (`function/FunctionFactory.java`); MEAN delegates to AVG
(`function/arithmetic/MeanFunction.java:18-20`). -/
def evalFn (env : Env) (f : FuncType) (items : List Typed) : Result Value :=
  match f with
  | .min => minFn items
  | .max => maxFn items
  | .avg => avgFn items
  | .sum => sumFn items
  | .mean => avgFn items
  | .mode => modeFn items
  | .median => medianFn items
  | .int => intFn items
  | .len => lenFn items
  | .daysElapsed => daysFn env items

/-- The validation loop `items.forEach(...)`, `function/FunctionEvaluatorService.java:39-44`. -/
def validateItems : List Typed → Result Unit
  | [] => .ok ()
  | x :: xs => do
    let b ← isValid x.2 x.1
    if !b then throw .invalidDataType
    validateItems xs

/-- `FunctionEvaluatorService.evaluateArithmeticFunction`,
`function/FunctionEvaluatorService.java:23-46`. -/
def callFn (env : Env) (f : FuncType) (items : List Typed) : Result Value := do
  if items.isEmpty then throw .invalidExpression
  if !(if 1 < items.length then f.allowsMany else f.allowsOne) then throw .invalidContainerType
  if !(items.all (fun x => f.allows x.2)) then throw .invalidDataType
  validateItems items
  evalFn env f items

/-- `ValueUtils.mapToEvaluatedNodes` (`util/ValueUtils.java:40-60`): collections are replaced by their
elements (one level), everything else is kept. Lines 43-51 are reached only
if the data holds `EvaluatedNode`s: see `Model/Wrapped`. -/
def flattenItems : List Value → List Typed
  | [] => []
  | v :: vs =>
    (match v with
     | .list xs => xs.map (fun x => (x, getDataType x))
     | .coll xs => xs.map (fun x => (x, getDataType x))
     | w => [(w, getDataType w)]) ++ flattenItems vs

end BoolParser
