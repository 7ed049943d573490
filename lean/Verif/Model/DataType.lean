import Verif.Model.Value
/-!
# Data types: detection, validation, coercion, comparison
-/

namespace BoolParser

/-- `constant/DataType.java:10-23`. -/
inductive DataType where
  | string | integer | long | decimal | version | boolean | date | datetime
deriving DecidableEq, Repr

/-- Priorities, `constant/DataType.java:11-18`. -/
def DataType.priority : DataType → Nat
  | .string => 8 | .integer => 3 | .long => 4 | .decimal => 5
  | .version => 2 | .boolean => 1 | .date => 6 | .datetime => 7

/-- The `numeric` flag, `constant/DataType.java:11-18`. -/
def DataType.numeric : DataType → Bool
  | .integer => true | .long => true | .decimal => true | .version => true
  | .string => false | .boolean => false | .date => false | .datetime => false

/-- `ValueUtils.getDataType(Object)`, `util/ValueUtils.java:123-157`. -/
def getDataType : Value → DataType
  | .bool _ => .boolean
  | .flt _ => .decimal
  | .dbl _ => .decimal
  | .dec _ => .decimal
  | .int _ => .integer
  | .long _ => .long
  | .ver _ => .version
  | .date _ => .date
  | .datetime _ => .datetime
  | .str s =>
    if (parseDateTime s).isSome then .datetime
    else if (parseDate s).isSome then .date
    else .string
  | _ => .string

/-- Lower-cased text is `true` (`Boolean.parseBoolean`). -/
def isTrueText (s : JStr) : Bool := lower s == j!"true"

/-- Lower-cased text is `true` or `false` (`datatype/BooleanDataType.java:24-25`). -/
def isBoolText (s : JStr) : Bool := lower s == j!"true" || lower s == j!"false"

/-- `value.toString()`; `NullPointerException` on null. -/
def toText : Value → Result JStr
  | .null => .error .nullPointer
  | v => .ok v.text

/-- `StringDataType.getValue`, `datatype/StringDataType.java:34-40`. -/
def asString (v : Value) : Result (Option JStr) := do
  let s ← toText v
  pure (some s)

/-- `BooleanDataType.getValue`, `datatype/BooleanDataType.java:39-48`. -/
def asBool : Value → Result (Option Bool)
  | .bool b => .ok (some b)
  | v => do
    let s ← toText v
    pure (if isBoolText s then some (isTrueText s) else none)

/-- `DecimalDataType.getValue`, `datatype/DecimalDataType.java:44-54` (every exception is swallowed). -/
def asDec : Value → Result (Option Dec)
  | .dec d => .ok (some d)
  | .null => .ok none
  | v => .ok (Dec.parse v.text)

/-- `IntegerDataType.getValue`, `datatype/IntegerDataType.java:45-56`. -/
def asInt : Value → Result (Option Int)
  | .int n => .ok (some n)
  | .null => .ok none
  | v => .ok ((Dec.parse v.text).bind Dec.toInt32?)

/-- `LongDataType.getValue`, `datatype/LongDataType.java:45-56`. -/
def asLong : Value → Result (Option Int)
  | .long n => .ok (some n)
  | .null => .ok none
  | v => .ok ((Dec.parse v.text).bind Dec.toInt64?)

/-- `VersionDataType.getValue`, `datatype/VersionDataType.java:44-54`; the result is the text of the
`ComparableVersion`. Every text is a version. -/
def asVer : Value → Result (Option JStr)
  | .null => .ok none
  | v => .ok (some v.text)

/-- `DateDataType.getValue`, `datatype/DateDataType.java:43-57`. -/
def asDate : Value → Result (Option Date)
  | .date d => .ok (some d)
  | v => do
    let s ← toText v
    pure (parseDate s)

/-- `DateTimeDataType.getValue`, `datatype/DateTimeDataType.java:43-57`. -/
def asDateTime : Value → Result (Option DateTime)
  | .datetime t => .ok (some t)
  | v => do
    let s ← toText v
    pure (parseDateTime s)

/-- `AbstractDataType.isValid(Object)` of the registered type objects: `StringDataType.java:21-23`,
`IntegerDataType.java:22-34`, `LongDataType.java:22-34`, `DecimalDataType.java:22-33`,
`VersionDataType.java:22-33`, `BooleanDataType.java:21-28`, `DateDataType.java:26-32`,
`DateTimeDataType.java:26-32`. It agrees with “`getValue` finds a value”, except that the string type
accepts everything, null included. -/
def isValid (t : DataType) (v : Value) : Result Bool :=
  match t with
  | .string => .ok true
  | .integer => do let r ← asInt v; pure r.isSome
  | .long => do let r ← asLong v; pure r.isSome
  | .decimal => do let r ← asDec v; pure r.isSome
  | .version => do let r ← asVer v; pure r.isSome
  | .boolean => do let r ← asBool v; pure r.isSome
  | .date => do let r ← asDate v; pure r.isSome
  | .datetime => do let r ← asDateTime v; pure r.isSome

/-- `ContainerDataType.PRIMITIVE.getValue`: an absent coercion is `InvalidDataType`
(`constant/ContainerDataType.java:23-29`). -/
def need {α : Type} : Result (Option α) → Result α
  | .ok (some a) => .ok a
  | .ok none => .error .invalidDataType
  | .error e => .error e

/-- Coerce both operands (left first), then compare. -/
def both {α : Type} (f : Value → Result (Option α)) (c : α → α → Ordering) (a b : Value) :
    Result Ordering := do
  let x ← need (f a)
  let y ← need (f b)
  pure (c x y)

/-- `leftValue.compareTo(rightValue)` after both were coerced to type `t`
(`operator/comparison/EqualsOperator.java:21-26` and the same lines of the other comparisons). -/
def comparePrim (t : DataType) (a b : Value) : Result Ordering :=
  match t with
  | .string => both asString cmpStr a b
  | .integer => both asInt compare a b
  | .long => both asLong compare a b
  | .decimal => both asDec Dec.cmp a b
  | .version => both asVer cmpVersion a b
  | .boolean => both asBool compare a b
  | .date => both asDate cmpDate a b
  | .datetime => both asDateTime cmpDateTime a b

/-- Elements of a `Collection` or `Object[]` (`constant/ContainerDataType.java:39,59`). -/
def listElems? : Value → Option (List Value)
  | .list xs => some xs
  | .coll xs => some xs
  | .arr _ xs => some xs
  | _ => none

/-- `allMatch` with early exit; the predicate may throw. -/
def allM' {α : Type} (f : α → Result Bool) : List α → Result Bool
  | [] => .ok true
  | x :: xs => do
    let b ← f x
    if b then allM' f xs else pure false

/-- `anyMatch` with early exit; the predicate may throw. -/
def anyM' {α : Type} (f : α → Result Bool) : List α → Result Bool
  | [] => .ok false
  | x :: xs => do
    let b ← f x
    if b then pure true else anyM' f xs

/-- `ContainerDataType.LIST.isValid`, `constant/ContainerDataType.java:57-67`. -/
def isValidList (t : DataType) (v : Value) : Result Bool :=
  match listElems? v with
  | some xs => allM' (isValid t) xs
  | none => .ok false

/-- `getComparableDataType`: the left type if its priority is strictly higher, else the right one
(`operator/comparison/EqualsOperator.java:29-34`, `NotEqualsOperator.java:29-34`). -/
def comparableType (l r : DataType) : DataType := if r.priority < l.priority then l else r

/-- `NumericOperator.getComparableDataType`: if exactly one side is of a numeric type, that type;
otherwise by priority (`operator/comparison/NumericOperator.java:8-16`). -/
def orderType (l r : DataType) : DataType :=
  if (l.numeric && !r.numeric) || (!l.numeric && r.numeric) then (if l.numeric then l else r)
  else comparableType l r

end BoolParser
