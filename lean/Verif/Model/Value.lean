import Verif.Model.Double
import Verif.Model.DateTime
import Verif.Model.Version
/-!
# Data values and data maps
-/

namespace BoolParser

/-- A Java object as far as the library can tell objects apart.
`dbl`/`flt` carry `Double.toString`/`Float.toString` (the library only ever looks at that text),
`ver` the text of a `ComparableVersion`, `list` a `java.util.List`, `coll` another
`java.util.Collection`, `arr` an `Object[]` (with its `toString`), `other` any other object (with its
`toString`). `map` is a `Map<String, Object>` as its entries in iteration order.
Simplification: objects whose `toString` changes or throws, maps with non-string keys and
self-containing collections are not represented, and `EvaluatedNode`s only in `Model/Wrapped`. -/
inductive Value where
  | null
  | bool (b : Bool)
  | int (n : Int)
  | long (n : Int)
  | dec (d : Dec)
  | dbl (text : JStr)
  | flt (text : JStr)
  | str (s : JStr)
  | ver (s : JStr)
  | date (d : Date)
  | datetime (t : DateTime)
  | list (xs : List Value)
  | coll (xs : List Value)
  | arr (text : JStr) (xs : List Value)
  | map (es : List (JStr × Value))
  | other (text : JStr)

/-- A data map (`Map<String, Object>`). -/
abbrev Data := List (JStr × Value)

mutual
/-- `String.valueOf(Object)` = `toString()` (for `null`: the text `null`). Collections and maps print
like `AbstractCollection.toString` / `AbstractMap.toString`. -/
def Value.text : Value → JStr
  | .null => j!"null"
  | .bool true => j!"true"
  | .bool false => j!"false"
  | .int n => intStr n
  | .long n => intStr n
  | .dec d => d.toStr
  | .dbl t => t
  | .flt t => t
  | .str s => s
  | .ver s => s
  | .date d => dateStr d
  | .datetime t => dateTimeStr t
  | .list xs => ['['] ++ Value.texts xs ++ [']']
  | .coll xs => ['['] ++ Value.texts xs ++ [']']
  | .arr t _ => t
  | .map es => ['{'] ++ Value.entryTexts es ++ ['}']
  | .other t => t
/-- Element texts separated by `, `. -/
def Value.texts : List Value → JStr
  | [] => []
  | [x] => Value.text x
  | x :: y :: xs => Value.text x ++ j!", " ++ Value.texts (y :: xs)
/-- Entry texts `k=v` separated by `, `. -/
def Value.entryTexts : List (JStr × Value) → JStr
  | [] => []
  | [(k, v)] => k ++ ['='] ++ Value.text v
  | (k, v) :: e :: es => k ++ ['='] ++ Value.text v ++ j!", " ++ Value.entryTexts (e :: es)
end

/-- `Map.get(key)`. The association list stands for a `Map`, so only the first entry of a key counts. -/
def mapGet (d : Data) (k : JStr) : Option Value :=
  match d with
  | [] => none
  | (k', v) :: es => if k' = k then some v else mapGet es k

/-- Split at every dot (before `String.split` drops trailing empty parts). -/
def splitDotsAll : JStr → List JStr
  | [] => [[]]
  | c :: cs =>
    if c = '.' then [] :: splitDotsAll cs
    else match splitDotsAll cs with
      | [] => [[c]]
      | p :: ps => (c :: p) :: ps

/-- Drop trailing empty parts (`String.split` with limit 0). -/
def dropTrailingEmpty (ps : List JStr) : List JStr := (ps.reverse.dropWhile (· = [])).reverse

/-- `key.split("\\.")` (`util/ValueUtils.java:21`): trailing empty parts are dropped, except that a key
without any dot is returned as it is (even if empty). -/
def splitKey (key : JStr) : List JStr :=
  if '.' ∈ key then dropTrailingEmpty (splitDotsAll key) else [key]

/-- The walk of `getValueFromMap` (`util/ValueUtils.java:20-38`) over the parts of the key: `none` is
`Optional.empty()`. Simplification: the source joins the remaining parts with dots and splits the
result again, which gives the same parts (lemma `splitKey_join`). An empty part array (key made of dots
only) makes `keys[0]` throw. -/
def walkKeys : List JStr → Data → Result (Option Value)
  | [], _ => .error .indexOutOfBounds
  | [k], d =>
    match mapGet d k with
    | none => .ok none
    | some .null => .ok none
    | some v => .ok (some v)
  | k :: k2 :: ks, d =>
    match mapGet d k with
    | some (.map es) => walkKeys (k2 :: ks) es
    | _ => .ok none

/-- `ValueUtils.getValueFromMap` (`util/ValueUtils.java:20-38`). -/
def getValueFromMap (key : JStr) (d : Data) : Result (Option Value) := walkKeys (splitKey key) d

end BoolParser
