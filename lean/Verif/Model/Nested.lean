import Verif.Model.Ask
/-!
# Evaluation over nested maps that the user implements

`Model/Ask.lean` takes the look-up of one name as one question. Here is what happens below: a dotted name is followed
through maps each of which may be the user's own.
-/

namespace BoolParser

/-- What `Map.get` returned, if not null: the object as a value, and the map it is if it is one (`instanceof Map`). -/
structure Gotten (M : Type) where
  value : Value
  inner : Option M

/-- The maps of the user, seen from outside: what `get` of a map gives for a key after the calls of `get` so far.
`Optional.ofNullable` (`util/ValueUtils.java:23`) turns null into nothing. -/
abbrev Maps (M : Type) := List (M × JStr) → M → JStr → Result (Option (Gotten M))

/-- `catch (ClassCastException ex) { return Optional.empty(); }` (`util/ValueUtils.java:33-35`). -/
def swallow : Result (Option Value) → Result (Option Value)
  | .error .classCast => .ok none
  | r => r

/-- `getValueFromMap` (`util/ValueUtils.java:20-38`) over the parts of the key, with the calls of `get` written down. As in
`walkKeys` the remaining parts are kept instead of being joined and split again. -/
def walkMaps {M : Type} (W : Maps M) : List JStr → M → List (M × JStr) → List (M × JStr) × Result (Option Value)
  | [], _, h => (h, .error .indexOutOfBounds)
  | [k], m, h => (h ++ [(m, k)], (W h m k).map fun o => o.map Gotten.value)
  | k :: k2 :: ks, m, h =>
    match W h m k with
    | .error e => (h ++ [(m, k)], .error e)
    | .ok (some ⟨_, some m'⟩) =>
      ((walkMaps W (k2 :: ks) m' (h ++ [(m, k)])).1, swallow (walkMaps W (k2 :: ks) m' (h ++ [(m, k)])).2)
    | .ok _ => (h ++ [(m, k)], .ok none)

/-- `ValueUtils.getValueFromMap(key, data)`. -/
def getThrough {M : Type} (W : Maps M) (root : M) (key : JStr) (h : List (M × JStr)) :
    List (M × JStr) × Result (Option Value) := walkMaps W (splitKey key) root h

/-- The calls of `get` after the names were looked up one by one. -/
def visited {M : Type} (W : Maps M) (root : M) : List (M × JStr) → List JStr → List (M × JStr)
  | h, [] => h
  | h, k :: ks => visited W root (getThrough W root k h).1 ks

/-- The data argument with everything reachable from it, as one map in the sense of `Model/Ask`. -/
def throughMaps {M : Type} (W : Maps M) (root : M) : UserMap := fun names k =>
  (getThrough W root k (visited W root [] names)).2

/-- Ordinary nested maps. -/
def plainMaps : Maps Data := fun _ m k =>
  match mapGet m k with
  | none => .ok none
  | some .null => .ok none
  | some (.map es) => .ok (some ⟨.map es, some es⟩)
  | some v => .ok (some ⟨v, none⟩)

/-- `BooleanExpressionEvaluator.evaluate(expression, data, defaultField)`
(`application/BooleanExpressionEvaluator.java:48-55`): the calls of `get` and the outcome. The evaluators touch the data
through `getValueFromMap` only. -/
def evaluateMaps {M : Type} (W : Maps M) (root : M) (env : Env) (expr : JStr) (df : Option JStr) :
    List (M × JStr) × Result Bool :=
  (visited W root [] (evaluateAsk (throughMaps W root) env expr df).1, (evaluateAsk (throughMaps W root) env expr df).2)

/-- `ArithmeticExpressionEvaluator.evaluate(expression, data)` (`application/ArithmeticExpressionEvaluator.java:41-44`). -/
def evaluateArithMaps {M : Type} (W : Maps M) (root : M) (env : Env) (expr : JStr) : List (M × JStr) × Result Value :=
  (visited W root [] (evaluateArithAsk (throughMaps W root) env expr).1, (evaluateArithAsk (throughMaps W root) env expr).2)

end BoolParser
