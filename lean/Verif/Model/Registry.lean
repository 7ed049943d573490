import Verif.Model.Functions
/-!
# The static registries (`datatype/DataTypeFactory.java`, `operator/OperatorFactory.java`,
`function/FunctionFactory.java`)

Shared mutable maps written by every constructor. One `put` is one atomic step; steps of different
threads interleave arbitrarily. Simplification: the Java memory model (visibility of unsynchronised
writes) is not modelled.
-/

namespace BoolParser

/-- Operators of `constant/Operator.java:19-37`. -/
inductive Operator where
  | equals | greaterThan | greaterThanEqual | lessThan | lessThanEqual | notEqual | in_
  | add | subtract | multiply | divide | modulus | exponent | unary
  | containsAll | containsAny
deriving DecidableEq, Repr

/-- A slot of one of the registries. -/
inductive Slot where
  | dataType (t : DataType)
  | operator (o : Operator)
  | function (f : FuncType)
deriving DecidableEq, Repr

/-- What a slot can hold: the library's own object, or one registered by the user
(`DataTypeFactory.register`). -/
inductive Impl where
  | builtin
  | custom (id : Nat)
deriving DecidableEq, Repr

/-- The registries together. -/
abbrev Registry := Slot → Option Impl

/-- Nothing registered yet (class initialisation). -/
def Registry.empty : Registry := fun _ => none

/-- `map.put(slot, impl)`. -/
def Registry.put (r : Registry) (s : Slot) (i : Impl) : Registry := fun s' => if s' = s then some i else r s'

/-- `DataTypeFactory.initialize`, `datatype/DataTypeFactory.java:18-27`. -/
def dataTypeInit : List (Slot × Impl) :=
  [ (.dataType .string, .builtin), (.dataType .integer, .builtin), (.dataType .decimal, .builtin),
    (.dataType .long, .builtin), (.dataType .version, .builtin), (.dataType .boolean, .builtin),
    (.dataType .date, .builtin), (.dataType .datetime, .builtin) ]

/-- `OperatorFactory.initialize`, `operator/OperatorFactory.java:40-60`. -/
def operatorInit : List (Slot × Impl) :=
  [ (.operator .equals, .builtin), (.operator .greaterThan, .builtin),
    (.operator .greaterThanEqual, .builtin), (.operator .lessThan, .builtin),
    (.operator .lessThanEqual, .builtin), (.operator .notEqual, .builtin), (.operator .in_, .builtin),
    (.operator .containsAll, .builtin), (.operator .containsAny, .builtin),
    (.operator .add, .builtin), (.operator .subtract, .builtin), (.operator .divide, .builtin),
    (.operator .multiply, .builtin), (.operator .exponent, .builtin), (.operator .modulus, .builtin),
    (.operator .unary, .builtin) ]

/-- `FunctionFactory.initialize`, `function/FunctionFactory.java:29-40`. -/
def functionInit : List (Slot × Impl) :=
  [ (.function .min, .builtin), (.function .max, .builtin), (.function .avg, .builtin),
    (.function .sum, .builtin), (.function .mean, .builtin), (.function .median, .builtin),
    (.function .mode, .builtin), (.function .int, .builtin), (.function .len, .builtin),
    (.function .daysElapsed, .builtin) ]

/-- `new BoolParser()`, `parser/antlr/BoolParser.java:15-17`. -/
def newBoolParser : List (Slot × Impl) := operatorInit

/-- `new OperatorService()`, `operator/OperatorService.java:19-22`. -/
def newOperatorService : List (Slot × Impl) := dataTypeInit ++ operatorInit

/-- `new ArithmeticExpressionEvaluator(parser)`,
`application/ArithmeticExpressionEvaluator.java:35-39`. -/
def newArithEvaluator : List (Slot × Impl) := newOperatorService ++ functionInit

/-- `new BooleanExpressionEvaluator(parser)`, `application/BooleanExpressionEvaluator.java:42-46`. -/
def newBoolEvaluator : List (Slot × Impl) := newOperatorService ++ newArithEvaluator

/-- `DataTypeFactory.register(custom)`, `datatype/DataTypeFactory.java:33-35`. -/
def register (t : DataType) (id : Nat) : List (Slot × Impl) := [(.dataType t, .custom id)]

/-- Run a sequence of puts. -/
def Registry.run (r : Registry) (ps : List (Slot × Impl)) : Registry :=
  ps.foldl (fun r p => r.put p.1 p.2) r

/-- A step of a concurrent history: which thread did which put. -/
structure Step where
  thread : Nat
  put : Slot × Impl

/-- The puts of one thread in a history, in order. -/
def threadPuts (t : Nat) (h : List Step) : List (Slot × Impl) :=
  (h.filter (fun s => s.thread == t)).map Step.put

/-- The registry after a history. -/
def afterHistory (h : List Step) : Registry := Registry.empty.run (h.map Step.put)

end BoolParser
