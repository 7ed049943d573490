import Verif.Model.Cache
import Verif.Model.Lookup
/-!
# A program using the library

Everything that outlives a call: the static registries and the cache of a caching parser shared by the
evaluators of the program.
-/

namespace BoolParser

/-- The objects a program constructs. -/
inductive Ctor where
  | boolParser | cachedParser | arithEvaluator | boolEvaluator
deriving DecidableEq, Repr

/-- The registry writes of a constructor. `new CachedBoolParser(size)` runs the constructor of its
superclass (`parser/antlr/BoolParser.java:15-17`) and then initialises the operators again
(`parser/antlr/CachedBoolParser.java:13-16`). -/
def Ctor.puts : Ctor → List (Slot × Impl)
  | .boolParser => newBoolParser
  | .cachedParser => newBoolParser ++ operatorInit
  | .arithEvaluator => newArithEvaluator
  | .boolEvaluator => newBoolEvaluator

/-- What outlives a call. -/
structure World where
  reg : Registry
  cache : Cache

/-- At program start. -/
def World.start : World := ⟨Registry.empty, []⟩

/-- Which parser an evaluator was given. -/
inductive Source where
  | plain | cached
deriving DecidableEq, Repr

/-- What a program does. -/
inductive Event where
  | construct (c : Ctor)
  | register (t : DataType) (id : Nat)
  | evaluate (src : Source) (r : Request) (d : Data)
  | evaluateArith (src : Source) (expr : JStr) (d : Data)
  | evict (keep : JStr → Bool)

/-- The parse of a request, and the cache afterwards. -/
def World.parse (P : Request → Result Node) (w : World) (src : Source) (r : Request) : Result Node × Cache :=
  match src with
  | .plain => (P r, w.cache)
  | .cached => cachedParse P w.cache r

/-- One event. Evaluations leave the registries alone: the evaluators only read them
(`operator/OperatorService.java:24-62`, `function/FunctionEvaluatorService.java`,
`datatype/DataTypeFactory.java:29-31`). -/
def World.step (P : Request → Result Node) (w : World) : Event → World
  | .construct c => { w with reg := w.reg.run c.puts }
  | .register t id => { w with reg := w.reg.run (BoolParser.register t id) }
  | .evaluate src r _ => { w with cache := (w.parse P src r).2 }
  | .evaluateArith src e _ => { w with cache := (w.parse P src ⟨e, none⟩).2 }
  | .evict keep => { w with cache := w.cache.filter (fun e => keep e.1) }

/-- The world after a sequence of events. -/
def World.after (P : Request → Result Node) (es : List Event) : World := es.foldl (World.step P) World.start

/-- Every operator, function and data type is the library's own. -/
def Registry.complete (reg : Registry) : Prop := ∀ s, reg s = some .builtin

/-- The data type objects a program may register. -/
structure Users where
  obj : Nat → TypeObj
  compareOther : Comp → Comp → Result Ordering

/-- The registries stay as they are during an evaluation. -/
def World.live (w : World) (U : Users) : Live := ⟨fun _ => w.reg, U.obj, U.compareOther⟩

/-- `BooleanExpressionEvaluator.evaluate` in a world (`application/BooleanExpressionEvaluator.java:48-51`). -/
def World.evaluate (P : Request → Result Node) (w : World) (U : Users) (env : Env) (src : Source) (r : Request)
    (d : Data) : Result Bool :=
  (w.parse P src r).1 >>= fun n => outcomeAt (evalBoolL (w.live U) env d n) 0

/-- `ArithmeticExpressionEvaluator.evaluate` in a world (`application/ArithmeticExpressionEvaluator.java:41-44`). -/
def World.evaluateArith (P : Request → Result Node) (w : World) (U : Users) (env : Env) (src : Source) (expr : JStr)
    (d : Data) : Result Value :=
  (w.parse P src ⟨expr, none⟩).1 >>= fun n => outcomeAt (evalArithL (w.live U) env d n) 0

end BoolParser
