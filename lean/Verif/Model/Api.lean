import Verif.Model.Eval
import Verif.Model.Listener
/-!
# Entry points
-/

namespace BoolParser

/-- What a call of the API returns. `syntaxError` marks input outside the grammar, on which ANTLR prints
a message and continues with a repaired token stream; the continuation is modelled in `Model/Recovery.lean`. -/
inductive Outcome (α : Type) where
  | success (a : α)
  | failure (e : Exn)
  | syntaxError

/-- `Try.of` / `Try.map` on a modelled computation. -/
def Outcome.ofResult {α : Type} : Result α → Outcome α
  | .ok a => .success a
  | .error e => .failure e

/-- `BoolParser.parseExpression(expression, defaultField)` (`parser/antlr/BoolParser.java:20-43`). -/
def parseExpression (expr : JStr) (df : Option JStr) : Outcome Node :=
  match parseTokens (lex expr) with
  | some t => .ofResult (listen df t)
  | none => .syntaxError

/-- `Try.map`. -/
def Outcome.andThen {α β : Type} (o : Outcome α) (f : α → Result β) : Outcome β :=
  match o with
  | .success a => .ofResult (f a)
  | .failure e => .failure e
  | .syntaxError => .syntaxError

/-- `BooleanExpressionEvaluator.evaluate(expression, data, defaultField)`
(`application/BooleanExpressionEvaluator.java:48-55`). -/
def evaluate (env : Env) (expr : JStr) (d : Data) (df : Option JStr) : Outcome Bool :=
  (parseExpression expr df).andThen (evalBool env d)

/-- `ArithmeticExpressionEvaluator.evaluate(expression, data)`
(`application/ArithmeticExpressionEvaluator.java:41-44`). -/
def evaluateArith (env : Env) (expr : JStr) (d : Data) : Outcome Value :=
  (parseExpression expr none).andThen (evalArith env d)

end BoolParser
