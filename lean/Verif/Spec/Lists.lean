import Verif.Spec.Numbers
import Verif.Model.Api
/-!
# Lists of items
-/

namespace BoolParser.Spec
open BoolParser

/-- What an item of IN, CONTAINS or a function stands for: a collection for its elements, anything else for
itself. -/
def elements : Value → List Value
  | .list xs => xs
  | .coll xs => xs
  | v => [v]

/-- The number a literal bound denotes. -/
def Lit.number : Lit → ℚ
  | .int ds => digitsValue ds
  | .dec a b => (digitsValue (a ++ b) : ℚ) / 10 ^ b.length
  | _ => 0

/-- The outcome of looking for the first true test from left to right; the first failure met ends the search. -/
def firstTrue : List (Outcome Bool) → Outcome Bool
  | [] => .success false
  | .success true :: _ => .success true
  | .success false :: os => firstTrue os
  | .failure e :: _ => .failure e
  | .syntaxError :: _ => .syntaxError

end BoolParser.Spec
