import Verif.Spec.AnyRename
/-!
# The lexemes of a text outside parentheses
-/

namespace BoolParser.Spec

/-- The lexemes outside parentheses, and the outermost parentheses themselves; `n` is the number of parentheses open. -/
def outside : Nat → List JStr → List JStr
  | _, [] => []
  | n, t :: ts =>
    if t = j!"(" then (if n = 0 then t :: outside 1 ts else outside (n + 1) ts)
    else if t = j!")" then (if n ≤ 1 then t :: outside 0 ts else outside (n - 1) ts)
    else if n = 0 then t :: outside 0 ts else outside n ts

/-- `^ / * % + -`. -/
def arithLexemes : List JStr := [j!"^", j!"/", j!"*", j!"%", j!"+", j!"-"]

/-- AND and OR. -/
def connectiveLexemes : List JStr := [j!"AND", j!"and", j!"&&", j!"OR", j!"or", j!"||"]

/-- Some arithmetic operator stands between operands. `b`: at the beginning, after an operator and after NOT, where a
minus is a sign. -/
def hasOperator : Bool → List JStr → Bool
  | _, [] => false
  | b, t :: ts =>
    if t ∈ arithLexemes ∧ ¬ (b = true ∧ t = j!"-") then true
    else hasOperator (decide (t ∈ infixLexemes ∨ t = j!"NOT" ∨ t = j!"not")) ts

/-- The text computes something rather than asking something: outside parentheses there is no AND or OR, and there is an
arithmetic operator, or the text begins with a minus. (A comparison is then an operand: `a > 5 + 3` is `(a > 5) + 3`, and
`-a = 5` is `-(a = 5)`.) -/
def Calculation (ts : List JStr) : Prop :=
  (∀ t ∈ outside 0 ts, t ∉ connectiveLexemes) ∧ (hasOperator true (outside 0 ts) = true ∨ ts.head? = some j!"-")

end BoolParser.Spec
