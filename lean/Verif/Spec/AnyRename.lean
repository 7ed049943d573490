import Verif.Spec.Mentions
/-!
# What may be changed in a text that need not be of the grammar

Specification for C94.
-/

namespace BoolParser.Spec

/-- The lexemes that stand between two operands. -/
def infixLexemes : List JStr :=
  [j!"AND", j!"and", j!"&&", j!"OR", j!"or", j!"||", j!"+", j!"-", j!"*", j!"/", j!"%", j!"^",
    j!"=", j!"!=", j!">", j!">=", j!"<", j!"<="]

/-- The two rests of a text agree in the next two lexemes, and up to the next one that stands between two operands. -/
def SameAhead (ts ts' : List JStr) : Prop :=
  ts.take 2 = ts'.take 2 ∧ ts.takeWhile (fun t => decide (t ∉ infixLexemes)) = ts'.takeWhile (fun t => decide (t ∉ infixLexemes))

/-- The upper bounds of ranges are left as they are: the lexeme after every TO is a number, or the two texts agree from
there to the next operator. -/
def BoundsKept : List JStr → List JStr → Prop
  | t :: ts, t' :: ts' =>
    (t = j!"TO" ∨ t = j!"to" → (∃ u r, ts = u :: r ∧ (IsDigits u ∨ IsDecimalText u)) ∨ SameAhead ts ts') ∧ BoundsKept ts ts'
  | _, _ => True

/-- NOT or the name of a function. -/
def PrefixWord (t : JStr) : Prop := ∃ k, (t, k) ∈ tokenTable ∧ (k = .kNot ∨ ∃ f, k = .fn f)

/-- Lexemes of the same kind: two spellings of a keyword, two names, two whole numbers, ... -/
def SameKind (t t' : JStr) : Prop := ∃ k, Classified t k ∧ Classified t' k

end BoolParser.Spec
