import Verif.Spec.Causes
/-!
# What a malformed text adds to the causes of failures
-/

namespace BoolParser.Spec
open BoolParser

/-- A whole or decimal number. -/
def NumberLexeme (t : JStr) : Prop := Classified t .integer ∨ Classified t .decimal

/-- The lexeme is a name or a literal. -/
def OperandLexeme (t : JStr) : Prop :=
  Classified t .field ∨ NumberLexeme t ∨ Classified t .version ∨ Classified t .kTrue ∨ Classified t .kFalse ∨
  Classified t .word ∨ Classified t .date ∨ Classified t .datetime

/-- An operand can begin with the lexeme: a name, a literal, `(`, NOT, `-` or a function. -/
def BeginsOperand (t : JStr) : Prop :=
  OperandLexeme t ∨ Classified t .lparen ∨ Classified t .kNot ∨ Classified t (.arith .sub) ∨ ∃ f, Classified t (.fn f)

/-- In a malformed text an operand can be expected after the lexeme: also after IN, CONTAINS, a function (whose
parenthesis is missing) and after a stray TO. -/
def AwaitsOperand (t : JStr) : Prop :=
  WantsOperand t ∨ Classified t .kIn ∨ Classified t .kTo ∨ Classified t .cAll ∨ Classified t .cAny ∨ ∃ f, Classified t (.fn f)

/-- An operand is missing: at the beginning of the text or after a lexeme after which one can be expected, the text
ends or goes on with a lexeme no operand begins with. -/
def LacksOperand (ts : List JStr) : Prop :=
  ∃ pre post, ts = pre ++ post ∧ (∀ t, pre.getLast? = some t → AwaitsOperand t) ∧ ∀ t, post.head? = some t → ¬ BeginsOperand t

/-- A name and two numbers follow each other: read as a range without its TO. -/
def SkipsTo (ts : List JStr) : Prop :=
  ∃ pre f x y post, ts = pre ++ f :: x :: y :: post ∧ Classified f .field ∧ NumberLexeme x ∧ NumberLexeme y

/-- A name, NOT and `(` follow each other: read as NOT IN without its IN. -/
def SkipsIn (ts : List JStr) : Prop :=
  ∃ pre f x y post, ts = pre ++ f :: x :: y :: post ∧ Classified f .field ∧ Classified x .kNot ∧ Classified y .lparen

/-- A date follows TO. -/
def DateBound (ts : List JStr) : Prop :=
  ∃ pre x t post, ts = pre ++ x :: t :: post ∧ Classified x .kTo ∧ (IsDateText t ∨ IsDateTimeText t)

/-- The lexeme is a binary operator. -/
def IsOperator (t : JStr) : Prop :=
  (∃ o, Classified t (.arith o)) ∨ (∃ o, Classified t (.cmp o)) ∨ Classified t .kAnd ∨ Classified t .kOr

/-- The text begins with one operand, or a missing one, in parentheses (some of them perhaps not closed), and does not
go on with an operator. -/
def LoneOperand (ts : List JStr) : Prop :=
  ∃ n m xs rest, ts = List.replicate n j!"(" ++ xs ++ List.replicate m j!")" ++ rest ∧ m ≤ n ∧
    ((∃ x, xs = [x] ∧ OperandLexeme x) ∨
      (xs = [] ∧ (m = 0 → ∀ t, rest.head? = some t → ¬ BeginsOperand t))) ∧
    (∀ t, rest.head? = some t → ¬ IsOperator t) ∧ (m < n → rest.head? ≠ some j!")")

/-- What, besides the causes in a well-formed text (`Cause`), can be the cause of the exception in a malformed one. -/
def Slip (ts : List JStr) (df : Option JStr) (d : Data) (arith : Bool) : Exn → Prop
  | .invalidDataType => SkipsTo ts ∨ SkipsIn ts
  | .nullPointer => DateBound ts ∨ (df = none ∧ LacksOperand ts)
  | .noSuchElement => (∃ o, Uses ts (.cmp o)) ∧ ∃ f, df = some f ∧ LacksOperand ts ∧ Absent d f
  | .indexOutOfBounds =>
      (∃ f, df = some f ∧ LacksOperand ts ∧ AllDots f) ∨
      (arith = false ∧ LoneOperand ts ∧ ∃ f, Mentions ts df f ∧ AllDots f)
  | .invalidUnaryOperand => arith = false ∧ LoneOperand ts
  | .unsupportedToken => SkipsTo ts ∧ (arith = true ∨ UsesArithmetic ts)
  | _ => False

end BoolParser.Spec
