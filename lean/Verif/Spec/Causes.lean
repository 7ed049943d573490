import Verif.Spec.Mentions
import Verif.Spec.Kinds
import Verif.Spec.Ranges
/-!
# What can be the cause of a failure
-/

namespace BoolParser.Spec
open BoolParser

/-! ### In the data -/

/-- `Stores d v`: the value `v` is somewhere in the data: the value of an entry, an element of a list, collection or
array in the data, or the value of an entry of a map in the data. -/
inductive Stores (d : Data) : Value → Prop
  | entry {k : JStr} {v : Value} : (k, v) ∈ d → Stores d v
  | inner {es : List (JStr × Value)} {k : JStr} {v : Value} : Stores d (.map es) → (k, v) ∈ es → Stores d v
  | list {xs : List Value} {x : Value} : Stores d (.list xs) → x ∈ xs → Stores d x
  | coll {xs : List Value} {x : Value} : Stores d (.coll xs) → x ∈ xs → Stores d x
  | arr {b : JStr} {xs : List Value} {x : Value} : Stores d (.arr b xs) → x ∈ xs → Stores d x

/-- A list, collection or array in the data has a null element. -/
def NullElement (d : Data) : Prop :=
  ∃ xs, Value.null ∈ xs ∧ (Stores d (.list xs) ∨ Stores d (.coll xs) ∨ ∃ b, Stores d (.arr b xs))

/-- There is a `Double` or a `Float` in the data. -/
def HoldsDouble (d : Data) : Prop := (∃ x, Stores d (.dbl x)) ∨ ∃ x, Stores d (.flt x)

/-- There is an empty list or collection in the data. -/
def HoldsEmpty (d : Data) : Prop := Stores d (.list []) ∨ Stores d (.coll [])

/-- There is an array, or a collection that is no list, in the data. -/
def HoldsOther (d : Data) : Prop := (∃ xs, Stores d (.coll xs)) ∨ ∃ b xs, Stores d (.arr b xs)

/-! ### In the text -/

/-- One of the lexemes is of the kind `k`. -/
def Uses (ts : List JStr) (k : TK) : Prop := ∃ t ∈ ts, Classified t k

/-- `dddd-dd-dd` that is no calendar date, `dddd-dd-dd dd:dd:dd` that is no calendar date with a time of day. -/
def BadDate (t : JStr) : Prop :=
  (IsDateText t ∧ ∀ d, RealDate d → t ≠ dateText d) ∨
  (IsDateTimeText t ∧ ∀ x, RealDate x.date → RealTime x → t ≠ dateTimeText x)

/-- An operand is expected after the lexeme. -/
def WantsOperand (t : JStr) : Prop :=
  Classified t .lparen ∨ Classified t .comma ∨ Classified t .kNot ∨ Classified t .kAnd ∨ Classified t .kOr ∨
  (∃ o, Classified t (.arith o)) ∨ ∃ o, Classified t (.cmp o)

/-- No operand begins with the lexeme. -/
def EndsOperand (t : JStr) : Prop :=
  Classified t .rparen ∨ Classified t .comma ∨ Classified t .kAnd ∨ Classified t .kOr ∨
  (∃ o, o ≠ .sub ∧ Classified t (.arith o)) ∨ ∃ o, Classified t (.cmp o)

/-- An operand is left out: at the beginning of the text or after a lexeme that wants one, the text ends or goes on
with a lexeme no operand begins with. -/
def OmitsOperand (ts : List JStr) : Prop :=
  ∃ pre post, ts = pre ++ post ∧ (∀ t, pre.getLast? = some t → WantsOperand t) ∧ (∀ t, post.head? = some t → EndsOperand t)

/-- A comparison, a range, IN, CONTAINS, an arithmetic operator or a function. -/
def UsesValues (ts : List JStr) : Prop :=
  (∃ o, Uses ts (.cmp o)) ∨ Uses ts .kTo ∨ Uses ts .kIn ∨ Uses ts .cAll ∨ Uses ts .cAny ∨ (∃ o, Uses ts (.arith o)) ∨
  ∃ f, Uses ts (.fn f)

/-- A comparison, a range, IN, CONTAINS, AND, OR or NOT. -/
def UsesLogic (ts : List JStr) : Prop :=
  (∃ o, Uses ts (.cmp o)) ∨ Uses ts .kTo ∨ Uses ts .kIn ∨ Uses ts .cAll ∨ Uses ts .cAny ∨ Uses ts .kAnd ∨ Uses ts .kOr ∨
  Uses ts .kNot

/-- An arithmetic operator or a function. -/
def UsesArithmetic (ts : List JStr) : Prop := (∃ o, Uses ts (.arith o)) ∨ ∃ f, Uses ts (.fn f)

/-- CONTAINS_ALL or CONTAINS_ANY. -/
def UsesContains (ts : List JStr) : Prop := Uses ts .cAll ∨ Uses ts .cAny

/-- A NOT, or nothing but one operand: then the text of a literal can be taken for the name of a field. -/
def UsesTruth (ts : List JStr) : Prop := Uses ts .kNot ∨ SingleOperand ts

/-- A name of dots only. -/
def AllDots (f : JStr) : Prop := f ≠ [] ∧ ∀ c ∈ f, c = '.'

/-! ### The causes -/

/-- What must be in the text with lexemes `ts`, or in the data, for an evaluation to fail with the exception. The
default field is `df`; `arith`: it is the arithmetic evaluator. -/
def Cause (ts : List JStr) (df : Option JStr) (d : Data) (arith : Bool) : Exn → Prop
  | .invalidDataType => UsesValues ts
  | .dataNotFound => True
  | .nullPointer => NullElement d ∨ (∃ t ∈ ts, BadDate t) ∨ (df = none ∧ OmitsOperand ts)
  | .noSuchElement =>
      ((∃ o, Uses ts (.cmp o)) ∧ ∃ f, ((f ∈ ts ∧ Classified f .field) ∨ (df = some f ∧ OmitsOperand ts)) ∧ Absent d f) ∨
      ¬ EntriesInRange d ∨ Uses ts (.fn .len) ∨ Uses ts (.fn .daysElapsed)
  | .indexOutOfBounds =>
      (∃ f, ((f ∈ ts ∧ Classified f .field) ∨ (df = some f ∧ OmitsOperand ts)) ∧ AllDots f) ∨
      (arith = false ∧ UsesTruth ts ∧ ∃ f, Mentions ts df f ∧ AllDots f)
  | .arithmetic => Uses ts (.arith .div) ∨ Uses ts (.arith .mod) ∨ ∃ f, f ≠ .int ∧ f ≠ .len ∧ f ≠ .daysElapsed ∧ Uses ts (.fn f)
  | .numberFormat => Uses ts (.arith .exp)
  | .classCast => (Uses ts (.arith .sub) ∧ HoldsDouble d) ∨ (UsesContains ts ∧ HoldsOther d)
  | .heterogeneousArray => UsesContains ts
  | .invalidContainerType => ∃ f, f ≠ .len ∧ Uses ts (.fn f)
  | .invalidFunctionArgument => Uses ts (.fn .daysElapsed)
  | .invalidExpression => (∃ f, Uses ts (.fn f)) ∧ HoldsEmpty d
  | .invalidUnaryOperand => arith = false ∧ UsesTruth ts
  | .unsupportedToken => UsesLogic ts ∧ (arith = true ∨ UsesArithmetic ts)
  | .emptyStack => False

end BoolParser.Spec
