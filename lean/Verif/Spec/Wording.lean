import Verif.Model.Wording
import Verif.Spec.Expr
import Verif.Spec.Lists
import Verif.Spec.Functions
import Verif.Spec.Lexemes
import Verif.Spec.Arithmetic
import Verif.Spec.Mentions
import Verif.Spec.Numbers
/-!
# What the library says when an evaluation fails (for C101)

`Arith.Complains env d e x t`: evaluating `e` on the data ends with an exception of class `x` whose message is `t`.
The rules say which part is at fault, and in which order the parts are looked at. The texts are written out here once
more, so that a comparison with the model's texts means something.
-/

namespace BoolParser.Spec
open BoolParser

/-- The outcome without the messages. -/
def untold {α : Type} : Told α → Result α
  | .ok a => .ok a
  | .error f => .error f.exn

/-- The exceptions that the library itself throws; the others come from the JDK. -/
def OfLibrary (x : Exn) : Prop :=
  x ∈ [Exn.invalidExpression, .invalidDataType, .dataNotFound, .invalidContainerType, .heterogeneousArray,
    .invalidUnaryOperand, .unsupportedToken, .invalidFunctionArgument]

instance (x : Exn) : Decidable (OfLibrary x) := inferInstanceAs (Decidable (_ ∈ _))

/-- The data types in their order: of two values the later type decides how they are compared. -/
def typeOrder : List DataType := [.boolean, .version, .integer, .long, .decimal, .date, .datetime, .string]

/-- What a data type is called. -/
def typeText : DataType → JStr
  | .boolean => j!"BOOLEAN"
  | .version => j!"VERSION"
  | .integer => j!"INTEGER"
  | .long => j!"LONG"
  | .decimal => j!"DECIMAL"
  | .date => j!"DATE"
  | .datetime => j!"DATETIME"
  | .string => j!"STRING"

/-- What the type of a value is called. -/
def typeOf (v : Value) : JStr := typeText (getDataType v)

/-- What a calculation is called. -/
def opText : ArithOp → JStr
  | .add => j!"ADD"
  | .sub => j!"SUBTRACT"
  | .mul => j!"MULTIPLY"
  | .div => j!"DIVIDE"
  | .mod => j!"MODULUS"
  | .exp => j!"EXPONENT"

/-- What a comparison is called. -/
def testText : CmpOp → JStr
  | .eq => j!"EQUALS"
  | .ne => j!"NOT_EQUAL"
  | .gt => j!"GREATER_THAN"
  | .ge => j!"GREATER_THAN_EQUAL"
  | .lt => j!"LESS_THAN"
  | .le => j!"LESS_THAN_EQUAL"

/-- A `Double` or `Float` that is no number: NaN or infinite. -/
def NotANumber : Value → Prop
  | .dbl t => ¬ ∃ x, Numeral t x
  | .flt t => ¬ ∃ x, Numeral t x
  | _ => False

/-- `+` takes all but dates and moments, `%` only `Integer` and `Long`, the others take numbers. -/
def TakesOperand : ArithOp → Value → Prop
  | .add, v => getDataType v ≠ .date ∧ getDataType v ≠ .datetime
  | .mod, v => IsNumber v = true ∧ IsDecimal v = false
  | _, v => IsNumber v = true

/-- `a o b` is refused. A right operand of the wrong type is called the left one; of a right operand that is no number
the type is printed instead of the value. -/
inductive OperatorSays (o : ArithOp) (a b : Value) : JStr → Prop
  | left : ¬ TakesOperand o a → OperatorSays o a b (j!"Invalid left operand data type " ++ typeOf a ++ j!" for operator " ++ opText o)
  | leftValue : TakesOperand o a → NotANumber a →
      OperatorSays o a b (j!"Validation failed for the operator " ++ opText o ++ j!" for the operand " ++ a.text)
  | right : TakesOperand o a → ¬ NotANumber a → ¬ TakesOperand o b →
      OperatorSays o a b (j!"Invalid left operand data type " ++ typeOf b ++ j!" for operator " ++ opText o)
  | rightValue : TakesOperand o a → ¬ NotANumber a → TakesOperand o b → NotANumber b →
      OperatorSays o a b (j!"Validation failed for the operator " ++ opText o ++ j!" for the operand " ++ j!"DECIMAL")

/-- `- a` is refused. -/
inductive NegationSays (a : Value) : JStr → Prop
  | type : IsNumber a = false → NegationSays a (j!"Invalid left operand data type " ++ typeOf a ++ j!" for operator UNARY")
  | value : NotANumber a → NegationSays a (j!"Validation failed for the operator UNARY for the operand " ++ a.text)

/-- How many items a function takes. -/
def TakesCount : FuncType → ℕ → Prop
  | .int, n => n = 1
  | .daysElapsed, n => n = 1
  | .len, _ => True
  | _, n => 2 ≤ n

/-- Which items a function takes. -/
def TakesItem : FuncType → Value → Prop
  | .len, _ => True
  | .daysElapsed, v => getDataType v = .date
  | _, v => IsNumber v = true

/-- A function is refused its items. -/
inductive FunctionSays (f : FuncType) (ws : List Value) : Exn → JStr → Prop
  | empty : ws = [] → FunctionSays f ws .invalidExpression j!"Empty items not allowed"
  | one : ws.length = 1 → ¬ TakesCount f 1 →
      FunctionSays f ws .invalidContainerType (j!"Invalid container type PRIMITIVE for function " ++ fnText f)
  | many : 2 ≤ ws.length → ¬ TakesCount f ws.length →
      FunctionSays f ws .invalidContainerType (j!"Invalid container type LIST for function " ++ fnText f)
  | type {w : Value} : TakesCount f ws.length → w ∈ ws → ¬ TakesItem f w →
      FunctionSays f ws .invalidDataType (j!"Invalid data type for function " ++ fnText f)
  | value {before after : List Value} {w : Value} : TakesCount f ws.length → (∀ v ∈ ws, TakesItem f v) →
      ws = before ++ w :: after → (∀ v ∈ before, ¬ NotANumber v) → NotANumber w →
      FunctionSays f ws .invalidDataType (j!"Validation failed for the function " ++ fnText f ++ j!" for the operand " ++ w.text)
  | day {t : JStr} : f = .daysElapsed → ws = [.str t] → getDataType (.str t) = .date → parseIsoDate t = none →
      FunctionSays f ws .invalidFunctionArgument (j!"DAYS_ELAPSED function requires a valid date argument, got: " ++ t)

/-- The message for a missing field. -/
def missingText (f : JStr) : JStr := j!"Data not found for the key " ++ f

/-- What an arithmetic expression says. -/
inductive Arith.Complains (env : Env) (d : Data) : Arith → Exn → JStr → Prop
  | field {f : JStr} : Absent d f → Arith.Complains env d (.field f) .dataNotFound (missingText f)
  | group {e : Arith} {x : Exn} {t : JStr} : Arith.Complains env d e x t → Arith.Complains env d (.group e) x t
  | left {o : ArithOp} {l r : Arith} {x : Exn} {t : JStr} : Arith.Complains env d l x t → Arith.Complains env d (.op o l r) x t
  | right {o : ArithOp} {l r : Arith} {a : Value} {x : Exn} {t : JStr} : l.value env d = .ok a → Arith.Complains env d r x t →
      Arith.Complains env d (.op o l r) x t
  | op {o : ArithOp} {l r : Arith} {a b : Value} {t : JStr} : l.value env d = .ok a → r.value env d = .ok b →
      OperatorSays o a b t → Arith.Complains env d (.op o l r) .invalidDataType t
  | operand {e : Arith} {x : Exn} {t : JStr} : Arith.Complains env d e x t → Arith.Complains env d (.neg e) x t
  | neg {e : Arith} {a : Value} {t : JStr} : e.value env d = .ok a → NegationSays a t →
      Arith.Complains env d (.neg e) .invalidDataType t
  | arg {f : FuncType} {before after : List Arith} {e : Arith} {vs : List Value} {x : Exn} {t : JStr} :
      Arith.values env d before = .ok vs → Arith.Complains env d e x t →
      Arith.Complains env d (.call f (before ++ e :: after)) x t
  | call {f : FuncType} {args : List Arith} {ws : List Value} {x : Exn} {t : JStr} : Items env d args ws →
      FunctionSays f ws x t → Arith.Complains env d (.call f args) x t

/-- An item of a list complains, those before it have values. -/
def ItemComplains (env : Env) (d : Data) (items : List Arith) (x : Exn) (t : JStr) : Prop :=
  ∃ before e after vs, items = before ++ e :: after ∧ Arith.values env d before = .ok vs ∧ e.Complains env d x t

/-! ### Conditions -/

/-- The type does not accept the value: `isValid` of the type answers no. -/
def Refused (t : DataType) (v : Value) : Prop := isValid t v = .ok false

/-- Of two types the later one. -/
def LaterType (s t u : DataType) : Prop :=
  (u = s ∧ typeOrder.idxOf t < typeOrder.idxOf s) ∨ (u = t ∧ typeOrder.idxOf s ≤ typeOrder.idxOf t)

/-- Whole numbers, decimals and versions. -/
def NumericType (t : DataType) : Prop := t ∈ [DataType.integer, .long, .decimal, .version]

instance (t : DataType) : Decidable (NumericType t) := inferInstanceAs (Decidable (_ ∈ _))

/-- The message for a value that the type does not accept. -/
def refusedText (v : Value) (t : DataType) : JStr :=
  j!"Invalid data type for value " ++ v.text ++ j!" for data type " ++ typeText t

/-- Compared as values of type `u`, one is refused, `a` being looked at first. -/
inductive EitherRefused (u : DataType) (a b : Value) : JStr → Prop
  | first : Refused u a → EitherRefused u a b (refusedText a u)
  | second : isValid u a = .ok true → Refused u b → EitherRefused u a b (refusedText b u)

/-- `<`, `<=`, `>` or `>=`. -/
def Ordering4 (o : CmpOp) : Prop := o ∈ [CmpOp.lt, .le, .gt, .ge]

instance (o : CmpOp) : Decidable (Ordering4 o) := inferInstanceAs (Decidable (_ ∈ _))

/-- `a o b` is refused. -/
inductive TestSays (o : CmpOp) (a b : Value) : JStr → Prop
  | left : Ordering4 o → getDataType a = .boolean →
      TestSays o a b (j!"Invalid left operand data type BOOLEAN for operator " ++ testText o)
  | value : NotANumber a → TestSays o a b (j!"Validation failed for the operator " ++ testText o ++ j!" for the operand " ++ a.text)
  | right : Ordering4 o → getDataType a ≠ .boolean → ¬ NotANumber a → getDataType b = .boolean →
      TestSays o a b (j!"Invalid right operand data type BOOLEAN for operator " ++ testText o)
  | equal {u : DataType} {t : JStr} : ¬ Ordering4 o → ¬ NotANumber a → LaterType (getDataType a) (getDataType b) u →
      EitherRefused u a b t → TestSays o a b t
  | leftText : Ordering4 o → getDataType a ≠ .boolean → getDataType b ≠ .boolean → ¬ NumericType (getDataType a) →
      NumericType (getDataType b) → Refused (getDataType b) a →
      TestSays o a b (j!"Incompatible data types " ++ typeOf a ++ j!" and " ++ typeOf b)
  | rightText : Ordering4 o → ¬ NotANumber a → getDataType b ≠ .boolean → NumericType (getDataType a) →
      ¬ NumericType (getDataType b) → Refused (getDataType a) b →
      TestSays o a b (j!"Incompatible data types " ++ typeOf a ++ j!" and " ++ typeOf b)
  | rightNumber : Ordering4 o → getDataType a ≠ .boolean → ¬ NumericType (getDataType a) →
      isValid .decimal a = .ok true → NotANumber b → TestSays o a b (refusedText b .decimal)
  | order {u : DataType} {t : JStr} : Ordering4 o → ¬ NotANumber a → getDataType a ≠ .boolean → getDataType b ≠ .boolean →
      (NumericType (getDataType a) ↔ NumericType (getDataType b)) → LaterType (getDataType a) (getDataType b) u →
      EitherRefused u a b t → TestSays o a b t

/-- `v IN (ws)` is refused. -/
inductive InSays (v : Value) (ws : List Value) : JStr → Prop
  | value : NotANumber v → InSays v ws (j!"Validation failed for the operator IN for the operand " ++ v.text)
  | item {before after : List Value} {w : Value} {u : DataType} {t : JStr} : ¬ NotANumber v → ws = before ++ w :: after →
      (∀ z ∈ before, Cond.compare .eq v z = .ok false) → LaterType (getDataType v) (getDataType w) u →
      EitherRefused u v w t → InSays v ws t

/-- The left operand of a test, given or the default field. -/
inductive LeftComplains (env : Env) (d : Data) (df : Option JStr) : Option Arith → Exn → JStr → Prop
  | given {l : Arith} {x : Exn} {t : JStr} : l.Complains env d x t → LeftComplains env d df (some l) x t
  | default {f : JStr} : df = some f → Absent d f → LeftComplains env d df none .dataNotFound (missingText f)

/-- What a condition says. A right operand that is just a missing field says nothing. -/
inductive Cond.Complains (env : Env) (d : Data) (df : Option JStr) : Cond → Exn → JStr → Prop
  | left {o : CmpOp} {l r : Arith} {x : Exn} {t : JStr} : LeftComplains env d df (some l) x t → Cond.Complains env d df (.cmp o l r) x t
  | right {o : CmpOp} {l r : Arith} {a : Value} {x : Exn} {t : JStr} : l.value env d = .ok a → (∀ f, r ≠ .field f) →
      r.Complains env d x t → Cond.Complains env d df (.cmp o l r) x t
  | cmp {o : CmpOp} {l r : Arith} {a b : Value} {t : JStr} : l.value env d = .ok a → r.value env d = .ok b → TestSays o a b t →
      Cond.Complains env d df (.cmp o l r) .invalidDataType t
  | leftD {o : CmpOp} {r : Arith} {x : Exn} {t : JStr} : LeftComplains env d df none x t → Cond.Complains env d df (.cmpD o r) x t
  | rightD {o : CmpOp} {r : Arith} {a : Value} {x : Exn} {t : JStr} : Cond.defaultValue df d = .ok a → (∀ f, r ≠ .field f) →
      r.Complains env d x t → Cond.Complains env d df (.cmpD o r) x t
  | cmpD {o : CmpOp} {r : Arith} {a b : Value} {t : JStr} : Cond.defaultValue df d = .ok a → r.value env d = .ok b →
      TestSays o a b t → Cond.Complains env d df (.cmpD o r) .invalidDataType t
  | isNull {f : JStr} {eq : Bool} {v : Value} {t : JStr} : Arith.fieldValue f d = .ok v →
      TestSays (if eq then .eq else .ne) v (.str j!"null") t → Cond.Complains env d df (.isNull f eq) .invalidDataType t
  | rangeField {f : JStr} {lo hi : Lit} : Absent d f → Cond.Complains env d df (.range f lo hi) .dataNotFound (missingText f)
  | low {f : JStr} {lo hi : Lit} {v : Value} {t : JStr} : Arith.fieldValue f d = .ok v → TestSays .ge v lo.value t →
      Cond.Complains env d df (.range f lo hi) .invalidDataType t
  | high {f : JStr} {lo hi : Lit} {v : Value} {b : Bool} {t : JStr} : Arith.fieldValue f d = .ok v →
      Cond.compare .ge v lo.value = .ok b → TestSays .le v hi.value t → Cond.Complains env d df (.range f lo hi) .invalidDataType t
  | inField {f : JStr} {n : Bool} {items : List Arith} : Absent d f →
      Cond.Complains env d df (.isIn f n items) .dataNotFound (missingText f)
  | inItem {f : JStr} {n : Bool} {items : List Arith} {v : Value} {x : Exn} {t : JStr} : Arith.fieldValue f d = .ok v →
      ItemComplains env d items x t → Cond.Complains env d df (.isIn f n items) x t
  | isIn {f : JStr} {n : Bool} {items : List Arith} {v : Value} {ws : List Value} {t : JStr} : Arith.fieldValue f d = .ok v →
      Items env d items ws → InSays v ws t → Cond.Complains env d df (.isIn f n items) .invalidDataType t
  | containsField {f : JStr} {o : ArrOp} {items : List Arith} : Absent d f →
      Cond.Complains env d df (.contains f o items) .dataNotFound (missingText f)
  | containsItem {f : JStr} {o : ArrOp} {items : List Arith} {v : Value} {x : Exn} {t : JStr} : Arith.fieldValue f d = .ok v →
      ItemComplains env d items x t → Cond.Complains env d df (.contains f o items) x t
  | mixed {f : JStr} {o : ArrOp} {items : List Arith} {v w z : Value} {ws : List Value} : Arith.fieldValue f d = .ok v →
      Items env d items ws → w ∈ ws → z ∈ ws → getDataType w ≠ getDataType z →
      Cond.Complains env d df (.contains f o items) .heterogeneousArray j!"Heterogeneous input of array not allowed"
  | noList {f : JStr} {o : ArrOp} {items : List Arith} {v : Value} {ws : List Value} : Arith.fieldValue f d = .ok v →
      Items env d items ws → (∀ w ∈ ws, ∀ z ∈ ws, getDataType w = getDataType z) → (∀ zs, v ≠ .list zs) → (∀ zs, v ≠ .coll zs) →
      (∀ s zs, v ≠ .arr s zs) → Cond.Complains env d df (.contains f o items) .invalidDataType
        (j!"Validation failed for the operator " ++ arrText o ++ j!" for the operand " ++ v.text)
  | notField {f : JStr} : Absent d f → Cond.Complains env d df (.notField f) .dataNotFound (missingText f)
  | notBool {f : JStr} {v : Value} : Arith.fieldValue f d = .ok v → (∀ b, v ≠ .bool b) →
      Cond.Complains env d df (.notField f) .invalidUnaryOperand j!"Invalid operand data type in unary expression"
  | not {c : Cond} {x : Exn} {t : JStr} : Cond.Complains env d df c x t → Cond.Complains env d df (.not c) x t
  | group {c : Cond} {x : Exn} {t : JStr} : Cond.Complains env d df c x t → Cond.Complains env d df (.group c) x t
  | connLeft {conj : Bool} {l r : Cond} {x : Exn} {t : JStr} : Cond.Complains env d df l x t →
      Cond.Complains env d df (.conn conj l r) x t
  | connRight {conj : Bool} {l r : Cond} {x : Exn} {t : JStr} : l.meaning env d df = .ok conj → Cond.Complains env d df r x t →
      Cond.Complains env d df (.conn conj l r) x t

/-- The kind of test a condition is, as the arithmetic evaluator names it when it is given one. -/
def Cond.kindText : Cond → JStr
  | .cmp .. => j!"COMPARISON"
  | .cmpD .. => j!"COMPARISON"
  | .isNull .. => j!"COMPARISON"
  | .range .. => j!"NUMERIC_RANGE"
  | .isIn _ negated _ => if negated then j!"BOOLEAN" else j!"IN"
  | .contains .. => j!"ARRAY"
  | .notField _ => j!"BOOLEAN"
  | .not _ => j!"BOOLEAN"
  | .group c => c.kindText
  | .conn .. => j!"BOOLEAN"

end BoolParser.Spec
