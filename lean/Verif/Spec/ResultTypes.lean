import Verif.Spec.Functions
/-!
# The Java types of results
-/

namespace BoolParser.Spec
open BoolParser

/-- `v` is an `Integer`. -/
def IsInteger (v : Value) : Prop := ∃ n, v = .int n

/-- `v` is a `BigDecimal`. -/
def IsBig (v : Value) : Prop := ∃ d, v = .dec d

/-- `v` is a `String`. -/
def IsText (v : Value) : Prop := ∃ t, v = .str t

/-- `v` is a `Double` or `Float`. -/
def IsFloating (v : Value) : Prop := ∃ t, v = .dbl t ∨ v = .flt t

/-- `v` is an `Integer`, or a `Long` too large for one. -/
inductive Sized : Value → Prop
  | int (n : ℤ) : Sized (.int n)
  | long {n : ℤ} : ¬ InInt32 n → Sized (.long n)

/-- `v` is an `Integer`, or a `BigDecimal` whose number no `Integer` has. -/
inductive Short : Value → Prop
  | int (n : ℤ) : Short (.int n)
  | big {d : Dec} : (∀ n : ℤ, InInt32 n → decVal d ≠ n) → Short (.dec d)

/-- `v` is an `Integer`, or a `BigDecimal` that is not a whole number. -/
inductive Fraction : Value → Prop
  | int (n : ℤ) : Fraction (.int n)
  | big {d : Dec} : (∀ n : ℤ, decVal d ≠ n) → Fraction (.dec d)

/-- The type of the result `v` of an operator between the values `a` and `b`. -/
def OperatorGives (o : ArithOp) (a b v : Value) : Prop :=
  let decimal := IsDecimal a || IsDecimal b
  let long := IsLong a || IsLong b
  match o with
  | .add => if IsNumber a && IsNumber b then (if decimal then IsBig v else Sized v) else IsText v
  | .mul => if decimal then IsBig v else Sized v
  | .sub => if decimal then IsBig v else if long then IsLong v = true else IsInteger v
  | .mod => if long then IsLong v = true else IsInteger v
  | .div => Fraction v
  | .exp => Short v

/-- The type of the result `v` of a function of the items `ws`. -/
def FunctionGives (f : FuncType) (ws : List Value) (v : Value) : Prop :=
  match f with
  | .min => if ws.any IsDecimal then Fraction v else Short v
  | .max => if ws.any IsDecimal then Fraction v else Short v
  | .sum => if ws.any IsDecimal then Fraction v else Short v
  | .avg => Fraction v
  | .mean => Fraction v
  | .median => Fraction v
  | .mode => Sized v ∨ Fraction v ∨ (v ∈ ws ∧ IsFloating v)
  | .int => IsInteger v
  | .len => IsInteger v
  | .daysElapsed => IsLong v = true

end BoolParser.Spec
