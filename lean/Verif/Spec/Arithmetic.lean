import Mathlib.Algebra.Order.Floor.Ring
import Mathlib.Data.Rat.Floor
import Mathlib.Data.Int.ModEq
import Verif.Spec.Numbers
import Verif.Spec.Kinds
/-!
# Arithmetic: what results should be
-/

namespace BoolParser.Spec
open BoolParser

/-- `a` is the `Integer` or `Long` object of the whole number `n`. -/
inductive Whole : Value → ℤ → Prop
  | int {n : ℤ} : InInt32 n → Whole (.int n) n
  | long {n : ℤ} : InInt64 n → Whole (.long n) n

/-- `a` is a `Long`. -/
def IsLong : Value → Bool
  | .long _ => true
  | _ => false

/-- `a` is a `BigDecimal`, `Double` or `Float`. -/
def IsDecimal : Value → Bool
  | .dec _ => true
  | .dbl _ => true
  | .flt _ => true
  | _ => false

/-- The object for a whole number: an `Integer` if it fits 32 bits, a `Long` otherwise. -/
def wholeValue (n : ℤ) : Value := if InInt32 n then .int n else .long n

/-- `k` is the two's complement 64-bit number for `n`. -/
def Wrapped64 (k n : ℤ) : Prop := InInt64 k ∧ k ≡ n [ZMOD 2 ^ 64]

/-- `k` is the two's complement 32-bit number for `n`. -/
def Wrapped32 (k n : ℤ) : Prop := InInt32 k ∧ k ≡ n [ZMOD 2 ^ 32]

/-- Truncation towards zero. -/
def truncate (x : ℚ) : ℤ := if 0 ≤ x then ⌊x⌋ else ⌈x⌉

/-- `q` is how the library returns the number `x`: an `Integer` if `x` is whole and fits 32 bits, a failure if
it is whole and does not fit, a `BigDecimal` with that value otherwise. -/
def Returns (r : Result Value) (x : ℚ) : Prop :=
  (∀ n : ℤ, x = n → InInt32 n → r = .ok (.int n)) ∧
  (∀ n : ℤ, x = n → ¬ InInt32 n → r = .error .arithmetic) ∧
  ((∀ n : ℤ, x ≠ n) → ∃ d, r = .ok (.dec d) ∧ decVal d = x)

/-- The documented guarantee of `Math.pow` for whole numbers: exact if the result is exactly representable
(in particular up to 2^53). -/
def ExactPow (env : Env) : Prop :=
  ∀ m n : ℤ, InInt32 m → InInt32 n → 0 ≤ n → |m ^ n.toNat| ≤ 2 ^ 53 →
    ∃ k e : ℤ, env.powL m n = .fin k e ∧ (k : ℚ) * 2 ^ e = (m : ℚ) ^ n.toNat

end BoolParser.Spec
