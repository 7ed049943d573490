import Mathlib.Data.List.Sort
import Verif.Spec.Arithmetic
import Verif.Spec.Lists
/-!
# Functions: what results should be
-/

namespace BoolParser.Spec
open BoolParser

/-- `ws` are the items a function gets from its arguments: their values in order, collections replaced by their
elements. -/
def Items (env : Env) (d : Data) (args : List Arith) (ws : List Value) : Prop :=
  ∃ vs, Arith.values env d args = .ok vs ∧ ws = vs.flatMap elements

/-- The items are number objects denoting `xs`. -/
def Numbers (ws : List Value) (xs : List ℚ) : Prop := List.Forall₂ Num ws xs

/-- The items are `Integer`s and `Long`s denoting `ns`. -/
def Wholes (ws : List Value) (ns : List ℤ) : Prop := List.Forall₂ Whole ws ns

/-- One of the items is a `BigDecimal`, `Double` or `Float`. -/
def HasDecimal (ws : List Value) : Prop := ∃ w ∈ ws, IsDecimal w = true

/-- `x` is a least element of `xs`. -/
def Least {α : Type} [LE α] (x : α) (xs : List α) : Prop := x ∈ xs ∧ ∀ y ∈ xs, x ≤ y

/-- `x` is a greatest element of `xs`. -/
def Greatest {α : Type} [LE α] (x : α) (xs : List α) : Prop := x ∈ xs ∧ ∀ y ∈ xs, y ≤ x

/-- The number `n` as it comes out of a computation with `double`s: an `Integer` if it fits 32 bits, a
`BigDecimal` otherwise. -/
def ReturnsWhole (r : Outcome Value) (n : ℤ) : Prop :=
  (InInt32 n → r = .success (.int n)) ∧ (¬ InInt32 n → r = .success (.dec ⟨n, 0⟩))

/-- How many of the items are the object `w` (equal in the sense of Java's `equals`). -/
noncomputable def occurrences (w : Value) (ws : List Value) : ℕ :=
  haveI := Classical.decEq Value
  ws.count w

/-- `w` is the item that first reaches the highest number of occurrences, counting from the left. -/
def FirstMostFrequent (w : Value) (ws : List Value) : Prop :=
  (∀ v, occurrences v ws ≤ occurrences w ws) ∧
  ∃ before after, ws = before ++ w :: after ∧ occurrences w (before ++ [w]) = occurrences w ws ∧
    ∀ v, occurrences v before < occurrences w ws

/-- A number object: `Integer`, `Long`, `BigDecimal`, `Double`, `Float`. -/
def IsNumber : Value → Bool
  | .int _ => true
  | .long _ => true
  | .dec _ => true
  | .dbl _ => true
  | .flt _ => true
  | _ => false

/-- A day of the proleptic calendar. -/
def IsDay (d : Date) : Prop := 1 ≤ d.month ∧ d.month ≤ 12 ∧ 1 ≤ d.day ∧ d.day ≤ monthDays d.year d.month
where
  /-- Days of a month: "thirty days hath September". -/
  monthDays (y : ℤ) (m : ℕ) : ℕ :=
    if m ∈ [4, 6, 9, 11] then 30
    else if m = 2 then (if (4 : ℤ) ∣ y ∧ (¬ (100 : ℤ) ∣ y ∨ (400 : ℤ) ∣ y) then 29 else 28)
    else 31

/-- The next day. -/
def dayAfter (d : Date) : Date :=
  if d.day + 1 ≤ IsDay.monthDays d.year d.month then ⟨d.year, d.month, d.day + 1⟩
  else if d.month = 12 then ⟨d.year + 1, 1, 1⟩
  else ⟨d.year, d.month + 1, 1⟩

/-- `k` days later. -/
def daysAfter : ℕ → Date → Date
  | 0, d => d
  | k + 1, d => daysAfter k (dayAfter d)

end BoolParser.Spec
