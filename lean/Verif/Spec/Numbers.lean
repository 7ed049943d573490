import Mathlib.Data.Rat.Cast.Order
import Mathlib.Algebra.Order.Field.Rat
import Mathlib.Algebra.Order.Field.Power
import Verif.Spec.Expr
/-!
# Numbers as rationals

What the library's number objects and numeric texts denote.
-/

namespace BoolParser.Spec
open BoolParser

/-- The meaning of a comparison operator on an ordered set. -/
def Rel {α : Type} [LT α] [LE α] : CmpOp → α → α → Prop
  | .eq, x, y => x = y
  | .ne, x, y => x ≠ y
  | .gt, x, y => x > y
  | .ge, x, y => x ≥ y
  | .lt, x, y => x < y
  | .le, x, y => x ≤ y

instance {α : Type} [LinearOrder α] (o : CmpOp) (x y : α) : Decidable (Rel o x y) := by
  cases o <;> (unfold Rel; infer_instance)

/-- The number a `BigDecimal` denotes: unscaled value times ten to the minus scale. -/
def decVal (d : Dec) : ℚ := (d.unscaled : ℚ) * (10 : ℚ) ^ (-d.scale)

/-- A written sign. -/
inductive Sign where
  | none
  | plus
  | minus

def Sign.text : Sign → JStr
  | .none => []
  | .plus => ['+']
  | .minus => ['-']

def Sign.factor : Sign → Int
  | .none => 1
  | .plus => 1
  | .minus => -1

/-- A written number: sign, digits, optional fraction, optional exponent. -/
structure NumText where
  sign : Sign
  whole : JStr
  frac : Option JStr
  exp : Option (Sign × JStr)

namespace NumText

/-- The fraction as written. -/
def fracText : Option JStr → JStr
  | none => []
  | some f => '.' :: f

/-- The exponent as written. -/
def expText : Option (Sign × JStr) → JStr
  | none => []
  | some e => 'E' :: (e.1.text ++ e.2)

/-- How it is written: `-12.50E+3`. -/
def text (n : NumText) : JStr := n.sign.text ++ (n.whole ++ (fracText n.frac ++ expText n.exp))

/-- Digits are digits; the exponent has at most nine. -/
def Valid (n : NumText) : Prop :=
  IsDigits n.whole ∧ (∀ f, n.frac = some f → IsDigits f) ∧
  ∀ e, n.exp = some e → IsDigits e.2 ∧ e.2.length ≤ 9 ∧ (n.frac.getD []).length ≤ 1000000000

/-- The written exponent. -/
def exponent (n : NumText) : Int :=
  match n.exp with
  | none => 0
  | some e => e.1.factor * digitsValue e.2

/-- The number written. -/
def value (n : NumText) : ℚ :=
  n.sign.factor * (digitsValue (n.whole ++ n.frac.getD []) : ℚ)
    * (10 : ℚ) ^ (n.exponent - ((n.frac.getD []).length : Int))

end NumText

/-- The text `s` is the usual text of the number `x`, in ASCII characters. -/
def PlainNumeral (s : JStr) (x : ℚ) : Prop := ∃ n : NumText, n.Valid ∧ s = n.text ∧ x = n.value

/-- The digit zero of each script of the basic multilingual plane. -/
def zeroDigits : JStr := j!"0٠۰߀०০੦૦୦௦౦೦൦෦๐໐༠၀႐០᠐᥆᧐᪀᪐᭐᮰᱀᱐꘠꣐꤀꧐꧰꩐꯰０"

/-- The character is a decimal digit, of whatever script, of the value `n`. -/
def DigitOf (c : Char) (n : ℕ) : Prop := n < 10 ∧ ∃ z ∈ zeroDigits, c.toNat = z.toNat + n

/-- The characters are the digits `ds`. -/
def DigitsOf (s : JStr) (ds : List ℕ) : Prop := List.Forall₂ DigitOf s ds

/-- The number with the decimal digits `ds`, the most significant first. -/
def numberOf (ds : List ℕ) : ℕ := ds.foldl (fun a n => a * 10 + n) 0

/-- What may follow the digits before the point: nothing, or a point and digits, possibly none. -/
inductive FractionText : JStr → List ℕ → Prop
  | none : FractionText [] []
  | some {s : JStr} {ds : List ℕ} : DigitsOf s ds → FractionText ('.' :: s) ds

/-- The exponent after `n` digits behind the point: nothing, or `e` or `E`, a sign, and digits. It must fit
32 bits, and so must `n` less it. -/
inductive ExponentText (n : ℕ) : JStr → ℤ → Prop
  | none : ExponentText n [] 0
  | some {c : Char} (g : Sign) {s : JStr} {ds : List ℕ} : (c = 'e' ∨ c = 'E') → s ≠ [] → DigitsOf s ds →
      InInt32 (g.factor * numberOf ds) → InInt32 (n - g.factor * numberOf ds) →
      ExponentText n (c :: (g.text ++ s)) (g.factor * numberOf ds)

/-- The text `s` stands for the number `x`: sign, digits with or without a point among them, exponent. -/
inductive Numeral : JStr → ℚ → Prop
  | mk (g : Sign) {w f e : JStr} {ws fs : List ℕ} {k : ℤ} : DigitsOf w ws → FractionText f fs → ws ++ fs ≠ [] →
      ExponentText fs.length e k →
      Numeral (g.text ++ (w ++ (f ++ e))) (g.factor * (numberOf (ws ++ fs) : ℚ) * (10 : ℚ) ^ (k - (fs.length : ℤ)))

/-- The number an `Integer`, `Long`, `BigDecimal`, `Double` or `Float` object denotes; the last two by the
text Java prints for them. -/
inductive Num : Value → ℚ → Prop
  | int {n : Int} : InInt32 n → Num (.int n) n
  | long {n : Int} : InInt64 n → Num (.long n) n
  | dec (d : Dec) : Num (.dec d) (decVal d)
  | dbl {t : JStr} {x : ℚ} : Numeral t x → Num (.dbl t) x
  | flt {t : JStr} {x : ℚ} : Numeral t x → Num (.flt t) x

end BoolParser.Spec

namespace BoolParser.Spec
open BoolParser

/-- The number type of the object `b` can hold the number `x`: whole and in range for `Integer` and
`Long`, always for the others. -/
def Accepts (b : Value) (x : ℚ) : Prop :=
  match b with
  | .int _ => ∃ n : ℤ, x = n ∧ InInt32 n
  | .long _ => ∃ n : ℤ, x = n ∧ InInt64 n
  | _ => True

/-- Fewer than a billion digits and a scale to match. -/
def Reasonable (d : Dec) : Prop := d.scale.natAbs + (natStr d.unscaled.natAbs).length ≤ 999999999

end BoolParser.Spec
